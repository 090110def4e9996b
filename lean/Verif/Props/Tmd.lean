import Verif.Lemmas.Tmd
import Verif.Lemmas.Azimuth

/-! # C59: structure functions from transverse momentum distributions -/

namespace Sidis.Props
open MeasureTheory Real Spec.Tmd Lemmas

/-- C59. The structure functions of `GaussianTmdSfSet` are the published ones, with the convolution
integrals over the whole plane, of the Gaussian distributions that the same set gives through the
interface of `TmdSet`. A distribution with an infinite width does not contribute. -/
theorem c59_gaussian (s : GaussianTmdSet) (hs : PosWidths s) (h : Hadron) {x z Q_sq ph_t_sq : ℝ}
    (hz : 0 < z) (hph : 0 ≤ ph_t_sq) :
    s.sf h x z Q_sq ph_t_sq =
      published (conv Set.univ (distOf s.toTmdSet h x z Q_sq) z (√ph_t_sq)) s.target.mass h.mass x z
        (√Q_sq) := by
  rw [← full_published _ _ (nucleus_mass_pos _).ne' (hadron_mass_pos h).ne' hz.ne',
    GaussianTmdSet.sf]
  simp only [convolveGaussian_eq s hs _ _ _ _ _ hz hph]
  rfl

/-- C59. The structure functions of `TmdSfSet`, when the cubature is exact, are the published ones with
the quark momentum limited to 10 GeV, except the one for `sin(3 φ_h - φ_S)`. In the weight of that one
a factor 2 is missing: it has `(h·p)(p·k)` where the publication has `2 (h·p)(p·k)`. -/
theorem c59_numeric {cub : Cubature2} (hc : Exact cub) (s : TmdSet) (h : Hadron)
    {x z Q_sq ph_t_sq : ℝ} (hz : 0 < z) (hph : 0 ≤ ph_t_sq) :
    let C := conv (disc 10) (distOf s h x z Q_sq) z (√ph_t_sq)
    let M : ℝ := s.target.mass
    let mh : ℝ := h.mass
    s.sf cub h x z Q_sq ph_t_sq =
      { published C M mh x z (√Q_sq) with
        F_UT_sin_3phih_m_phis := C (fun p k => (dot hhat p * dot p k + dot p p * dot hhat k
          - 4 * dot hhat p ^ 2 * dot hhat k) / (2 * M ^ 2 * mh)) .h1Tperp .H1perp } := by
  intro C M mh
  have hM : M ≠ 0 := (nucleus_mass_pos _).ne'
  have hmh : mh ≠ 0 := (hadron_mass_pos h).ne'
  rw [← full_published _ _ hM hmh hz.ne', TmdSet.sf]
  simp only [convolve_eq hc s _ _ _ _ h hz.ne' hph]
  have h3 : C (wOf .W3 M mh z (√ph_t_sq)) .h1Tperp .H1perp =
      C (fun p k => (dot hhat p * dot p k + dot p p * dot hhat k
          - 4 * dot hhat p ^ 2 * dot hhat k) / (2 * M ^ 2 * mh)) .h1Tperp .H1perp := by
    refine conv_congr _ _ _ _ fun p => ?_
    simp only [wOf, convolveWeight, dot, hhat, Prod.fst_sub, Prod.snd_sub, Prod.smul_fst,
      Prod.smul_snd, smul_eq_mul, sq]
    field_simp; ring
  simp only [SfVals.full, ← h3]
  rfl

/-- The integral over the rectangle of a trigonometric polynomial times powers of the radius. -/
theorem rect_trig (a b c d : ℝ) :
    ∫ q in Set.Ioo (0 : ℝ) (2 * π) ×ˢ Set.Ioo (0 : ℝ) 10,
      ((a + b * cos (2 * q.1)) * q.2 ^ 3 + (c * cos q.1 + d * cos (3 * q.1)) * q.2 ^ 4) =
      a * (2 * π) * 2500 := by
  have hi : ∀ F : ℝ × ℝ → ℝ, Continuous F →
      IntegrableOn F (Set.Ioo (0 : ℝ) (2 * π) ×ˢ Set.Ioo (0 : ℝ) 10) := fun F hF =>
    (hF.continuousOn.integrableOn_compact (isCompact_Icc.prod isCompact_Icc)).mono_set
      (Set.prod_mono Set.Ioo_subset_Icc_self Set.Ioo_subset_Icc_self)
  have hcos : ∀ n : ℕ, n ≠ 0 → ∫ t in Set.Ioo (0 : ℝ) (2 * π), cos (n * t) = 0 := by
    intro n hn
    have hn' : (n : ℝ) ≠ 0 := by exact_mod_cast hn
    rw [← integral_Ioc_eq_integral_Ioo, ← intervalIntegral.integral_of_le (by positivity),
      intervalIntegral.integral_comp_mul_left (fun u => cos u) hn', integral_cos]
    have : sin ((n : ℝ) * (2 * π)) = 0 := by
      have := Real.sin_nat_mul_two_pi_sub 0 n
      simpa using this
    rw [this]; simp
  have hcI : ∀ n : ℕ, IntegrableOn (fun t : ℝ => cos (n * t)) (Set.Ioo (0 : ℝ) (2 * π)) := fun n =>
    ((by fun_prop : Continuous fun t : ℝ => cos (n * t)).continuousOn.integrableOn_compact
      isCompact_Icc).mono_set Set.Ioo_subset_Icc_self
  have h1 : ∫ t in Set.Ioo (0 : ℝ) (2 * π), cos t = 0 := by simpa using hcos 1 one_ne_zero
  have h1I : IntegrableOn (fun t : ℝ => cos t) (Set.Ioo (0 : ℝ) (2 * π)) := by simpa using hcI 1
  have h2 : ∫ t in Set.Ioo (0 : ℝ) (2 * π), cos (2 * t) = 0 := by
    simpa using hcos 2 two_ne_zero
  have h2I : IntegrableOn (fun t : ℝ => cos (2 * t)) (Set.Ioo (0 : ℝ) (2 * π)) := by
    simpa using hcI 2
  have h3 : ∫ t in Set.Ioo (0 : ℝ) (2 * π), cos (3 * t) = 0 := by
    simpa using hcos 3 three_ne_zero
  have h3I : IntegrableOn (fun t : ℝ => cos (3 * t)) (Set.Ioo (0 : ℝ) (2 * π)) := by
    simpa using hcI 3
  have hk : ∫ r in Set.Ioo (0 : ℝ) 10, r ^ 3 = 2500 := by
    rw [← integral_Ioc_eq_integral_Ioo, ← intervalIntegral.integral_of_le (by norm_num), integral_pow]
    norm_num
  have hcst : IntegrableOn (fun _ : ℝ => a) (Set.Ioo (0 : ℝ) (2 * π)) :=
    integrableOn_const measure_Ioo_lt_top.ne (by simp)
  rw [integral_add (hi _ (by fun_prop)) (hi _ (by fun_prop)), Measure.volume_eq_prod,
    setIntegral_prod_mul (fun t => a + b * cos (2 * t)) (fun r => r ^ 3),
    setIntegral_prod_mul (fun t => c * cos t + d * cos (3 * t)) (fun r => r ^ 4), hk,
    integral_add hcst (h2I.const_mul b),
    integral_add (h1I.const_mul c) (h3I.const_mul d), integral_const_mul, integral_const_mul,
    integral_const_mul, h1, h2, h3]
  simp [Measure.real, Real.volume_Ioo, pi_pos.le]
  ring

/-- A set of one flavour with constant distributions. -/
def unitTmds : TmdSet := ⟨1, .p, fun _ => 1, fun _ _ _ _ _ => 1, fun _ _ _ _ _ _ => 1⟩

/-- C59 (refutation). With the missing factor 2 the `sin(3 φ_h - φ_S)` function of `TmdSfSet` is not the
published one: for constant distributions the published one vanishes and that of the code does not. -/
theorem c59_sin_3phih_refuted {cub : Cubature2} (hc : Exact cub) :
    (unitTmds.sf cub .piP 1 1 1 1).F_UT_sin_3phih_m_phis ≠
      (published (conv (disc 10) (distOf unitTmds .piP 1 1 1) 1 1) unitTmds.target.mass
        (Hadron.piP.mass) 1 1 1).F_UT_sin_3phih_m_phis := by
  have hs : √(1 : ℝ) = 1 := Real.sqrt_one
  have h := c59_numeric hc unitTmds .piP (x := 1) (z := 1) (Q_sq := 1) (ph_t_sq := 1) one_pos
    zero_le_one
  simp only [hs] at h
  rw [h]
  have hM : (unitTmds.target.mass : ℝ) ≠ 0 := (nucleus_mass_pos _).ne'
  have hmh : (Hadron.piP.mass : ℝ) ≠ 0 := (hadron_mass_pos _).ne'
  simp only [published]
  generalize (unitTmds.target.mass : ℝ) = M at *
  generalize (Hadron.piP.mass : ℝ) = mh at *
  have h2 : ∀ t : ℝ, cos (2 * t) = 2 * cos t ^ 2 - 1 := Real.cos_two_mul
  have h3 : ∀ t : ℝ, cos (3 * t) = 4 * cos t ^ 3 - 3 * cos t := Real.cos_three_mul
  have key : ∀ (w : Vec → Vec → ℝ) (a b c d : ℝ),
      (∀ q : ℝ × ℝ, q.2 * w (q.2 * cos q.1, q.2 * sin q.1) ((q.2 * cos q.1, q.2 * sin q.1) - hhat) =
        (a + b * cos (2 * q.1)) * q.2 ^ 3 + (c * cos q.1 + d * cos (3 * q.1)) * q.2 ^ 4) →
      conv (disc 10) (distOf unitTmds .piP 1 1 1) 1 1 w .h1Tperp .H1perp = a * (2 * π) * 2500 := by
    intro w a b c d hw
    rw [← rect_trig a b c d, conv]
    simp only [distOf, unitTmds, Finset.sum_range_one, one_pow, one_mul, mul_one, div_one, one_smul,
      disc, dot]
    rw [← polar_disc 10 (by norm_num)]
    exact congrArg (fun F : ℝ × ℝ → ℝ => ∫ q in _, F q) (funext hw)
  have hk : ∀ q : ℝ × ℝ, sin q.1 * sin q.1 = 1 - cos q.1 * cos q.1 := fun q => by
    have := sin_sq_add_cos_sq q.1
    linarith
  rw [key _ (1 / 2 / (2 * M ^ 2 * mh)) (3 / 2 / (2 * M ^ 2 * mh)) (-1 / (2 * M ^ 2 * mh))
      (-1 / (2 * M ^ 2 * mh)) ?_,
    key _ 0 (1 / (2 * M ^ 2 * mh)) 0 (-1 / (2 * M ^ 2 * mh)) ?_]
  · have : 1 / 2 / (2 * M ^ 2 * mh) * (2 * π) * 2500 ≠ 0 := by
      have := pi_pos.ne'
      positivity
    simpa using this
  · intro q
    simp only [dot, hhat, Prod.fst_sub, Prod.snd_sub, h2, h3]
    field_simp
    linear_combination (3 * q.2 ^ 4 * cos q.1 - q.2 ^ 3) * hk q
  · intro q
    simp only [dot, hhat, Prod.fst_sub, Prod.snd_sub, h2, h3]
    field_simp
    linear_combination 2 * (2 * q.2 ^ 4 * cos q.1 - q.2 ^ 3) * hk q

/-- C59. The cut on the quark momentum: for Gaussian distributions the unpolarised structure function of
`TmdSfSet` with an exact cubature differs from the closed form of `GaussianTmdSfSet` by an amount that
falls like a Gaussian of the cut. -/
theorem c59_cut {cub : Cubature2} (hc : Exact cub) (s : GaussianTmdSet) (hs : PosWidths s)
    (mt mf : ℕ → ℝ) (ht : ∀ fl, s.meanTmd .f1 fl = some (mt fl))
    (hf : ∀ fl, s.meanFf .D1 fl = some (mf fl)) (h : Hadron) {x z Q_sq ph_t_sq : ℝ} (hz : 0 < z)
    (hph : 0 ≤ ph_t_sq) :
    |(s.toTmdSet.sf cub h x z Q_sq ph_t_sq).F_UUT - (s.sf h x z Q_sq ph_t_sq).F_UUT| ≤
      ∑ fl ∈ Finset.range s.flavorCount, s.charge fl ^ 2 * |s.tmd .f1 fl x Q_sq| *
        |s.ff .D1 h fl z Q_sq| * (2 * exp (-50 / mt fl) / (π * mf fl)) := by
  have hπ := pi_pos
  let F : Vec → ℝ := fun p => ∑ fl ∈ Finset.range s.flavorCount, s.charge fl ^ 2 * 1 *
      (s.tmd .f1 fl x Q_sq * gaussian (dot p p) (s.meanTmd .f1 fl)) *
      (s.ff .D1 h fl z Q_sq * gaussian (z ^ 2 * dot (p - (1 / z) • (√ph_t_sq) • hhat)
        (p - (1 / z) • (√ph_t_sq) • hhat)) (s.meanFf .D1 fl))
  have hF : Integrable F := integrable_finset_sum _ fun fl _ =>
    (gaussTerm_eq s hs .W0 .f1 .D1 s.target h hz hph _ rfl fl).1
  have e1 : (s.sf h x z Q_sq ph_t_sq).F_UUT = ∫ p, F p := by
    rw [c59_gaussian s hs h hz hph]
    simp only [published, conv, setIntegral_univ]
    rfl
  have e2 : (s.toTmdSet.sf cub h x z Q_sq ph_t_sq).F_UUT = ∫ p in disc 10, F p := by
    rw [c59_numeric hc s.toTmdSet h hz hph]
    simp only [published, conv]
    rfl
  have hD : MeasurableSet (disc 10) := measurableSet_lt (by unfold dot; fun_prop) (by fun_prop)
  have e3 : (∫ p in disc 10, F p) - ∫ p, F p = -∫ p in (disc 10)ᶜ, F p := by
    rw [← integral_add_compl hD hF]; ring
  rw [e1, e2, e3, abs_neg]
  -- the bound on each flavour
  let G : ℕ → Vec → ℝ := fun fl p => s.charge fl ^ 2 * |s.tmd .f1 fl x Q_sq| *
    |s.ff .D1 h fl z Q_sq| * (exp (-50 / mt fl) / (π * mf fl * (π * mt fl))) *
      exp (-(1 / (2 * mt fl)) * ((p.1 - 0) ^ 2 + p.2 ^ 2))
  have hmt : ∀ fl, 0 < mt fl := fun fl => hs.1 _ _ _ (ht fl)
  have hmf : ∀ fl, 0 < mf fl := fun fl => hs.2 _ _ _ (hf fl)
  have hg : ∀ fl, (Integrable fun p : Vec => exp (-(1 / (2 * mt fl)) * ((p.1 - 0) ^ 2 + p.2 ^ 2))) ∧
      ∫ p : Vec, exp (-(1 / (2 * mt fl)) * ((p.1 - 0) ^ 2 + p.2 ^ 2)) = π * (2 * mt fl) := by
    intro fl
    have hm := hmt fl
    have hb : 0 < 1 / (2 * mt fl) := by positivity
    obtain ⟨h1, h2⟩ := plane_poly hb 0 (cubic 1 0 0 0 0 0)
    have hp : ∀ p : Vec, ∑ i ∈ Finset.range 4, ∑ j ∈ Finset.range 4,
        cubic 1 0 0 0 0 0 i j * (p.1 - 0) ^ i * p.2 ^ j = 1 := fun p => by
      rw [cubic_sum _ _ _ _ _ _ (fun i => (p.1 - (0 : ℝ)) ^ i) (fun j => p.2 ^ j)]; ring
    rw [cubic_sum _ _ _ _ _ _ (mom _) (mom _)] at h2
    simp only [hp, one_mul, mom] at h1 h2
    refine ⟨h1, ?_⟩
    rw [h2]
    field_simp
    ring
  have hGI : ∀ fl, Integrable (G fl) := fun fl => (hg fl).1.const_mul _
  have hG0 : ∀ fl p, 0 ≤ G fl p := fun fl p => by
    have := hmt fl; have := hmf fl
    simp only [G]; positivity
  have hGe : ∀ fl, ∫ p, G fl p = s.charge fl ^ 2 * |s.tmd .f1 fl x Q_sq| *
        |s.ff .D1 h fl z Q_sq| * (2 * exp (-50 / mt fl) / (π * mf fl)) := fun fl => by
    have := hmt fl; have := hmf fl
    simp only [G, integral_const_mul, (hg fl).2]
    field_simp
  have hle : ∀ p ∈ (disc 10)ᶜ, |F p| ≤ ∑ fl ∈ Finset.range s.flavorCount, G fl p := by
    intro p hp
    have hp : (10 : ℝ) ^ 2 ≤ dot p p := not_lt.mp hp
    refine (Finset.abs_sum_le_sum_abs _ _).trans (Finset.sum_le_sum fun fl _ => ?_)
    have hm := hmt fl
    have hn := hmf fl
    simp only [ht, hf, gaussian, G, abs_mul, abs_div, abs_exp, abs_of_pos hπ, abs_of_pos hm,
      abs_of_pos hn, abs_one, mul_one, abs_pow, sq_abs]
    have b1 : exp (-dot p p / mt fl) ≤
        exp (-50 / mt fl) * exp (-(1 / (2 * mt fl)) * ((p.1 - 0) ^ 2 + p.2 ^ 2)) := by
      rw [← exp_add]
      refine exp_le_exp.mpr ?_
      have : -50 / mt fl + -(1 / (2 * mt fl)) * ((p.1 - 0) ^ 2 + p.2 ^ 2) =
          (-50 - dot p p / 2) / mt fl := by simp only [dot]; field_simp; ring
      rw [this]
      gcongr
      linarith
    have b2 : exp (-(z ^ 2 * dot (p - (1 / z) • (√ph_t_sq) • hhat)
        (p - (1 / z) • (√ph_t_sq) • hhat)) / mf fl) ≤ 1 := by
      refine exp_le_one_iff.mpr (div_nonpos_of_nonpos_of_nonneg ?_ hn.le)
      have : 0 ≤ dot (p - (1 / z) • (√ph_t_sq) • hhat) (p - (1 / z) • (√ph_t_sq) • hhat) := by
        simp only [dot]; nlinarith [mul_self_nonneg (p - (1 / z) • (√ph_t_sq) • hhat).1,
          mul_self_nonneg (p - (1 / z) • (√ph_t_sq) • hhat).2]
      nlinarith [sq_nonneg z, mul_nonneg (sq_nonneg z) this]
    have b3 := (exp_pos (-(z ^ 2 * dot (p - (1 / z) • (√ph_t_sq) • hhat)
        (p - (1 / z) • (√ph_t_sq) • hhat)) / mf fl)).le
    generalize exp (-(z ^ 2 * dot (p - (1 / z) • (√ph_t_sq) • hhat)
        (p - (1 / z) • (√ph_t_sq) • hhat)) / mf fl) = E2 at b2 b3
    have c0 : 0 ≤ s.charge fl ^ 2 * |s.tmd .f1 fl x Q_sq| * |s.ff .D1 h fl z Q_sq| := by positivity
    calc _ = s.charge fl ^ 2 * |s.tmd .f1 fl x Q_sq| * |s.ff .D1 h fl z Q_sq| *
          (exp (-dot p p / mt fl) * E2 / (π * mf fl * (π * mt fl))) := by field_simp
      _ ≤ s.charge fl ^ 2 * |s.tmd .f1 fl x Q_sq| * |s.ff .D1 h fl z Q_sq| *
          (exp (-50 / mt fl) * exp (-(1 / (2 * mt fl)) * ((p.1 - 0) ^ 2 + p.2 ^ 2)) * 1 /
            (π * mf fl * (π * mt fl))) := by gcongr
      _ = _ := by field_simp
  calc |∫ p in (disc 10)ᶜ, F p| ≤ ∫ p in (disc 10)ᶜ, |F p| := abs_integral_le_integral_abs
    _ ≤ ∫ p in (disc 10)ᶜ, ∑ fl ∈ Finset.range s.flavorCount, G fl p :=
        setIntegral_mono_on hF.abs.integrableOn
          (integrable_finset_sum _ fun fl _ => hGI fl).integrableOn hD.compl hle
    _ ≤ ∫ p, ∑ fl ∈ Finset.range s.flavorCount, G fl p :=
        setIntegral_le_integral (integrable_finset_sum _ fun fl _ => hGI fl)
          (.of_forall fun p => Finset.sum_nonneg fun fl _ => hG0 fl p)
    _ = _ := by
        rw [integral_finset_sum _ fun fl _ => hGI fl]
        exact Finset.sum_congr rfl fun fl _ => hGe fl

/-- C59. The structure functions of `WwTmdSfSet` are those of `TmdSfSet` for the same set, if the cubature
integrates zero to zero. -/
theorem c59_ww {cub : Cubature2} (hc : ∀ lo hi, cub (fun _ => 0) lo hi = 0) (s : WwTmdSet)
    (h : Hadron) (x z Q_sq ph_t_sq : ℝ) :
    s.sf cub h x z Q_sq ph_t_sq = s.toTmdSet.sf cub h x z Q_sq ph_t_sq := by
  have hfold : ∀ n : ℕ, (List.range n).foldl (fun (r : ℝ) (_ : ℕ) => r) 0 = 0 := fun n => by
    generalize List.range n = l
    induction l <;> simp_all
  have hff : ∀ w t f, (∀ h fl z Q p, s.ff f h fl z Q p = 0) →
      convolve cub s.toTmdSet w t f s.target h x z Q_sq ph_t_sq = 0 := by
    intro w t f h0
    have : convolveIntegrand s.toTmdSet w t f s.target h x z Q_sq ph_t_sq = fun _ => 0 := by
      funext k
      simp [convolveIntegrand, WwTmdSet.toTmdSet, h0, hfold]
    rw [convolve, this, hc]
  have htm : ∀ w t f, (∀ fl z Q p, s.tmd t fl z Q p = 0) →
      convolve cub s.toTmdSet w t f s.target h x z Q_sq ph_t_sq = 0 := by
    intro w t f h0
    have : convolveIntegrand s.toTmdSet w t f s.target h x z Q_sq ph_t_sq = fun _ => 0 := by
      funext k
      simp [convolveIntegrand, WwTmdSet.toTmdSet, h0, hfold]
    rw [convolve, this, hc]
  have ht : s.toTmdSet.target = s.target := rfl
  simp only [WwTmdSet.sf, TmdSet.sf, SfVals.ww, SfVals.full, tilde, ht,
    hff _ _ .Dperp_tilde fun _ _ _ _ _ => rfl, hff _ _ .H_tilde fun _ _ _ _ _ => rfl,
    hff _ _ .Gperp_tilde fun _ _ _ _ _ => rfl, hff _ _ .E_tilde fun _ _ _ _ _ => rfl,
    htm _ .fLperp _ fun _ _ _ _ => rfl, htm _ .gperp _ fun _ _ _ _ => rfl,
    htm _ .e _ fun _ _ _ _ => rfl, htm _ .eL _ fun _ _ _ _ => rfl,
    htm _ .eT _ fun _ _ _ _ => rfl, htm _ .eTperp _ fun _ _ _ _ => rfl]
  ext <;> ring

/-- C59. The structure functions of `GaussianWwTmdSfSet` are those of `GaussianTmdSfSet` for the same
set. -/
theorem c59_gaussian_ww (s : GaussianWwTmdSet) (h : Hadron) (x z Q_sq ph_t_sq : ℝ) :
    s.sf h x z Q_sq ph_t_sq = s.toGaussian.sf h x z Q_sq ph_t_sq := by
  have hff : ∀ w t f, (∀ fl, s.meanFf f fl = none) →
      convolveGaussian s.toGaussian w t f s.target h x z Q_sq ph_t_sq = 0 := by
    intro w t f h0
    rw [convolveGaussian_sum]
    exact Finset.sum_eq_zero fun fl _ => by
      simp [gaussTerm, GaussianWwTmdSet.toGaussian, h0]
  have htm : ∀ w t f, (∀ fl, s.meanTmd t fl = none) →
      convolveGaussian s.toGaussian w t f s.target h x z Q_sq ph_t_sq = 0 := by
    intro w t f h0
    rw [convolveGaussian_sum]
    exact Finset.sum_eq_zero fun fl _ => by
      simp [gaussTerm, GaussianWwTmdSet.toGaussian, h0]
  have ht : s.toGaussian.target = s.target := rfl
  simp only [GaussianWwTmdSet.sf, GaussianTmdSet.sf, SfVals.gaussianWw, SfVals.gaussian, tilde, ht,
    hff _ _ .Dperp_tilde fun _ => rfl, hff _ _ .H_tilde fun _ => rfl,
    hff _ _ .Gperp_tilde fun _ => rfl, hff _ _ .E_tilde fun _ => rfl,
    htm _ .fLperp _ fun _ => rfl, htm _ .gperp _ fun _ => rfl,
    htm _ .e _ fun _ => rfl, htm _ .eL _ fun _ => rfl,
    htm _ .eT _ fun _ => rfl, htm _ .eTperp _ fun _ => rfl]
  ext <;> ring

/-- The integral of the polynomial `a + b p²` against a normalised Gaussian of the plane. -/
theorem gaussian_plane {m : ℝ} (hm : 0 < m) (a b : ℝ) :
    ∫ p : Vec, (a + b * dot p p) * gaussian (dot p p) (some m) = a + b * m := by
  have hπ := pi_pos
  have hb : 0 < 1 / m := by positivity
  obtain ⟨h1, h2⟩ := plane_poly hb 0 (cubic a 0 b 0 b 0)
  have hp : (fun p : Vec => (a + b * dot p p) * gaussian (dot p p) (some m)) = fun p => 1 / (π * m) *
      ((∑ i ∈ Finset.range 4, ∑ j ∈ Finset.range 4,
        cubic a 0 b 0 b 0 i j * (p.1 - 0) ^ i * p.2 ^ j) *
          exp (-(1 / m) * ((p.1 - 0) ^ 2 + p.2 ^ 2))) := by
    funext p
    have : -dot p p / m = -(1 / m) * ((p.1 - 0) ^ 2 + p.2 ^ 2) := by
      simp only [dot]; field_simp; ring
    rw [cubic_sum _ _ _ _ _ _ (fun i => (p.1 - (0 : ℝ)) ^ i) (fun j => p.2 ^ j)]
    simp only [gaussian, this, dot]
    ring
  rw [hp, integral_const_mul, h2, cubic_sum _ _ _ _ _ _ (mom _) (mom _)]
  simp only [mom]
  field_simp
  ring

/-- C59. Integrated over the transverse momentum, a Gaussian distribution gives the reduced one. -/
theorem c59_normalised (s : GaussianTmdSet) (t : TmdName) (fl : ℕ) (x Q_sq m : ℝ)
    (hw : s.meanTmd t fl = some m) (hm : 0 < m) :
    ∫ p : Vec, s.toTmdSet.tmd t fl x Q_sq (dot p p) = s.tmd t fl x Q_sq := by
  have := gaussian_plane hm (s.tmd t fl x Q_sq) 0
  simpa [GaussianTmdSet.toTmdSet, hw] using this

/-- C59. The first moments of `GaussianWwTmdSet` are the integrals over the transverse momentum of the
first moments of `WwTmdSet`, for Gaussian distributions. -/
theorem c59_moment (s : GaussianWwTmdSet) (w : WwTmdSet) (hw : w.target = s.target) (m : ℕ → ℝ)
    (f : ℕ → ℝ → ℝ → ℝ) (fl : ℕ) (x Q_sq : ℝ) (hm : 0 < m fl) :
    ∫ p : Vec, w.m1 (fun fl x Q_sq k => f fl x Q_sq * gaussian k (some (m fl))) fl x Q_sq (dot p p) =
      s.m1 m f fl x Q_sq := by
  have := gaussian_plane hm 0 (f fl x Q_sq / (2 * s.target.mass * s.target.mass))
  simp only [WwTmdSet.m1, GaussianWwTmdSet.m1, hw]
  rw [zero_add] at this
  refine Eq.trans (congrArg (fun F : Vec → ℝ => ∫ p, F p) (funext fun p => ?_)) (this.trans ?_)
  · ring
  · ring

/-- The relations between distributions in the Wandzura-Wilczek-type approximation
(S. Bastami et al., JHEP 06 (2019) 007, equations (3.4)), for distributions `t` at one point with first
moments `m1`. -/
def WwRelations (x : ℝ) (t m1 : TmdName → ℝ) : Prop :=
  x * t .fperp = t .f1 ∧ x * t .fLperp = 0 ∧ x * t .fTperp = t .f1Tperp ∧ x * t .fT = -m1 .f1Tperp ∧
  x * t .gperp = 0 ∧ x * t .gLperp = t .g1 ∧ x * t .gTperp = t .g1Tperp ∧ x * t .gT = m1 .g1Tperp ∧
  x * t .h = -2 * m1 .h1perp ∧ x * t .hL = -2 * m1 .h1Lperp ∧
  x * t .hT = -t .h1 - m1 .h1Tperp ∧ x * t .hTperp = t .h1 - m1 .h1Tperp ∧
  x * t .e = 0 ∧ x * t .eL = 0 ∧ x * t .eT = 0 ∧ x * t .eTperp = 0

/-- C59. The distributions of `WwTmdSet` and of `GaussianWwTmdSet` satisfy the relations of the
approximation. -/
theorem c59_ww_relations (s : WwTmdSet) (g : GaussianWwTmdSet) (fl : ℕ) {x : ℝ} (hx : x ≠ 0)
    (Q_sq k : ℝ) :
    (WwRelations x (fun t => s.toTmdSet.tmd t fl x Q_sq k) fun t =>
      k / (2 * s.target.mass ^ 2) * s.toTmdSet.tmd t fl x Q_sq k) ∧
    (∀ m : TmdName → ℝ, (∀ t ∈ [.f1Tperp, .g1Tperp, .h1perp, .h1Lperp, .h1Tperp],
        g.toGaussian.meanTmd t fl = some (m t)) →
      WwRelations x (fun t => g.toGaussian.tmd t fl x Q_sq) fun t =>
        m t / (2 * g.target.mass ^ 2) * g.toGaussian.tmd t fl x Q_sq) := by
  constructor
  · simp only [WwRelations, WwTmdSet.toTmdSet, WwTmdSet.tmd, WwTmdSet.m1]
    refine ⟨?_, ?_, ?_, ?_, ?_, ?_, ?_, ?_, ?_, ?_, ?_, ?_, ?_, ?_, ?_, ?_⟩ <;>
      first | (ring; done) | (field_simp; done) | (field_simp; ring; done)
  · intro m hm
    simp only [List.mem_cons, List.not_mem_nil, or_false, forall_eq_or_imp, forall_eq,
      GaussianWwTmdSet.toGaussian, GaussianWwTmdSet.meanTmd, Option.some.injEq] at hm
    obtain ⟨h1, h2, h3, h4, h5⟩ := hm
    simp only [WwRelations, GaussianWwTmdSet.toGaussian, GaussianWwTmdSet.tmd, GaussianWwTmdSet.m1,
      h1, h2, h3, h4, h5]
    refine ⟨?_, ?_, ?_, ?_, ?_, ?_, ?_, ?_, ?_, ?_, ?_, ?_, ?_, ?_, ?_, ?_⟩ <;>
      first | (ring; done) | (field_simp; done) | (field_simp; ring; done)

/-- C59. In a `GaussianWwTmdSet` the relations without a moment hold at every transverse momentum, the
distributions given by moments have the widths the set was made with, and those that vanish in the
approximation vanish at every transverse momentum. -/
theorem c59_ww_momentum (g : GaussianWwTmdSet) (fl : ℕ) {x : ℝ} (hx : x ≠ 0) (Q_sq k : ℝ) :
    let t := fun n => g.toGaussian.toTmdSet.tmd n fl x Q_sq k
    (x * t .fperp = t .f1 ∧ x * t .fTperp = t .f1Tperp ∧ x * t .gLperp = t .g1 ∧
      x * t .gTperp = t .g1Tperp) ∧
    (t .fT = g.toGaussian.tmd .fT fl x Q_sq * gaussian k (g.mean_fT fl) ∧
      t .gT = g.toGaussian.tmd .gT fl x Q_sq * gaussian k (g.mean_gT fl) ∧
      t .h = g.toGaussian.tmd .h fl x Q_sq * gaussian k (g.mean_h fl) ∧
      t .hL = g.toGaussian.tmd .hL fl x Q_sq * gaussian k (g.mean_hL fl) ∧
      t .hT = g.toGaussian.tmd .hT fl x Q_sq * gaussian k (g.mean_hT fl) ∧
      t .hTperp = g.toGaussian.tmd .hTperp fl x Q_sq * gaussian k (g.mean_hTperp fl)) ∧
    ∀ n ∈ [TmdName.fLperp, .gperp, .e, .eL, .eT, .eTperp], t n = 0 := by
  simp only [GaussianTmdSet.toTmdSet, GaussianWwTmdSet.toGaussian, GaussianWwTmdSet.tmd,
    GaussianWwTmdSet.meanTmd]
  refine ⟨⟨?_, ?_, ?_, ?_⟩, by simp, ?_⟩
  · field_simp
  · field_simp
  · field_simp
  · field_simp
  · simp [gaussian]

/-- C59. The base distributions of a `GaussianWwTmdSet` are Gaussians of the widths it was made with. -/
theorem c59_ww_base (g : GaussianWwTmdSet) (fl : ℕ) (x z Q_sq k : ℝ) (h : Hadron) :
    let t := fun n => g.toGaussian.toTmdSet.tmd n fl x Q_sq k
    t .f1 = g.f1 fl x Q_sq * gaussian k (some (g.mean_f1 fl)) ∧
    t .f1Tperp = g.f1Tperp fl x Q_sq * gaussian k (some (g.mean_f1Tperp fl)) ∧
    t .g1 = g.g1 fl x Q_sq * gaussian k (some (g.mean_g1 fl)) ∧
    t .g1Tperp = g.g1Tperp fl x Q_sq * gaussian k (some (g.mean_g1Tperp fl)) ∧
    t .h1 = g.h1 fl x Q_sq * gaussian k (some (g.mean_h1 fl)) ∧
    t .h1perp = g.h1perp fl x Q_sq * gaussian k (some (g.mean_h1perp fl)) ∧
    t .h1Lperp = g.h1Lperp fl x Q_sq * gaussian k (some (g.mean_h1Lperp fl)) ∧
    t .h1Tperp = g.h1Tperp fl x Q_sq * gaussian k (some (g.mean_h1Tperp fl)) ∧
    g.toGaussian.toTmdSet.ff .D1 h fl z Q_sq k = g.D1 h fl z Q_sq * gaussian k (some (g.mean_D1 fl)) ∧
    g.toGaussian.toTmdSet.ff .H1perp h fl z Q_sq k =
      g.H1perp h fl z Q_sq * gaussian k (some (g.mean_H1perp fl)) :=
  ⟨rfl, rfl, rfl, rfl, rfl, rfl, rfl, rfl, rfl, rfl⟩

/-- The integral itself is an exact cubature. -/
example : ∃ cub : Cubature2, Exact cub ∧ ∀ lo hi, cub (fun _ => 0) lo hi = 0 :=
  ⟨fun f lo hi => ∫ q in Set.Ioo lo.1 hi.1 ×ˢ Set.Ioo lo.2 hi.2, f q, fun _ _ _ => rfl,
    fun _ _ => by simp⟩

/-- A set of widths as in the code: finite and positive for some distributions, infinite for the
others. -/
example : ∃ s : GaussianTmdSet, PosWidths s ∧ s.flavorCount = 2 ∧ s.meanTmd .f1 0 = some (1 / 4) ∧
    s.meanTmd .e 0 = none := by
  refine ⟨⟨2, .p, fun fl => if fl = 0 then 2 / 3 else -1 / 3,
    fun t _ => if t = .e then none else some (1 / 4), fun _ _ => some (1 / 5), fun _ _ x _ => x,
    fun _ _ _ z _ => 1 - z⟩, ⟨?_, ?_⟩, rfl, by simp, by simp⟩
  · intro t fl m h
    by_cases ht : t = .e <;> simp [ht] at h
    linarith
  · intro f fl m h
    simp at h
    linarith

end Sidis.Props
