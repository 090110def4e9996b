import Verif.Spec.ProkudinXs
import Verif.Props.Prokudin
import Verif.Props.Asymmetry

/-! # C114: the cross-section of the supplied structure functions -/

namespace Sidis.Props

open Spec Prokudin

/-- The `cos phi_h` function is a multiple of the unpolarised one. -/
theorem supplied_ratio {T : Tables} {sf : SfFuns} {h : Hadron} (hs : SuppliedBy T sf h) (x z Q_sq ph_t_sq : ℝ) :
    sf.F_UUL h x z Q_sq ph_t_sq = 0 ∧
    sf.F_UU_cos_phih h x z Q_sq ph_t_sq =
      -(2 * 0.25 * z * √ph_t_sq / (√Q_sq * (z ^ 2 * 0.25 + 0.2))) * sf.F_UUT h x z Q_sq ph_t_sq := by
  have h0 := hs.UUL x z Q_sq ph_t_sq
  have h1 := hs.UUT x z Q_sq ph_t_sq
  have h2 := hs.UU_cos_h x z Q_sq ph_t_sq
  simp only [Prokudin.sf] at h0 h1 h2
  refine ⟨(Option.some.inj h0).symm, ?_⟩
  rcases hl : loop (xf1 T · x Q_sq) (D1 T h · z Q_sq) with _ | r
  · rw [hl] at h1
    exact absurd h1 (by simp)
  · rw [hl] at h1 h2
    have e1 := Option.some.inj h1
    have e2 := Option.some.inj h2
    rw [← e1, ← e2]
    simp only [f1Mean, Prokudin.lambda, d1Mean, sq]
    rw [show z ^ 2 = z * z by ring]
    have hl0 : z * z * 0.25 + 0.2 ≠ 0 := by nlinarith [mul_self_nonneg z]
    by_cases hQ : √Q_sq = 0
    · simp [hQ]
    · field_simp

/-- The unpolarised Born cross-section in terms of the structure functions. -/
theorem born_supplied {ps : Particles ℝ} {S : ℝ} {pt : PhaseSpace ℝ} (hp : Physical ps S pt)
    (hpt : 0 < pt.ph_t_sq) (hpl : pt.ph_t_sq + ps.mh ^ 2 < (pt.z * (S * pt.y) / (2 * ps.M)) ^ 2) (ph : Phenom)
    {T : Tables} {sf : SfFuns} (hs : SuppliedBy T sf ps.hadron) :
    let w := massiveWeights ph.alpha_qed ps.M ps.m S pt.x pt.y (S * pt.x * pt.y)
    let F := sf.F_UUT ps.hadron pt.x pt.z (S * pt.x * pt.y) pt.ph_t_sq
    xsBorn (.make ps S pt) ph sf 0 .zero = w.norm * (F * (1 - w.mixed * Real.cos pt.phi_h *
      (2 * 0.25 * pt.z * √pt.ph_t_sq / (√(S * pt.x * pt.y) * (pt.z ^ 2 * 0.25 + 0.2))))
      + w.trans * Real.cos (2 * pt.phi_h) * sf.F_UU_cos_2phih ps.hadron pt.x pt.z (S * pt.x * pt.y) pt.ph_t_sq) := by
  intro w F
  have h := c72_textbook hp hpt hpl ph sf 0 0 0 0
  simp only [zero_mul] at h
  change xsBorn _ _ _ _ ⟨0, 0, 0⟩ = _
  rw [h]
  obtain ⟨r1, r2⟩ := supplied_ratio hs pt.x pt.z (S * pt.x * pt.y) pt.ph_t_sq
  simp only [angular, SfValues.at, r1, r2]
  simp only [w, F]
  ring

/-- The weights of the two interferences. -/
theorem mixed_le {alpha M m S x y Q_sq : ℝ} (hQ : 0 < Q_sq) (hm : m ^ 2 ≤ Q_sq / 2)
    (hP : 0 ≤ 4 * Q_sq * (1 - y - 4 * M ^ 2 * x ^ 2 / Q_sq * y ^ 2 / 4) / (y ^ 2 * (1 + 4 * M ^ 2 * x ^ 2 / Q_sq))
      - 4 * m ^ 2) :
    |(massiveWeights alpha M m S x y Q_sq).mixed| ≤ 2 ∧ |(massiveWeights alpha M m S x y Q_sq).trans| ≤ 1 := by
  simp only [massiveWeights]
  set P := 4 * Q_sq * (1 - y - 4 * M ^ 2 * x ^ 2 / Q_sq * y ^ 2 / 4) / (y ^ 2 * (1 + 4 * M ^ 2 * x ^ 2 / Q_sq))
      - 4 * m ^ 2 with hPd
  have hK : 0 < P / 2 + Q_sq := by linarith
  have h1 := Real.sq_sqrt hP
  have h2 := Real.sq_sqrt (show 0 ≤ P + Q_sq + 4 * m ^ 2 by nlinarith [sq_nonneg m])
  constructor
  · rw [abs_div, abs_of_pos hK, div_le_iff₀ hK, abs_of_nonneg (by positivity)]
    nlinarith [sq_nonneg (√(P + Q_sq + 4 * m ^ 2) - √P)]
  · rw [abs_div, abs_of_pos hK, div_le_one hK, abs_of_nonneg (by linarith)]
    linarith

/-- C114 (partial: hadrons of small transverse momentum, and a Boer-Mulders effect of at most one half): there
the unpolarised Born cross-section with the supplied structure functions is not negative. -/
theorem c114_partial {ps : Particles ℝ} {S : ℝ} {pt : PhaseSpace ℝ} (hp : Physical ps S pt)
    (hpt : 0 < pt.ph_t_sq) (hpl : pt.ph_t_sq + ps.mh ^ 2 < (pt.z * (S * pt.y) / (2 * ps.M)) ^ 2) (ph : Phenom)
    (ha : ph.alpha_qed ≠ 0) {T : Tables} {sf : SfFuns} (hs : SuppliedBy T sf ps.hadron)
    (hm : ps.m ^ 2 ≤ S * pt.x * pt.y / 2)
    (hF : 2 * |sf.F_UU_cos_2phih ps.hadron pt.x pt.z (S * pt.x * pt.y) pt.ph_t_sq| ≤
      sf.F_UUT ps.hadron pt.x pt.z (S * pt.x * pt.y) pt.ph_t_sq)
    (hsmall : 2 * pt.z * √pt.ph_t_sq ≤ √(S * pt.x * pt.y) * (pt.z ^ 2 * 0.25 + 0.2)) :
    0 ≤ xsBorn (.make ps S pt) ph sf 0 .zero := by
  rw [born_supplied hp hpt hpl ph hs]
  have hN := massive_norm_pos hp ha
  have hS : 0 < S := (kinRel_of_physical hp).S_pos
  have hQ : 0 < S * pt.x * pt.y := mul_pos (mul_pos hS hp.x_pos) hp.y_pos
  obtain ⟨h1, h2⟩ := mixed_le (alpha := ph.alpha_qed) (S := S) hQ hm (transverse_nonneg hp)
  refine mul_nonneg hN.le ?_
  set w := massiveWeights ph.alpha_qed ps.M ps.m S pt.x pt.y (S * pt.x * pt.y)
  set F := sf.F_UUT ps.hadron pt.x pt.z (S * pt.x * pt.y) pt.ph_t_sq
  set G := sf.F_UU_cos_2phih ps.hadron pt.x pt.z (S * pt.x * pt.y) pt.ph_t_sq
  have hz := hp.z_pos
  have hD : 0 < √(S * pt.x * pt.y) * (pt.z ^ 2 * 0.25 + 0.2) := mul_pos (Real.sqrt_pos.2 hQ) (by positivity)
  set r := 2 * 0.25 * pt.z * √pt.ph_t_sq / (√(S * pt.x * pt.y) * (pt.z ^ 2 * 0.25 + 0.2)) with hr
  have r0 : 0 ≤ r := div_nonneg (by positivity) hD.le
  have r1 : r ≤ 1 / 4 := by
    rw [hr, div_le_iff₀ hD]
    linarith
  have c1 : |w.mixed * Real.cos pt.phi_h * r| ≤ 2 * 1 * (1 / 4) := by
    rw [abs_mul, abs_mul, abs_of_nonneg r0]
    have := Real.abs_cos_le_one pt.phi_h
    gcongr
  have c2 : |w.trans * Real.cos (2 * pt.phi_h) * G| ≤ 1 * 1 * |G| := by
    rw [abs_mul, abs_mul]
    have := Real.abs_cos_le_one (2 * pt.phi_h)
    gcongr
  have hF0 : 0 ≤ F := by linarith [abs_nonneg G]
  have c3 := (abs_le.1 c1).2
  have c4 := (abs_le.1 c2).1
  nlinarith

/-- A hadron of large transverse momentum, at low Q². -/
noncomputable def cahnPt : PhaseSpace ℝ := ⟨0.1, 0.5, 0.5, 1.44, Real.pi / 4, 0⟩

theorem cahn_physical : Physical samplePs 20 cahnPt := by
  constructor <;> norm_num [samplePs, cahnPt, Nucleus.mass, Lepton.mass, Hadron.mass, CMath.ofReal]

/-- C114 (refuted): the cross-section of the supplied structure functions can be negative. At a point of the phase
space, whatever the tables, as soon as the unpolarised structure function is positive there. -/
theorem c114_refuted : ∃ (ps : Particles ℝ) (S : ℝ) (pt : PhaseSpace ℝ), Physical ps S pt ∧
    Particles.make ps.target ps.beam ps.hadron ps.Mth = some ps ∧
    ps.Mth ^ 2 < (Kinematics.make ps S pt).mx_sq ∧
    ∀ (T : Tables) (sf : SfFuns) (ph : Phenom), SuppliedBy T sf ps.hadron → ph.alpha_qed ≠ 0 →
      0 < sf.F_UUT ps.hadron pt.x pt.z (S * pt.x * pt.y) pt.ph_t_sq →
      xsBorn (.make ps S pt) ph sf 0 .zero < 0 := by
  refine ⟨samplePs, 20, cahnPt, cahn_physical, sample_physical.1, ?_, fun T sf ph hs ha hF => ?_⟩
  · have hsq : ∀ a : ℝ, -0.2 ≤ a → -0.125 ≤ CMath.sqrt1p_1m a := fun a h => by
      change -0.125 ≤ sqrt1p1mR a
      rw [sqrt1p1mR_eq (by linarith)]
      have : (0.875 : ℝ) ≤ √(1 + a) := Real.le_sqrt_of_sq_le (by norm_num; linarith)
      linarith
    have e : (Kinematics.make samplePs 20 cahnPt).mx_sq = samplePs.M * samplePs.M + (samplePs.mh * samplePs.mh - 1 - 2 *
        (-(0.5 * 10 / (2 * samplePs.M) * 10) / (2 * samplePs.M) * CMath.sqrt1p_1m (4 * (samplePs.M * samplePs.M) * 1
          / (10 * 10) - (1.44 / (0.5 * 10 / (2 * samplePs.M) * (0.5 * 10 / (2 * samplePs.M)))
          + samplePs.mh / (0.5 * 10 / (2 * samplePs.M)) * (samplePs.mh / (0.5 * 10 / (2 * samplePs.M))))
          * (1 + 4 * (samplePs.M * samplePs.M) * 1 / (10 * 10))))) + (1 - 0.5) * 10 := by
      have q1 : (20 : ℝ) * 0.1 * 0.5 = 1 := by norm_num
      have q2 : (20 : ℝ) * 0.5 = 10 := by norm_num
      simp only [Kinematics.make, cahnPt, sq, q1, q2]
    rw [e]; clear e
    have hM : samplePs.M = 0.9382720813 := by norm_num [samplePs, Nucleus.mass, CMath.ofReal]
    have hmh : samplePs.mh = 0.13957061 := by norm_num [samplePs, Hadron.mass, CMath.ofReal]
    have hMth : samplePs.Mth = 1.07 := rfl
    rw [hM, hmh, hMth]
    have hs1 := hsq _ (show -0.2 ≤ 4 * ((0.9382720813 : ℝ) * 0.9382720813) * 1
          / (10 * 10) - (1.44 / (0.5 * 10 / (2 * 0.9382720813) * (0.5 * 10 / (2 * 0.9382720813)))
          + 0.13957061 / (0.5 * 10 / (2 * 0.9382720813)) * (0.13957061 / (0.5 * 10 / (2 * 0.9382720813))))
          * (1 + 4 * (0.9382720813 * 0.9382720813) * 1 / (10 * 10)) by norm_num)
    have hc : -(0.5 * 10 / (2 * 0.9382720813) * 10) / (2 * 0.9382720813) ≥ (-14.3 : ℝ) := by norm_num
    have hc' : -(0.5 * 10 / (2 * 0.9382720813) * 10) / (2 * 0.9382720813) ≤ (0 : ℝ) := by norm_num
    generalize (-(0.5 * 10 / (2 * 0.9382720813) * 10) / (2 * 0.9382720813) : ℝ) = c at *
    clear hsq; generalize (CMath.sqrt1p_1m _ : ℝ) = s at hs1 ⊢
    have h5 := mul_nonneg (neg_nonneg.2 hc') (show 0 ≤ s + 0.125 by linarith)
    have h6 : c * s ≤ 14.3 * 0.125 := by linarith
    norm_num at h6 ⊢
    linarith
  · rw [born_supplied cahn_physical (by norm_num [cahnPt])
      (by norm_num [samplePs, cahnPt, Nucleus.mass, Hadron.mass, CMath.ofReal]) ph hs]
    refine mul_neg_of_pos_of_neg (massive_norm_pos cahn_physical ha) ?_
    have e2 : Real.cos (2 * cahnPt.phi_h) = 0 := by
      rw [show 2 * cahnPt.phi_h = Real.pi / 2 by simp only [cahnPt]; ring]
      exact Real.cos_pi_div_two
    rw [e2, mul_zero, zero_mul, add_zero]
    refine mul_neg_of_pos_of_neg hF ?_
    have e1 : Real.cos cahnPt.phi_h = √2 / 2 := Real.cos_pi_div_four
    have hs2 : (1.4 : ℝ) ≤ √2 := Real.le_sqrt_of_sq_le (by norm_num)
    have hQ : 20 * cahnPt.x * cahnPt.y = 1 := by norm_num [cahnPt]
    have hpt : √cahnPt.ph_t_sq = 1.2 := by
      rw [show cahnPt.ph_t_sq = 1.2 ^ 2 by norm_num [cahnPt]]
      exact Real.sqrt_sq (by norm_num)
    have hz : cahnPt.z = 0.5 := rfl
    have hmix : (1.5 : ℝ) ≤ (massiveWeights ph.alpha_qed samplePs.M samplePs.m 20 cahnPt.x cahnPt.y
        (20 * cahnPt.x * cahnPt.y)).mixed := by
      rw [hQ]
      simp only [massiveWeights]
      set P := 4 * (1 : ℝ) * (1 - cahnPt.y - 4 * samplePs.M ^ 2 * cahnPt.x ^ 2 / 1 * cahnPt.y ^ 2 / 4) /
        (cahnPt.y ^ 2 * (1 + 4 * samplePs.M ^ 2 * cahnPt.x ^ 2 / 1)) - 4 * samplePs.m ^ 2 with hP
      have hP6 : 7 ≤ P := by
        rw [hP]
        norm_num [samplePs, cahnPt, Nucleus.mass, Lepton.mass, CMath.ofReal]
      have hle : √P ≤ √(P + 1 + 4 * samplePs.m ^ 2) := Real.sqrt_le_sqrt (by nlinarith [sq_nonneg samplePs.m])
      have hsq := Real.mul_self_sqrt (show 0 ≤ P by linarith)
      rw [le_div_iff₀ (by linarith)]
      have := mul_le_mul_of_nonneg_right hle (Real.sqrt_nonneg P)
      linarith
    rw [e1, hQ, hpt, hz, Real.sqrt_one]
    have h3 : (1.5 : ℝ) * (1.4 / 2) ≤ (massiveWeights ph.alpha_qed samplePs.M samplePs.m 20 cahnPt.x cahnPt.y 1).mixed
        * (√2 / 2) := by
      rw [hQ] at hmix
      gcongr
    rw [show (2 * 0.25 * 0.5 * 1.2 / (1 * (0.5 ^ 2 * 0.25 + 0.2)) : ℝ) = 8 / 7 by norm_num]
    nlinarith

/-- The structure functions of `ProkudinSfSet` as functions (zero where it throws, that is for other hadrons than
charged pions); only the unpolarised ones. -/
noncomputable def suppliedSf (T : Tables) : SfFuns where
  F_UUL h x z Q p := (Prokudin.sf T h x z Q p).F_UUL.getD 0
  F_UUT h x z Q p := (Prokudin.sf T h x z Q p).F_UUT.getD 0
  F_UU_cos_phih h x z Q p := (Prokudin.sf T h x z Q p).F_UU_cos_phih.getD 0
  F_UU_cos_2phih h x z Q p := (Prokudin.sf T h x z Q p).F_UU_cos_2phih.getD 0
  F_UL_sin_phih _ _ _ _ _ := 0
  F_UL_sin_2phih _ _ _ _ _ := 0
  F_UTL_sin_phih_m_phis _ _ _ _ _ := 0
  F_UTT_sin_phih_m_phis _ _ _ _ _ := 0
  F_UT_sin_2phih_m_phis _ _ _ _ _ := 0
  F_UT_sin_3phih_m_phis _ _ _ _ _ := 0
  F_UT_sin_phis _ _ _ _ _ := 0
  F_UT_sin_phih_p_phis _ _ _ _ _ := 0
  F_LU_sin_phih _ _ _ _ _ := 0
  F_LL _ _ _ _ _ := 0
  F_LL_cos_phih _ _ _ _ _ := 0
  F_LT_cos_phih_m_phis _ _ _ _ _ := 0
  F_LT_cos_2phih_m_phis _ _ _ _ _ := 0
  F_LT_cos_phis _ _ _ _ _ := 0

theorem loop_pure (f g : ℕ → ℝ) : loop f (fun fl => some (g fl)) =
    some (∑ fl ∈ Finset.range numFlavors, charge fl ^ 2 * f fl * g fl) := by
  simp [loop, numFlavors, List.range, List.range.loop, Finset.sum_range_succ, sq, pow_two]

theorem suppliedSf_supplied (T : Tables) : SuppliedBy T (suppliedSf T) .piP := by
  have e1 : ∀ z Q_sq, (D1 T .piP · z Q_sq) = fun fl => some (T.D1_pi_plus fl z Q_sq) := fun _ _ => rfl
  constructor <;> intro x z Q_sq ph_t_sq
  · rfl
  · simp only [suppliedSf, Prokudin.sf, e1, loop_pure]
    rfl
  · simp only [suppliedSf, Prokudin.sf, e1, loop_pure]
    rfl
  · have e2 : (H1perpM1 T .piP · z Q_sq) = fun fl => some ((H1perpM1 T .piP fl z Q_sq).getD 0) := rfl
    simp only [suppliedSf, Prokudin.sf]
    rw [e2, loop_pure]
    rfl

-- Hypotheses of `c114_refuted` (its universal part): tables with a positive unpolarised structure function.
example : SuppliedBy upTables (suppliedSf upTables) samplePs.hadron ∧
    0 < (suppliedSf upTables).F_UUT samplePs.hadron cahnPt.x cahnPt.z (20 * cahnPt.x * cahnPt.y) cahnPt.ph_t_sq := by
  refine ⟨suppliedSf_supplied _, ?_⟩
  have e1 : ∀ z Q_sq, (D1 upTables .piP · z Q_sq) = fun fl => some (upTables.D1_pi_plus fl z Q_sq) := fun _ _ => rfl
  have e3 : samplePs.hadron = .piP := rfl
  simp only [suppliedSf, Prokudin.sf, e3, e1, loop_pure]
  have e2 : ∑ fl ∈ Finset.range numFlavors, charge fl ^ 2 * xf1 upTables fl cahnPt.x (20 * cahnPt.x * cahnPt.y) *
      upTables.D1_pi_plus fl cahnPt.z (20 * cahnPt.x * cahnPt.y) = 4 / 9 := by
    simp [numFlavors, Finset.sum_range_succ, upTables, xf1, charge]
    norm_num
  rw [e2]
  change 0 < G _ _ * (4 / 9)
  have : 0 < Prokudin.lambda cahnPt.z f1Mean d1Mean := by norm_num [Prokudin.lambda, cahnPt, f1Mean, d1Mean, sq]
  have := Real.pi_pos
  unfold G
  positivity

/-- The same at a small transverse momentum. -/
noncomputable def lowPt : PhaseSpace ℝ := ⟨0.3, 0.6, 0.5, 0.01, 0.7, 1.1⟩

/-- Tables with a fragmentation function of the strange quark only. -/
noncomputable def strangeTables : Tables where
  parton _ _ _ := 1
  D1_pi_plus fl _ _ := if fl = 2 then 1 else 0
  D1_pi_minus _ _ _ := 0
  g1 _ _ _ := 0
  xgT _ _ _ := 0
  xh1LperpM1 _ _ _ := 0
  sb _ _ _ := 0

-- Hypotheses of `c114_partial`: tables without Boer-Mulders effect,
example (x z Q_sq p : ℝ) (hz : z = 1 / 2) : SuppliedBy strangeTables (suppliedSf strangeTables) .piP ∧
    2 * |(suppliedSf strangeTables).F_UU_cos_2phih .piP x z Q_sq p| ≤ (suppliedSf strangeTables).F_UUT .piP x z Q_sq p ∧
    0 < (suppliedSf strangeTables).F_UUT .piP x z Q_sq p := by
  refine ⟨suppliedSf_supplied _, ?_⟩
  have e1 : ∀ z Q_sq, (D1 strangeTables .piP · z Q_sq) = fun fl => some (strangeTables.D1_pi_plus fl z Q_sq) :=
    fun _ _ => rfl
  have e2 : (H1perpM1 strangeTables .piP · z Q_sq) = fun fl => some ((H1perpM1 strangeTables .piP fl z Q_sq).getD 0) :=
    rfl
  have s1 : ∑ fl ∈ Finset.range numFlavors, charge fl ^ 2 * xf1 strangeTables fl x Q_sq *
      strangeTables.D1_pi_plus fl z Q_sq = 1 / 9 := by
    simp [numFlavors, Finset.sum_range_succ, strangeTables, xf1, charge]
    norm_num
  have s2 : ∑ fl ∈ Finset.range numFlavors, charge fl ^ 2 * xh1perpM1 strangeTables fl x Q_sq *
      (H1perpM1 strangeTables .piP fl z Q_sq).getD 0 = 0 := by
    refine Finset.sum_eq_zero fun fl _ => ?_
    rw [show (H1perpM1 strangeTables .piP fl z Q_sq).getD 0 = 0 by
      by_cases h : fl = 2 <;> simp [H1perpM1, collinsCoeff, D1, strangeTables, h], mul_zero]
  have f1 : (suppliedSf strangeTables).F_UUT .piP x z Q_sq p = G p (Prokudin.lambda z f1Mean d1Mean) * (1 / 9) := by
    simp only [suppliedSf, Prokudin.sf, e1, loop_pure, s1]
    rfl
  have f2 : (suppliedSf strangeTables).F_UU_cos_2phih .piP x z Q_sq p = 0 := by
    simp only [suppliedSf, Prokudin.sf]
    rw [e2, loop_pure, s2]
    exact mul_zero _
  have : 0 < Prokudin.lambda z f1Mean d1Mean := by norm_num [Prokudin.lambda, hz, f1Mean, d1Mean, sq]
  have := Real.pi_pos
  have h0 : 0 < G p (Prokudin.lambda z f1Mean d1Mean) * (1 / 9) := by
    unfold G
    positivity
  rw [f1, f2]
  exact ⟨by rw [abs_zero, mul_zero]; exact h0.le, h0⟩

-- and a small transverse momentum.
example : Physical samplePs 20 lowPt ∧ 0 < lowPt.ph_t_sq ∧
    lowPt.ph_t_sq + samplePs.mh ^ 2 < (lowPt.z * (20 * lowPt.y) / (2 * samplePs.M)) ^ 2 ∧
    samplePs.m ^ 2 ≤ 20 * lowPt.x * lowPt.y / 2 ∧
    2 * lowPt.z * √lowPt.ph_t_sq ≤ √(20 * lowPt.x * lowPt.y) * (lowPt.z ^ 2 * 0.25 + 0.2) := by
  refine ⟨?_, by norm_num [lowPt], ?_, ?_, ?_⟩
  · constructor <;> norm_num [samplePs, lowPt, Nucleus.mass, Lepton.mass, Hadron.mass, CMath.ofReal]
  · norm_num [samplePs, lowPt, Nucleus.mass, Lepton.mass, Hadron.mass, CMath.ofReal]
  · norm_num [samplePs, lowPt, Nucleus.mass, Lepton.mass, Hadron.mass, CMath.ofReal]
  · have h1 : √lowPt.ph_t_sq = 0.1 := by
      rw [show lowPt.ph_t_sq = 0.1 ^ 2 by norm_num [lowPt]]
      exact Real.sqrt_sq (by norm_num)
    have h2 : (1.8 : ℝ) ≤ √(20 * lowPt.x * lowPt.y) := Real.le_sqrt_of_sq_le (by norm_num [lowPt])
    rw [h1, show lowPt.z = 0.5 from rfl]
    nlinarith

end Sidis.Props
