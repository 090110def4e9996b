import Verif.Lemmas.Gauss2
import Verif.Spec.Tmd
import Mathlib.Tactic.LinearCombination

/-! # The convolutions of the code and those of the publication -/

namespace Sidis.Lemmas
open MeasureTheory Real Spec.Tmd

theorem foldl_add_sum (f : ℕ → ℝ) (n : ℕ) :
    (List.range n).foldl (fun (r : ℝ) (i : ℕ) => r + f i) 0 = ∑ i ∈ Finset.range n, f i := by
  induction n with
  | zero => simp
  | succ n ih => rw [List.range_succ, List.foldl_append, ih, Finset.sum_range_succ]; rfl

/-- The weights of `convolve`, as functions of the momenta of the publication. -/
noncomputable def wOf (w : Weight) (M mh z ph_t : ℝ) : Vec → Vec → ℝ := fun p _ =>
  convolveWeight w M mh z ph_t p.1 (dot p p)

theorem convolve_eq {cub : Cubature2} (hc : Exact cub) (s : TmdSet) (w : Weight) (t : TmdName)
    (f : FfName) (target : Nucleus) (h : Hadron) {x z Q_sq ph_t_sq : ℝ} (hz : z ≠ 0)
    (hph : 0 ≤ ph_t_sq) :
    convolve cub s w t f target h x z Q_sq ph_t_sq =
      conv (disc 10) (distOf s h x z Q_sq) z (√ph_t_sq)
        (wOf w target.mass h.mass z (√ph_t_sq)) t f := by
  rw [convolve, hc, conv, disc]
  simp only [dot]
  rw [← polar_disc 10 (by norm_num)]
  refine setIntegral_congr_fun (measurableSet_Ioo.prod measurableSet_Ioo) fun q _ => ?_
  have h1 : q.2 * cos q.1 * (q.2 * cos q.1) + q.2 * sin q.1 * (q.2 * sin q.1) = sq q.2 := by
    have := sin_sq_add_cos_sq q.1
    simp only [sq]
    linear_combination q.2 ^ 2 * this
  have h2 : z ^ 2 * ((q.2 * cos q.1 - 1 / z * √ph_t_sq) * (q.2 * cos q.1 - 1 / z * √ph_t_sq) +
      q.2 * sin q.1 * (q.2 * sin q.1)) =
      ph_t_sq + sq z * sq q.2 - 2 * √ph_t_sq * z * (q.2 * cos q.1) := by
    have h3 := Real.mul_self_sqrt hph
    have h4 : z * (1 / z) = 1 := mul_one_div_cancel hz
    have : sq z * sq q.2 = z ^ 2 * (q.2 * cos q.1 * (q.2 * cos q.1) +
      q.2 * sin q.1 * (q.2 * sin q.1)) := by rw [h1]; simp only [sq]; ring
    rw [this]
    generalize √ph_t_sq = u at *
    linear_combination (z * (1 / z) + 1) * u ^ 2 * h4 - 2 * u * z * q.2 * cos q.1 * h4 + h3
  simp only [convolveIntegrand, foldl_add_sum, wOf, distOf, hhat, Prod.fst_sub, Prod.snd_sub,
    Prod.smul_fst, Prod.smul_snd, smul_eq_mul, mul_one, mul_zero, sub_zero, dot, h1, h2]
  rw [mul_assoc, Finset.mul_sum]
  congr 1
  exact Finset.sum_congr rfl fun a _ => by simp only [sq]; ring

/-- The weight of the publication for each weight of `convolve_gaussian`: those of `convolve`, except that
of `W3`. -/
noncomputable def wPub (w : Weight) (M mh z ph_t : ℝ) : Vec → Vec → ℝ := fun p k =>
  match w with
  | .W3 => (2 * dot hhat p * dot p k + dot p p * dot hhat k - 4 * dot hhat p ^ 2 * dot hhat k)
      / (2 * M ^ 2 * mh)
  | w => convolveWeight w M mh z ph_t p.1 (dot p p)

section
variable {mt mf z : ℝ}

/-- The product of the two Gaussians, about its centre. -/
theorem gauss_prod (ht : 0 < mt) (hf : 0 < mf) (hz : 0 < z) (ph : ℝ) (p : Vec) :
    let mean := mf + sq z * mt
    let k := p - (1 / z) • ph • hhat
    gaussian (dot p p) (some mt) * gaussian (z ^ 2 * dot k k) (some mf) =
      mean / (mt * mf) / π * (exp (-(ph * ph) / mean) / (π * mean)) *
        exp (-(mean / (mt * mf)) * ((p.1 - z * ph * mt / mean) ^ 2 + p.2 ^ 2)) := by
  intro mean k
  have hm : 0 < mean := by simp only [mean, sq]; positivity
  have hme : mf + z * z * mt = mean := rfl
  have hπ := pi_pos
  have e1 : gaussian (dot p p) (some mt) * gaussian (z ^ 2 * dot k k) (some mf) =
      exp (-dot p p / mt + -(z ^ 2 * dot k k) / mf) / (π * mt * (π * mf)) := by
    simp only [gaussian]
    rw [exp_add]; field_simp
  have e2 : -dot p p / mt + -(z ^ 2 * dot k k) / mf =
      -(ph * ph) / mean +
        -(mean / (mt * mf)) * ((p.1 - z * ph * mt / mean) ^ 2 + p.2 ^ 2) := by
    simp only [dot, k, hhat, Prod.fst_sub, Prod.snd_sub, Prod.smul_fst, Prod.smul_snd, smul_eq_mul,
      mul_one, mul_zero, sub_zero]
    have hm' := hm.ne'
    field_simp
    simp only [← hme]
    ring
  rw [e1, e2, exp_add]
  field_simp

theorem plane_conv (ht : 0 < mt) (hf : 0 < mf) (hz : 0 < z) (ph : ℝ) (W : Vec → ℝ)
    (a : ℕ → ℕ → ℝ)
    (hW : ∀ p : Vec, W p = ∑ i ∈ Finset.range 4, ∑ j ∈ Finset.range 4,
      a i j * (p.1 - z * ph * mt / (mf + sq z * mt)) ^ i * p.2 ^ j) :
    let mean := mf + sq z * mt
    (Integrable fun p : Vec => W p * (gaussian (dot p p) (some mt) *
      gaussian (z ^ 2 * dot (p - (1 / z) • ph • hhat) (p - (1 / z) • ph • hhat)) (some mf))) ∧
    ∫ p : Vec, W p * (gaussian (dot p p) (some mt) *
      gaussian (z ^ 2 * dot (p - (1 / z) • ph • hhat) (p - (1 / z) • ph • hhat)) (some mf)) =
      (∑ i ∈ Finset.range 4, ∑ j ∈ Finset.range 4,
        a i j * mom (mean / (mt * mf)) i * mom (mean / (mt * mf)) j) *
        (exp (-(ph * ph) / mean) / (π * mean)) := by
  intro mean
  have hm : 0 < mean := by simp only [mean, sq]; positivity
  have hb : 0 < mean / (mt * mf) := by positivity
  obtain ⟨hI, hE⟩ := plane_poly hb (z * ph * mt / mean) a
  have he : (fun p : Vec => W p * (gaussian (dot p p) (some mt) *
      gaussian (z ^ 2 * dot (p - (1 / z) • ph • hhat) (p - (1 / z) • ph • hhat)) (some mf))) =
      fun p : Vec => mean / (mt * mf) / π * (exp (-(ph * ph) / mean) / (π * mean)) *
        ((∑ i ∈ Finset.range 4, ∑ j ∈ Finset.range 4,
          a i j * (p.1 - z * ph * mt / mean) ^ i * p.2 ^ j) *
          exp (-(mean / (mt * mf)) * ((p.1 - z * ph * mt / mean) ^ 2 + p.2 ^ 2))) := by
    funext p
    rw [hW p, gauss_prod ht hf hz ph p]
    simp only [mean]
    ring
  rw [he]
  refine ⟨hI.const_mul _, ?_⟩
  rw [integral_const_mul, hE]
  have hπ := pi_pos
  generalize (∑ i ∈ Finset.range 4, ∑ j ∈ Finset.range 4,
        a i j * mom (mean / (mt * mf)) i * mom (mean / (mt * mf)) j) = S
  field_simp

/-- The coefficients of the polynomial `a00 + a10 u + a20 u² + a30 u³ + a02 v² + a12 u v²`. -/
def cubic (a00 a10 a20 a30 a02 a12 : ℝ) : ℕ → ℕ → ℝ
  | 0, 0 => a00
  | 1, 0 => a10
  | 2, 0 => a20
  | 3, 0 => a30
  | 0, 2 => a02
  | 1, 2 => a12
  | _, _ => 0

theorem cubic_sum (a00 a10 a20 a30 a02 a12 : ℝ) (F G : ℕ → ℝ) :
    ∑ i ∈ Finset.range 4, ∑ j ∈ Finset.range 4, cubic a00 a10 a20 a30 a02 a12 i j * F i * G j =
      a00 * F 0 * G 0 + a10 * F 1 * G 0 + a20 * F 2 * G 0 + a30 * F 3 * G 0 + a02 * F 0 * G 2 +
        a12 * F 1 * G 2 := by
  simp only [Finset.sum_range_succ, Finset.sum_range_zero, cubic]
  ring

/-- The coefficients of the weights about the centre `c` of the product of the Gaussians. -/
noncomputable def wCoeff (w : Weight) (M mh z ph c : ℝ) : ℕ → ℕ → ℝ :=
  match w with
  | .W0 => cubic 1 0 0 0 0 0
  | .WA1 => cubic ((ph - z * c) / (z * mh)) (-z / (z * mh)) 0 0 0 0
  | .WB1 => cubic (c / M) (1 / M) 0 0 0 0
  | .WA2 => cubic (2 * (ph - z * c) * c / (z * M * mh)) (2 * (ph - 2 * z * c) / (z * M * mh))
      (-2 * z / (z * M * mh)) 0 0 0
  | .WB2 => cubic (-(ph * c - z * c ^ 2) / (z * M * mh)) (-(ph - 2 * z * c) / (z * M * mh))
      (z / (z * M * mh)) 0 (z / (z * M * mh)) 0
  | .WAB2 => cubic ((ph * c - z * c ^ 2) / (z * M * mh)) ((ph - 2 * z * c) / (z * M * mh))
      (-z / (z * M * mh)) 0 (z / (z * M * mh)) 0
  | .WC2 => cubic (c ^ 2 / (2 * M ^ 2)) (2 * c / (2 * M ^ 2)) (1 / (2 * M ^ 2)) 0 (-1 / (2 * M ^ 2)) 0
  | .W3 => cubic ((ph * c ^ 2 - z * c ^ 3) / (2 * z * M ^ 2 * mh))
      ((2 * ph * c - 3 * z * c ^ 2) / (2 * z * M ^ 2 * mh)) ((ph - 3 * z * c) / (2 * z * M ^ 2 * mh))
      (-z / (2 * z * M ^ 2 * mh)) ((3 * z * c - ph) / (2 * z * M ^ 2 * mh))
      (3 * z / (2 * z * M ^ 2 * mh))

theorem wPub_poly (w : Weight) {M mh z : ℝ} (hM : M ≠ 0) (hmh : mh ≠ 0) (hz : z ≠ 0) (ph c : ℝ)
    (p : Vec) :
    wPub w M mh z ph p (p - (1 / z) • ph • hhat) = ∑ i ∈ Finset.range 4, ∑ j ∈ Finset.range 4,
      wCoeff w M mh z ph c i j * (p.1 - c) ^ i * p.2 ^ j := by
  cases w <;>
    simp only [wCoeff, cubic_sum _ _ _ _ _ _ (fun i => (p.1 - c) ^ i) (fun j => p.2 ^ j), wPub,
      convolveWeight, dot, hhat, Prod.fst_sub, Prod.snd_sub, Prod.smul_fst, Prod.smul_snd, smul_eq_mul, sq] <;>
    field_simp <;> ring

theorem wCoeff_sum (w : Weight) {M mh : ℝ} (hM : M ≠ 0) (hmh : mh ≠ 0) (ht : 0 < mt) (hf : 0 < mf)
    (hz : 0 < z) (ph : ℝ) :
    let mean := mf + sq z * mt
    ∑ i ∈ Finset.range 4, ∑ j ∈ Finset.range 4, wCoeff w M mh z ph (z * ph * mt / mean) i j *
      mom (mean / (mt * mf)) i * mom (mean / (mt * mf)) j =
      gaussianWeight w M mh z ph (ph * ph) mt mf := by
  intro mean
  have hm : mean ≠ 0 := by have : 0 < mean := by simp only [mean, sq]; positivity
                           exact this.ne'
  have hme : mf + z * z * mt = mean := rfl
  have hmf : mf = mean - z * z * mt := by linarith
  cases w <;>
    simp only [wCoeff, cubic_sum, mom, gaussianWeight, sq, hme] <;>
    field_simp <;> (try simp only [hmf]) <;> ring

end

/-- All finite widths are positive. -/
def PosWidths (s : GaussianTmdSet) : Prop :=
  (∀ t fl m, s.meanTmd t fl = some m → 0 < m) ∧ ∀ f fl m, s.meanFf f fl = some m → 0 < m

/-- One flavour of `convolve_gaussian`. -/
noncomputable def gaussTerm (s : GaussianTmdSet) (w : Weight) (t : TmdName) (f : FfName)
    (target : Nucleus) (h : Hadron) (x z Q_sq ph_t_sq : ℝ) (fl : ℕ) : ℝ :=
  match s.meanFf f fl, s.meanTmd t fl with
  | some mf, some mt =>
    sq (s.charge fl) * gaussianWeight w target.mass h.mass z (√ph_t_sq) ph_t_sq mt mf *
      (exp (-ph_t_sq / (mf + sq z * mt)) / (π * (mf + sq z * mt))) *
      s.tmd t fl x Q_sq * s.ff f h fl z Q_sq
  | _, _ => 0

theorem convolveGaussian_sum (s : GaussianTmdSet) (w : Weight) (t : TmdName) (f : FfName)
    (target : Nucleus) (h : Hadron) (x z Q_sq ph_t_sq : ℝ) :
    convolveGaussian s w t f target h x z Q_sq ph_t_sq =
      ∑ fl ∈ Finset.range s.flavorCount, gaussTerm s w t f target h x z Q_sq ph_t_sq fl := by
  rw [← foldl_add_sum, convolveGaussian]
  congr 1
  funext r fl
  simp only [gaussTerm]
  split <;> simp_all

theorem nucleus_mass_pos (t : Nucleus) : 0 < (t.mass : ℝ) := by
  cases t <;> simp only [Nucleus.mass, CMath.ofReal] <;> norm_num

theorem hadron_mass_pos (t : Hadron) : 0 < (t.mass : ℝ) := by
  cases t <;> simp only [Hadron.mass, CMath.ofReal] <;> norm_num

theorem gaussTerm_eq (s : GaussianTmdSet) (hs : PosWidths s) (w : Weight) (t : TmdName) (f : FfName)
    (target : Nucleus) (h : Hadron) {x z Q_sq ph_t_sq : ℝ} (hz : 0 < z) (hph : 0 ≤ ph_t_sq)
    (W : Vec → ℝ)
    (hW : W = fun p => wPub w target.mass h.mass z (√ph_t_sq) p
      (p - (1 / z) • (√ph_t_sq) • hhat)) (fl : ℕ) :
    let I : Vec → ℝ := fun p => s.charge fl ^ 2 * W p *
      (s.tmd t fl x Q_sq * gaussian (dot p p) (s.meanTmd t fl)) *
      (s.ff f h fl z Q_sq * gaussian (z ^ 2 * dot (p - (1 / z) • (√ph_t_sq) • hhat)
        (p - (1 / z) • (√ph_t_sq) • hhat)) (s.meanFf f fl))
    Integrable I ∧ ∫ p, I p = gaussTerm s w t f target h x z Q_sq ph_t_sq fl := by
  intro I
  rcases h1 : s.meanTmd t fl with _ | mt
  · have : I = fun _ => 0 := by funext p; simp [I, h1, gaussian]
    rw [this]
    refine ⟨integrable_zero _ _ _, ?_⟩
    simp only [integral_zero, gaussTerm, h1]
    split <;> simp_all
  rcases h2 : s.meanFf f fl with _ | mf
  · have : I = fun _ => 0 := by funext p; simp [I, h2, gaussian]
    rw [this]
    refine ⟨integrable_zero _ _ _, ?_⟩
    simp only [integral_zero, gaussTerm, h2]
  have ht := hs.1 _ _ _ h1
  have hf := hs.2 _ _ _ h2
  have hM := (nucleus_mass_pos target).ne'
  have hmh := (hadron_mass_pos h).ne'
  obtain ⟨hI, hE⟩ := plane_conv ht hf hz (√ph_t_sq) W _ (fun p => by
    rw [hW]; exact wPub_poly w hM hmh hz.ne' (√ph_t_sq) _ p)
  have he : I = fun p => s.charge fl ^ 2 * s.tmd t fl x Q_sq * s.ff f h fl z Q_sq *
      (W p * (gaussian (dot p p) (some mt) *
      gaussian (z ^ 2 * dot (p - (1 / z) • (√ph_t_sq) • hhat) (p - (1 / z) • (√ph_t_sq) • hhat))
        (some mf))) := by
    funext p
    simp only [I, h1, h2]
    ring
  rw [he]
  refine ⟨hI.const_mul _, ?_⟩
  rw [integral_const_mul, hE, wCoeff_sum w hM hmh ht hf hz, Real.mul_self_sqrt hph]
  simp only [gaussTerm, h1, h2, sq]
  ring

theorem convolveGaussian_eq (s : GaussianTmdSet) (hs : PosWidths s) (w : Weight) (t : TmdName)
    (f : FfName) (target : Nucleus) (h : Hadron) {x z Q_sq ph_t_sq : ℝ} (hz : 0 < z)
    (hph : 0 ≤ ph_t_sq) :
    convolveGaussian s w t f target h x z Q_sq ph_t_sq =
      conv Set.univ (distOf s.toTmdSet h x z Q_sq) z (√ph_t_sq)
        (wPub w target.mass h.mass z (√ph_t_sq)) t f := by
  rw [convolveGaussian_sum, conv, setIntegral_univ]
  simp only [distOf, GaussianTmdSet.toTmdSet]
  rw [integral_finset_sum _ fun fl _ => (gaussTerm_eq s hs w t f target h hz hph _ rfl fl).1]
  exact Finset.sum_congr rfl fun fl _ =>
    (gaussTerm_eq s hs w t f target h hz hph _ rfl fl).2.symm

/-! ### From weights to structure functions -/

theorem conv_neg (R : Set Vec) (d : Dist) (z ph : ℝ) (w : Vec → Vec → ℝ) (t : TmdName) (f : FfName) :
    conv R d z ph (fun p k => -w p k) t f = -conv R d z ph w t f := by
  rw [conv, conv, ← integral_neg]
  refine congrArg (fun F : Vec → ℝ => ∫ p in R, F p) (funext fun p => ?_)
  simp only [← Finset.sum_neg_distrib]
  exact Finset.sum_congr rfl fun a _ => by ring

theorem conv_mul (R : Set Vec) (d : Dist) (z ph c : ℝ) (w : Vec → Vec → ℝ) (t : TmdName)
    (f : FfName) :
    conv R d z ph (fun p k => c * w p k) t f = c * conv R d z ph w t f := by
  rw [conv, conv, ← integral_const_mul]
  refine congrArg (fun F : Vec → ℝ => ∫ p in R, F p) (funext fun p => ?_)
  simp only [Finset.mul_sum]
  exact Finset.sum_congr rfl fun a _ => by ring

/-- The weights agree where the momenta are related by `k_T = p_T - P_h/z`. -/
theorem conv_congr (R : Set Vec) (d : Dist) {z ph : ℝ} {w w' : Vec → Vec → ℝ} (t : TmdName)
    (f : FfName) (h : ∀ p : Vec, w p (p - (1 / z) • ph • hhat) = w' p (p - (1 / z) • ph • hhat)) :
    conv R d z ph w t f = conv R d z ph w' t f := by
  rw [conv, conv]
  refine congrArg (fun F : Vec → ℝ => ∫ p in R, F p) (funext fun p => ?_)
  simp only [h p]

/-- The formulas of `TmdSfSet` with the convolutions of the publication are those of the publication. -/
theorem full_published (R : Set Vec) (d : Dist) {M mh z : ℝ} (hM : M ≠ 0) (hmh : mh ≠ 0) (hz : z ≠ 0)
    (ph x Q_sq : ℝ) :
    SfVals.full (fun w t f => conv R d z ph (wPub w M mh z ph) t f) M mh x z Q_sq =
      published (conv R d z ph) M mh x z (√Q_sq) := by
  have e1 : ∀ t f, conv R d z ph (fun _ k => dot hhat k / mh) t f =
      -conv R d z ph (wPub .WA1 M mh z ph) t f := fun t f => by
    rw [← conv_neg]
    refine conv_congr _ _ _ _ fun p => ?_
    simp only [wPub, convolveWeight, dot, hhat, Prod.fst_sub, Prod.snd_sub, Prod.smul_fst,
      Prod.smul_snd, smul_eq_mul]
    field_simp; ring
  have e1' : ∀ t f, conv R d z ph (fun _ k => -(dot hhat k / mh)) t f =
      conv R d z ph (wPub .WA1 M mh z ph) t f := fun t f => by
    rw [conv_neg, e1, neg_neg]
  have e2 : ∀ t f, conv R d z ph (fun p _ => dot hhat p / M) t f =
      conv R d z ph (wPub .WB1 M mh z ph) t f := fun t f => by
    refine conv_congr _ _ _ _ fun p => ?_
    simp [wPub, convolveWeight, dot, hhat]
  have e2' : ∀ t f, conv R d z ph (fun p _ => -(dot hhat p / M)) t f =
      -conv R d z ph (wPub .WB1 M mh z ph) t f := fun t f => by
    rw [conv_neg, e2]
  have e3 : ∀ t f, conv R d z ph (fun p k => dot k p / (2 * M * mh)) t f =
      1 / 2 * conv R d z ph (wPub .WB2 M mh z ph) t f := fun t f => by
    rw [← conv_mul]
    refine conv_congr _ _ _ _ fun p => ?_
    simp only [wPub, convolveWeight, dot, hhat, Prod.fst_sub, Prod.snd_sub, Prod.smul_fst,
      Prod.smul_snd, smul_eq_mul]
    field_simp; ring
  have e4 : ∀ t f, conv R d z ph (fun p _ => (2 * dot hhat p ^ 2 - dot p p) / (2 * M ^ 2)) t f =
      conv R d z ph (wPub .WC2 M mh z ph) t f := fun t f => by
    refine conv_congr _ _ _ _ fun p => ?_
    simp only [wPub, convolveWeight, dot, hhat, sq]
    ring
  have e5 : ∀ t f, conv R d z ph (fun p k => (2 * dot hhat k * dot hhat p - dot k p) /
      (2 * M * mh)) t f = -(1 / 2 * conv R d z ph (wPub .WAB2 M mh z ph) t f) := fun t f => by
    rw [← conv_mul, ← conv_neg]
    refine conv_congr _ _ _ _ fun p => ?_
    simp only [wPub, convolveWeight, dot, hhat, Prod.fst_sub, Prod.snd_sub, Prod.smul_fst,
      Prod.smul_snd, smul_eq_mul]
    field_simp; ring
  have e5' : ∀ t f, conv R d z ph (fun p k => -(2 * dot hhat k * dot hhat p - dot k p) /
      (M * mh)) t f = conv R d z ph (wPub .WAB2 M mh z ph) t f := fun t f => by
    refine conv_congr _ _ _ _ fun p => ?_
    simp only [wPub, convolveWeight, dot, hhat, Prod.fst_sub, Prod.snd_sub, Prod.smul_fst,
      Prod.smul_snd, smul_eq_mul]
    field_simp; ring
  have e0 : ∀ t f, conv R d z ph (fun _ _ => 1) t f = conv R d z ph (wPub .W0 M mh z ph) t f :=
    fun t f => conv_congr _ _ _ _ fun p => by simp [wPub, convolveWeight]
  have e6 : ∀ t f, conv R d z ph (fun p k => (2 * dot hhat p * dot p k + dot p p * dot hhat k
      - 4 * dot hhat p ^ 2 * dot hhat k) / (2 * M ^ 2 * mh)) t f =
      conv R d z ph (wPub .W3 M mh z ph) t f := fun t f => rfl
  simp only [published, e0, e1, e1', e2, e2', e3, e4, e5, e5', e6, SfVals.full, tilde]
  ext <;> field_simp <;> ring

end Sidis.Lemmas
