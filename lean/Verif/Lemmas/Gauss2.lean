import Mathlib.Analysis.SpecialFunctions.Gaussian.GaussianIntegral
import Mathlib.Analysis.SpecialFunctions.PolarCoord
import Mathlib.MeasureTheory.Integral.IntegralEqImproper
import Mathlib.MeasureTheory.Integral.Prod
import Mathlib.MeasureTheory.Measure.Haar.NormedSpace
import Mathlib.Tactic.FieldSimp
import Mathlib.Tactic.Ring
import Mathlib.Tactic.Positivity
import Mathlib.Tactic.NormNum

/-! # Integrals of polynomials against a Gaussian in the plane, and polar coordinates -/

namespace Sidis.Lemmas
open MeasureTheory Real Set

theorem pow_gauss_int {b : ℝ} (hb : 0 < b) (n : ℕ) :
    Integrable fun x : ℝ => x ^ n * exp (-b * x ^ 2) := by
  have h := integrable_rpow_mul_exp_neg_mul_sq hb (s := n) (by
    have : (0 : ℝ) ≤ n := Nat.cast_nonneg n
    linarith)
  simpa only [rpow_natCast] using h

theorem gauss_m1 {b : ℝ} : ∫ x : ℝ, x ^ 1 * exp (-b * x ^ 2) = 0 := by
  have h := integral_neg_eq_self (fun x : ℝ => x ^ 1 * exp (-b * x ^ 2)) volume
  have h2 : ∫ x : ℝ, (-x) ^ 1 * exp (-b * (-x) ^ 2) = -∫ x : ℝ, x ^ 1 * exp (-b * x ^ 2) := by
    rw [← integral_neg]
    exact integral_congr_ae (.of_forall fun x => by simp only [neg_sq]; ring)
  linarith

theorem gauss_m3 {b : ℝ} : ∫ x : ℝ, x ^ 3 * exp (-b * x ^ 2) = 0 := by
  have h := integral_neg_eq_self (fun x : ℝ => x ^ 3 * exp (-b * x ^ 2)) volume
  have h2 : ∫ x : ℝ, (-x) ^ 3 * exp (-b * (-x) ^ 2) = -∫ x : ℝ, x ^ 3 * exp (-b * x ^ 2) := by
    rw [← integral_neg]
    exact integral_congr_ae (.of_forall fun x => by simp only [neg_sq]; ring)
  linarith

theorem gauss_m2 {b : ℝ} (hb : 0 < b) :
    ∫ x : ℝ, x ^ 2 * exp (-b * x ^ 2) = √(π / b) / (2 * b) := by
  have hd : ∀ x : ℝ, HasDerivAt (fun x : ℝ => x ^ 1 * exp (-b * x ^ 2))
      (x ^ 0 * exp (-b * x ^ 2) - 2 * b * (x ^ 2 * exp (-b * x ^ 2))) x := by
    intro x
    have h1 : HasDerivAt (fun x : ℝ => -b * x ^ 2) (-b * (2 * x)) x := by
      simpa using (hasDerivAt_pow 2 x).const_mul (-b)
    have := (hasDerivAt_pow 1 x).mul h1.exp
    refine this.congr_deriv ?_
    simp only [Nat.cast_one, Nat.sub_self, pow_zero, mul_one, pow_one, one_mul]
    ring
  have h0 := integral_eq_zero_of_hasDerivAt_of_integrable hd
    ((pow_gauss_int hb 0).sub ((pow_gauss_int hb 2).const_mul (2 * b))) (pow_gauss_int hb 1)
  rw [integral_sub (pow_gauss_int hb 0) ((pow_gauss_int hb 2).const_mul (2 * b)),
    integral_const_mul] at h0
  have hg : ∫ x : ℝ, x ^ 0 * exp (-b * x ^ 2) = √(π / b) := by
    simpa using integral_gaussian b
  rw [hg] at h0
  rw [eq_div_iff (by positivity)]
  linarith

/-- The normalised moments of order 0 to 3. -/
noncomputable def mom (b : ℝ) : ℕ → ℝ
  | 0 => 1
  | 2 => 1 / (2 * b)
  | _ => 0

theorem gauss_mom {b : ℝ} (hb : 0 < b) (n : ℕ) (hn : n < 4) :
    ∫ x : ℝ, x ^ n * exp (-b * x ^ 2) = √(π / b) * mom b n := by
  interval_cases n
  · simpa [mom] using integral_gaussian b
  · simpa [mom] using gauss_m1
  · rw [gauss_m2 hb, mom]; ring
  · simpa [mom] using gauss_m3

/-- The integral over the plane of a polynomial of degree at most 3 in each variable, about the centre
of a Gaussian. -/
theorem plane_poly {b : ℝ} (hb : 0 < b) (c : ℝ) (a : ℕ → ℕ → ℝ) :
    (Integrable fun p : ℝ × ℝ =>
      (∑ i ∈ Finset.range 4, ∑ j ∈ Finset.range 4, a i j * (p.1 - c) ^ i * p.2 ^ j) *
        exp (-b * ((p.1 - c) ^ 2 + p.2 ^ 2))) ∧
    ∫ p : ℝ × ℝ, (∑ i ∈ Finset.range 4, ∑ j ∈ Finset.range 4, a i j * (p.1 - c) ^ i * p.2 ^ j) *
        exp (-b * ((p.1 - c) ^ 2 + p.2 ^ 2)) =
      π / b * ∑ i ∈ Finset.range 4, ∑ j ∈ Finset.range 4, a i j * mom b i * mom b j := by
  have hI : ∀ i j : ℕ, Integrable fun p : ℝ × ℝ =>
      a i j * ((p.1 ^ i * exp (-b * p.1 ^ 2)) * (p.2 ^ j * exp (-b * p.2 ^ 2))) := fun i j =>
    ((pow_gauss_int hb i).mul_prod (pow_gauss_int hb j)).const_mul _
  let F : ℝ × ℝ → ℝ := fun p => ∑ i ∈ Finset.range 4, ∑ j ∈ Finset.range 4,
      a i j * ((p.1 ^ i * exp (-b * p.1 ^ 2)) * (p.2 ^ j * exp (-b * p.2 ^ 2)))
  have hF : Integrable F :=
    integrable_finset_sum _ fun i _ => integrable_finset_sum _ fun j _ => hI i j
  have he : (fun p : ℝ × ℝ =>
      (∑ i ∈ Finset.range 4, ∑ j ∈ Finset.range 4, a i j * (p.1 - c) ^ i * p.2 ^ j) *
        exp (-b * ((p.1 - c) ^ 2 + p.2 ^ 2))) = fun p => F (p - (c, 0)) := by
    funext p
    have : exp (-b * ((p.1 - c) ^ 2 + p.2 ^ 2)) =
        exp (-b * (p.1 - c) ^ 2) * exp (-b * p.2 ^ 2) := by rw [← exp_add]; ring_nf
    simp only [F, this, Finset.sum_mul, Prod.fst_sub, Prod.snd_sub, sub_zero]
    exact Finset.sum_congr rfl fun i _ => Finset.sum_congr rfl fun j _ => by ring
  rw [he]
  refine ⟨hF.comp_sub_right _, ?_⟩
  rw [integral_sub_right_eq_self F (c, (0 : ℝ))]
  simp only [F]
  rw [integral_finset_sum _ fun i _ => integrable_finset_sum _ fun j _ => hI i j]
  rw [Finset.mul_sum]
  refine Finset.sum_congr rfl fun i hi => ?_
  rw [integral_finset_sum _ fun j _ => hI i j, Finset.mul_sum]
  refine Finset.sum_congr rfl fun j hj => ?_
  have hs : √(π / b) * √(π / b) = π / b := Real.mul_self_sqrt (by positivity)
  rw [integral_const_mul, Measure.volume_eq_prod,
    integral_prod_mul (fun x : ℝ => x ^ i * exp (-b * x ^ 2))
      (fun x : ℝ => x ^ j * exp (-b * x ^ 2)),
    gauss_mom hb i (Finset.mem_range.mp hi), gauss_mom hb j (Finset.mem_range.mp hj)]
  linear_combination a i j * mom b i * mom b j * hs

/-- Integration over the rectangle of the angle from 0 to 2π and the radius from 0 to `R` is
integration over the disc. -/
theorem polar_disc (R : ℝ) (hR : 0 < R) (g : ℝ × ℝ → ℝ) :
    ∫ q in Ioo (0 : ℝ) (2 * π) ×ˢ Ioo (0 : ℝ) R, q.2 * g (q.2 * cos q.1, q.2 * sin q.1) =
      ∫ p in {p : ℝ × ℝ | p.1 * p.1 + p.2 * p.2 < R ^ 2}, g p := by
  have hS : MeasurableSet (Ioo (0 : ℝ) (2 * π) ×ˢ Ioo (0 : ℝ) R) :=
    measurableSet_Ioo.prod measurableSet_Ioo
  have hD : MeasurableSet {p : ℝ × ℝ | p.1 * p.1 + p.2 * p.2 < R ^ 2} :=
    measurableSet_lt (by fun_prop) (by fun_prop)
  have hT : MeasurableSet polarCoord.target := polarCoord.open_target.measurableSet
  rw [← integral_indicator hS, ← integral_indicator hD]
  generalize hGd : ({p : ℝ × ℝ | p.1 * p.1 + p.2 * p.2 < R ^ 2}).indicator (fun p => g p) = G
  generalize hHd : (Ioo (0 : ℝ) (2 * π) ×ˢ Ioo (0 : ℝ) R).indicator
    (fun q : ℝ × ℝ => q.2 * g (q.2 * cos q.1, q.2 * sin q.1)) = H
  rw [← integral_neg_eq_self G, ← integral_comp_polarCoord_symm (fun x => G (-x)), ← integral_indicator hT,
    ← integral_add_right_eq_self H (π, (0 : ℝ)), Measure.volume_eq_prod,
    ← integral_prod_swap]
  refine integral_congr_ae (.of_forall fun q => ?_)
  simp only [← hGd, ← hHd, polarCoord_target, polarCoord_symm_apply, indicator_apply, mem_prod,
    mem_Ioo, mem_Ioi, Prod.swap, Prod.fst_add, Prod.snd_add, add_zero, mem_setOf_eq, smul_eq_mul,
    Prod.fst_neg, Prod.snd_neg, Prod.neg_mk, cos_add_pi, sin_add_pi]
  have hr : -(q.1 * cos q.2) * -(q.1 * cos q.2) + -(q.1 * sin q.2) * -(q.1 * sin q.2) = q.1 ^ 2 := by
    have := sin_sq_add_cos_sq q.2
    linear_combination q.1 ^ 2 * this
  rw [hr]
  have h1 : (0 < q.2 + π ∧ q.2 + π < 2 * π) ↔ (-π < q.2 ∧ q.2 < π) := by
    constructor <;> rintro ⟨h1, h2⟩ <;> constructor <;> linarith
  simp only [h1]
  by_cases h0 : 0 < q.1
  · have h2 : q.1 ^ 2 < R ^ 2 ↔ q.1 < R := by
      rw [sq_lt_sq, abs_of_pos h0, abs_of_pos hR]
    simp only [h2]
    by_cases h3 : q.1 < R <;> by_cases h4 : -π < q.2 ∧ q.2 < π <;> simp [h0, h3, h4]
  · simp [h0]

end Sidis.Lemmas
