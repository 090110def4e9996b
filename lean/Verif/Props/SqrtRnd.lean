import Verif.Spec.SqrtRnd
import Mathlib.Analysis.Complex.ExponentialBounds
import Mathlib.Analysis.SpecialFunctions.Pow.Real

/-! # C112: the precision of sqrt1p_1m -/

namespace Sidis.Props

open Spec

/-- The condition number of `exp h - 1`. -/
theorem exp_condition (h : ℝ) : Real.exp h * |h| ≤ (1 + max 0 h) * |Real.exp h - 1| := by
  rcases le_total 0 h with h0 | h0
  · have h1 := Real.add_one_le_exp h
    rw [max_eq_right h0, abs_of_nonneg h0, abs_of_nonneg (by linarith)]
    nlinarith
  · have h1 := Real.add_one_le_exp (-h)
    have h2 : Real.exp h * Real.exp (-h) = 1 := by rw [← Real.exp_add]; simp
    have h3 := mul_le_mul_of_nonneg_left h1 (Real.exp_pos h).le
    have h4 : Real.exp h ≤ 1 := by simpa using Real.exp_le_exp.2 h0
    rw [max_eq_left h0, abs_of_nonpos h0, abs_of_nonpos (by linarith)]
    linarith

theorem sqrt_half (x : ℝ) (hx : -1 < x) : √(1 + x) = Real.exp (Real.log (1 + x) / 2) := by
  rw [Real.sqrt_eq_rpow, Real.rpow_def_of_pos (by linarith)]
  congr 1
  ring

theorem sqrt_error {u : ℝ} {L : Libm} (hL : Precise u L) (hu : 0 ≤ u) (hu1 : u ≤ 1 / 100) (x : ℝ) (hx : -1 < x)
    (hr : |Real.log (1 + x)| * u ≤ 1 / 2) :
    |sqrt1p1mRnd L x - (√(1 + x) - 1)| ≤
      (1 + 5 * (1 + max 0 (Real.log (1 + x) / 2))) * u * |√(1 + x) - 1| ∧
    |sqrt1p1mRnd L x - (√(1 + x) - 1)| ≤
      (1 + 4.1 * (1 + max 0 (Real.log (1 + x) / 2))) * u * |√(1 + x) - 1| := by
  suffices h : |sqrt1p1mRnd L x - (√(1 + x) - 1)| ≤
      (1 + 4.1 * (1 + max 0 (Real.log (1 + x) / 2))) * u * |√(1 + x) - 1| by
    refine ⟨h.trans ?_, h⟩
    have := abs_nonneg (√(1 + x) - 1)
    have := le_max_left 0 (Real.log (1 + x) / 2)
    gcongr
    norm_num
  rw [sqrt_half x hx]
  set h := Real.log (1 + x) / 2 with hh
  set a := L.mul (1 / 2) (L.log1p x) with ha
  have hl := hL.log1p x hx
  have hm := hL.mul (1 / 2) (L.log1p x)
  unfold Agrees at hl hm
  -- the argument of expm1
  have hlog : Real.log (1 + x) = 2 * h := by rw [hh]; ring
  rw [hlog] at hl hr
  have hl' : |1 / 2 * L.log1p x - h| ≤ u * |h| := by
    have : 1 / 2 * L.log1p x - h = 1 / 2 * (L.log1p x - 2 * h) := by ring
    rw [this, abs_mul]
    rw [abs_mul] at hl
    norm_num at hl ⊢
    linarith
  have hm' : |1 / 2 * L.log1p x| ≤ (1 + u) * |h| := by
    have := abs_sub_abs_le_abs_sub (1 / 2 * L.log1p x) h
    linarith
  have hah : |a - h| ≤ 2.01 * u * |h| := by
    have h1 : |a - h| ≤ |a - 1 / 2 * L.log1p x| + |1 / 2 * L.log1p x - h| := by
      have := abs_add_le (a - 1 / 2 * L.log1p x) (1 / 2 * L.log1p x - h)
      simpa using this
    have h2 : u * |1 / 2 * L.log1p x| ≤ u * ((1 + u) * |h|) := mul_le_mul_of_nonneg_left hm' hu
    have h3 : u * u * |h| ≤ 1 / 100 * u * |h| := by
      have := abs_nonneg h
      gcongr
    nlinarith
  have hsmall : |a - h| ≤ 1 := by
    rw [abs_mul] at hr
    norm_num at hr
    nlinarith [abs_nonneg h]
  -- the exponential
  have he := Real.abs_exp_sub_one_le hsmall
  have hcond := exp_condition h
  set s := |Real.exp h - 1| with hs
  set K := 1 + max 0 h with hK
  have hs0 : 0 ≤ s := abs_nonneg _
  have hK1 : 1 ≤ K := by rw [hK]; linarith [le_max_left 0 h]
  have hd : |Real.exp a - Real.exp h| ≤ 4.02 * K * u * s := by
    have e1 : Real.exp a - Real.exp h = Real.exp h * (Real.exp (a - h) - 1) := by
      rw [mul_sub, ← Real.exp_add]
      simp
    rw [e1, abs_mul, abs_of_pos (Real.exp_pos h)]
    have h1 := mul_le_mul_of_nonneg_left (he.trans (mul_le_mul_of_nonneg_left hah (by norm_num)))
      (Real.exp_pos h).le
    have h2 := mul_le_mul_of_nonneg_left hcond (show (0 : ℝ) ≤ 4.02 * u by positivity)
    nlinarith
  have hf := hL.expm1 a
  unfold Agrees at hf
  have ht : |Real.exp a - 1| ≤ 4.02 * K * u * s + s := by
    have := abs_add_le (Real.exp a - Real.exp h) (Real.exp h - 1)
    simp only [sub_add_sub_cancel] at this
    linarith
  have hfin : |sqrt1p1mRnd L x - (Real.exp h - 1)| ≤ u * |Real.exp a - 1| + 4.02 * K * u * s := by
    have := abs_add_le (sqrt1p1mRnd L x - (Real.exp a - 1)) (Real.exp a - Real.exp h)
    have e : sqrt1p1mRnd L x - (Real.exp a - 1) + (Real.exp a - Real.exp h) =
        sqrt1p1mRnd L x - (Real.exp h - 1) := by ring
    rw [e] at this
    have hg : |sqrt1p1mRnd L x - (Real.exp a - 1)| ≤ u * |Real.exp a - 1| := hf
    linarith
  have h5 := mul_le_mul_of_nonneg_left ht hu
  have h6 : u * (4.02 * K * u * s) ≤ 1 / 100 * (4.02 * K * u * s) := by
    have : 0 ≤ 4.02 * K * u * s := by positivity
    exact mul_le_mul_of_nonneg_right hu1 this
  have h7 : 0 ≤ K * u * s := by positivity
  have h8 : 4.02 * K * u * s * 1.01 ≤ 4.1 * K * u * s := by nlinarith
  nlinarith

/-- C112: `sqrt1p_1m` has the relative precision of the type, up to a factor 8, for every argument above -1 and
up to 3, however small, where the logarithm of `1 + x` is not of the size of the precision. -/
theorem c112_precision {u : ℝ} {L : Libm} (hL : Precise u L) (hu : 0 ≤ u) (hu1 : u ≤ 1 / 100) (x : ℝ)
    (hx : -1 < x) (hx3 : x ≤ 3) (hr : |Real.log (1 + x)| * u ≤ 1 / 2) :
    Agrees (8 * u) (sqrt1p1mRnd L x) (√(1 + x) - 1) := by
  refine (sqrt_error hL hu hu1 x hx hr).2.trans ?_
  have h4 : Real.log (1 + x) / 2 ≤ 0.6931471808 := by
    have h1 : Real.log (1 + x) ≤ Real.log 4 := Real.log_le_log (by linarith) (by linarith)
    have h2 : Real.log 4 = 2 * Real.log 2 := by
      rw [show (4 : ℝ) = 2 ^ 2 by norm_num, Real.log_pow]
      norm_num
    have := Real.log_two_lt_d9
    linarith
  have h5 : max 0 (Real.log (1 + x) / 2) ≤ 0.6931471808 := max_le (by norm_num) h4
  have := abs_nonneg (√(1 + x) - 1)
  gcongr
  linarith

/-- C112: beyond, the precision is lost with the logarithm of the argument only. -/
theorem c112_large {u : ℝ} {L : Libm} (hL : Precise u L) (hu : 0 ≤ u) (hu1 : u ≤ 1 / 100) (x : ℝ)
    (hx : 0 ≤ x) (hr : |Real.log (1 + x)| * u ≤ 1 / 2) :
    Agrees ((6 + 5 / 2 * Real.log (1 + x)) * u) (sqrt1p1mRnd L x) (√(1 + x) - 1) := by
  refine (sqrt_error hL hu hu1 x (by linarith) hr).1.trans (le_of_eq ?_)
  have h0 : 0 ≤ Real.log (1 + x) := Real.log_nonneg (by linarith)
  rw [max_eq_right (by linarith)]
  ring

/-- No such precision can be had from `sqrt(1 + x) - 1` computed as written: as soon as `1 + x` is rounded
to 1, the result is 0, which is wrong by all of its value. -/
theorem sqrt_naive (rnd : ℝ → ℝ) (x : ℝ) (hx : -1 < x) (hx0 : x ≠ 0) (h : rnd (1 + x) = 1) (err : ℝ)
    (he : Agrees err (√(rnd (1 + x)) - 1) (√(1 + x) - 1)) : 1 ≤ err := by
  unfold Agrees at he
  rw [h] at he
  simp only [Real.sqrt_one, sub_self, zero_sub, abs_neg] at he
  have : 0 < |√(1 + x) - 1| := by
    rw [abs_pos]
    intro e
    apply hx0
    have e1 : √(1 + x) = 1 := by linarith
    have := Real.sq_sqrt (show 0 ≤ 1 + x by linarith)
    rw [e1] at this
    linarith
  by_contra hlt
  push Not at hlt
  nlinarith

-- Hypotheses of `c112_precision` and `c112_large`: operations that are wrong by a relative error of 1/1000, and an
-- argument of 1/10^9.
example : ∃ L : Libm, Precise (1 / 1000) L ∧ (∀ x, L.expm1 x = 1001 / 1000 * (Real.exp x - 1)) ∧
    |Real.log (1 + 1 / 10 ^ 9)| * (1 / 1000) ≤ 1 / 2 := by
  refine ⟨⟨fun x => 1001 / 1000 * (Real.exp x - 1), fun x => 999 / 1000 * Real.log (1 + x), fun x y => x * y⟩,
    ⟨fun x => ?_, fun x _ => ?_, fun x y => ?_⟩, fun _ => rfl, ?_⟩
  · show |1001 / 1000 * (Real.exp x - 1) - (Real.exp x - 1)| ≤ _
    rw [show 1001 / 1000 * (Real.exp x - 1) - (Real.exp x - 1) = 1 / 1000 * (Real.exp x - 1) by ring, abs_mul]
    norm_num
  · show |999 / 1000 * Real.log (1 + x) - Real.log (1 + x)| ≤ _
    rw [show 999 / 1000 * Real.log (1 + x) - Real.log (1 + x) = -(1 / 1000 * Real.log (1 + x)) by ring, abs_neg,
      abs_mul]
    norm_num
  · show |x * y - x * y| ≤ _
    rw [sub_self, abs_zero]
    positivity
  · have h1 := Real.log_le_sub_one_of_pos (show (0 : ℝ) < 1 + 1 / 10 ^ 9 by norm_num)
    have h0 := Real.log_nonneg (show (1 : ℝ) ≤ 1 + 1 / 10 ^ 9 by norm_num)
    rw [abs_of_nonneg h0]
    linarith

-- Hypotheses of `sqrt_naive`: rounding to the integers.
example : ∃ (rnd : ℝ → ℝ) (x : ℝ), -1 < x ∧ x ≠ 0 ∧ rnd (1 + x) = 1 :=
  ⟨fun x => ⌊x⌋, 1 / 4, by norm_num, by norm_num, by
    have : ⌊(1 : ℝ) + 1 / 4⌋ = 1 := by rw [Int.floor_eq_iff]; norm_num
    show ((⌊(1 : ℝ) + 1 / 4⌋ : ℤ) : ℝ) = 1
    rw [this]
    norm_num⟩

end Sidis.Props
