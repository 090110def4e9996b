import Verif.Lemmas.Dilog

/-! # C90: the dilogarithm -/

namespace Sidis.Props

open Sidis.Spec Sidis.Lemmas

theorem dilogImpl_error {d : ℕ} (hd : d = 24 ∨ d = 53 ∨ d = 64) (x : ℝ) :
    |dilogImpl d x - Li2 x| ≤ 2⁻¹ ^ d * |Li2 (dilogReduce x).2.2| := by
  obtain ⟨h1, h2, h3⟩ := dilogReduce_spec x
  rw [h3, dilogImpl]
  dsimp only
  rw [add_sub_add_right_eq_sub, ← mul_sub, abs_mul, h2, one_mul]
  exact truncated hd h1

/-- **C90.** For every finite argument, `dilog` is the real part of the dilogarithm up to an error below
the precision of its type: half a unit in the last place of 1. -/
theorem c90_error (x : ℝ) :
    |dilogF x - Li2 x| ≤ 5 / 8 * 2⁻¹ ^ 24 ∧ |dilogR x - Li2 x| ≤ 5 / 8 * 2⁻¹ ^ 53 ∧
      |dilogL x - Li2 x| ≤ 5 / 8 * 2⁻¹ ^ 64 := by
  have key : ∀ d : ℕ, d = 24 ∨ d = 53 ∨ d = 64 → |dilogImpl d x - Li2 x| ≤ 5 / 8 * 2⁻¹ ^ d := by
    intro d hd
    refine (dilogImpl_error hd x).trans ?_
    rw [mul_comm]
    exact mul_le_mul_of_nonneg_right (Li2_upper (dilogReduce_spec x).1) (by positivity)
  exact ⟨key 24 (by simp), key 53 (by simp), key 64 (by simp)⟩

/-- **C90.** Where the series is used directly, the error is small relative to the value: the number of
terms, which the source says was found by experiment, is enough. -/
theorem c90_relative (x : ℝ) (hx : -1 / 2 < x) (hx' : x ≤ 1 / 2) :
    |dilogF x - Li2 x| ≤ 2⁻¹ ^ 24 * |Li2 x| ∧ |dilogR x - Li2 x| ≤ 2⁻¹ ^ 53 * |Li2 x| ∧
      |dilogL x - Li2 x| ≤ 2⁻¹ ^ 64 * |Li2 x| := by
  have e : (dilogReduce x).2.2 = x := by
    simp only [dilogReduce]
    rw [if_neg (by linarith), if_neg (by linarith), if_neg (by linarith), if_pos hx]
  have key : ∀ d : ℕ, d = 24 ∨ d = 53 ∨ d = 64 → |dilogImpl d x - Li2 x| ≤ 2⁻¹ ^ d * |Li2 x| := by
    intro d hd
    have := dilogImpl_error hd x
    rwa [e] at this
  exact ⟨key 24 (by simp), key 53 (by simp), key 64 (by simp)⟩

/-- **C90.** The arguments to which the series is applied: between -1/2 and 1/2, whatever the argument. -/
theorem c90_reduction (x : ℝ) : |(dilogReduce x).2.2| ≤ 1 / 2 := (dilogReduce_spec x).1

theorem Li2_nonneg {x : ℝ} (h0 : 0 ≤ x) (h1 : x ≤ 1) : 0 ≤ Li2 x := by
  rw [Li2_eq]
  refine intervalIntegral.integral_nonneg h0 fun t ht => ?_
  unfold li2'
  split_ifs
  · norm_num
  · rw [neg_nonneg]
    exact div_nonpos_of_nonpos_of_nonneg (Real.log_nonpos (by linarith [ht.2]) (by linarith [ht.1])) ht.1

/-- **C90.** Infinite arguments give the limit, minus infinity on both sides; NaN gives NaN, finite
arguments give numbers. -/
theorem c90_special : dilogFl .pinf = .ninf ∧ dilogFl .ninf = .ninf ∧ dilogFl .nan = .nan ∧
    (∀ x, dilogFl (.fin x) = .fin (dilogR x)) ∧
    Filter.Tendsto Li2 Filter.atTop Filter.atBot ∧ Filter.Tendsto Li2 Filter.atBot Filter.atBot := by
  refine ⟨rfl, rfl, rfl, fun _ => rfl, ?_, ?_⟩
  · have h : Filter.Tendsto (fun x => Real.pi ^ 2 / 3 - 1 / 2 * Real.log x ^ 2) Filter.atTop Filter.atBot := by
      have h1 := (Filter.tendsto_pow_atTop (α := ℝ) (n := 2) (by norm_num)).comp Real.tendsto_log_atTop
      have h2 := Filter.Tendsto.const_mul_atTop (show (0 : ℝ) < 1 / 2 by norm_num) h1
      have h3 := Filter.tendsto_atBot_add_const_left _ (Real.pi ^ 2 / 3) (Filter.tendsto_neg_atTop_atBot.comp h2)
      exact h3.congr fun x => by simp [sub_eq_add_neg]
    refine Filter.tendsto_atBot_mono' _ ?_ h
    filter_upwards [Filter.eventually_ge_atTop (1 : ℝ)] with x hx
    rw [Li2_inv hx]
    have : 0 ≤ Li2 (1 / x) := Li2_nonneg (by positivity) (by rw [div_le_one (by linarith)]; exact hx)
    linarith
  · have h : Filter.Tendsto (fun x => -(1 / 2 * Real.log (1 - x) ^ 2)) Filter.atBot Filter.atBot := by
      have h0 : Filter.Tendsto (fun x : ℝ => 1 - x) Filter.atBot Filter.atTop := by
        have := Filter.tendsto_atTop_add_const_left _ (1 : ℝ) (Filter.tendsto_neg_atBot_atTop (G := ℝ))
        exact this.congr fun x => by ring
      have h1 := (Filter.tendsto_pow_atTop (α := ℝ) (n := 2) (by norm_num)).comp
        (Real.tendsto_log_atTop.comp h0)
      have h2 := Filter.Tendsto.const_mul_atTop (show (0 : ℝ) < 1 / 2 by norm_num) h1
      exact Filter.tendsto_neg_atTop_atBot.comp h2
    refine Filter.tendsto_atBot_mono' _ ?_ h
    filter_upwards [Filter.eventually_le_atBot (0 : ℝ)] with x hx
    rw [Li2_landen hx]
    have e : x / (x - 1) = -x / (1 - x) := by
      rw [← neg_div_neg_eq]
      congr 1
      ring
    have : 0 ≤ Li2 (x / (x - 1)) := by
      rw [e]
      exact Li2_nonneg (div_nonneg (by linarith) (by linarith)) (by
        rw [div_le_one (by linarith)]; linarith)
    linarith

-- the function itself: Li2(1) = π²/6, Li2(0) = 0, and it is not constant in between
example : Li2 1 = Real.pi ^ 2 / 6 ∧ Li2 0 = 0 ∧ 0 < |Li2 (1 / 4)| :=
  ⟨Li2_one, Li2_zero, lt_of_lt_of_le (by rw [abs_of_pos] <;> norm_num)
    (Li2_lower (y := 1 / 4) (by rw [abs_of_pos] <;> norm_num))⟩

/-- C90: the products of logarithms used by the reduction, in all of their branches. -/
theorem c90_logs (x : ℝ) : logLog1m x = Real.log |x| * Real.log |1 - x| := by
  rw [Real.log_abs, Real.log_abs]
  unfold logLog1m
  split_ifs with h1 h2 h3 h4
  · rw [← Real.log_neg_eq_log (x - 1), neg_sub]
  · rw [h2]; simp
  · rw [add_sub_cancel]
  · rw [← sub_eq_add_neg]
  · rw [Real.log_neg_eq_log, ← sub_eq_add_neg]

example : logLog1m (1 / 4) = Real.log |1 / 4| * Real.log |1 - 1 / 4| := c90_logs _

end Sidis.Props
