import Verif.Model.BoundRnd
import Verif.Lemmas.Interp
import Mathlib.Data.Int.Log
import Mathlib.Algebra.Order.Round

/-! # Interpolation inside a bound in double precision: C97

`Spec.Flt` are the numbers with a significand of 53 bits, `Spec.Nearest` the roundings to nearest. -/

namespace Sidis.Props

open Spec Interp

/-- A number of `Flt` that is at least `2^k` is a multiple of the spacing there. -/
theorem flt_multiple {x : ℝ} (hx : x ∈ Flt) {k : ℤ} (h : (2 : ℝ) ^ k ≤ x) :
    ∃ n : ℤ, x = n * (2 : ℝ) ^ (k - 52) := by
  obtain ⟨m, e, hm, rfl⟩ := hx
  have h2 : (0 : ℝ) < 2 := by norm_num
  have hm' : ((|m| : ℤ) : ℝ) < (2 : ℝ) ^ (53 : ℤ) := by exact_mod_cast hm
  have hlt : (2 : ℝ) ^ k < (2 : ℝ) ^ (53 + e) := by
    rw [zpow_add₀ h2.ne']
    refine lt_of_le_of_lt h ?_
    refine lt_of_le_of_lt (mul_le_mul_of_nonneg_right (le_abs_self (m : ℝ)) (by positivity)) ?_
    refine mul_lt_mul_of_pos_right ?_ (by positivity)
    rw [← Int.cast_abs]; exact hm'
  have hk : k < 53 + e := (zpow_lt_zpow_iff_right₀ (by norm_num)).mp hlt
  obtain ⟨j, hj⟩ := Int.eq_ofNat_of_zero_le (show 0 ≤ e - (k - 52) by omega)
  refine ⟨m * 2 ^ j, ?_⟩
  have : e = (j : ℤ) + (k - 52) := by omega
  rw [this, zpow_add₀ h2.ne', zpow_natCast]
  push_cast; ring

/-- Rounding to nearest changes a number by at most half a unit in the last place. -/
theorem rnd_error {rnd : ℝ → ℝ} (h : Nearest rnd) (y : ℝ) : |rnd y - y| ≤ 2 ^ (-53 : ℤ) * |y| := by
  rcases eq_or_ne y 0 with rfl | hy
  · rw [Nearest.fix h flt_zero]; simp
  have h2 : (0 : ℝ) < 2 := by norm_num
  have hpos : 0 < |y| := abs_pos.mpr hy
  set e := Int.log 2 |y|
  have h1 : (2 : ℝ) ^ e ≤ |y| := by exact_mod_cast Int.zpow_log_le_self (b := 2) (by norm_num) hpos
  have h3 : |y| < (2 : ℝ) ^ (e + 1) := by
    exact_mod_cast Int.lt_zpow_succ_log_self (b := 2) (by norm_num) |y|
  set c := (2 : ℝ) ^ (e - 52)
  have hc : 0 < c := by positivity
  set m := round (y / c)
  have hr := abs_sub_round (y / c)
  have hz : |m * c - y| ≤ 1 / 2 * c := by
    have : (m : ℝ) * c - y = -(y / c - m) * c := by field_simp; ring
    rw [this, abs_mul, abs_neg, abs_of_pos hc]
    exact mul_le_mul_of_nonneg_right hr hc.le
  have hce : c = (2 : ℝ) ^ (-52 : ℤ) * 2 ^ e := by rw [← zpow_add₀ h2.ne', neg_add_eq_sub]
  have hc53 : (2 : ℝ) ^ 53 * c = 2 ^ (e + 1) := by
    rw [show (2 : ℝ) ^ 53 = (2 : ℝ) ^ (53 : ℤ) by norm_cast, ← zpow_add₀ h2.ne']
    congr 1; ring
  have hmem : (m : ℝ) * c ∈ Flt := by
    have hm : |m| ≤ 2 ^ 53 := by
      have hy' : |y / c| < 2 ^ 53 := by
        rw [abs_div, abs_of_pos hc, div_lt_iff₀ hc]
        refine lt_of_lt_of_eq h3 ?_
        rw [show (2 : ℝ) ^ 53 = (2 : ℝ) ^ (53 : ℤ) by norm_cast, ← zpow_add₀ h2.ne']
        congr 1; ring
      have hb : |(m : ℝ)| < 2 ^ 53 + 1 := by
        have := abs_sub_abs_le_abs_sub (m : ℝ) (y / c)
        rw [abs_sub_comm] at this
        linarith
      have : ((|m| : ℤ) : ℝ) < ((2 ^ 53 + 1 : ℤ) : ℝ) := by push_cast; norm_num at hb ⊢; exact hb
      have := Int.cast_lt.mp this
      omega
    rcases lt_or_eq_of_le hm with hm | hm
    · exact ⟨m, e - 52, hm, rfl⟩
    · rcases abs_eq (by norm_num) |>.mp hm with h' | h'
      · refine ⟨1, e + 1, by norm_num, ?_⟩
        rw [h', Int.cast_pow, Int.cast_ofNat, Int.cast_one, hc53, one_mul]
      · refine ⟨-1, e + 1, by norm_num, ?_⟩
        rw [h', Int.cast_neg, Int.cast_pow, Int.cast_ofNat, Int.cast_neg, Int.cast_one, neg_mul, hc53,
          neg_mul, one_mul]
  refine ((h y).2 _ hmem).trans (hz.trans ?_)
  have : (1 : ℝ) / 2 * c = 2 ^ (-53 : ℤ) * 2 ^ e := by
    rw [hce, show (-53 : ℤ) = -1 + -52 by norm_num, zpow_add₀ h2.ne']; norm_num; ring
  rw [this]
  exact mul_le_mul_of_nonneg_left h1 (by positivity)

/-- The value of the interpolation as a number. -/
theorem lerpRnd_fin (rnd : ℝ → ℝ) (lo hi t : ℝ) :
    (⟨.fin lo, .fin hi⟩ : Bound).lerpRnd rnd (.fin t) =
      .fin (rnd (rnd (rnd (1 - t) * lo) + rnd (t * hi))) := by
  simp [Bound.lerpRnd, Interp.rd]

/-- C97. In double precision interpolation reproduces both ends of a bound. -/
theorem c97_ends {rnd : ℝ → ℝ} (h : Nearest rnd) {lo hi : ℝ} (hl : lo ∈ Flt) (hh : hi ∈ Flt) :
    (⟨.fin lo, .fin hi⟩ : Bound).lerpRnd rnd (.fin 0) = .fin lo ∧
    (⟨.fin lo, .fin hi⟩ : Bound).lerpRnd rnd (.fin 1) = .fin hi := by
  have h1 : (1 : ℝ) ∈ Flt := ⟨1, 0, by norm_num, by simp⟩
  constructor
  · simp [lerpRnd_fin, Nearest.fix h h1, Nearest.fix h hl, Nearest.fix h flt_zero]
  · simp [lerpRnd_fin, Nearest.fix h hh, Nearest.fix h flt_zero]

/-- C97. In a bound that contains zero the interpolated value never leaves the bound. -/
theorem c97_around_zero {rnd : ℝ → ℝ} (h : Nearest rnd) {lo hi t : ℝ} (hl : lo ∈ Flt)
    (hh : hi ∈ Flt) (h0 : lo ≤ 0) (h1 : 0 ≤ hi) (ht0 : 0 ≤ t) (ht1 : t ≤ 1) :
    (⟨.fin lo, .fin hi⟩ : Bound).contains
      ((⟨.fin lo, .fin hi⟩ : Bound).lerpRnd rnd (.fin t)) := by
  have hone : (1 : ℝ) ∈ Flt := ⟨1, 0, by norm_num, by simp⟩
  have hz := Nearest.fix h flt_zero
  have a0 : 0 ≤ rnd (1 - t) := by rw [← hz]; exact Nearest.mono h (by linarith)
  have a1 : rnd (1 - t) ≤ 1 := by
    conv_rhs => rw [← Nearest.fix h hone]
    exact Nearest.mono h (by linarith)
  have b0 : rnd (rnd (1 - t) * lo) ≤ 0 := by
    conv_rhs => rw [← hz]
    exact Nearest.mono h (mul_nonpos_of_nonneg_of_nonpos a0 h0)
  have b1 : lo ≤ rnd (rnd (1 - t) * lo) := by
    conv_lhs => rw [← Nearest.fix h hl]
    exact Nearest.mono h (by nlinarith)
  have c0 : 0 ≤ rnd (t * hi) := by
    conv_lhs => rw [← hz]
    exact Nearest.mono h (mul_nonneg ht0 h1)
  have c1 : rnd (t * hi) ≤ hi := by
    conv_rhs => rw [← Nearest.fix h hh]
    exact Nearest.mono h (by nlinarith)
  rw [lerpRnd_fin]
  refine ⟨?_, ?_⟩
  · change lo ≤ _
    conv_lhs => rw [← Nearest.fix h hl]
    exact Nearest.mono h (by linarith)
  · change _ ≤ hi
    conv_rhs => rw [← Nearest.fix h hh]
    exact Nearest.mono h (by linarith)

/-- C97. The interpolated value is within four half-units of the exact one, relative to the larger end. -/
theorem c97_close {rnd : ℝ → ℝ} (h : Nearest rnd) (lo hi t : ℝ) (ht0 : 0 ≤ t) (ht1 : t ≤ 1) :
    ∃ v, (⟨.fin lo, .fin hi⟩ : Bound).lerpRnd rnd (.fin t) = .fin v ∧
      |v - ((1 - t) * lo + t * hi)| ≤ 2 ^ (-51 : ℤ) * max |lo| |hi| := by
  refine ⟨_, lerpRnd_fin rnd lo hi t, ?_⟩
  set M := max |lo| |hi|
  have hM0 : 0 ≤ M := le_max_of_le_left (abs_nonneg lo)
  have hlo : |lo| ≤ M := le_max_left _ _
  have hhi : |hi| ≤ M := le_max_right _ _
  set ε : ℝ := 2 ^ (-53 : ℤ) with hε
  have hε0 : 0 < ε := by positivity
  have hε1 : ε ≤ 1 / 1000 := by rw [hε]; norm_num
  have e4 : (2 : ℝ) ^ (-51 : ℤ) = 4 * ε := by rw [hε]; norm_num
  set A := rnd (1 - t)
  set B := rnd (A * lo)
  set C := rnd (t * hi)
  set D := rnd (B + C)
  have hA : |A - (1 - t)| ≤ ε * (1 - t) := by
    have := rnd_error h (1 - t); rwa [abs_of_nonneg (show 0 ≤ 1 - t by linarith)] at this
  have hB : |B - A * lo| ≤ ε * |A * lo| := rnd_error h _
  have hC : |C - t * hi| ≤ ε * |t * hi| := rnd_error h _
  have hD : |D - (B + C)| ≤ ε * |B + C| := rnd_error h _
  have hA1 : |A| ≤ (1 + ε) * (1 - t) := by
    have := abs_add_le (A - (1 - t)) (1 - t)
    rw [sub_add_cancel, abs_of_nonneg (show 0 ≤ 1 - t by linarith)] at this
    linarith
  have hAlo : |A * lo| ≤ (1 + ε) * (1 - t) * M := by
    rw [abs_mul]; exact mul_le_mul hA1 hlo (abs_nonneg _) (by nlinarith)
  have hthi : |t * hi| ≤ t * M := by
    rw [abs_mul, abs_of_nonneg ht0]; exact mul_le_mul_of_nonneg_left hhi ht0
  have hBe : |B - (1 - t) * lo| ≤ (2 * ε + ε ^ 2) * (1 - t) * M := by
    have h1 : |A * lo - (1 - t) * lo| ≤ ε * (1 - t) * M := by
      rw [← sub_mul, abs_mul]
      exact mul_le_mul hA hlo (abs_nonneg _) (by nlinarith)
    have h2 := abs_sub_le B (A * lo) ((1 - t) * lo)
    have h3 : ε * |A * lo| ≤ ε * ((1 + ε) * (1 - t) * M) := mul_le_mul_of_nonneg_left hAlo hε0.le
    nlinarith
  have hCe : |C - t * hi| ≤ ε * t * M := by
    have := mul_le_mul_of_nonneg_left hthi hε0.le
    linarith
  have hX : |(1 - t) * lo + t * hi| ≤ M := by
    refine (abs_add_le _ _).trans ?_
    rw [abs_mul, abs_mul, abs_of_nonneg ht0, abs_of_nonneg (show 0 ≤ 1 - t by linarith)]
    nlinarith
  have hS : |B + C - ((1 - t) * lo + t * hi)| ≤ (2 * ε + ε ^ 2) * M := by
    have : B + C - ((1 - t) * lo + t * hi) = (B - (1 - t) * lo) + (C - t * hi) := by ring
    rw [this]
    refine (abs_add_le _ _).trans ?_
    have : ε * t * M ≤ (2 * ε + ε ^ 2) * t * M := by
      have : 0 ≤ t * M := mul_nonneg ht0 hM0
      nlinarith
    nlinarith
  have hBC : |B + C| ≤ (1 + 2 * ε + ε ^ 2) * M := by
    have := abs_add_le (B + C - ((1 - t) * lo + t * hi)) ((1 - t) * lo + t * hi)
    rw [sub_add_cancel] at this
    linarith
  have hfin := abs_sub_le D (B + C) ((1 - t) * lo + t * hi)
  have hlast : ε * |B + C| ≤ ε * ((1 + 2 * ε + ε ^ 2) * M) := mul_le_mul_of_nonneg_left hBC hε0.le
  rw [e4]
  have hp : (3 * ε + 3 * ε ^ 2 + ε ^ 3) * M ≤ 4 * ε * M := by
    refine mul_le_mul_of_nonneg_right ?_ hM0
    have key : ∀ x : ℝ, 0 < x → x ≤ 1 / 1000 → 3 * x + 3 * x ^ 2 + x ^ 3 ≤ 4 * x := by
      intro x x0 x1
      have p2 : x ^ 2 ≤ x / 1000 := by nlinarith
      have p3 : x ^ 3 ≤ x / 1000 := by nlinarith
      linarith
    exact key ε hε0 hε1
  nlinarith

/-- C97 (refuted). Interpolation can leave the bound: with the bound from `1 + 2^-52` to `1 + 2^-51` and
the random number `3 * 2^-55` the result is 1, whatever the rule for ties. -/
theorem c97_contained_refuted : ∃ lo hi t : ℝ, lo ∈ Flt ∧ hi ∈ Flt ∧ t ∈ Flt ∧ lo < hi ∧ 0 < t ∧ t < 1 ∧
    ∀ rnd, Nearest rnd → ¬ (⟨.fin lo, .fin hi⟩ : Bound).contains
      ((⟨.fin lo, .fin hi⟩ : Bound).lerpRnd rnd (.fin t)) := by
  refine ⟨1 + 1 / 2 ^ 52, 1 + 1 / 2 ^ 51, 3 / 2 ^ 55, ⟨2 ^ 52 + 1, -52, by norm_num, by norm_num⟩,
    ⟨2 ^ 51 + 1, -51, by norm_num, by norm_num⟩, ⟨3, -55, by norm_num, by norm_num⟩, by norm_num,
    by norm_num, by norm_num, fun rnd h hc => ?_⟩
  have h1 : (1 : ℝ) ∈ Flt := ⟨1, 0, by norm_num, by simp⟩
  -- the difference from one
  have hA : rnd (1 - 3 / 2 ^ 55) = 1 - 1 / 2 ^ 53 := by
    have hmem : (1 - 1 / 2 ^ 53 : ℝ) ∈ Flt := ⟨2 ^ 53 - 1, -53, by norm_num, by norm_num⟩
    have hd := (h (1 - 3 / 2 ^ 55)).2 _ hmem
    rw [show |(1 - 1 / 2 ^ 53 : ℝ) - (1 - 3 / 2 ^ 55)| = 1 / 2 ^ 55 by
      rw [abs_of_neg (by norm_num)]; norm_num] at hd
    obtain ⟨d1, d2⟩ := abs_le.mp hd
    obtain ⟨n, hn⟩ := flt_multiple (h (1 - 3 / 2 ^ 55)).1 (k := -1)
      (by rw [show (2 : ℝ) ^ (-1 : ℤ) = 1 / 2 by norm_num]; norm_num at d1 ⊢; linarith)
    rw [show (2 : ℝ) ^ (-1 - 52 : ℤ) = 1 / 2 ^ 53 by norm_num] at hn
    rw [hn] at d1 d2 ⊢
    have l1 : (2 ^ 53 - 2 : ℝ) < n := by norm_num at d1 d2 ⊢; linarith
    have l2 : (n : ℝ) < 2 ^ 53 := by norm_num at d1 d2 ⊢; linarith
    have : n = 2 ^ 53 - 1 := by
      have l1' : (2 ^ 53 - 2 : ℤ) < n := by exact_mod_cast l1
      have l2' : n < (2 ^ 53 : ℤ) := by exact_mod_cast l2
      omega
    rw [this]; norm_num
  have one_of : ∀ y : ℝ, 1 ≤ y → y < 1 + 1 / 2 ^ 53 → rnd y = 1 := by
    intro y y1 y2
    have hd := (h y).2 1 h1
    rw [abs_of_nonpos (show 1 - y ≤ 0 by linarith)] at hd
    obtain ⟨d1, d2⟩ := abs_le.mp hd
    obtain ⟨n, hn⟩ := flt_multiple (h y).1 (k := 0) (by simp; linarith)
    rw [show (2 : ℝ) ^ (0 - 52 : ℤ) = 1 / 2 ^ 52 by norm_num] at hn
    rw [hn] at d1 d2 ⊢
    have l1 : (2 ^ 52 - 1 : ℝ) < n := by norm_num at d1 d2 y2 ⊢; linarith
    have l2 : (n : ℝ) < 2 ^ 52 + 1 := by norm_num at d1 d2 y2 ⊢; linarith
    have : n = 2 ^ 52 := by
      have l1' : (2 ^ 52 - 1 : ℤ) < n := by exact_mod_cast l1
      have l2' : n < (2 ^ 52 + 1 : ℤ) := by exact_mod_cast l2
      omega
    rw [this]; norm_num
  have hC : rnd (3 / 2 ^ 55 * (1 + 1 / 2 ^ 51)) = 3 / 2 ^ 55 * (1 + 1 / 2 ^ 51) :=
    Nearest.fix h ⟨3 * (2 ^ 51 + 1), -106, by norm_num, by norm_num⟩
  have hB : rnd ((1 - 1 / 2 ^ 53) * (1 + 1 / 2 ^ 52)) = 1 := one_of _ (by norm_num) (by norm_num)
  rw [lerpRnd_fin, hA, hB, hC, one_of _ (by norm_num) (by norm_num)] at hc
  have := hc.1
  change (1 + 1 / 2 ^ 52 : ℝ) ≤ 1 at this
  norm_num at this

/-- The bounds of the angles contain zero; the hypotheses of the theorems above are met. -/
example : ∃ rnd, Nearest rnd ∧ (-3 : ℝ) ∈ Flt ∧ (3 : ℝ) ∈ Flt ∧ (-3 : ℝ) ≤ 0 ∧ (0 : ℝ) ≤ 3 ∧
    (0 : ℝ) ≤ 1 / 5 ∧ (1 / 5 : ℝ) ≤ 1 := by
  obtain ⟨rnd, h⟩ := exists_nearest
  exact ⟨rnd, h, ⟨-3, 0, by norm_num, by norm_num⟩, ⟨3, 0, by norm_num, by norm_num⟩, by norm_num⟩

end Sidis.Props
