import Verif.Spec.Interp
import Mathlib.Data.Nat.Log
import Mathlib.Data.Int.Log
import Mathlib.Algebra.Order.Round
import Mathlib.Tactic.Positivity
import Mathlib.Tactic.Ring
import Mathlib.Tactic.FieldSimp
import Mathlib.Algebra.Order.Archimedean.Basic
import Mathlib.Tactic.LinearCombination
import Mathlib.Algebra.Order.Field.Power

/-! # Lemmas on rounding and grid interpolation -/

namespace Sidis.Interp

open Spec

/-! ## Rounding -/

theorem flt_natCast {n : ℕ} (h : n < 2 ^ 53) : (n : ℝ) ∈ Flt :=
  ⟨n, 0, by rw [abs_of_nonneg (by positivity)]; exact_mod_cast h, by simp⟩

theorem flt_zero : (0 : ℝ) ∈ Flt := by simpa using flt_natCast (n := 0) (by norm_num)

theorem Nearest.fix {rnd : ℝ → ℝ} (h : Nearest rnd) {y : ℝ} (hy : y ∈ Flt) : rnd y = y := by
  have := (h y).2 y hy
  simpa [sub_eq_zero] using this

theorem Nearest.mono {rnd : ℝ → ℝ} (h : Nearest rnd) {y z : ℝ} (hy : y ≤ z) : rnd y ≤ rnd z := by
  rcases hy.lt_or_eq with hlt | rfl
  · by_contra hc
    push Not at hc
    have h1 := (h y).2 _ (h z).1
    have h2 := (h z).2 _ (h y).1
    rw [← sq_le_sq] at h1 h2
    have a1 : rnd y + rnd z ≤ 2 * y := by nlinarith
    have a2 : 2 * z ≤ rnd y + rnd z := by nlinarith
    linarith
  · exact le_rfl

theorem Nearest.neg_of_neg {rnd : ℝ → ℝ} (h : Nearest rnd) {y : ℝ} (hy : y < 0) : rnd y < 0 := by
  obtain ⟨n, hn⟩ := exists_pow_lt_of_lt_one (neg_pos.2 hy) (by norm_num : (1 / 2 : ℝ) < 1)
  have hz : (-(1 / 2 : ℝ) ^ n) ∈ Flt := ⟨-1, -n, by norm_num, by simp⟩
  have h1 := (h y).2 _ hz
  have hp : (0 : ℝ) < (1 / 2) ^ n := by positivity
  rw [abs_of_nonneg (by linarith : (0 : ℝ) ≤ -(1 / 2) ^ n - y)] at h1
  have := le_abs_self (rnd y - y)
  linarith

/-- The quotient of two different doubles in ascending order is at most `1 - 2^-53`. -/
theorem flt_div_le {a b : ℝ} (ha : a ∈ Flt) (hb : b ∈ Flt) (h0 : 0 ≤ a) (hab : a < b) :
    a / b ≤ 1 - (2 : ℝ) ^ (-53 : ℤ) := by
  have hb0 : 0 < b := lt_of_le_of_lt h0 hab
  obtain ⟨m', e', hm', rfl⟩ := ha
  obtain ⟨m, e, hm, rfl⟩ := hb
  have p (k : ℤ) : (0 : ℝ) < (2 : ℝ) ^ k := by positivity
  have hmR : (m : ℝ) < 2 ^ 53 := by
    have : m < 2 ^ 53 := lt_of_le_of_lt (le_abs_self _) hm
    exact_mod_cast this
  have hmR' : (m' : ℝ) ≤ 2 ^ 53 - 1 := by
    have : m' < 2 ^ 53 := lt_of_le_of_lt (le_abs_self _) hm'
    have : m' ≤ 2 ^ 53 - 1 := by omega
    exact_mod_cast this
  have e53 : (2 : ℝ) ^ (-53 : ℤ) * 2 ^ 53 = 1 := by norm_num
  rw [div_le_iff₀ hb0]
  rcases le_or_gt e e' with h | h
  · -- both are multiples of `2^e`
    obtain ⟨k, rfl⟩ := Int.le.dest h
    have e1 : (2 : ℝ) ^ (e + (k : ℤ)) = 2 ^ e * 2 ^ k := by
      rw [zpow_add₀ (by norm_num), zpow_natCast]
    rw [e1] at hab ⊢
    have h2 : ((m' * 2 ^ k : ℤ) : ℝ) < m := by
      have : (m' : ℝ) * 2 ^ k * 2 ^ e < m * 2 ^ e := by linarith
      have := lt_of_mul_lt_mul_right this (p e).le
      push_cast
      exact this
    have h3 : (m' * 2 ^ k : ℤ) + 1 ≤ m := by exact_mod_cast h2
    have h4 : (m' : ℝ) * 2 ^ k + 1 ≤ m := by exact_mod_cast h3
    have h5 : (2 : ℝ) ^ (-53 : ℤ) * m ≤ 1 := by
      rw [← e53]
      exact mul_le_mul_of_nonneg_left hmR.le (p _).le
    have h6 : (m' : ℝ) * 2 ^ k ≤ (1 - 2 ^ (-53 : ℤ)) * m := by linarith
    have := mul_le_mul_of_nonneg_right h6 (p e).le
    linarith
  · obtain ⟨k, rfl⟩ := Int.le.dest h.le
    have e1 : (2 : ℝ) ^ (e' + (k : ℤ)) = 2 ^ e' * 2 ^ k := by
      rw [zpow_add₀ (by norm_num), zpow_natCast]
    rw [e1] at hab hb0 ⊢
    have h2 : (m' : ℝ) < ((m * 2 ^ k : ℤ) : ℝ) := by
      have : (m' : ℝ) * 2 ^ e' < m * 2 ^ k * 2 ^ e' := by linarith
      have := lt_of_mul_lt_mul_right this (p e').le
      push_cast
      exact this
    have h3 : m' + 1 ≤ m * 2 ^ k := by exact_mod_cast h2
    have h4 : (m' : ℝ) + 1 ≤ m * 2 ^ k := by exact_mod_cast h3
    set B : ℝ := m * 2 ^ k with hB
    have h6 : (m' : ℝ) ≤ (1 - 2 ^ (-53 : ℤ)) * B := by
      rcases le_or_gt (2 ^ 53) B with hB' | hB'
      · have : (1 - (2 : ℝ) ^ (-53 : ℤ)) * 2 ^ 53 ≤ (1 - 2 ^ (-53 : ℤ)) * B :=
          mul_le_mul_of_nonneg_left hB' (by norm_num)
        have h7 : (1 - (2 : ℝ) ^ (-53 : ℤ)) * 2 ^ 53 = 2 ^ 53 - 1 := by rw [sub_mul, e53]; ring
        linarith
      · have : (2 : ℝ) ^ (-53 : ℤ) * B ≤ 1 := by
          rw [← e53]
          exact mul_le_mul_of_nonneg_left hB'.le (p _).le
        linarith
    have := mul_le_mul_of_nonneg_right h6 (p e').le
    have e2 : (m : ℝ) * (2 ^ e' * 2 ^ k) = B * 2 ^ e' := by rw [hB]; ring
    rw [e2]
    linarith

/-- A product that is smaller than `n` by a relative `2^-53` is rounded below `n`. -/
theorem Nearest.lt_of_le {rnd : ℝ → ℝ} (h : Nearest rnd) {n : ℕ} (h1 : 1 ≤ n) (h2 : n < 2 ^ 53)
    {y : ℝ} (hy : y ≤ n * (1 - (2 : ℝ) ^ (-53 : ℤ))) : rnd y < n := by
  have hn : (1 : ℝ) ≤ n := by exact_mod_cast h1
  have hyn : y < n := by
    have : (0 : ℝ) < n * (2 : ℝ) ^ (-53 : ℤ) := by positivity
    linarith
  by_contra hc
  push Not at hc
  have key : ∀ z ∈ Flt, n - y ≤ |z - y| := by
    intro z hz
    have a := (h y).2 z hz
    have b := le_abs_self (rnd y - y)
    linarith
  have hk1 := Nat.pow_log_le_self 2 (by omega : n ≠ 0)
  have hk2 := Nat.lt_pow_succ_log_self (by norm_num : 1 < 2) n
  set k := Nat.log 2 n with hk
  have hk52 : k ≤ 52 := by
    by_contra hc
    have : 2 ^ 53 ≤ 2 ^ k := Nat.pow_le_pow_right (by norm_num) (by omega)
    omega
  rcases hk1.lt_or_eq with hlt | heq
  · -- the predecessor of `n` is nearer
    have hz : ((n : ℝ) - 2 ^ ((k : ℤ) - 52)) ∈ Flt := by
      refine ⟨n * 2 ^ (52 - k) - 1, (k : ℤ) - 52, ?_, ?_⟩
      · have a : n * 2 ^ (52 - k) < 2 ^ 53 := by
          calc n * 2 ^ (52 - k) < 2 ^ (k + 1) * 2 ^ (52 - k) :=
                Nat.mul_lt_mul_of_pos_right hk2 (by positivity)
            _ = 2 ^ 53 := by rw [← pow_add]; congr 1; omega
        have b : 1 ≤ n * 2 ^ (52 - k) := Nat.one_le_iff_ne_zero.2 (by positivity)
        have a' : (n : ℤ) * 2 ^ (52 - k) < 2 ^ 53 := by exact_mod_cast a
        have b' : 1 ≤ (n : ℤ) * 2 ^ (52 - k) := by exact_mod_cast b
        rw [abs_of_nonneg (by omega)]
        omega
      · have : (2 : ℝ) ^ (52 - k) * 2 ^ ((k : ℤ) - 52) = 1 := by
          rw [← zpow_natCast, ← zpow_add₀ (by norm_num)]
          have : ((52 - k : ℕ) : ℤ) + ((k : ℤ) - 52) = 0 := by omega
          rw [this, zpow_zero]
        push_cast
        rw [sub_mul, mul_assoc, this]
        ring
    have hgap : (2 : ℝ) ^ ((k : ℤ) - 52) / 2 < n * (2 : ℝ) ^ (-53 : ℤ) := by
      have e : (2 : ℝ) ^ ((k : ℤ) - 52) / 2 = 2 ^ k * (2 : ℝ) ^ (-53 : ℤ) := by
        rw [← zpow_natCast, ← zpow_add₀ (by norm_num), div_eq_mul_inv, ← zpow_neg_one,
          ← zpow_add₀ (by norm_num)]
        congr 1
        ring
      rw [e]
      have : ((2 ^ k : ℕ) : ℝ) < n := by exact_mod_cast hlt
      push_cast at this
      exact mul_lt_mul_of_pos_right this (by positivity)
    have a := key _ hz
    have hp : (0 : ℝ) < 2 ^ ((k : ℤ) - 52) := by positivity
    have hny : n * (2 : ℝ) ^ (-53 : ℤ) ≤ n - y := by rw [mul_sub, mul_one] at hy; linarith
    generalize (n : ℝ) * (2 : ℝ) ^ (-53 : ℤ) = c at hgap hny
    rcases abs_cases ((n : ℝ) - 2 ^ ((k : ℤ) - 52) - y) with ⟨e, -⟩ | ⟨e, -⟩ <;> rw [e] at a <;>
      linarith
  · have hz : ((n : ℝ) * (1 - (2 : ℝ) ^ (-53 : ℤ))) ∈ Flt := by
      refine ⟨2 ^ 53 - 1, (k : ℤ) - 53, by norm_num, ?_⟩
      have e : (n : ℝ) = 2 ^ k := by rw [← heq]; push_cast; rfl
      rw [e, ← zpow_natCast, sub_eq_add_neg (k : ℤ) 53, zpow_add₀ (by norm_num)]
      have : (2 : ℝ) ^ (-53 : ℤ) * 2 ^ 53 = 1 := by norm_num
      push_cast
      linear_combination (-(2 : ℝ) ^ (k : ℤ)) * this
    have a := key _ hz
    rw [abs_of_nonneg (by linarith)] at a
    have : (0 : ℝ) < n * (2 : ℝ) ^ (-53 : ℤ) := by positivity
    linarith

theorem flt_neg {y : ℝ} (h : y ∈ Flt) : -y ∈ Flt := by
  obtain ⟨m, e, h1, rfl⟩ := h
  exact ⟨-m, e, by rwa [abs_neg], by push_cast; ring⟩

/-- Every positive number has a nearest double. -/
theorem exists_nearest_pos {y : ℝ} (hy : 0 < y) : ∃ r ∈ Flt, ∀ z ∈ Flt, |r - y| ≤ |z - y| := by
  have p (k : ℤ) : (0 : ℝ) < (2 : ℝ) ^ k := by positivity
  have hk1 := Int.zpow_log_le_self (b := 2) (by norm_num) hy
  have hk2 := Int.lt_zpow_succ_log_self (b := 2) (by norm_num) y
  set k := Int.log 2 y
  push_cast at hk1 hk2
  set u : ℝ := (2 : ℝ) ^ (k - 52) with hu
  have hu0 : 0 < u := p _
  have e1 : (2 : ℝ) ^ k = 2 ^ 52 * u := by
    rw [hu, ← zpow_natCast, ← zpow_add₀ (by norm_num)]; congr 1; push_cast; ring
  have e2 : (2 : ℝ) ^ (k + 1) = 2 ^ 53 * u := by
    rw [hu, ← zpow_natCast, ← zpow_add₀ (by norm_num)]; congr 1; push_cast; ring
  rw [e1] at hk1
  rw [e2] at hk2
  set m := round (y / u) with hm
  have hq1 : (2 : ℝ) ^ 52 ≤ y / u := by rwa [le_div_iff₀ hu0]
  have hq2 : y / u < (2 : ℝ) ^ 53 := by rwa [div_lt_iff₀ hu0]
  have hyu : y = y / u * u := by field_simp
  -- nearest among the multiples of `u`
  have near (j : ℤ) : |(m : ℝ) * u - y| ≤ |(j : ℝ) * u - y| := by
    have a := round_le (y / u) j
    rw [← hm] at a
    have b (i : ℤ) : |(i : ℝ) * u - y| = |y / u - i| * u := by
      rw [← abs_of_pos hu0, ← abs_mul, abs_of_pos hu0, ← abs_neg]
      congr 1
      field_simp
      ring
    rw [b, b]
    exact mul_le_mul_of_nonneg_right a hu0.le
  have hm0 : 0 ≤ m := by
    have := abs_sub_round (y / u)
    rw [← hm] at this
    have := (abs_le.1 this).2
    have h0 : (-1 : ℝ) < m := by linarith
    have : (-1 : ℤ) < m := by exact_mod_cast h0
    omega
  have hm1 : m ≤ 2 ^ 53 := by
    have := abs_sub_round (y / u)
    rw [← hm] at this
    have := (abs_le.1 this).1
    have h0 : (m : ℝ) < 2 ^ 53 + 1 := by linarith
    have : m < 2 ^ 53 + 1 := by exact_mod_cast h0
    omega
  refine ⟨m * u, ?_, ?_⟩
  · rcases hm1.lt_or_eq with h | h
    · exact ⟨m, k - 52, by rwa [abs_of_nonneg hm0], rfl⟩
    · refine ⟨1, k + 1, by norm_num, ?_⟩
      rw [h, e2]
      push_cast
      ring
  · rintro z ⟨j, e, hj, rfl⟩
    rcases le_or_gt (k - 52) e with h | h
    · obtain ⟨n, rfl⟩ := Int.le.dest h
      have := near (j * 2 ^ n)
      rw [zpow_add₀ (by norm_num), zpow_natCast, ← hu]
      push_cast at this
      rwa [mul_assoc, mul_comm ((2 : ℝ) ^ n) u] at this
    · -- a smaller exponent means a number below the binade
      have hz : (j : ℝ) * 2 ^ e ≤ 2 ^ 52 * u := by
        have hj' : (j : ℝ) ≤ 2 ^ 53 := by
          have : j < 2 ^ 53 := lt_of_le_of_lt (le_abs_self _) hj
          exact_mod_cast this.le
        have he : (2 : ℝ) ^ e ≤ 2 ^ (k - 53) :=
          zpow_le_zpow_right₀ (by norm_num) (by omega)
        have hu' : u = 2 * 2 ^ (k - 53) := by
          rw [hu, ← zpow_one_add₀ (by norm_num)]; congr 1; ring
        calc (j : ℝ) * 2 ^ e ≤ 2 ^ 53 * 2 ^ e := mul_le_mul_of_nonneg_right hj' (p _).le
          _ ≤ 2 ^ 53 * 2 ^ (k - 53) := mul_le_mul_of_nonneg_left he (by norm_num)
          _ = 2 ^ 52 * u := by rw [hu']; ring
      have a : |(m : ℝ) * u - y| ≤ |(2 : ℝ) ^ 52 * u - y| := by
        have := near (2 ^ 52)
        norm_num at this ⊢
        exact this
      rw [abs_of_nonpos (by linarith : (2 : ℝ) ^ 52 * u - y ≤ 0)] at a
      rw [abs_of_nonpos (by linarith : (j : ℝ) * 2 ^ e - y ≤ 0)]
      linarith

/-- A rounding to nearest exists. -/
theorem exists_nearest : ∃ rnd, Nearest rnd := by
  have : ∀ y : ℝ, ∃ r, r ∈ Flt ∧ ∀ z ∈ Flt, |r - y| ≤ |z - y| := by
    intro y
    rcases lt_trichotomy y 0 with h | rfl | h
    · obtain ⟨r, h1, h2⟩ := exists_nearest_pos (neg_pos.2 h)
      refine ⟨-r, flt_neg h1, fun z hz => ?_⟩
      have := h2 (-z) (flt_neg hz)
      rw [show -r - y = -(r - -y) by ring, show z - y = -(-z - -y) by ring, abs_neg, abs_neg]
      exact this
    · exact ⟨0, flt_zero, fun z _ => by simp⟩
    · obtain ⟨r, h1, h2⟩ := exists_nearest_pos h
      exact ⟨r, h1, h2⟩
  choose rnd h using this
  exact ⟨rnd, h⟩

/-- What the location of a cell needs from the arithmetic. -/
theorem cell_bound {rnd : ℝ → ℝ} (h : Arithmetic rnd) {n : ℕ} (h1 : 1 ≤ n) (h2 : n < 2 ^ 53)
    {a b : ℝ} (h0 : 0 ≤ rnd a) (hab : rnd a < rnd b) :
    0 ≤ rnd (n * rnd (rnd a / rnd b)) ∧ rnd (n * rnd (rnd a / rnd b)) < n := by
  have hb0 : 0 < rnd b := lt_of_le_of_lt h0 hab
  have hn : (1 : ℝ) ≤ n := by exact_mod_cast h1
  rcases h with rfl | h
  · simp only [id] at *
    refine ⟨by positivity, ?_⟩
    have : a / b < 1 := by rwa [div_lt_one hb0]
    nlinarith
  · have r0 : rnd 0 = 0 := Nearest.fix h flt_zero
    have q0 : 0 ≤ rnd (rnd a / rnd b) := by
      rw [← r0]; exact Nearest.mono h (by positivity)
    constructor
    · rw [← r0]; exact Nearest.mono h (by positivity)
    · apply Nearest.lt_of_le h h1 h2
      apply mul_le_mul_of_nonneg_left _ (by positivity)
      have := flt_div_le (h a).1 (h b).1 h0 hab
      have hF : (1 - (2 : ℝ) ^ (-53 : ℤ)) ∈ Flt :=
        ⟨2 ^ 53 - 1, -53, by norm_num, by norm_num⟩
      rw [← Nearest.fix h hF]
      exact Nearest.mono h this

/-! ## Safety -/

theorem check_iff (idx : ℕ) (ds : List Dim) : check idx ds = none ↔ ∀ d ∈ ds,
    1 < d.count ∧ ∃ lo hi : ℝ, d.lower = .fin lo ∧ d.upper = .fin hi ∧ lo ≤ hi := by
  induction ds generalizing idx with
  | nil => simp [check]
  | cons d ds ih =>
    obtain ⟨n, lo, hi⟩ := d
    cases lo <;> cases hi <;> simp [check, ih]
    grind

theorem check_of_ok {ds : List Dim} (h : ∀ d ∈ ds, DimOk d) (idx : ℕ) : check idx ds = none :=
  (check_iff idx ds).2 fun d hd => ⟨(h d hd).1, (h d hd).2.2⟩

theorem total_eq (ds : List Dim) : total ds = (ds.map Dim.count).prod := by
  induction ds with
  | nil => rfl
  | cons d ds ih => simp [total, ih]

theorem slice_eq {α : Type} {base idx : ℕ} {d : Dim} {ds : List Dim} {k : ℕ → Res α}
    (hd : DimOk d) (h : ∀ d ∈ ds, DimOk d) :
    slice base idx d ds k = k (base + idx * total ds) := by
  have : 0 < d.count := lt_trans one_pos hd.1
  simp only [slice, check_of_ok h, total]
  rw [Nat.mul_div_cancel_left _ this]

theorem locate_outside {rnd : ℝ → ℝ} (h : Arithmetic rnd) {d : Dim} (hd : DimOk d) {x : Fl}
    (hx : ¬ Inside d x) (k : ℕ → Fl → Res Fl) : locate rnd d x k = .val .nan := by
  obtain ⟨n, lo, hi⟩ := d
  obtain ⟨h1, h2, lo, hi, rfl, rfl, h3⟩ := hd
  cases x with
  | nan => simp [locate, rd]
  | ninf => simp [locate, rd]
  | pinf => simp [locate, rd]
  | fin x =>
    simp only [Inside, Fl.le_fin, Fl.lt_fin, not_and_or, not_le, not_lt] at hx
    have : rnd (x - lo) < 0 ∨ rnd (hi - lo) ≤ rnd (x - lo) := by
      rcases hx with hx | hx
      · left
        rcases h with rfl | h
        · simpa using hx
        · exact Nearest.neg_of_neg h (by linarith)
      · right
        rcases h with rfl | h
        · simpa using hx
        · exact Nearest.mono h (by linarith)
    simp [locate, rd, this]

theorem locate_ok {rnd : ℝ → ℝ} (h : Arithmetic rnd) {d : Dim} (hd : DimOk d) (x : Fl)
    (k : ℕ → Fl → Res Fl) : locate rnd d x k = .val .nan ∨
      ∃ idx r, idx + 1 < d.count ∧ 0 ≤ r ∧ r < 1 ∧ locate rnd d x k = k idx (.fin r) := by
  by_cases hx : Inside d x
  swap
  · exact .inl (locate_outside h hd hx k)
  obtain ⟨n, lo, hi⟩ := d
  obtain ⟨h1, h2, lo, hi, rfl, rfl, h3⟩ := hd
  simp only at h1 h2
  cases x with
  | nan => simp [Inside] at hx
  | ninf => simp [Inside] at hx
  | pinf => simp [Inside] at hx
  | fin x =>
    by_cases hc : rnd (x - lo) < 0 ∨ rnd (hi - lo) ≤ rnd (x - lo)
    · left; simp [locate, rd, hc]
    right
    have hc' := hc
    push Not at hc
    have hw : rnd (hi - lo) ≠ 0 := by linarith
    obtain ⟨b0, b1⟩ := cell_bound h (n := n - 1) (by omega) (by omega) hc.1 hc.2
    set v := rnd ((n - 1 : ℕ) * rnd (rnd (x - lo) / rnd (hi - lo)))
    refine ⟨⌊v⌋₊, v - ⌊v⌋₊, ?_, ?_, ?_, ?_⟩
    · have := (Nat.floor_lt b0).2 b1
      simp only
      omega
    · linarith [Nat.floor_le b0]
    · linarith [Nat.lt_floor_add_one v]
    · simp only [locate, rd, Fl.sub_fin, Fl.isNaN_fin, if_false, Fl.lt_fin, Fl.le_fin, hc',
        Fl.div_fin _ hw, Fl.mul_fin, modfSize]
      rw [if_pos b0]

theorem read_ok {data : List Fl} {base : ℕ} (h : base < data.length) :
    ∃ v, read data base = .val v := by
  simp [read, List.getElem?_eq_getElem h]

theorem slice_room {idx count base len t : ℕ} (h : idx < count) (hl : base + count * t ≤ len) :
    base + idx * t + t ≤ len := by
  have : (idx + 1) * t ≤ count * t := Nat.mul_le_mul_right _ h
  have : (idx + 1) * t = idx * t + t := by ring
  omega

theorem linearView_ok {rnd : ℝ → ℝ} (h : Arithmetic rnd) {data : List Fl} (ds : List Dim)
    (hd : ∀ d ∈ ds, DimOk d) (base : ℕ) (hl : base + total ds ≤ data.length) (xs : List Fl)
    (hx : xs.length = ds.length) : ∃ v, linearView rnd data ds base xs = .val v := by
  induction ds generalizing base xs with
  | nil =>
    simp only [total] at hl
    obtain rfl : xs = [] := by simpa using hx
    exact read_ok (by omega)
  | cons d ds ih =>
    obtain _ | ⟨x, xs⟩ := xs
    · simp at hx
    have hd1 := hd d (by simp)
    have hd2 : ∀ d ∈ ds, DimOk d := fun e he => hd e (by simp [he])
    rw [linearView]
    rcases locate_ok h hd1 x (fun idx x_rel =>
      (slice base idx d ds fun b => linearView rnd data ds b xs).bind fun linear_1 =>
      (slice base (idx + 1) d ds fun b => linearView rnd data ds b xs).bind fun linear_2 =>
      .val (linear rnd linear_1 linear_2 x_rel)) with e | ⟨idx, r, hi, -, -, e⟩
    · exact ⟨_, e⟩
    · have go (j : ℕ) (hj : j < d.count) := ih hd2 (base + j * total ds)
        (slice_room hj hl) xs (by simpa using hx)
      rw [e, slice_eq hd1 hd2, slice_eq hd1 hd2]
      obtain ⟨v1, e1⟩ := go idx (by omega)
      obtain ⟨v2, e2⟩ := go (idx + 1) hi
      rw [e1, e2]
      exact ⟨_, rfl⟩

theorem cubicView_ok {rnd : ℝ → ℝ} (h : Arithmetic rnd) {data : List Fl} (ds : List Dim)
    (hd : ∀ d ∈ ds, DimOk d) (base : ℕ) (hl : base + total ds ≤ data.length) (xs : List Fl)
    (hx : xs.length = ds.length) : ∃ v, cubicView rnd data ds base xs = .val v := by
  induction ds generalizing base xs with
  | nil =>
    simp only [total] at hl
    obtain rfl : xs = [] := by simpa using hx
    exact read_ok (by omega)
  | cons d ds ih =>
    obtain _ | ⟨x, xs⟩ := xs
    · simp at hx
    have hd1 := hd d (by simp)
    have hd2 : ∀ d ∈ ds, DimOk d := fun e he => hd e (by simp [he])
    rw [cubicView]
    rcases locate_ok h hd1 x (fun idx x_rel =>
      (if idx = 0 then .val (.fin 0)
        else slice base (idx - 1) d ds fun b => cubicView rnd data ds b xs).bind fun cubic_0 =>
      (slice base idx d ds fun b => cubicView rnd data ds b xs).bind fun cubic_1 =>
      (slice base (idx + 1) d ds fun b => cubicView rnd data ds b xs).bind fun cubic_2 =>
      (if d.count - 2 ≤ idx then .val (.fin 0)
        else slice base (idx + 2) d ds fun b => cubicView rnd data ds b xs).bind fun cubic_3 =>
      .val (cubic rnd cubic_0 cubic_1 cubic_2 cubic_3 x_rel)) with e | ⟨idx, r, hi, -, -, e⟩
    · exact ⟨_, e⟩
    · have go (j : ℕ) (hj : j < d.count) := ih hd2 (base + j * total ds)
        (slice_room hj hl) xs (by simpa using hx)
      rw [e, slice_eq hd1 hd2, slice_eq hd1 hd2, slice_eq hd1 hd2, slice_eq hd1 hd2]
      obtain ⟨v1, e1⟩ := go idx (by omega)
      obtain ⟨v2, e2⟩ := go (idx + 1) hi
      obtain ⟨v0, e0⟩ : ∃ v, (if idx = 0 then Res.val (.fin 0)
          else cubicView rnd data ds (base + (idx - 1) * total ds) xs) = .val v := by
        split_ifs
        · exact ⟨_, rfl⟩
        · exact go _ (by omega)
      obtain ⟨v3, e3⟩ : ∃ v, (if d.count - 2 ≤ idx then Res.val (.fin 0)
          else cubicView rnd data ds (base + (idx + 2) * total ds) xs) = .val v := by
        split_ifs
        · exact ⟨_, rfl⟩
        · exact go _ (by omega)
      rw [e0, e1, e2, e3]
      exact ⟨_, rfl⟩

theorem rd_nan (rnd : ℝ → ℝ) : rd rnd .nan = .nan := rfl

theorem linear_nan (rnd : ℝ → ℝ) (f x : Fl) : linear rnd .nan f x = .nan := by
  simp [linear, rd_nan]

theorem cubic_nan (rnd : ℝ → ℝ) (f0 f2 f3 x : Fl) : cubic rnd f0 .nan f2 f3 x = .nan := by
  simp [cubic, rd_nan]

/-- Some coordinate is outside. -/
theorem linearView_outside {rnd : ℝ → ℝ} (h : Arithmetic rnd) {data : List Fl} (ds : List Dim)
    (hd : ∀ d ∈ ds, DimOk d) (base : ℕ) (hl : base + total ds ≤ data.length) (xs : List Fl)
    (hx : xs.length = ds.length) (ho : ¬ List.Forall₂ Inside ds xs) :
    linearView rnd data ds base xs = .val .nan := by
  induction ds generalizing base xs with
  | nil => simp at hx; simp [hx] at ho
  | cons d ds ih =>
    obtain _ | ⟨x, xs⟩ := xs
    · simp at hx
    have hd1 := hd d (by simp)
    have hd2 : ∀ d ∈ ds, DimOk d := fun e he => hd e (by simp [he])
    by_cases hin : Inside d x
    swap
    · rw [linearView, locate_outside h hd1 hin]
    have hx' : xs.length = ds.length := by simpa using hx
    have ho' : ¬ List.Forall₂ Inside ds xs := fun hc => ho (.cons hin hc)
    rw [linearView]
    rcases locate_ok h hd1 x (fun idx x_rel =>
      (slice base idx d ds fun b => linearView rnd data ds b xs).bind fun linear_1 =>
      (slice base (idx + 1) d ds fun b => linearView rnd data ds b xs).bind fun linear_2 =>
      .val (linear rnd linear_1 linear_2 x_rel)) with e | ⟨idx, r, hi, -, -, e⟩
    · exact e
    · have go (j : ℕ) (hj : j < d.count) := ih hd2 (base + j * total ds)
        (slice_room hj hl) xs hx' ho'
      rw [e, slice_eq hd1 hd2, slice_eq hd1 hd2, go idx (by omega), go (idx + 1) hi]
      simp [Res.bind, linear_nan]

theorem cubicView_outside {rnd : ℝ → ℝ} (h : Arithmetic rnd) {data : List Fl} (ds : List Dim)
    (hd : ∀ d ∈ ds, DimOk d) (base : ℕ) (hl : base + total ds ≤ data.length) (xs : List Fl)
    (hx : xs.length = ds.length) (ho : ¬ List.Forall₂ Inside ds xs) :
    cubicView rnd data ds base xs = .val .nan := by
  induction ds generalizing base xs with
  | nil => simp at hx; simp [hx] at ho
  | cons d ds ih =>
    obtain _ | ⟨x, xs⟩ := xs
    · simp at hx
    have hd1 := hd d (by simp)
    have hd2 : ∀ d ∈ ds, DimOk d := fun e he => hd e (by simp [he])
    by_cases hin : Inside d x
    swap
    · rw [cubicView, locate_outside h hd1 hin]
    have hx' : xs.length = ds.length := by simpa using hx
    have ho' : ¬ List.Forall₂ Inside ds xs := fun hc => ho (.cons hin hc)
    rw [cubicView]
    rcases locate_ok h hd1 x (fun idx x_rel =>
      (if idx = 0 then .val (.fin 0)
        else slice base (idx - 1) d ds fun b => cubicView rnd data ds b xs).bind fun cubic_0 =>
      (slice base idx d ds fun b => cubicView rnd data ds b xs).bind fun cubic_1 =>
      (slice base (idx + 1) d ds fun b => cubicView rnd data ds b xs).bind fun cubic_2 =>
      (if d.count - 2 ≤ idx then .val (.fin 0)
        else slice base (idx + 2) d ds fun b => cubicView rnd data ds b xs).bind fun cubic_3 =>
      .val (cubic rnd cubic_0 cubic_1 cubic_2 cubic_3 x_rel)) with e | ⟨idx, r, hi, -, -, e⟩
    · exact e
    · have go (j : ℕ) (hj : j < d.count) := ih hd2 (base + j * total ds)
        (slice_room hj hl) xs hx' ho'
      rw [e, slice_eq hd1 hd2, slice_eq hd1 hd2, slice_eq hd1 hd2, slice_eq hd1 hd2,
        go idx (by omega), go (idx + 1) hi]
      obtain ⟨v0, e0⟩ : ∃ v, (if idx = 0 then Res.val (.fin 0)
          else cubicView rnd data ds (base + (idx - 1) * total ds) xs) = .val v := by
        split_ifs
        · exact ⟨_, rfl⟩
        · exact ⟨_, go _ (by omega)⟩
      obtain ⟨v3, e3⟩ : ∃ v, (if d.count - 2 ≤ idx then Res.val (.fin 0)
          else cubicView rnd data ds (base + (idx + 2) * total ds) xs) = .val v := by
        split_ifs
        · exact ⟨_, rfl⟩
        · exact ⟨_, go _ (by omega)⟩
      rw [e0, e3]
      simp [Res.bind, cubic_nan]

/-! ## Exact arithmetic -/

theorem proper_ok {d : RDim} (h : d.Proper) (hc : d.count < 2 ^ 53) : DimOk d.dim :=
  ⟨h.1, hc, d.lo, d.hi, rfl, rfl, h.2.le⟩

theorem pos_bounds {d : RDim} (h : d.Proper) {x : ℝ} (hx : d.lo ≤ x ∧ x < d.hi) :
    0 ≤ d.pos x ∧ d.pos x < (d.count - 1 : ℕ) := by
  have hw : 0 < d.hi - d.lo := sub_pos.2 h.2
  have hn : (0 : ℝ) < (d.count - 1 : ℕ) := by
    have := h.1
    exact_mod_cast (by omega : 0 < d.count - 1)
  have h0 : 0 ≤ (x - d.lo) / (d.hi - d.lo) := div_nonneg (by linarith) hw.le
  have h1 : (x - d.lo) / (d.hi - d.lo) < 1 := by rw [div_lt_one hw]; linarith
  unfold RDim.pos
  exact ⟨by positivity, by nlinarith⟩

theorem cell_lt {d : RDim} (h : d.Proper) {x : ℝ} (hx : d.lo ≤ x ∧ x < d.hi) :
    d.cell x + 1 < d.count := by
  obtain ⟨h0, h1⟩ := pos_bounds h hx
  have := (Nat.floor_lt h0).2 h1
  unfold RDim.cell
  omega

/-- Relative position in the cell. -/
noncomputable def frac (d : RDim) (x : ℝ) : ℝ := d.pos x - d.cell x

theorem frac_nonneg {d : RDim} (h : d.Proper) {x : ℝ} (hx : d.lo ≤ x ∧ x < d.hi) :
    0 ≤ frac d x := by
  have := Nat.floor_le (pos_bounds h hx).1
  unfold frac RDim.cell
  linarith

theorem frac_lt_one (d : RDim) (x : ℝ) : frac d x < 1 := by
  have := Nat.lt_floor_add_one (d.pos x)
  unfold frac RDim.cell
  linarith

theorem locate_exact {d : RDim} (h : d.Proper) {x : ℝ} (hx : d.lo ≤ x ∧ x < d.hi)
    (k : ℕ → Fl → Res Fl) :
    locate id d.dim (.fin x) k = k (d.cell x) (.fin (frac d x)) := by
  have hw : d.hi - d.lo ≠ 0 := (sub_pos.2 h.2).ne'
  have h0 : 0 ≤ (d.count - 1 : ℕ) * ((x - d.lo) / (d.hi - d.lo)) := (pos_bounds h hx).1
  have hc : ¬ (x - d.lo < 0 ∨ d.hi - d.lo ≤ x - d.lo) := by
    push Not
    exact ⟨by linarith [hx.1], by linarith [hx.2]⟩
  simp only [locate, RDim.dim, rd, Fl.sub_fin, id, Fl.isNaN_fin, if_false, Fl.lt_fin, Fl.le_fin, hc,
    Fl.div_fin _ hw, Fl.mul_fin, modfSize]
  rw [if_pos h0]
  rfl

theorem linear_exact (a b x : ℝ) :
    linear id (.fin a) (.fin b) (.fin x) = .fin ((1 - x) * a + x * b) := by
  simp [linear, rd]

/-- The cubic rule. -/
noncomputable def cub (f1 f2 f3 f4 x : ℝ) : ℝ :=
  2 * (1 - x) * (1 - x) * (1 / 2 + x) * f2 + 1 / 2 * (1 - x) * (1 - x) * x * (f3 - f1)
    + 2 * x * x * (3 / 2 - x) * f3 - 1 / 2 * x * x * (1 - x) * (f4 - f2)

theorem cubic_exact (f1 f2 f3 f4 x : ℝ) :
    cubic id (.fin f1) (.fin f2) (.fin f3) (.fin f4) (.fin x) = .fin (cub f1 f2 f3 f4 x) := by
  simp [cubic, rd, cub]

/-- The multilinear rule. -/
noncomputable def linEval : List RDim → (List ℕ → ℝ) → List ℝ → ℝ
  | d :: ds, f, x :: xs =>
    (1 - frac d x) * linEval ds (fun i => f (d.cell x :: i)) xs
      + frac d x * linEval ds (fun i => f ((d.cell x + 1) :: i)) xs
  | _, f, _ => f []

/-- The tensor product of the cubic rule, with zeros outside the grid. -/
noncomputable def cubEval : List RDim → (List ℕ → ℝ) → List ℝ → ℝ
  | d :: ds, f, x :: xs =>
    let row j := cubEval ds (fun i => f (j :: i)) xs
    cub (if d.cell x = 0 then 0 else row (d.cell x - 1)) (row (d.cell x)) (row (d.cell x + 1))
      (if d.count - 2 ≤ d.cell x then 0 else row (d.cell x + 2)) (frac d x)
  | _, f, _ => f []

theorem total_dim (ds : List RDim) : total (ds.map RDim.dim) = (ds.map RDim.count).prod := by
  rw [total_eq, List.map_map]
  rfl

theorem holds_row {data : List Fl} {base : ℕ} {d : RDim} {ds : List RDim} {f : List ℕ → ℝ}
    (h : Holds data base (d :: ds) f) {j : ℕ} (hj : j < d.count) :
    Holds data (base + j * total (ds.map RDim.dim)) ds (fun i => f (j :: i)) := by
  intro i hi
  have := h (j :: i) (.cons hj hi)
  rwa [total_dim, Nat.add_assoc]

theorem linearView_exact {data : List Fl} (ds : List RDim)
    (hd : ∀ d ∈ ds, d.Proper ∧ d.count < 2 ^ 53) (base : ℕ) (f : List ℕ → ℝ)
    (hf : Holds data base ds f) (xs : List ℝ) (hx : InsideAll ds xs) :
    linearView id data (ds.map RDim.dim) base (xs.map .fin) = .val (.fin (linEval ds f xs)) := by
  induction ds generalizing base f xs with
  | nil =>
    cases hx
    have : data[base]? = _ := hf [] .nil
    simp [linearView, read, this, linEval]
  | cons d ds ih =>
    obtain _ | ⟨hx1, hx2⟩ := hx
    rename_i x xs
    have hd1 := hd d (by simp)
    have hd2 : ∀ d ∈ ds, d.Proper ∧ d.count < 2 ^ 53 := fun e he => hd e (by simp [he])
    have hD1 := proper_ok hd1.1 hd1.2
    have hD2 : ∀ d ∈ ds.map RDim.dim, DimOk d := by
      intro e he
      obtain ⟨e', h1, rfl⟩ := List.mem_map.1 he
      exact proper_ok (hd2 e' h1).1 (hd2 e' h1).2
    have hc := cell_lt hd1.1 hx1
    have go (j : ℕ) (hj : j < d.count) := ih hd2 _ _ (holds_row hf hj) xs hx2
    simp only [List.map_cons]
    rw [linearView, locate_exact hd1.1 hx1, slice_eq hD1 hD2, slice_eq hD1 hD2, go _ (by omega),
      go _ hc]
    simp only [Res.bind, linear_exact, linEval]

theorem cubicView_exact {data : List Fl} (ds : List RDim)
    (hd : ∀ d ∈ ds, d.Proper ∧ d.count < 2 ^ 53) (base : ℕ) (f : List ℕ → ℝ)
    (hf : Holds data base ds f) (xs : List ℝ) (hx : InsideAll ds xs) :
    cubicView id data (ds.map RDim.dim) base (xs.map .fin) = .val (.fin (cubEval ds f xs)) := by
  induction ds generalizing base f xs with
  | nil =>
    cases hx
    have : data[base]? = _ := hf [] .nil
    simp [cubicView, read, this, cubEval]
  | cons d ds ih =>
    obtain _ | ⟨hx1, hx2⟩ := hx
    rename_i x xs
    have hd1 := hd d (by simp)
    have hd2 : ∀ d ∈ ds, d.Proper ∧ d.count < 2 ^ 53 := fun e he => hd e (by simp [he])
    have hD1 := proper_ok hd1.1 hd1.2
    have hD2 : ∀ d ∈ ds.map RDim.dim, DimOk d := by
      intro e he
      obtain ⟨e', h1, rfl⟩ := List.mem_map.1 he
      exact proper_ok (hd2 e' h1).1 (hd2 e' h1).2
    have hc := cell_lt hd1.1 hx1
    have go (j : ℕ) (hj : j < d.count) := ih hd2 _ _ (holds_row hf hj) xs hx2
    have e0 : (if d.cell x = 0 then Res.val (.fin 0)
        else cubicView id data (ds.map RDim.dim) (base + (d.cell x - 1) * total (ds.map RDim.dim))
          (xs.map .fin)) = .val (.fin (if d.cell x = 0 then 0
            else cubEval ds (fun i => f ((d.cell x - 1) :: i)) xs)) := by
      split_ifs
      · rfl
      · exact go _ (by omega)
    have e3 : (if d.count - 2 ≤ d.cell x then Res.val (.fin 0)
        else cubicView id data (ds.map RDim.dim) (base + (d.cell x + 2) * total (ds.map RDim.dim))
          (xs.map .fin)) = .val (.fin (if d.count - 2 ≤ d.cell x then 0
            else cubEval ds (fun i => f ((d.cell x + 2) :: i)) xs)) := by
      split_ifs
      · rfl
      · exact go _ (by omega)
    simp only [List.map_cons]
    rw [cubicView, locate_exact hd1.1 hx1, slice_eq hD1 hD2, slice_eq hD1 hD2, slice_eq hD1 hD2,
      slice_eq hD1 hD2, e0, go (d.cell x) (by omega), go (d.cell x + 1) hc]
    change (if d.count - 2 ≤ d.cell x then _ else _ : Res Fl).bind _ = _
    rw [e3]
    simp only [Res.bind, cubic_exact, cubEval]

/-! ## The interpolation rules -/

theorem pos_node {d : RDim} (h : d.Proper) (i : ℕ) : d.pos (d.node i) = i := by
  have hw : d.hi - d.lo ≠ 0 := (sub_pos.2 h.2).ne'
  have hn : ((d.count - 1 : ℕ) : ℝ) ≠ 0 := by
    have := h.1
    exact_mod_cast (by omega : d.count - 1 ≠ 0)
  unfold RDim.pos RDim.node
  field_simp
  ring

theorem cell_node {d : RDim} (h : d.Proper) (i : ℕ) : d.cell (d.node i) = i := by
  rw [RDim.cell, pos_node h, Nat.floor_natCast]

theorem frac_node {d : RDim} (h : d.Proper) (i : ℕ) : frac d (d.node i) = 0 := by
  rw [frac, cell_node h, pos_node h, sub_self]

theorem node_inside {d : RDim} (h : d.Proper) {i : ℕ} (hi : i + 1 < d.count) :
    d.lo ≤ d.node i ∧ d.node i < d.hi := by
  have hw : 0 < d.hi - d.lo := sub_pos.2 h.2
  have hn : (0 : ℝ) < (d.count - 1 : ℕ) := by exact_mod_cast (by omega : 0 < d.count - 1)
  have hi' : (i : ℝ) < (d.count - 1 : ℕ) := by exact_mod_cast (by omega : i < d.count - 1)
  have e : (i : ℝ) * ((d.hi - d.lo) / (d.count - 1 : ℕ)) < d.hi - d.lo := by
    rw [← mul_div_assoc, div_lt_iff₀ hn]
    nlinarith
  unfold RDim.node
  exact ⟨by have : 0 ≤ (i : ℝ) * ((d.hi - d.lo) / (d.count - 1 : ℕ)) := by positivity
            linarith, by linarith⟩

/-- A coordinate from its cell and the position in it. -/
theorem coord_eq {d : RDim} (h : d.Proper) (x : ℝ) :
    x = d.node (d.cell x) + frac d x * ((d.hi - d.lo) / (d.count - 1 : ℕ)) := by
  have hw : d.hi - d.lo ≠ 0 := (sub_pos.2 h.2).ne'
  have hn : ((d.count - 1 : ℕ) : ℝ) ≠ 0 := by
    have := h.1
    exact_mod_cast (by omega : d.count - 1 ≠ 0)
  unfold frac RDim.node RDim.pos
  field_simp
  ring

theorem node_step (d : RDim) (i : ℕ) (k : ℕ) :
    d.node (i + k) = d.node i + k * ((d.hi - d.lo) / (d.count - 1 : ℕ)) := by
  unfold RDim.node
  push_cast
  ring

theorem nodes_cons (d : RDim) (ds : List RDim) (j : ℕ) (i : List ℕ) :
    nodes (d :: ds) (j :: i) = d.node j :: nodes ds i := rfl

theorem linEval_node (ds : List RDim) (hd : ∀ d ∈ ds, d.Proper) (f : List ℕ → ℝ) (i : List ℕ)
    (hi : i.length = ds.length) : linEval ds f (nodes ds i) = f i := by
  induction ds generalizing f i with
  | nil => simp at hi; simp [hi, linEval, nodes]
  | cons d ds ih =>
    obtain _ | ⟨j, i⟩ := i
    · simp at hi
    have hd1 := hd d (by simp)
    simp only [nodes_cons, linEval, frac_node hd1, cell_node hd1]
    rw [ih (fun e he => hd e (by simp [he])) _ i (by simpa using hi)]
    ring

theorem cubEval_node (ds : List RDim) (hd : ∀ d ∈ ds, d.Proper) (f : List ℕ → ℝ) (i : List ℕ)
    (hi : i.length = ds.length) : cubEval ds f (nodes ds i) = f i := by
  induction ds generalizing f i with
  | nil => simp at hi; simp [hi, cubEval, nodes]
  | cons d ds ih =>
    obtain _ | ⟨j, i⟩ := i
    · simp at hi
    have hd1 := hd d (by simp)
    simp only [nodes_cons, cubEval, frac_node hd1, cell_node hd1]
    have := ih (fun e he => hd e (by simp [he])) (fun i => f (j :: i)) i (by simpa using hi)
    rw [this]
    simp [cub]

theorem linEval_add (ds : List RDim) (f g : List ℕ → ℝ) (c : ℝ) (xs : List ℝ) :
    linEval ds (fun i => f i + g i * c) xs = linEval ds f xs + linEval ds g xs * c := by
  induction ds generalizing f g xs with
  | nil => simp [linEval]
  | cons d ds ih =>
    obtain _ | ⟨x, xs⟩ := xs
    · simp [linEval]
    · simp only [linEval, ih]
      ring

theorem linEval_affine {n : ℕ} {g : List ℝ → ℝ} (hg : MultiAffine n g) (ds : List RDim)
    (hn : ds.length = n) (hd : ∀ d ∈ ds, d.Proper) (xs : List ℝ) (hx : xs.length = n) :
    linEval ds (fun i => g (nodes ds i)) xs = g xs := by
  induction hg generalizing ds xs with
  | const f =>
    simp at hn hx
    simp [hn, hx, linEval, nodes]
  | step n f a b _ _ hf iha ihb =>
    obtain _ | ⟨d, ds⟩ := ds
    · simp at hn
    obtain _ | ⟨x, xs⟩ := xs
    · simp at hx
    have hd1 := hd d (by simp)
    have hd2 : ∀ d ∈ ds, d.Proper := fun e he => hd e (by simp [he])
    simp only [List.length_cons, Nat.add_right_cancel_iff] at hn hx
    simp only [linEval, nodes_cons, hf]
    simp only [linEval_add, iha ds hn hd2 xs hx, ihb ds hn hd2 xs hx]
    rw [node_step d _ 1]
    have := coord_eq hd1 x
    push_cast
    linear_combination (-b xs) * this

theorem linEval_bounds (ds : List RDim) (hd : ∀ d ∈ ds, d.Proper) (f : List ℕ → ℝ) (xs : List ℝ)
    (hx : InsideAll ds xs) (m M : ℝ) (hf : ∀ i, Corner ds xs i → m ≤ f i ∧ f i ≤ M) :
    m ≤ linEval ds f xs ∧ linEval ds f xs ≤ M := by
  induction ds generalizing f xs with
  | nil =>
    cases hx
    exact hf [] trivial
  | cons d ds ih =>
    obtain _ | ⟨hx1, hx2⟩ := hx
    rename_i x xs
    have hd1 := hd d (by simp)
    have hd2 : ∀ d ∈ ds, d.Proper := fun e he => hd e (by simp [he])
    obtain ⟨a1, a2⟩ := ih hd2 (fun i => f (d.cell x :: i)) xs hx2
      (fun i hi => hf _ ⟨.inl rfl, hi⟩)
    obtain ⟨b1, b2⟩ := ih hd2 (fun i => f ((d.cell x + 1) :: i)) xs hx2
      (fun i hi => hf _ ⟨.inr rfl, hi⟩)
    have t0 := frac_nonneg hd1 hx1
    have t1 := frac_lt_one d x
    simp only [linEval]
    constructor <;> nlinarith

theorem cub_add (a b c d a' b' c' d' k x : ℝ) :
    cub (a + a' * k) (b + b' * k) (c + c' * k) (d + d' * k) x
      = cub a b c d x + cub a' b' c' d' x * k := by
  unfold cub
  ring

theorem cubEval_add (ds : List RDim) (f g : List ℕ → ℝ) (c : ℝ) (xs : List ℝ) :
    cubEval ds (fun i => f i + g i * c) xs = cubEval ds f xs + cubEval ds g xs * c := by
  induction ds generalizing f g xs with
  | nil => simp [cubEval]
  | cons d ds ih =>
    obtain _ | ⟨x, xs⟩ := xs
    · simp [cubEval]
    · simp only [cubEval, ih]
      rw [← cub_add]
      congr 1 <;> split_ifs <;> simp

theorem cub_quadratic (a b c y h t : ℝ) :
    cub (a + b * (y - h) + c * (y - h) ^ 2) (a + b * y + c * y ^ 2)
      (a + b * (y + h) + c * (y + h) ^ 2) (a + b * (y + 2 * h) + c * (y + 2 * h) ^ 2) t
      = a + b * (y + t * h) + c * (y + t * h) ^ 2 := by
  unfold cub
  ring

theorem cubEval_quadratic {n : ℕ} {g : List ℝ → ℝ} (hg : MultiQuadratic n g) (ds : List RDim)
    (hn : ds.length = n) (hd : ∀ d ∈ ds, d.Proper) (xs : List ℝ) (hx : xs.length = n)
    (hi : Interior ds xs) : cubEval ds (fun i => g (nodes ds i)) xs = g xs := by
  induction hg generalizing ds xs with
  | const f =>
    simp at hn hx
    simp [hn, hx, cubEval, nodes]
  | step n f a b c _ _ _ hf iha ihb ihc =>
    obtain _ | ⟨d, ds⟩ := ds
    · simp at hn
    obtain _ | ⟨x, xs⟩ := xs
    · simp at hx
    have hd1 := hd d (by simp)
    have hd2 : ∀ d ∈ ds, d.Proper := fun e he => hd e (by simp [he])
    simp only [List.length_cons, Nat.add_right_cancel_iff] at hn hx
    obtain _ | ⟨hi1, hi2⟩ := hi
    simp only [cubEval, nodes_cons, hf]
    simp only [cubEval_add, iha ds hn hd2 xs hx hi2, ihb ds hn hd2 xs hx hi2,
      ihc ds hn hd2 xs hx hi2]
    rw [if_neg (by omega), if_neg (by omega)]
    obtain ⟨j, hj⟩ : ∃ j, d.cell x = j + 1 := ⟨d.cell x - 1, by omega⟩
    have e0 : d.node (d.cell x - 1) = d.node (d.cell x) - (d.hi - d.lo) / (d.count - 1 : ℕ) := by
      rw [hj, node_step d j 1, Nat.add_sub_cancel]
      push_cast
      ring
    have e1 := node_step d (d.cell x) 1
    have e2 := node_step d (d.cell x) 2
    push_cast at e1 e2
    rw [one_mul] at e1
    rw [e0, e1, e2, cub_quadratic, ← coord_eq hd1 x]

end Sidis.Interp
