import Verif.Lemmas.ProdDiv
import Verif.Model.Progress

/-! # C06-C08: exact scaled division and the progress percentage -/

namespace Sidis.Props

open Sidis ProdDiv

/-- C06. For every signed integer type and all arguments: if `prod_div(N, k, K, rem)` executes no
undefined behaviour, the returned quotient and the stored remainder are the mathematical truncated
quotient and remainder of `N*k` by `K` (even when `N*k` is not representable). -/
theorem c06_prodDiv_exact (ty : IntTy) (hsigned : ty.wraps = false) (hlo : ty.lo ≤ 0)
    (hhi : 0 ≤ ty.hi) (N k K q r : ℤ) (hN : ty.Has N)
    (h : prodDiv ty N k K = some (q, r)) :
    N * k = q * K + r ∧ |r| < |K| ∧ 0 ≤ (N * k) * r := by
  have ht : Signed ty := ⟨hsigned, hlo, hhi⟩
  have key : (q = (N * k).tdiv K ∧ r = (N * k).tmod K) ∧ K ≠ 0 := by
    have body_K : ∀ {N k q r}, body ty N k K = some (q, r) → K ≠ 0 := by
      intro N k q r h
      unfold body at h
      simp only [Option.bind_eq_bind, Option.bind_eq_some_iff] at h
      obtain ⟨t, -, h⟩ := h
      by_cases hlt : k < t
      · simp only [hlt, if_true, Option.bind_eq_some_iff] at h
        obtain ⟨p, -, r', h3, -⟩ := h
        exact (IntTy.mod_some h3).2
      · simp only [hlt, if_false, Option.bind_eq_some_iff] at h
        obtain ⟨_, -, p, -, q', h3, -⟩ := h
        exact (IntTy.div_some h3).2
    unfold prodDiv at h
    split_ifs at h with hk
    · simp only [Option.bind_eq_bind, Option.bind_eq_some_iff] at h
      obtain ⟨N', h1, k', h2, h3⟩ := h
      obtain ⟨rfl, hN'⟩ := IntTy.norm_some hsigned h1
      obtain ⟨rfl, -⟩ := IntTy.norm_some hsigned h2
      have := body_spec ht hN' (by omega) h3
      rw [neg_mul_neg] at this
      exact ⟨this, body_K h3⟩
    · exact ⟨body_spec ht hN (by omega) h, body_K h⟩
  obtain ⟨⟨rfl, rfl⟩, hK⟩ := key
  have b := tmod_bounds (N * k) hK
  have e := Int.tmod_add_mul_tdiv (N * k) K
  exact ⟨by linarith, b.1, b.2.1⟩

/-- The hypotheses of C06 are met by a call whose product is not representable in 32 bits: the
loop really runs (three iterations). -/
theorem c06_witness : prodDiv IntTy.int32 1000000000 5 7 = some (714285714, 2) := by
  simp only [prodDiv, body, loop_eq_loopF]; decide +kernel

example : IntTy.int32.wraps = false ∧ IntTy.int32.lo ≤ 0 ∧ 0 ≤ IntTy.int32.hi ∧
    IntTy.int32.Has 1000000000 ∧ ¬ IntTy.int32.Has (1000000000 * 5) := by decide

/-- C07. For every integer type (signed or unsigned, any width): for positive `N` and `K`,
non-negative `k`, with `2*K*k` and the true quotient representable, no undefined behaviour and no
wrap-around occurs and the exact floor quotient and remainder are returned. -/
theorem c07_prodDiv_defined (ty : IntTy) (hlo : ty.lo ≤ 0) (N k K : ℤ) (hN : 1 ≤ N)
    (hN' : N ≤ ty.hi) (hk : 0 ≤ k) (hk' : k ≤ ty.hi) (hK : 1 ≤ K) (h2 : 2 * K * k ≤ ty.hi)
    (hq : N * k / K ≤ ty.hi) :
    prodDiv ty N k K = some (N * k / K, N * k % K) := by
  have h0 : 0 ≤ N * k := by positivity
  rw [prodDiv_ok hlo (by omega) hN' hk (by omega) h2 hk'
    (by rw [Int.tdiv_eq_ediv_of_nonneg h0]; exact hq),
    Int.tdiv_eq_ediv_of_nonneg h0, Int.tmod_eq_emod_of_nonneg h0]

example : (1:ℤ) ≤ 9223372036854775807 ∧ 9223372036854775807 ≤ IntTy.int64.hi ∧
    2 * 100 * 57 ≤ IntTy.int64.hi ∧ 9223372036854775807 * 57 / 100 ≤ IntTy.int64.hi ∧
    ¬ IntTy.int64.Has (9223372036854775807 * 57) := by decide

/-- C07 (refutation of totality). A zero first argument divides by zero, whatever the others. -/
theorem c07_zero_undefined (ty : IntTy) (k K : ℤ) (hk : 0 ≤ k) : prodDiv ty 0 k K = none := by
  have : ¬ k < 0 := by omega
  simp [prodDiv, this, body, IntTy.div]

/-- C07 (refutation). `-1` as first argument evaluates `MIN / -1` on every two's complement type. -/
theorem c07_minus_one_undefined (ty : IntTy) (htc : ty.lo = -ty.hi - 1) (k K : ℤ) (hk : 0 ≤ k) :
    prodDiv ty (-1) k K = none := by
  have : ¬ k < 0 := by omega
  have h : ¬ ty.Has (ty.lo.tdiv (-1)) := by
    rw [Int.tdiv_neg, Int.tdiv_one, htc]; intro h; have := h.2; omega
  simp only [prodDiv, this, body, IntTy.div, if_false, show ¬ ((-1 : ℤ) ≥ 0) by decide, h]; rfl

example : IntTy.int32.lo = -IntTy.int32.hi - 1 ∧ IntTy.int64.lo = -IntTy.int64.hi - 1 := by decide

/-- C07 (refutation). Although all arguments and both true results are small enough for `int`, an
intermediate of the loop overflows: `prod_div(2^30, 2, 2^31-1)` is undefined behaviour. -/
theorem c07_overflow_int : prodDiv IntTy.int32 1073741824 2 2147483647 = none ∧
    (1073741824 * 2 : ℤ) / 2147483647 = 1 := by
  refine ⟨?_, by norm_num⟩
  simp only [prodDiv, body, loop_eq_loopF]; decide +kernel

/-- C07 (refutation). The unsigned overload wraps silently and returns a wrong quotient:
`prod_div(2^31, 2, 2^32-1)` gives 0 remainder 0 instead of 1 remainder 1. -/
theorem c07_wrong_unsigned : prodDiv IntTy.uint32 2147483648 2 4294967295 = some (0, 0) ∧
    (2147483648 * 2 : ℤ) = 1 * 4294967295 + 1 := by
  refine ⟨?_, by norm_num⟩
  simp only [prodDiv, body, loop_eq_loopF]; decide +kernel

/-! ## C08 -/

open Progress

/-- Progress invariant at event `i`. -/
private structure PInv (N i : ℤ) (s : State) : Prop where
  nn : 0 ≤ s.percent
  rem0 : 0 ≤ s.nextPercentRem
  rem1 : s.nextPercentRem < 100
  next : s.nextPercent * 100 + s.nextPercentRem = N * (s.percent + 1)
  low : N * s.percent ≤ 100 * i

private theorem cond_iff {N i : ℤ} {s : State} (h : PInv N i s) :
    Progress.cond i s ↔ N * (s.percent + 1) ≤ 100 * i := by
  have h1 := h.rem0
  have h2 := h.rem1
  have h3 := h.next
  unfold Progress.cond
  rw [← h3]
  split_ifs with h4 <;> constructor <;> intro <;> omega

private theorem step_inv {N i : ℤ} {s : State} (hN : 1 ≤ N) (hN' : N ≤ IntTy.int64.hi) (hi : i < N)
    (h : PInv N i s) (hc : Progress.cond i s) : ∃ s', step N s = some s' ∧ PInv N i s' := by
  rw [cond_iff h] at hc
  have hp : s.percent + 1 < 100 := by
    by_contra hcon; push Not at hcon; nlinarith
  have hn := h.nn
  have hhi : IntTy.int64.hi = 9223372036854775807 := rfl
  have hq : N * (s.percent + 1 + 1) / 100 ≤ IntTy.int64.hi := by
    refine le_trans ?_ hN'
    have : N * (s.percent + 1 + 1) ≤ N * 100 := by
      apply mul_le_mul_of_nonneg_left <;> omega
    omega
  have e := c07_prodDiv_defined IntTy.int64 (by decide) N (s.percent + 1 + 1) 100 hN hN'
    (by omega) (by omega) (by norm_num) (by omega) hq
  refine ⟨⟨s.percent + 1, N * (s.percent + 1 + 1) % 100, N * (s.percent + 1 + 1) / 100⟩, ?_, ?_⟩
  · unfold step; rw [e]; rfl
  · exact ⟨by dsimp only; omega, by dsimp only; omega, by dsimp only; omega, by dsimp only; omega, hc⟩

private theorem while_inv {N i : ℤ} (hN : 1 ≤ N) (hN' : N ≤ IntTy.int64.hi) (hi : i < N) :
    ∀ {s t}, While N i s t → PInv N i s → PInv N i t ∧ ¬ Progress.cond i t := by
  intro s t hw
  induction hw with
  | done hc => intro h; exact ⟨h, hc⟩
  | next hc hs _ ih =>
    intro h
    obtain ⟨s', hs', hi'⟩ := step_inv hN hN' hi h hc
    rw [hs] at hs'; cases hs'; exact ih hi'

private theorem while_total {N i : ℤ} (hN : 1 ≤ N) (hN' : N ≤ IntTy.int64.hi) (hi : i < N) :
    ∀ (n : ℕ) (s), PInv N i s → s.percent + n ≥ 100 → ∃ t, While N i s t := by
  intro n
  induction n with
  | zero =>
    intro s h hp
    refine ⟨s, .done ?_⟩
    rw [cond_iff h]; intro hc; simp at hp; nlinarith
  | succ n ih =>
    intro s h hp
    by_cases hc : Progress.cond i s
    · obtain ⟨s', hs', hi'⟩ := step_inv hN hN' hi h hc
      have hpp : s'.percent = s.percent + 1 := by
        unfold step at hs'
        simp only [Option.bind_eq_bind, Option.bind_eq_some_iff] at hs'
        obtain ⟨⟨q, r⟩, -, h2⟩ := hs'
        simp at h2; rw [← h2]
      obtain ⟨t, ht⟩ := ih s' hi' (by rw [hpp]; push_cast at hp; omega)
      exact ⟨t, .next hc hs' ht⟩
    · exact ⟨s, .done hc⟩

private theorem init_inv {N : ℤ} (hN : 1 ≤ N) : PInv N 0 (init N) := by
  have h0 : 0 ≤ N := by omega
  unfold init
  rw [Int.tmod_eq_emod_of_nonneg h0, Int.tdiv_eq_ediv_of_nonneg h0]
  exact ⟨le_refl _, by dsimp only; omega, by dsimp only; omega, by dsimp only; omega, by simp⟩

private theorem reach_inv {N : ℤ} (hN : 1 ≤ N) (hN' : N ≤ IntTy.int64.hi) :
    ∀ {i s}, Reaches N i s → i < N ∧ PInv N i s ∧ ¬ Progress.cond i s := by
  intro i s h
  induction h with
  | first h0 hw => exact ⟨h0, while_inv hN hN' h0 hw (init_inv hN)⟩
  | next hr hlt hw ih =>
    obtain ⟨_, h2, _⟩ := ih
    refine ⟨hlt, while_inv hN hN' hlt hw ⟨h2.nn, h2.rem0, h2.rem1, h2.next, ?_⟩⟩
    have := h2.low; omega

/-- C08. Whenever the display code is reached for event `i`, the percentage is exactly
`floor(100*i/num_events)`; in particular it is at most 99 and never decreases with `i`. -/
theorem c08_percent (N i : ℤ) (s : State) (hN : 1 ≤ N) (hN' : N ≤ IntTy.int64.hi)
    (h : Reaches N i s) : s.percent = 100 * i / N ∧ s.percent ≤ 99 := by
  obtain ⟨hi, hinv, hc⟩ := reach_inv hN hN' h
  rw [cond_iff hinv] at hc
  push Not at hc
  have hl := hinv.low
  have e : s.percent = 100 * i / N := by
    symm
    rw [Int.ediv_eq_iff_of_pos (by omega)]
    constructor <;> nlinarith
  refine ⟨e, ?_⟩
  by_contra hcon; push Not at hcon; nlinarith

/-- C08. For every event index the loops terminate without undefined behaviour. -/
theorem c08_terminates (N : ℤ) (hN : 1 ≤ N) (hN' : N ≤ IntTy.int64.hi) (i : ℕ) (hi : (i : ℤ) < N) :
    ∃ s, Reaches N i s := by
  induction i with
  | zero =>
    obtain ⟨t, ht⟩ := while_total hN hN' (i := 0) (by omega) 100 _ (init_inv hN) (by simp [init])
    exact ⟨t, .first (by omega) ht⟩
  | succ i ih =>
    obtain ⟨s, hs⟩ := ih (by push_cast at hi; omega)
    obtain ⟨_, h2, _⟩ := reach_inv hN hN' hs
    have h2' : PInv N ((i : ℤ) + 1) s :=
      ⟨h2.nn, h2.rem0, h2.rem1, h2.next, by have := h2.low; omega⟩
    obtain ⟨t, ht⟩ := while_total hN hN' (by push_cast at hi; exact hi) 100 _ h2'
      (by have := h2.nn; push_cast; omega)
    refine ⟨t, ?_⟩
    push_cast
    exact .next hs (by push_cast at hi; exact hi) ht

example : (1 : ℤ) ≤ 250 ∧ 250 ≤ IntTy.int64.hi ∧ ((249 : ℕ) : ℤ) < 250 := by decide

end Sidis.Props
