import Verif.Lemmas.Interp
import Verif.Model.Phenom
import Mathlib.Analysis.Calculus.Deriv.MeanValue
import Mathlib.Analysis.Calculus.Deriv.Pow
import Mathlib.Analysis.Complex.ExponentialBounds
import Mathlib.Analysis.Real.Pi.Bounds
import Mathlib.Topology.Algebra.Order.Floor

/-! # Lemmas about the table of the running coupling -/

namespace Sidis.Phen

open Interp Spec

/-! ## The cubic rule on a table -/

/-- The cubic rule on a table `A`, with the value `c` below its first entry. -/
noncomputable def curve (c : ℝ) (A : ℕ → ℝ) (t : ℝ) : ℝ :=
  cub (if ⌊t⌋₊ = 0 then c else A (⌊t⌋₊ - 1)) (A ⌊t⌋₊) (A (⌊t⌋₊ + 1)) (A (⌊t⌋₊ + 2)) (t - ⌊t⌋₊)

/-- The polynomial of one cell. -/
noncomputable def piece (c : ℝ) (A : ℕ → ℝ) (i : ℕ) (t : ℝ) : ℝ :=
  cub (if i = 0 then c else A (i - 1)) (A i) (A (i + 1)) (A (i + 2)) (t - i)

theorem cub_continuous (a b c d : ℝ) : Continuous (cub a b c d) := by
  unfold cub; fun_prop

theorem piece_continuous (c : ℝ) (A : ℕ → ℝ) (i : ℕ) : Continuous (piece c A i) :=
  (cub_continuous _ _ _ _).comp (by fun_prop)

theorem curve_eq_piece (c : ℝ) (A : ℕ → ℝ) (i : ℕ) (t : ℝ) (h1 : (i : ℝ) ≤ t) (h2 : t ≤ i + 1) :
    curve c A t = piece c A i t := by
  rcases h2.lt_or_eq with h | h
  · have : ⌊t⌋₊ = i := (Nat.floor_eq_iff ((Nat.cast_nonneg i).trans h1)).2 ⟨h1, h⟩
    rw [curve, this, piece]
  · have e : t = ((i + 1 : ℕ) : ℝ) := by rw [h]; push_cast; ring
    have : ⌊t⌋₊ = i + 1 := by rw [e, Nat.floor_natCast]
    rw [curve, this, piece, e]
    push_cast
    simp only [cub]
    ring

theorem curve_continuousOn (c : ℝ) (A : ℕ → ℝ) : ContinuousOn (curve c A) (Set.Ici 0) := by
  have key : ∀ n : ℕ, ContinuousOn (curve c A) (Set.Icc 0 n) := by
    intro n
    induction n with
    | zero => simp
    | succ n ih =>
      have h2 : ContinuousOn (curve c A) (Set.Icc (n : ℝ) (n + 1 : ℕ)) :=
        (piece_continuous c A n).continuousOn.congr fun t ht =>
          curve_eq_piece c A n t ht.1 (by have := ht.2; push_cast at this; exact this)
      have := ih.union_of_isClosed h2 isClosed_Icc isClosed_Icc
      rwa [Set.Icc_union_Icc_eq_Icc (by positivity) (by push_cast; linarith)] at this
  intro t ht
  obtain ⟨n, hn⟩ := exists_nat_gt t
  refine ((key n) t ⟨ht, hn.le⟩).mono_of_mem_nhdsWithin ?_
  rw [mem_nhdsWithin]
  exact ⟨Set.Iio n, isOpen_Iio, hn, fun x hx => ⟨hx.2, le_of_lt hx.1⟩⟩

theorem cub_deriv (a b c d x : ℝ) : HasDerivAt (cub a b c d)
    (6 * x * (1 - x) * (c - b) + (c - a) / 2 * ((1 - x) * (1 - 3 * x)) + (d - b) / 2 * (x * (3 * x - 2)))
    x := by
  have h : cub a b c d = fun x => b + (c - a) / 2 * x + (-3 * b + 3 * c - (c - a) - (d - b) / 2) * x ^ 2
      + (2 * b - 2 * c + (c - a) / 2 + (d - b) / 2) * x ^ 3 := by
    funext x; simp only [cub]; ring
  rw [h]
  have := (((hasDerivAt_const x b).add ((hasDerivAt_id x).const_mul ((c - a) / 2))).add
    ((hasDerivAt_pow 2 x).const_mul (-3 * b + 3 * c - (c - a) - (d - b) / 2))).add
    ((hasDerivAt_pow 3 x).const_mul (2 * b - 2 * c + (c - a) / 2 + (d - b) / 2))
  refine this.congr_deriv ?_
  norm_num
  ring

/-- The rule is monotone when the secants through the neighbours are less than three times as steep as
the cell. -/
theorem cub_strictMono {a b c d : ℝ} (h1 : a < c) (h2 : b < d) (h3 : (c - a) / 2 < 3 * (c - b))
    (h4 : (d - b) / 2 < 3 * (c - b)) : StrictMonoOn (cub a b c d) (Set.Icc 0 1) := by
  refine strictMonoOn_of_deriv_pos (convex_Icc 0 1) (cub_continuous _ _ _ _).continuousOn ?_
  intro x hx
  rw [interior_Icc] at hx
  rw [(cub_deriv a b c d x).deriv]
  have hδ : 0 < 3 * (c - b) := by linarith
  set δ := 3 * (c - b)
  set p := (c - a) / 2 with hp
  set q := (d - b) / 2 with hq
  have p0 : 0 < p := by rw [hp]; linarith
  have q0 : 0 < q := by rw [hq]; linarith
  have e : δ * (6 * x * (1 - x) * (c - b) + p * ((1 - x) * (1 - 3 * x)) + q * (x * (3 * x - 2)))
      = (δ - p) * (δ - q) * (2 * x * (1 - x)) + p * (δ - q) * (1 - x) ^ 2 + (δ - p) * q * x ^ 2
        + p * q * (1 - 2 * x) ^ 2 := by
    simp only [δ]; ring
  have e0 : 0 < δ * (6 * x * (1 - x) * (c - b) + p * ((1 - x) * (1 - 3 * x)) + q * (x * (3 * x - 2))) := by
    rw [e]
    have := hx.1
    have := sub_pos.2 hx.2
    have := sub_pos.2 h3
    have := sub_pos.2 h4
    positivity
  exact (mul_pos_iff_of_pos_left hδ).1 e0

/-- A table whose steps are positive and vary by less than a factor of five. -/
def Even (A : ℕ → ℝ) (n : ℕ) : Prop :=
  ∃ d : ℝ, 0 < d ∧ ∀ i, i < n → d ≤ A (i + 1) - A i ∧ A (i + 1) - A i ≤ 2 * d

theorem Even.mono {A : ℕ → ℝ} {n : ℕ} (h : Even A n) {i j : ℕ} (hij : i ≤ j) (hj : j ≤ n) : A i ≤ A j := by
  obtain ⟨d, hd, h⟩ := h
  induction j, hij using Nat.le_induction with
  | base => exact le_rfl
  | succ j _ ih =>
    have := (h j (by omega)).1
    have := ih (by omega)
    linarith

theorem piece_ends (c : ℝ) (A : ℕ → ℝ) (i : ℕ) : piece c A i i = A i ∧ piece c A i (i + 1) = A (i + 1) := by
  constructor
  · simp [piece, cub]
  · simp only [piece, cub]; ring

theorem piece_strictMono {c : ℝ} {A : ℕ → ℝ} {n : ℕ} (h : Even A n) {i : ℕ} (hi : 1 ≤ i) (hn : i + 2 ≤ n) :
    StrictMonoOn (piece c A i) (Set.Icc i (i + 1)) := by
  obtain ⟨d, hd, h⟩ := h
  have h0 := h (i - 1) (by omega)
  have h1 := h i (by omega)
  have h2 := h (i + 1) (by omega)
  rw [show i - 1 + 1 = i by omega] at h0
  rw [show i + 1 + 1 = i + 2 by omega] at h2
  have := cub_strictMono (a := A (i - 1)) (b := A i) (c := A (i + 1)) (d := A (i + 2))
    (by linarith) (by linarith) (by linarith) (by linarith)
  intro x hx y hy hxy
  simp only [piece, if_neg (show i ≠ 0 by omega)]
  exact this ⟨by linarith [hx.1], by linarith [hx.2]⟩ ⟨by linarith [hy.1], by linarith [hy.2]⟩ (by linarith)

theorem floor_le_of {t : ℝ} {n : ℕ} (ht : t ≤ n) (h0 : 0 ≤ t) : ⌊t⌋₊ ≤ n := by
  exact_mod_cast (Nat.floor_le h0).trans ht

theorem curve_bounds {c : ℝ} {A : ℕ → ℝ} {n : ℕ} (h : Even A n) {t : ℝ} (h1 : 1 ≤ t) (h2 : t + 2 ≤ n) :
    A ⌊t⌋₊ ≤ curve c A t ∧ curve c A t < A (⌊t⌋₊ + 1) := by
  have f1 : 1 ≤ ⌊t⌋₊ := Nat.one_le_floor_iff t |>.2 h1
  have f2 := Nat.floor_le (show 0 ≤ t by linarith)
  have f3 := Nat.lt_floor_add_one t
  have f4 : ⌊t⌋₊ + 2 ≤ n := by
    have : ((⌊t⌋₊ + 2 : ℕ) : ℝ) ≤ n := by push_cast; linarith
    exact_mod_cast this
  have m := piece_strictMono (c := c) h f1 f4
  rw [curve_eq_piece c A ⌊t⌋₊ t f2 f3.le, ← (piece_ends c A ⌊t⌋₊).2]
  conv_lhs => rw [← (piece_ends c A ⌊t⌋₊).1]
  exact ⟨m.monotoneOn ⟨le_rfl, by linarith⟩ ⟨f2, f3.le⟩ f2, m ⟨f2, f3.le⟩ ⟨by linarith, le_rfl⟩ f3⟩

theorem curve_strictMono {c : ℝ} {A : ℕ → ℝ} {n : ℕ} (h : Even A n) {s t : ℝ} (h1 : 1 ≤ s) (hst : s < t)
    (h2 : t + 2 ≤ n) : curve c A s < curve c A t := by
  have bs := curve_bounds (c := c) h h1 (by linarith)
  have bt := curve_bounds (c := c) h (h1.trans hst.le) h2
  rcases (Nat.floor_le_floor hst.le).lt_or_eq with hlt | he
  · have : ⌊t⌋₊ ≤ n := floor_le_of (by linarith) (by linarith)
    have := h.mono (show ⌊s⌋₊ + 1 ≤ ⌊t⌋₊ from hlt) this
    linarith
  · have f1 : 1 ≤ ⌊s⌋₊ := Nat.one_le_floor_iff s |>.2 h1
    have f2 := Nat.floor_le (show 0 ≤ s by linarith)
    have f3 := Nat.lt_floor_add_one t
    have f4 : ⌊s⌋₊ + 2 ≤ n := by
      have : ((⌊s⌋₊ + 2 : ℕ) : ℝ) ≤ n := by push_cast; linarith
      exact_mod_cast this
    have m := piece_strictMono (c := c) h f1 f4
    rw [← he] at f3
    rw [curve_eq_piece c A ⌊s⌋₊ s f2 (by linarith), curve_eq_piece c A ⌊s⌋₊ t (by linarith) f3.le]
    exact m ⟨f2, by linarith⟩ ⟨by linarith, f3.le⟩ hst

/-- With zero below the table the rule does not fall below the first entry. -/
theorem curve_ge {A : ℕ → ℝ} {n : ℕ} (h : Even A n) (hA : 0 ≤ A 0) {t : ℝ} (h0 : 0 ≤ t) (h2 : t + 2 ≤ n) :
    A 0 ≤ curve 0 A t := by
  rcases lt_or_ge t 1 with ht | ht
  · have hn : 2 ≤ n := by
      have : ((2 : ℕ) : ℝ) ≤ n := by push_cast; linarith
      exact_mod_cast this
    obtain ⟨d, hd, h⟩ := h
    have a1 := h 0 (by omega)
    have a2 := h 1 (by omega)
    simp only [zero_add, Nat.reduceAdd] at a1 a2
    rw [curve_eq_piece 0 A 0 t (by simpa using h0) (by simpa using ht.le)]
    simp only [piece, if_true, Nat.cast_zero, sub_zero, cub, zero_add]
    have e : 2 * (1 - t) * (1 - t) * (1 / 2 + t) * A 0 + 1 / 2 * (1 - t) * (1 - t) * t * A 1
        + 2 * t * t * (3 / 2 - t) * A 1 - 1 / 2 * t * t * (1 - t) * (A 2 - A 0)
      = A 0 + 1 / 2 * (1 - t) * (1 - t) * t * A 1 + t * t * ((5 / 2 * (1 - t) + t) * (A 1 - A 0)
        + 1 / 2 * (1 - t) * (A 1 - A 0) - 1 / 2 * (1 - t) * (A 2 - A 0)) := by ring
    rw [e]
    have p : 0 ≤ (5 / 2 * (1 - t) + t) * (A 1 - A 0) + 1 / 2 * (1 - t) * (A 1 - A 0)
        - 1 / 2 * (1 - t) * (A 2 - A 0) := by
      have t1 : 0 ≤ 1 - t := by linarith
      have : 0 ≤ (1 - t) * (3 * (A 1 - A 0) - 1 / 2 * (A 2 - A 0)) := mul_nonneg t1 (by linarith)
      have : 0 ≤ t * (A 1 - A 0) := mul_nonneg h0 (by linarith)
      nlinarith
    have t1 : 0 ≤ 1 - t := by linarith
    have p1 : 0 ≤ A 1 := by linarith
    have : 0 ≤ 1 / 2 * (1 - t) * (1 - t) * t * A 1 := by positivity
    have : 0 ≤ t * t * ((5 / 2 * (1 - t) + t) * (A 1 - A 0) + 1 / 2 * (1 - t) * (A 1 - A 0)
        - 1 / 2 * (1 - t) * (A 2 - A 0)) := by positivity
    linarith
  · exact (h.mono (Nat.zero_le _) (floor_le_of (by linarith) h0)).trans (curve_bounds h ht h2).1

/-! ## The table -/

/-- The entries of the table. -/
noncomputable def entry (i : ℕ) : ℝ := rk4^[i] alpha0

theorem after_eq (n : ℕ) : Tables.after n
    = ⟨(List.range (n + 1)).map fun i : ℕ => 2 * Real.log massE + i * step, (List.range (n + 1)).map entry⟩ := by
  induction n with
  | zero => simp [Tables.after, Tables.init, entry]
  | succ n ih =>
    rw [Tables.after, Function.iterate_succ_apply', ← Tables.after, ih, Tables.body]
    rw [List.range_succ (n := n + 1)]
    simp only [List.map_append, List.map_cons, List.map_nil]
    congr 3
    · rw [List.range_succ, List.map_append]
      simp
      ring
    · rw [List.range_succ, List.map_append]
      simp [entry, Function.iterate_succ_apply']

theorem cond_after (n : ℕ) : (Tables.after n).cond qSqMax
    ↔ n < 7 ∨ 2 * Real.log massE + (n - 7 : ℕ) * step ≤ Real.log qSqMax := by
  rw [after_eq, Tables.cond]
  simp only [List.length_map, List.length_range]
  refine or_congr (by omega) ?_
  have : n - 7 < n + 1 := by omega
  rw [show n + 1 - 8 = n - 7 by omega]
  simp [List.getD, List.getElem?_range this]

theorem exists_end : ∃ t, Tables.LoopEnds qSqMax t := by
  classical
  have h : ∃ n, ¬ (Tables.after n).cond qSqMax := by
    obtain ⟨m, hm⟩ := exists_nat_gt ((Real.log qSqMax - 2 * Real.log massE) / step)
    refine ⟨m + 7, ?_⟩
    rw [cond_after]
    push Not
    refine ⟨by omega, ?_⟩
    rw [div_lt_iff₀ (by norm_num [step])] at hm
    simp only [Nat.add_sub_cancel]
    linarith
  exact ⟨_, Nat.find h, rfl, Nat.find_spec h, fun i hi => not_not.1 (Nat.find_min h hi)⟩

theorem massE_pos : 0 < massE := by norm_num [massE]

theorem log_massE_gt : -8 < Real.log massE := by
  rw [Real.lt_log_iff_exp_lt massE_pos, Real.exp_neg]
  have h : (2.7 : ℝ) ^ 8 < Real.exp 8 := by
    have : Real.exp 8 = Real.exp 1 ^ 8 := by rw [← Real.exp_nat_mul]; norm_num
    rw [this]
    exact pow_lt_pow_left₀ (by linarith [Real.exp_one_gt_d9]) (by norm_num) (by norm_num)
  calc (Real.exp 8)⁻¹ < ((2.7 : ℝ) ^ 8)⁻¹ := inv_strictAnti₀ (by norm_num) h
    _ < massE := by norm_num [massE]

theorem log_qSqMax_lt : Real.log qSqMax < 5 := by
  rw [Real.log_lt_iff_lt_exp (by norm_num [qSqMax])]
  have h : (2.7 : ℝ) ^ 5 < Real.exp 5 := by
    have : Real.exp 5 = Real.exp 1 ^ 5 := by rw [← Real.exp_nat_mul]; norm_num
    rw [this]
    exact pow_lt_pow_left₀ (by linarith [Real.exp_one_gt_d9]) (by norm_num) (by norm_num)
  refine lt_trans ?_ h
  norm_num [qSqMax]

/-- What is known when the loop has ended. -/
theorem end_spec {t : Tables} (h : Tables.LoopEnds qSqMax t) : ∃ n : ℕ, t = .after n ∧ 8 ≤ n ∧ n ≤ 2108 ∧
    Real.log qSqMax < 2 * Real.log massE + (n - 7) * step := by
  obtain ⟨n, rfl, h1, h2⟩ := h
  have h7 : 7 ≤ n := by
    by_contra h
    exact h1 ((cond_after n).2 (.inl (by omega)))
  rw [cond_after] at h1
  push Not at h1
  have e : ((n - 7 : ℕ) : ℝ) = (n : ℝ) - 7 := by rw [Nat.cast_sub h7]; norm_num
  have h8 : 8 ≤ n := by
    by_contra h
    have : n = 7 := by omega
    subst this
    have := h1.2
    have l1 : Real.log massE < Real.log qSqMax :=
      Real.log_lt_log massE_pos (by norm_num [massE, qSqMax])
    have l2 : Real.log massE < 0 := Real.log_neg massE_pos (by norm_num [massE])
    norm_num at this
    linarith
  refine ⟨n, rfl, h8, ?_, by rw [← e]; exact h1.2⟩
  have := (cond_after (n - 1)).1 (h2 (n - 1) (by omega))
  rcases this with h | h
  · omega
  · have l1 := log_massE_gt
    have l2 := log_qSqMax_lt
    have e2 : ((n - 1 - 7 : ℕ) : ℝ) = (n : ℝ) - 8 := by
      rw [show n - 1 - 7 = n - 8 by omega, Nat.cast_sub h8]; norm_num
    rw [e2, step] at h
    have : (n : ℝ) < 2109 := by norm_num at h; linarith
    have : n < 2109 := by exact_mod_cast this
    omega

/-! ## Growth of the entries -/

theorem betaQed_eq (a : ℝ) : betaQed a = (1 + 3 * (a / (4 * Real.pi))) * a ^ 2 / (3 * Real.pi) := by
  have := Real.pi_pos
  simp only [betaQed, beta0, nf]
  field_simp

theorem betaQed_mono {a b : ℝ} (ha : 0 ≤ a) (h : a ≤ b) : betaQed a ≤ betaQed b := by
  have := Real.pi_pos
  rw [betaQed_eq, betaQed_eq]
  have : 0 ≤ b := ha.trans h
  gcongr

theorem betaQed_hi : betaQed 0.01 ≤ 1.12e-5 := by
  have := Real.pi_gt_three
  have h : 0.01 / (4 * Real.pi) ≤ 0.01 / 12 := by gcongr; linarith
  rw [betaQed_eq, div_le_iff₀ (by positivity)]
  nlinarith

theorem betaQed_lo : 5.6e-6 ≤ betaQed alpha0 := by
  have := Real.pi_pos
  have := Real.pi_lt_d4
  have h : 0 ≤ alpha0 / (4 * Real.pi) := by unfold alpha0; positivity
  rw [betaQed_eq, le_div_iff₀ (by positivity)]
  have : (5.3e-5 : ℝ) ≤ alpha0 ^ 2 := by norm_num [alpha0]
  nlinarith

theorem rk4_bounds {a : ℝ} (h1 : alpha0 ≤ a) (h2 : a ≤ 0.009) :
    5.6e-8 ≤ rk4 a - a ∧ rk4 a - a ≤ 1.12e-7 := by
  have a0 : 0 < alpha0 := by norm_num [alpha0]
  have key : ∀ b, alpha0 ≤ b → b ≤ 0.01 → 5.6e-6 ≤ betaQed b ∧ betaQed b ≤ 1.12e-5 := fun b h1 h2 =>
    ⟨betaQed_lo.trans (betaQed_mono a0.le h1), (betaQed_mono (a0.le.trans h1) h2).trans betaQed_hi⟩
  have k1 := key a h1 (by linarith)
  have k2 := key (a + 0.5 * step * betaQed a) (by norm_num [step]; linarith) (by norm_num [step]; linarith)
  have k3 := key (a + 0.5 * step * betaQed (a + 0.5 * step * betaQed a)) (by norm_num [step] at *; linarith)
    (by norm_num [step] at *; linarith)
  have k4 := key (a + step * betaQed (a + 0.5 * step * betaQed (a + 0.5 * step * betaQed a)))
    (by norm_num [step] at *; linarith) (by norm_num [step] at *; linarith)
  simp only [rk4]
  generalize betaQed (a + step * betaQed (a + 0.5 * step * betaQed (a + 0.5 * step * betaQed a))) = p4 at *
  generalize betaQed (a + 0.5 * step * betaQed (a + 0.5 * step * betaQed a)) = p3 at *
  generalize betaQed (a + 0.5 * step * betaQed a) = p2 at *
  generalize betaQed a = p1 at *
  have e : step = 0.01 := rfl
  rw [e]
  constructor <;> linarith

theorem entry_zero : entry 0 = alpha0 := rfl

theorem entry_bounds (n : ℕ) (h : n ≤ 2120) : alpha0 ≤ entry n ∧ entry n ≤ alpha0 + n * 1.12e-7 := by
  induction n with
  | zero => simp [entry]
  | succ n ih =>
    obtain ⟨i1, i2⟩ := ih (by omega)
    have hn : (n : ℝ) ≤ 2120 := by exact_mod_cast (by omega : n ≤ 2120)
    have ha : alpha0 ≤ 0.0073 := by norm_num [alpha0]
    have := rk4_bounds i1 (by linarith)
    have e : entry (n + 1) = rk4 (entry n) := by simp [entry, Function.iterate_succ_apply']
    rw [e]
    push_cast
    constructor <;> linarith

theorem entry_even : Even entry 2110 := by
  refine ⟨5.6e-8, by norm_num, fun i hi => ?_⟩
  have hb := entry_bounds i (by omega)
  have hi' : (i : ℝ) ≤ 2120 := by exact_mod_cast (by omega : i ≤ 2120)
  have ha : alpha0 ≤ 0.0073 := by norm_num [alpha0]
  have := rk4_bounds hb.1 (by linarith)
  have e : entry (i + 1) = rk4 (entry i) := by simp [entry, Function.iterate_succ_apply']
  rw [e]
  constructor <;> linarith

theorem entry_le {n : ℕ} (h : n ≤ 2120) : entry n ≤ 0.0076 := by
  have hb := entry_bounds n h
  have hi' : (n : ℝ) ≤ 2120 := by exact_mod_cast h
  have ha : alpha0 ≤ 0.0073 := by norm_num [alpha0]
  linarith

theorem entry_pos {n : ℕ} (h : n ≤ 2120) : 0 < entry n :=
  lt_of_lt_of_le (by norm_num [alpha0]) (entry_bounds n h).1

theorem rk4_between {a : ℝ} (h1 : alpha0 ≤ a) (h2 : a ≤ 0.0076) :
    a + step * betaQed a ≤ rk4 a ∧ rk4 a ≤ a + step * betaQed (a + 1.12e-7) := by
  have a0 : 0 < alpha0 := by norm_num [alpha0]
  have hs : step = 0.01 := rfl
  have key : ∀ b, a ≤ b → b ≤ a + 1.12e-7 → betaQed a ≤ betaQed b ∧ betaQed b ≤ betaQed (a + 1.12e-7) :=
    fun b h3 h4 => ⟨betaQed_mono (by linarith) h3, betaQed_mono (by linarith) h4⟩
  have hp : 0 < betaQed a := lt_of_lt_of_le (by norm_num) (betaQed_lo.trans (betaQed_mono a0.le h1))
  have hq : betaQed (a + 1.12e-7) ≤ 1.12e-5 := (betaQed_mono (by linarith) (by linarith)).trans betaQed_hi
  have k1 := key a le_rfl (by linarith)
  have k2 := key (a + 0.5 * step * betaQed a) (by rw [hs]; linarith) (by rw [hs]; linarith)
  have k3 := key (a + 0.5 * step * betaQed (a + 0.5 * step * betaQed a)) (by rw [hs] at *; linarith)
    (by rw [hs] at *; linarith)
  have k4 := key (a + step * betaQed (a + 0.5 * step * betaQed (a + 0.5 * step * betaQed a)))
    (by rw [hs] at *; linarith) (by rw [hs] at *; linarith)
  simp only [rk4]
  generalize betaQed (a + step * betaQed (a + 0.5 * step * betaQed (a + 0.5 * step * betaQed a))) = p4 at *
  generalize betaQed (a + 0.5 * step * betaQed (a + 0.5 * step * betaQed a)) = p3 at *
  generalize betaQed (a + 0.5 * step * betaQed a) = p2 at *
  generalize betaQed a = p1 at *
  rw [hs]
  constructor <;> linarith

/-- One step changes the inverse coupling by the one-loop amount, up to two parts in a thousand. -/
theorem rk4_inv {a : ℝ} (h1 : alpha0 ≤ a) (h2 : a ≤ 0.0076) :
    1 / a - 1.002 * (step / (3 * Real.pi)) ≤ 1 / rk4 a ∧ 1 / rk4 a ≤ 1 / a - step / (3 * Real.pi) := by
  have hs : step = 0.01 := rfl
  have ha0 : (0.007 : ℝ) < alpha0 := by norm_num [alpha0]
  have a0 : 0 < a := by linarith
  obtain ⟨b1, b2⟩ := rk4_between h1 h2
  have hpi := Real.pi_gt_three
  have hpi4 := Real.pi_lt_four
  set c := step / (3 * Real.pi) with hc
  have c0 : 0 < c := by rw [hc, hs]; positivity
  have c1 : c ≤ 0.01 / 9 := by rw [hc, hs]; gcongr; linarith
  have e1 : step * betaQed a = c * (1 + 3 * (a / (4 * Real.pi))) * a ^ 2 := by
    rw [betaQed_eq, hc]; field_simp
  have e2 : step * betaQed (a + 1.12e-7) = c * (1 + 3 * ((a + 1.12e-7) / (4 * Real.pi))) * (a + 1.12e-7) ^ 2 := by
    rw [betaQed_eq, hc]; field_simp
  have r0 : 0 < rk4 a := by
    have : 0 < c * (1 + 3 * (a / (4 * Real.pi))) * a ^ 2 := by positivity
    linarith
  have ca : c * a ≤ 0.0076 * (0.01 / 9) := by nlinarith
  have ca0 : 0 < c * a := by positivity
  constructor
  · have q : 3 * ((a + 1.12e-7) / (4 * Real.pi)) ≤ 0.00191 := by
      have : (a + 1.12e-7) / (4 * Real.pi) ≤ 0.0076002 / 12 := by gcongr <;> linarith
      linarith
    have q2 : (a + 1.12e-7) ^ 2 ≤ 1.00004 * a ^ 2 := by nlinarith
    have q3 : rk4 a ≤ a + c * 1.00195 * a ^ 2 := by
      have : c * (1 + 3 * ((a + 1.12e-7) / (4 * Real.pi))) * (a + 1.12e-7) ^ 2
          ≤ c * 1.00191 * (1.00004 * a ^ 2) := by
        have : 1 + 3 * ((a + 1.12e-7) / (4 * Real.pi)) ≤ 1.00191 := by linarith
        gcongr
      have : 0 < c * a ^ 2 := by positivity
      nlinarith
    rw [sub_le_iff_le_add, ← sub_le_iff_le_add', div_sub_div _ _ a0.ne' r0.ne', div_le_iff₀ (by positivity)]
    have : c * 1.00195 * a ^ 2 ≤ 1.002 * c * (a * rk4 a) := by
      have : a ≤ rk4 a := by
        have : 0 < c * (1 + 3 * (a / (4 * Real.pi))) * a ^ 2 := by positivity
        linarith
      have : c * a * a ≤ c * a * rk4 a := by gcongr
      nlinarith
    linarith
  · have q : 0.0013 ≤ 3 * (a / (4 * Real.pi)) := by
      have : 0.007 / 16 ≤ a / (4 * Real.pi) := by gcongr <;> linarith
      linarith
    have q3 : a + c * 1.0013 * a ^ 2 ≤ rk4 a := by
      have : c * 1.0013 * a ^ 2 ≤ c * (1 + 3 * (a / (4 * Real.pi))) * a ^ 2 := by
        have : 1.0013 ≤ 1 + 3 * (a / (4 * Real.pi)) := by linarith
        gcongr
      linarith
    have hr : 1 / rk4 a ≤ 1 / (a + c * 1.0013 * a ^ 2) := one_div_le_one_div_of_le (by positivity) q3
    refine hr.trans ?_
    rw [le_sub_iff_add_le, ← le_sub_iff_add_le', div_sub_div _ _ a0.ne' (by positivity),
      le_div_iff₀ (by positivity)]
    have : c * (c * a) * a ^ 2 ≤ c * (0.0076 * (0.01 / 9)) * a ^ 2 := by gcongr
    have : 0 < c * a ^ 2 := by positivity
    nlinarith

theorem entry_inv (n : ℕ) (h : n ≤ 2120) :
    1 / alpha0 - 1.002 * (n * step / (3 * Real.pi)) ≤ 1 / entry n ∧
      1 / entry n ≤ 1 / alpha0 - n * step / (3 * Real.pi) := by
  induction n with
  | zero => simp [entry]
  | succ n ih =>
    obtain ⟨i1, i2⟩ := ih (by omega)
    have e : entry (n + 1) = rk4 (entry n) := by simp [entry, Function.iterate_succ_apply']
    have := rk4_inv (entry_bounds n (by omega)).1 (entry_le (by omega))
    rw [e]
    have e2 : ((n + 1 : ℕ) : ℝ) * step / (3 * Real.pi) = n * step / (3 * Real.pi) + step / (3 * Real.pi) := by
      push_cast; ring
    rw [e2]
    constructor <;> linarith

/-! ## The view -/

/-- Position of a value in the table. -/
noncomputable def place (Q_sq : ℝ) : ℝ := (Real.log Q_sq - 2 * Real.log massE) / step

theorem step_pos : 0 < step := by norm_num [step]

theorem dim_eq (n : ℕ) : (Tables.after n).dim
    = (⟨n + 1, 2 * Real.log massE, 2 * Real.log massE + n * step⟩ : RDim).dim := by
  rw [Tables.dim, RDim.dim, after_eq]
  have h1 : (List.map (fun i : ℕ => 2 * Real.log massE + ↑i * step) (List.range (n + 1))).headD 0
      = 2 * Real.log massE := by
    rw [List.range_succ_eq_map]; simp
  have h2 : (List.map (fun i : ℕ => 2 * Real.log massE + ↑i * step) (List.range (n + 1))).getLastD 0
      = 2 * Real.log massE + n * step := by
    rw [List.range_succ, List.map_append]; simp
  simp only [h1, h2, List.length_map, List.length_range]

theorem data_holds (n : ℕ) :
    Holds (Tables.after n).data 0 [⟨n + 1, 2 * Real.log massE, 2 * Real.log massE + n * step⟩]
      fun i => entry (i.headD 0) := by
  intro i hi
  simp only [List.map_cons, List.map_nil] at hi
  obtain _ | ⟨h, h'⟩ := hi
  cases h'
  rename_i j
  have hj : j < n + 1 := h
  simp [Tables.data, after_eq, flat, List.getElem?_map, List.getElem?_range, hj]

theorem place_pos {Q : ℝ} (h : massE ^ 2 ≤ Q) : 0 ≤ place Q := by
  have := Real.log_le_log (by have := massE_pos; positivity) h
  rw [Real.log_pow] at this
  push_cast at this
  exact div_nonneg (by linarith) step_pos.le

theorem view_eq {t : Tables} (ht : Tables.LoopEnds qSqMax t) {Q : ℝ} (h1 : massE ^ 2 ≤ Q) (h2 : Q ≤ qSqMax) :
    t.view (Fl.log (.fin Q)) = .val (.fin (curve 0 entry (place Q))) ∧ place Q + 7 < 2108 := by
  obtain ⟨n, rfl, h8, hn, hend⟩ := end_spec ht
  have hQ : 0 < Q := lt_of_lt_of_le (by have := massE_pos; positivity) h1
  have hl := Real.log_le_log hQ h2
  have hpos := place_pos h1
  have hs := step_pos
  have hp : place Q < n - 7 := by
    rw [place, div_lt_iff₀ hs]; linarith
  have hnR : (n : ℝ) ≤ 2108 := by exact_mod_cast hn
  refine ⟨?_, by linarith⟩
  set d : RDim := ⟨n + 1, 2 * Real.log massE, 2 * Real.log massE + n * step⟩ with hd
  have n0 : (0 : ℝ) < n := by exact_mod_cast (by omega : 0 < n)
  have hprop : d.Proper := ⟨by simp only [d]; omega, by simp only [d]; have := mul_pos n0 hs; linarith⟩
  have hx : d.lo ≤ Real.log Q ∧ Real.log Q < d.hi := by
    constructor
    · have := mul_nonneg hpos hs.le
      rw [place, div_mul_cancel₀ _ hs.ne'] at this
      simp only [d]; linarith
    · have := (div_lt_iff₀ hs).1 (show (Real.log Q - 2 * Real.log massE) / step < n - 7 from hp)
      simp only [d]; nlinarith
  have hv := cubicView_exact [d] (by simpa using ⟨hprop, by simp only [d]; omega⟩) 0 _ (data_holds n)
    [Real.log Q] (.cons hx .nil)
  have hlog : Fl.log (.fin Q) = .fin (Real.log Q) := by simp [Fl.log, hQ]
  have epos : d.pos (Real.log Q) = place Q := by
    simp only [RDim.pos, d, place, Nat.add_sub_cancel]
    field_simp
    ring
  have ecell : d.cell (Real.log Q) = ⌊place Q⌋₊ := by rw [RDim.cell, epos]
  have hfl : ⌊place Q⌋₊ + 7 ≤ n := by
    have := Nat.floor_le hpos
    have : ((⌊place Q⌋₊ + 7 : ℕ) : ℝ) < n := by push_cast; linarith
    exact_mod_cast this.le
  rw [Tables.view, dim_eq, hlog]
  simp only [List.map_cons, List.map_nil] at hv
  rw [hv]
  simp only [cubEval, curve, frac, ecell, epos, List.headD_cons]
  rw [if_neg (show ¬ d.count - 2 ≤ ⌊place Q⌋₊ by simp only [d]; omega)]

theorem view_outside {t : Tables} (ht : Tables.LoopEnds qSqMax t) (x : Fl)
    (hx : ¬ .fin (2 * Real.log massE) ≤ x) : t.view x = .val .nan := by
  obtain ⟨n, rfl, h8, hn, hend⟩ := end_spec ht
  rw [Tables.view, dim_eq]
  have n0 : (0 : ℝ) < n := by exact_mod_cast (by omega : 0 < n)
  have hs := step_pos
  refine cubicView_outside (.inl rfl) _ ?_ 0 ?_ _ rfl ?_
  · simp only [List.mem_singleton, forall_eq]
    exact proper_ok ⟨by simp only; omega, by have := mul_pos n0 hs; simp only; linarith⟩ (by simp only; omega)
  · simp [total, RDim.dim, Tables.data, after_eq]
  · simp only [List.forall₂_cons, List.Forall₂.nil, and_true, Inside, RDim.dim, not_and]
    exact fun h => absurd h hx

end Sidis.Phen
