import Verif.Lemmas.Integ
import Verif.Lemmas.StatsExample
import Mathlib.Tactic.FinCases

/-! # Event statistics: combining them (C43), and the statistics file (C44) -/

namespace Sidis.Props

open Gen StatsLib Spec Lemmas.Integ

variable {S : Type} [StatsLib S]

/-! ## C43 -/

/-- C43. Two ways of combining the same integrators, in any order and with any grouping, give the
same integrator, as long as one of them is not empty. -/
theorem c43_order (hS : Counts S) (t₁ t₂ : Merge S) (hp : t₁.leaves.Perm t₂.leaves)
    (hs : ∀ a ∈ t₁.leaves, Sound a) (hne : ∃ a ∈ t₁.leaves, 0 < a.count) :
    t₁.value = t₂.value := by
  obtain ⟨a, ha, h0⟩ := hne
  have h1 : full t₁ ≠ [] := by
    intro h
    have : a ∈ full t₁ := List.mem_filter.mpr ⟨ha, by simp; omega⟩
    rw [h] at this; simp at this
  have hp' : (full t₁).Perm (full t₂) := hp.filter _
  have h2 : full t₂ ≠ [] := by
    intro h; rw [h] at hp'; exact h1 hp'.eq_nil
  rw [value_eq hS t₁ hs h1, value_eq hS t₂ (fun b hb => hs b (hp.mem_iff.mpr hb)) h2,
    canon_perm hS hp']

/-- C43. Combining is associative, with no exception. -/
theorem c43_assoc (hS : Counts S) (a b c : Integrator S) (ha : Sound a) (hb : Sound b)
    (hc : Sound c) : (a.add b).add c = a.add (b.add c) := by
  by_cases h : 0 < a.count ∨ 0 < b.count ∨ 0 < c.count
  · refine c43_order hS (.node (.node (.leaf a) (.leaf b)) (.leaf c))
      (.node (.leaf a) (.node (.leaf b) (.leaf c))) (by simp [Merge.leaves]) ?_ ?_
    · simp [Merge.leaves, ha, hb, hc]
    · simpa [Merge.leaves] using h
  · have h1 : a.count = 0 := by omega
    have h2 : b.count = 0 := by omega
    simp [Integrator.add, h1, h2]

/-- C43. Combining is commutative unless both integrators are empty; the combination of two empty
ones is the second. -/
theorem c43_comm (hS : Counts S) (a b : Integrator S) (ha : Sound a) (hb : Sound b) :
    (0 < a.count ∨ 0 < b.count → a.add b = b.add a) ∧
    (a.count = 0 → b.count = 0 → a.add b = b) := by
  refine ⟨fun h => ?_, fun h1 _ => by simp [Integrator.add, h1]⟩
  refine c43_order hS (.node (.leaf a) (.leaf b)) (.node (.leaf b) (.leaf a))
    (by simp [Merge.leaves, List.Perm.swap]) ?_ ?_
  · simp [Merge.leaves, ha, hb]
  · simpa [Merge.leaves] using h

/-- C43. The empty integrator changes nothing. -/
theorem c43_identity (a : Integrator S) :
    (Integrator.default : Integrator S).add a = a ∧ (0 < a.count → a.add .default = a) := by
  refine ⟨by simp [Integrator.add, Integrator.default], fun h => ?_⟩
  have : a.count ≠ 0 := by omega
  simp [Integrator.add, Integrator.default, this]

/-- C43. However a sample was split over integrators: the counts add up, the norm of the
combination is the sum of the norms of the non-empty parts, and the estimate of the integral is the
sum of all weights divided by the sum of all norms. -/
theorem c43_conserved (hS : Counts S) (Finite : S → Prop) (sum : S → ℝ)
    (hsum : HasSum Finite sum) (t : Merge S)
    (hs : ∀ a ∈ t.leaves, Sound a) (hfin : ∀ a ∈ t.leaves, Finite a.weights) (hp : ∀ a ∈ t.leaves, 0 < a.count → 0 < num a.primeInv)
    (hne : ∃ a ∈ t.leaves, 0 < a.count) :
    let parts := t.leaves.filter fun a => a.count ≠ 0
    let norms := (parts.map fun a => num a.norm).sum
    t.value.count = (t.leaves.map Integrator.count).sum ∧
    t.value.countAcc = (t.leaves.map Integrator.countAcc).sum ∧
    t.value.norm = .fin norms ∧ 0 < norms ∧
    t.value.integ = .fin ((parts.map fun a => sum a.weights).sum / norms) := by
  obtain ⟨a₀, ha₀, h0⟩ := hne
  have h1 : full t ≠ [] := by
    intro h
    have : a₀ ∈ full t := List.mem_filter.mpr ⟨ha₀, by simp; omega⟩
    rw [h] at this; simp at this
  have hfull : ∀ a ∈ full t, a ∈ t.leaves ∧ a.count ≠ 0 := fun a ha =>
    ⟨(List.mem_filter.mp ha).1, full_ne a ha⟩
  have hN : ((full t).map Integrator.count).sum ≠ 0 := sum_ne h1 full_ne
  have hN' : (((full t).map Integrator.count).sum : ℝ) ≠ 0 := by exact_mod_cast hN
  have hnorm : ((full t).map fun a => (a.count : ℝ) * num a.primeInv) =
      (full t).map fun a => num a.norm := by
    refine List.map_congr_left fun a ha => ?_
    obtain ⟨hl, hc⟩ := hfull a ha
    obtain ⟨r, hr⟩ := (hs a hl).prime (Nat.pos_of_ne_zero hc)
    simp [Integrator.norm, hr, num]
  have hpos : 0 < ((full t).map fun a => num a.norm).sum := by
    rw [← hnorm]
    refine List.sum_pos _ ?_ (by simpa using h1)
    intro x hx
    obtain ⟨a, ha, rfl⟩ := List.mem_map.mp hx
    obtain ⟨hl, hc⟩ := hfull a ha
    have := hp a hl (Nat.pos_of_ne_zero hc)
    have : (0 : ℝ) < a.count := by exact_mod_cast Nat.pos_of_ne_zero hc
    positivity
  have hv := value_eq hS t hs h1
  refine ⟨?_, ?_, ?_, hpos, ?_⟩
  · rw [hv]; exact sum_filter_count _
  · rw [hv]; exact sum_filter_acc _ hs
  · rw [hv]
    simp only [Integrator.norm, canon, Fl.mul_fin, hnorm, Fl.fin.injEq]
    change _ = ((full t).map fun a => num a.norm).sum
    field_simp
    rfl
  · rw [hv]
    obtain ⟨hf1, hf2⟩ := sum_foldr hS hsum (full t) fun a ha => hfin a (hfull a ha).1
    have hcnt := count_foldr hS (full t) fun a ha => hs a (hfull a ha).1
    simp only [Integrator.integ, canon]
    rw [hsum.mean _ hf1 (by rw [hcnt]; omega), hcnt, hf2, hnorm]
    have hq : ((full t).map fun a => num a.norm).sum / ((full t).map Integrator.count).sum ≠ 0 :=
      div_ne_zero hpos.ne' hN'
    rw [Fl.div_fin _ hq, Fl.fin.injEq]
    have := hpos.ne'
    change _ = ((full t).map fun a => sum a.weights).sum / ((full t).map fun a => num a.norm).sum
    field_simp

/-- C43. `merge-soft`: the merged statistics of an event type do not depend on the order of the
files, as long as one of them has events of the type. -/
theorem c43_files (hS : Counts S) (fs₁ fs₂ : List (IntegratorArray S)) (hp : fs₁.Perm fs₂)
    (k : Fin numEventTypes) (hs : ∀ f ∈ fs₁, Sound (f.map k)) (hne : ∃ f ∈ fs₁, 0 < (f.map k).count) :
    (IntegratorArray.mergeFiles fs₁).map k = (IntegratorArray.mergeFiles fs₂).map k := by
  cases fs₁ with
  | nil => obtain ⟨f, hf, _⟩ := hne; simp at hf
  | cons f₁ r₁ =>
    cases fs₂ with
    | nil => exact absurd hp.eq_nil (by simp)
    | cons f₂ r₂ =>
      obtain ⟨t₁, l₁, v₁⟩ := mergeFiles_map f₁ r₁ k
      obtain ⟨t₂, l₂, v₂⟩ := mergeFiles_map f₂ r₂ k
      rw [v₁, v₂]
      refine c43_order hS t₁ t₂ (by rw [l₁, l₂]; exact hp.map _) ?_ ?_
      · intro a ha
        rw [l₁] at ha
        obtain ⟨f, hf, rfl⟩ := List.mem_map.mp ha
        exact hs f hf
      · obtain ⟨f, hf, h⟩ := hne
        exact ⟨f.map k, by rw [l₁]; exact List.mem_map_of_mem hf, h⟩

/-! Two samples of the same density, drawn with different primes: weights 1, 0 with prime 1/2 and
weight 3 with prime 1/4, and an empty one. -/

/-- Two weights, prime 1/2. -/
noncomputable def exA : Integrator Lemmas.Bag := .mk' (.fin 2) 1 (collect [.fin 1, .fin 0])
/-- One weight, prime 1/4. -/
noncomputable def exB : Integrator Lemmas.Bag := .mk' (.fin 4) 1 (collect [.fin 3])

theorem exA_sound : Sound exA :=
  ⟨rfl, by change 1 ≤ 2; omega, fun _ => ⟨2, rfl⟩⟩
theorem exB_sound : Sound exB :=
  ⟨rfl, by change 1 ≤ 1; omega, fun _ => ⟨4, rfl⟩⟩
theorem default_sound : Sound (.default : Integrator Lemmas.Bag) :=
  ⟨rfl, le_refl 0, fun h => absurd h (by change ¬ 0 < 0; omega)⟩

/-- The hypotheses of C43 hold for a combination of three integrators, one of them empty; the norm
of the result is 8 and its integral estimate is 1/2. -/
example : let t : Merge Lemmas.Bag := .node (.leaf exA) (.node (.leaf .default) (.leaf exB))
    t.value.norm = .fin 8 ∧ t.value.integ = .fin (1 / 2) ∧ t.value.count = 3 := by
  intro t
  have hs : ∀ a ∈ t.leaves, Sound a := by
    simp [t, Merge.leaves, exA_sound, exB_sound, default_sound]
  have hA : Lemmas.Bag.Fin exA.weights := fun w hw => by
    rcases (by simpa using (Lemmas.Bag.mem_collect _ w).mp hw) with rfl | rfl <;> simp
  have hB : Lemmas.Bag.Fin exB.weights := fun w hw => by
    rcases (by simpa using (Lemmas.Bag.mem_collect _ w).mp hw) with rfl; simp
  have hf : ∀ a ∈ t.leaves, Lemmas.Bag.Fin a.weights := by
    intro a ha
    simp only [t, Merge.leaves, List.cons_append, List.nil_append, List.mem_cons,
      List.not_mem_nil, or_false] at ha
    rcases ha with rfl | rfl | rfl
    · exact hA
    · exact Lemmas.Bag.hasSum.empty
    · exact hB
  have cA : exA.count = 2 := rfl
  have cB : exB.count = 1 := rfl
  have c0 : (Integrator.default : Integrator Lemmas.Bag).count = 0 := rfl
  have hp : ∀ a ∈ t.leaves, 0 < a.count → 0 < num a.primeInv := by
    intro a ha hc
    simp only [t, Merge.leaves, List.cons_append, List.nil_append, List.mem_cons,
      List.not_mem_nil, or_false] at ha
    rcases ha with rfl | rfl | rfl
    · change (0 : ℝ) < 2; norm_num
    · rw [c0] at hc; omega
    · change (0 : ℝ) < 4; norm_num
  have hne : ∃ a ∈ t.leaves, 0 < a.count :=
    ⟨exA, by simp [t, Merge.leaves], by rw [cA]; omega⟩
  have hparts : t.leaves.filter (fun a => a.count ≠ 0) = [exA, exB] := by
    simp [t, Merge.leaves, cA, cB, c0]
  have h := c43_conserved Lemmas.Bag.counts _ _ Lemmas.Bag.hasSum t hs hf hp hne
  simp only [hparts] at h
  obtain ⟨h1, -, h3, -, h5⟩ := h
  have nA : num exA.norm = 4 := by
    simp only [Integrator.norm, cA, show exA.primeInv = .fin 2 from rfl, Fl.mul_fin, num]; norm_num
  have nB : num exB.norm = 4 := by
    simp only [Integrator.norm, cB, show exB.primeInv = .fin 4 from rfl, Fl.mul_fin, num]; norm_num
  have sA : Lemmas.Bag.sum exA.weights = 1 := by
    change (Multiset.map num (Fl.fin 0 ::ₘ Fl.fin 1 ::ₘ 0)).sum = 1
    simp [num]
  have sB : Lemmas.Bag.sum exB.weights = 3 := by
    change (Multiset.map num (Fl.fin 3 ::ₘ 0)).sum = 3
    simp [num]
  refine ⟨?_, ?_, ?_⟩
  · rw [h3]; simp [nA, nB]; norm_num
  · rw [h5]; simp [nA, nB, sA, sB]; norm_num
  · rw [h1]; simp [t, Merge.leaves, cA, cB, c0]

/-! ## C44 -/

/-- C44. What is in a statistics file: every array has the totals first, then one entry (four for
the moments) for each event type in order. -/
theorem c44_layout (a : IntegratorArray S) :
    let rows := [a.total, a.map EventType.nrad.idx, a.map EventType.rad.idx]
    Integs.write a =
      { prime := some (rows.map Integrator.prime)
        weightMom := some (rows.flatMap fun r =>
          [ratio r.weights 0, ratio r.weights 1, ratio r.weights 2, ratio r.weights 3])
        weightMax := some (rows.map fun r => max1 r.weights)
        count := some (rows.map fun r => .fin r.count)
        countAcc := some (rows.map fun r => .fin r.countAcc)
        norm := some (rows.map Integrator.norm) } := by
  simp [Integs.write, numEventTypes, List.range, List.range.loop, Integs.writeStep, Integs.rowOf,
    List.replicate, EventType.idx]

theorem div_div_self {x : Fl} (h : x ≠ .ninf) : Fl.fin 1 / (Fl.fin 1 / x) = x := by
  cases x with
  | nan => simp
  | ninf => exact absurd rfl h
  | pinf => rw [Fl.fin_div_pinf, Fl.div_fin_zero]; simp [Fl.infTimes]
  | fin r =>
    by_cases hr : r = 0
    · subst hr; rw [Fl.div_fin_zero]; simp [Fl.infTimes]
    · rw [Fl.div_fin _ hr, Fl.div_fin _ (by positivity)]; simp

/-- C44. Reading back the statistics written for an array of integrators gives the same array: the
same primes, counts, accepted counts and weight statistics for each event type. -/
theorem c44_round_trip (a : IntegratorArray S)
    (hcount : ∀ k, (a.map k).count = StatsLib.count (a.map k).weights)
    (hsize : ∀ k, (a.map k).count < 2 ^ 53 ∧ (a.map k).countAcc < 2 ^ 53)
    (hprime : ∀ k, (a.map k).primeInv ≠ .ninf)
    (hlib : ∀ k, ofMoments (ratio (a.map k).weights) (max1 (a.map k).weights)
      (StatsLib.count (a.map k).weights) = (a.map k).weights) :
    Integs.read (Integs.write a) = .val a := by
  have hk : ∀ k : Fin numEventTypes, k = EventType.nrad.idx ∨ k = EventType.rad.idx := by decide
  have hto : ∀ n : ℕ, n < 2 ^ 53 → Integs.toSize (.fin n) = some n := by
    intro n hn
    have h1 : (n : ℝ) < 2 ^ 64 := by
      calc (n : ℝ) < 2 ^ 53 := by exact_mod_cast hn
        _ < 2 ^ 64 := by norm_num
    have h2 : (-1 : ℝ) < n := lt_of_lt_of_le (by norm_num) (Nat.cast_nonneg n)
    simp [Integs.toSize, h1, h2]
  have hrow : ∀ k : Fin numEventTypes, (Integrator.mk' (Fl.fin 1 / (a.map k).prime)
      (a.map k).countAcc (ofMoments (ratio (a.map k).weights) (max1 (a.map k).weights)
      (a.map k).count) : Integrator S) = a.map k := by
    intro k
    rw [hcount k, hlib k, Integrator.mk', ← hcount k, Integrator.prime,
      div_div_self (hprime k)]
  have hvec : ∀ r : Fin 4 → Fl, ![r 0, r 1, r 2, r 3] = r := by
    intro r; funext i; fin_cases i <;> rfl
  rw [c44_layout]
  simp only [Integs.read, numEventTypes, Integs.readRow, Integs.at', List.map_cons, List.map_nil,
    List.flatMap_cons, List.flatMap_nil, List.length_cons, List.length_nil, List.cons_append,
    List.nil_append]
  simp [hto _ (hsize _).1, hto _ (hsize _).2, hvec, hrow]
  cases a with
  | mk f =>
    congr 1
    funext k
    rcases hk k with rfl | rfl <;> rfl

/-- C44. Reading fails with the statistics error exactly when one of the six arrays is missing or
has the wrong size. -/
theorem c44_rejects (d : StatsDir) :
    Integs.read (S := S) d = .errorReadingStats ↔
      ¬ ((∃ l, d.prime = some l ∧ l.length = 3) ∧ (∃ l, d.weightMom = some l ∧ l.length = 12) ∧
        (∃ l, d.weightMax = some l ∧ l.length = 3) ∧ (∃ l, d.count = some l ∧ l.length = 3) ∧
        (∃ l, d.countAcc = some l ∧ l.length = 3) ∧ (∃ l, d.norm = some l ∧ l.length = 3)) := by
  obtain ⟨p, wm, wx, c, ca, n⟩ := d
  rcases p with _ | p
  · simp [Integs.read]
  rcases wm with _ | wm
  · simp [Integs.read]
  rcases wx with _ | wx
  · simp [Integs.read]
  rcases c with _ | c
  · simp [Integs.read]
  rcases ca with _ | ca
  · simp [Integs.read]
  rcases n with _ | n
  · simp [Integs.read]
  have hN : numEventTypes = 2 := rfl
  simp only [Integs.read, Option.some.injEq, exists_eq_left']
  by_cases h : p.length = 3 ∧ wm.length = 12 ∧ wx.length = 3 ∧ c.length = 3 ∧ ca.length = 3 ∧
      n.length = 3
  · rw [if_neg (by omega)]
    simp only [h, and_self, not_true_eq_false, iff_false]
    split <;> simp
  · rw [if_pos (by omega)]
    simp only [h, not_false_eq_true]

/-- An array with two different entries, of which the second is unused, survives the file. -/
example : let a : IntegratorArray Lemmas.Moments :=
      ⟨![.mk' (.fin 2) 7 ⟨![.fin 1, .fin 2, .fin 3, .fin 4], .fin 5, 9⟩, .default]⟩
    Integs.read (Integs.write a) = .val a := by
  refine c44_round_trip _ ?_ ?_ ?_ ?_ <;> intro k <;> simp only [numEventTypes] at k <;>
    fin_cases k
  all_goals simp [Integrator.mk', Integrator.default, StatsLib.count, StatsLib.empty,
    StatsLib.ofMoments, StatsLib.ratio, StatsLib.max1]

/-! ## C69 -/

/-- C69. When both event types have a known prime, the prime of the total is the sum of the primes,
and the counts are the sums of the counts. -/
theorem c69_total (hS : Counts S) (a : IntegratorArray S) (ha : ∀ k, Sound (a.map k))
    (hp : ∀ k, ∃ r : ℝ, 0 < r ∧ (a.map k).primeInv = .fin r) :
    let n := a.map EventType.nrad.idx
    let r := a.map EventType.rad.idx
    a.total.prime = n.prime + r.prime ∧ a.total.count = n.count + r.count ∧
    a.total.countAcc = n.countAcc + r.countAcc ∧
    a.total.weights = StatsLib.add n.weights r.weights := by
  intro n r
  obtain ⟨p, hp0, hpn⟩ := hp EventType.nrad.idx
  obtain ⟨q, hq0, hqn⟩ := hp EventType.rad.idx
  have hl : List.finRange numEventTypes = [EventType.nrad.idx, EventType.rad.idx] := by decide
  have e1 : n.prime = .fin (1 / p) := by
    rw [Integrator.prime, hpn, Fl.div_fin _ hp0.ne']
  have e2 : r.prime = .fin (1 / q) := by
    rw [Integrator.prime, hqn, Fl.div_fin _ hq0.ne']
  have hpq : 0 + 1 / p + 1 / q ≠ 0 := by positivity
  simp only [IntegratorArray.total, hl, List.foldl_cons, List.foldl_nil, Integrator.mk']
  refine ⟨?_, ?_, ?_, ?_⟩
  · rw [Integrator.prime]
    change Fl.fin 1 / (Fl.fin 1 / (Fl.fin 0 + n.prime + r.prime)) = _
    rw [e1, e2, Fl.add_fin, Fl.add_fin, Fl.div_fin _ hpq, Fl.div_fin _ (by positivity), Fl.add_fin,
      Fl.fin.injEq]
    field_simp
    ring
  · rw [hS.empty_add, hS.count_add, ← (ha _).count, ← (ha _).count]
  · simp [n, r]
  · rw [hS.empty_add]

/-- C69 (refutation). When an event type was not generated, its integrator is the empty one, and the
prime and the norm of the total are NaN, in memory and in the file. -/
theorem c69_disabled_refuted (a : IntegratorArray S) (k : Fin numEventTypes)
    (hk : a.map k = .default) :
    a.total.prime = .nan ∧ a.total.norm = .nan ∧
    (∃ rest, (Integs.write a).prime = some (.nan :: rest)) ∧
    (∃ rest, (Integs.write a).norm = some (.nan :: rest)) := by
  have hl : List.finRange numEventTypes = [EventType.nrad.idx, EventType.rad.idx] := by decide
  have hd : (Integrator.default : Integrator S).prime = .nan := by
    simp [Integrator.prime, Integrator.default]
  have ht : a.total.primeInv = .nan := by
    simp only [IntegratorArray.total, hl, List.foldl_cons, List.foldl_nil, Integrator.mk']
    have : k = EventType.nrad.idx ∨ k = EventType.rad.idx := by
      clear hk; revert k; decide
    rcases this with rfl | rfl <;> rw [hk, hd] <;> simp
  have hp : a.total.prime = .nan := by rw [Integrator.prime, ht]; simp
  have hn : a.total.norm = .nan := by rw [Integrator.norm, ht]; simp
  refine ⟨hp, hn, ?_, ?_⟩ <;> rw [c44_layout]
  · exact ⟨_, by simp only [List.map_cons, hp]; rfl⟩
  · exact ⟨_, by simp only [List.map_cons, hn]; rfl⟩

/-- C69. The statistics written after generating hold, for each generated event type, the total of its
own generator, and the empty integrator for an event type that was not generated. -/
theorem c69_written (gens : List (GenTuple S)) (hd : (gens.map (·.evType)).Nodup) :
    (∀ g ∈ gens, (finalStats gens).map g.evType.idx = g.integ.total) ∧
    (∀ t, t ∉ gens.map (·.evType) → (finalStats gens).map t.idx = .default) := by
  have hinj : ∀ s t : EventType, s.idx = t.idx → s = t := by
    intro s t h; cases s <;> cases t <;> first | rfl | (exact absurd h (by decide))
  have key : ∀ (l : List (GenTuple S)) (a : IntegratorArray S), (l.map (·.evType)).Nodup →
      (∀ g ∈ l, (l.foldl (fun a g => a.assign g.evType g.integ.total) a).map g.evType.idx
        = g.integ.total) ∧
      (∀ t, t ∉ l.map (·.evType) →
        (l.foldl (fun a g => a.assign g.evType g.integ.total) a).map t.idx = a.map t.idx) := by
    intro l
    induction l with
    | nil => intro a _; simp
    | cons g l ih =>
      intro a hn
      simp only [List.map_cons, List.nodup_cons] at hn
      obtain ⟨h1, h2⟩ := ih (a.assign g.evType g.integ.total) hn.2
      refine ⟨?_, ?_⟩
      · intro g' hg'
        rcases List.mem_cons.mp hg' with rfl | hg'
        · rw [List.foldl_cons, h2 _ hn.1]; simp [IntegratorArray.assign]
        · exact h1 g' hg'
      · intro t ht
        simp only [List.map_cons, List.mem_cons, not_or] at ht
        rw [List.foldl_cons, h2 t ht.2, IntegratorArray.assign]
        exact if_neg fun h => ht.1 (hinj _ _ h)
  exact key gens .default hd

/-- Both event types, in the order of the program. -/
example (g h : GenTuple Lemmas.Moments) (hg : g.evType = .nrad) (hh : h.evType = .rad) :
    ([g, h].map (·.evType)).Nodup := by simp [hg, hh]

/-- C69 (refutation). This is what generating events of a single type always leads to. -/
theorem c69_single_refuted (g : GenTuple S) :
    (finalStats [g]).total.prime = .nan ∧ (finalStats [g]).total.norm = .nan := by
  obtain ⟨k, hk⟩ : ∃ k, (finalStats [g]).map k = .default := by
    cases h : g.evType
    · exact ⟨EventType.rad.idx, by
        simp [finalStats, IntegratorArray.assign, h, EventType.idx, IntegratorArray.default]⟩
    · exact ⟨EventType.nrad.idx, by
        simp [finalStats, IntegratorArray.assign, h, EventType.idx, IntegratorArray.default]⟩
  exact ⟨(c69_disabled_refuted _ k hk).1, (c69_disabled_refuted _ k hk).2.1⟩

/-! ## C70 -/

/-- C70. The cross-section reported for the total is the sum of the cross-sections of the two event
types exactly when both types have the same mean weight or the same norm. -/
theorem c70_total_iff (hS : Counts S) (Finite : S → Prop) (sum : S → ℝ)
    (hsum : HasSum Finite sum) (a : IntegratorArray S) (ha : ∀ k, Sound (a.map k))
    (hf : ∀ k, Finite (a.map k).weights) (hc : ∀ k, 0 < (a.map k).count)
    (hp : ∀ k, ∃ r : ℝ, 0 < r ∧ (a.map k).primeInv = .fin r) :
    let n := a.map EventType.nrad.idx
    let r := a.map EventType.rad.idx
    a.total.integ = n.integ + r.integ ↔
      mean n.weights = mean r.weights ∨ n.norm = r.norm := by
  intro n r
  have hw : a.total.weights = StatsLib.add n.weights r.weights := (c69_total hS a ha hp).2.2.2
  obtain ⟨p, hp0, hpn⟩ := hp EventType.nrad.idx
  obtain ⟨q, hq0, hqn⟩ := hp EventType.rad.idx
  have hl : List.finRange numEventTypes = [EventType.nrad.idx, EventType.rad.idx] := by decide
  have e1 : n.prime = .fin (1 / p) := by rw [Integrator.prime, hpn, Fl.div_fin _ hp0.ne']
  have e2 : r.prime = .fin (1 / q) := by rw [Integrator.prime, hqn, Fl.div_fin _ hq0.ne']
  have hpq : 0 + 1 / p + 1 / q ≠ 0 := by positivity
  have ht : a.total.primeInv = .fin (1 / (1 / p + 1 / q)) := by
    simp only [IntegratorArray.total, hl, List.foldl_cons, List.foldl_nil, Integrator.mk']
    change Fl.fin 1 / (Fl.fin 0 + n.prime + r.prime) = _
    rw [e1, e2, Fl.add_fin, Fl.add_fin, Fl.div_fin _ hpq, zero_add]
  have c1 : 0 < StatsLib.count n.weights := by
    have := hc EventType.nrad.idx; rwa [(ha _).count] at this
  have c2 : 0 < StatsLib.count r.weights := by
    have := hc EventType.rad.idx; rwa [(ha _).count] at this
  obtain ⟨hf3, hs3⟩ := hsum.add n.weights r.weights (hf _) (hf _)
  have m1 := hsum.mean n.weights (hf _) c1
  have m2 := hsum.mean r.weights (hf _) c2
  have m3 := hsum.mean _ hf3 (by rw [hS.count_add]; omega)
  have d1 : (StatsLib.count n.weights : ℝ) ≠ 0 := by exact_mod_cast c1.ne'
  have d2 : (StatsLib.count r.weights : ℝ) ≠ 0 := by exact_mod_cast c2.ne'
  have d3 : (StatsLib.count n.weights : ℝ) + StatsLib.count r.weights ≠ 0 := by
    exact_mod_cast (by omega : StatsLib.count n.weights + StatsLib.count r.weights ≠ 0)
  simp only [Integrator.integ, Integrator.norm, hw, ht, m3, m1, m2, hs3, hS.count_add]
  rw [show n.primeInv = .fin p from hpn, show r.primeInv = .fin q from hqn,
    show n.count = StatsLib.count n.weights from (ha _).count,
    show r.count = StatsLib.count r.weights from (ha _).count]
  rw [Fl.div_fin _ (by positivity), Fl.div_fin _ hp0.ne', Fl.div_fin _ hq0.ne', Fl.add_fin,
    Fl.mul_fin, Fl.mul_fin, Fl.fin.injEq, Fl.fin.injEq, Fl.fin.injEq, Nat.cast_add]
  generalize (StatsLib.count n.weights : ℝ) = N1 at *
  generalize (StatsLib.count r.weights : ℝ) = N2 at *
  generalize sum n.weights = A1 at *
  generalize sum r.weights = A2 at *
  have hp' := hp0.ne'
  have hq' := hq0.ne'
  rw [div_eq_div_iff d1 d2]
  have key : (A1 + A2) / (N1 + N2) / (1 / (1 / p + 1 / q)) = A1 / N1 / p + A2 / N2 / q ↔
      (A1 * N2 - A2 * N1) * (N1 * p - N2 * q) = 0 := by
    rw [← sub_eq_zero]
    have : (A1 + A2) / (N1 + N2) / (1 / (1 / p + 1 / q)) - (A1 / N1 / p + A2 / N2 / q) =
        (A1 * N2 - A2 * N1) * (N1 * p - N2 * q) / (N1 * N2 * (N1 + N2) * p * q) := by
      field_simp
      ring
    rw [this, div_eq_zero_iff]
    have : N1 * N2 * (N1 + N2) * p * q ≠ 0 := by positivity
    tauto
  rw [key, mul_eq_zero, sub_eq_zero, sub_eq_zero]

/-- C70 (refutation). One non-radiative event of weight 1 and one radiative event of weight 3, with
primes 1 and 1/2: the cross-sections are 1 and 3/2, the reported total is 3. -/
theorem c70_total_refuted : ∃ a : IntegratorArray Lemmas.Bag, (∀ k, Sound (a.map k)) ∧
    (a.map EventType.nrad.idx).integ = .fin 1 ∧ (a.map EventType.rad.idx).integ = .fin (3 / 2) ∧
    a.total.integ = .fin 3 := by
  let n : Integrator Lemmas.Bag := .mk' (.fin 1) 1 (collect [.fin 1])
  let r : Integrator Lemmas.Bag := .mk' (.fin 2) 1 (collect [.fin 3])
  have hk : ∀ k : Fin numEventTypes, k = EventType.nrad.idx ∨ k = EventType.rad.idx := by decide
  let a : IntegratorArray Lemmas.Bag := ⟨fun k => if k = EventType.nrad.idx then n else r⟩
  have ha : ∀ k, Sound (a.map k) := by
    intro k
    rcases hk k with rfl | rfl
    · exact ⟨rfl, le_refl 1, fun _ => ⟨1, rfl⟩⟩
    · exact ⟨rfl, le_refl 1, fun _ => ⟨2, rfl⟩⟩
  have hp : ∀ k, ∃ r : ℝ, 0 < r ∧ (a.map k).primeInv = .fin r := by
    intro k
    rcases hk k with rfl | rfl
    · exact ⟨1, by norm_num, rfl⟩
    · exact ⟨2, by norm_num, rfl⟩
  have hf1 : Lemmas.Bag.Fin n.weights := fun w hw => by
    rcases (by simpa using (Lemmas.Bag.mem_collect _ w).mp hw) with rfl; simp
  have hf2 : Lemmas.Bag.Fin r.weights := fun w hw => by
    rcases (by simpa using (Lemmas.Bag.mem_collect _ w).mp hw) with rfl; simp
  have s1 : Lemmas.Bag.sum n.weights = 1 := by
    change (Multiset.map num (Fl.fin 1 ::ₘ 0)).sum = 1
    simp [num]
  have s2 : Lemmas.Bag.sum r.weights = 3 := by
    change (Multiset.map num (Fl.fin 3 ::ₘ 0)).sum = 3
    simp [num]
  have m1 : mean n.weights = .fin 1 := by
    rw [Lemmas.Bag.hasSum.mean _ hf1 Nat.one_pos, s1]
    change Fl.fin (1 / ((1 : ℕ) : ℝ)) = _
    norm_num
  have m2 : mean r.weights = .fin 3 := by
    rw [Lemmas.Bag.hasSum.mean _ hf2 Nat.one_pos, s2]
    change Fl.fin (3 / ((1 : ℕ) : ℝ)) = _
    norm_num
  have h3 := Lemmas.Bag.hasSum.add _ _ hf1 hf2
  have m3 : mean (StatsLib.add n.weights r.weights) = .fin 2 := by
    rw [Lemmas.Bag.hasSum.mean _ h3.1 Nat.two_pos, h3.2, s1, s2]
    change Fl.fin ((1 + 3) / ((2 : ℕ) : ℝ)) = _
    norm_num
  have ht := c69_total Lemmas.Bag.counts a ha hp
  have e1 : (a.map EventType.nrad.idx).prime = .fin 1 := by
    change Fl.fin 1 / Fl.fin 1 = _
    rw [Fl.div_fin _ one_ne_zero, one_div_one]
  have e2 : (a.map EventType.rad.idx).prime = .fin (1 / 2) := by
    change Fl.fin 1 / Fl.fin 2 = _
    rw [Fl.div_fin _ two_ne_zero]
  have e3 : a.total.primeInv = .fin (2 / 3) := by
    have hl : List.finRange numEventTypes = [EventType.nrad.idx, EventType.rad.idx] := by decide
    simp only [IntegratorArray.total, hl, List.foldl_cons, List.foldl_nil, Integrator.mk', e1, e2,
      Fl.add_fin]
    rw [Fl.div_fin _ (by norm_num)]
    norm_num
  refine ⟨a, ha, ?_, ?_, ?_⟩
  · change mean n.weights / Fl.fin 1 = _
    rw [m1, Fl.div_fin _ one_ne_zero, one_div_one]
  · change mean r.weights / Fl.fin 2 = _
    rw [m2, Fl.div_fin _ two_ne_zero]
  · rw [Integrator.integ, ht.2.2.2, e3]
    change mean (StatsLib.add n.weights r.weights) / _ = _
    rw [m3, Fl.div_fin _ (by norm_num)]
    norm_num

end Sidis.Props
