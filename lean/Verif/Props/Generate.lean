import Verif.Lemmas.Generate
import Verif.Lemmas.StatsExample
import Mathlib.MeasureTheory.Integral.IntervalIntegral.Basic
import Mathlib.Tactic.FinCases

/-! # Event generation: C45, C46, C71 -/

namespace Sidis.Props

open Gen StatsLib Spec Lemmas.Generate

variable {S R K : Type} [StatsLib S]

/-! ## C45 -/

/-- Rejection scale of generator number `i`. -/
def scaleOf (gens : List (EventType × Fl × Fl)) (i : ℕ) : Fl :=
  ((gens[i]?).map fun g => g.2.2).getD (.fin 0)

theorem length_by_gen (ds : List (Draw K)) (n : ℕ) (h : ∀ d ∈ ds, d.gen < n) :
    ((List.range n).map fun i => (ds.filter fun d => d.gen = i).length).sum = ds.length := by
  induction ds with
  | nil => simp
  | cons d ds ih =>
    have ih := ih fun x hx => h x (by simp [hx])
    have hd : d.gen < n := h d (by simp)
    have key : ∀ m, ((List.range m).map fun i =>
        ((d :: ds).filter fun d => d.gen = i).length).sum =
        ((List.range m).map fun i => (ds.filter fun d => d.gen = i).length).sum +
          if d.gen < m then 1 else 0 := by
      intro m
      induction m with
      | zero => simp
      | succ m ihm =>
        rw [List.range_succ, List.map_append, List.sum_append, ihm, List.map_append,
          List.sum_append]
        simp only [List.map_cons, List.map_nil, List.sum_cons, List.sum_nil, List.filter_cons]
        by_cases h1 : d.gen = m
        · subst h1
          simp
          omega
        · have h2 : (d.gen < m + 1) ↔ d.gen < m := by omega
          simp only [h1, decide_false, Bool.false_eq_true, if_false, h2]
          omega
    rw [key n, ih, if_pos hd, List.length_cons]

theorem map_by_index {α β : Type} (l : List α) (f : α → β) (g : ℕ → β)
    (h : ∀ i a, l[i]? = some a → f a = g i) : l.map f = (List.range l.length).map g := by
  refine List.ext_getElem (by simp) fun i h1 h2 => ?_
  simp only [List.getElem_map, List.getElem_range]
  have hi : i < l.length := by simpa using h1
  exact h i _ (List.getElem?_eq_getElem hi)

/-- C45. Whenever event generation comes to an end, whatever the random numbers, densities and
rejection scales:
the number of events written is the requested one; every event has a non-zero weight and the type of
one of the enabled generators; the accepted counts of the integrators add up to the number of
events, and their counts to the number of draws; the draws are what the random source provided, one
after another; every integrator has been given exactly the weights drawn from its generator; and the
events written are exactly the draws of non-zero weight, in order. -/
theorem c45_generate (src : Source R K) (fuel : ℕ) (gens : List (EventType × Fl × Fl))
    (numEvents : ℤ) (rnd : R) (s : State S R K)
    (h : generate src fuel gens numEvents rnd = .done s) :
    (s.rows.length : ℤ) = numEvents ∧
    (∀ r ∈ s.rows, ¬ r.weight.eq (.fin 0) ∧ ∃ g ∈ gens, r.type = typeCode g.1) ∧
    (((s.gens.map fun g => g.integ.countAcc).sum : ℕ) : ℤ) = numEvents ∧
    (s.gens.map fun g => g.integ.count).sum = s.draws.length ∧
    Drawn src (scaleOf gens) rnd s.draws s.rnd ∧
    Faithful gens s := by
  unfold generate at h
  split_ifs at h with hn
  have inv := loop_invariant src fuel
    (fun n s => Faithful gens s ∧ s.rows.length = n ∧ Drawn src (scaleOf gens) rnd s.draws s.rnd)
    (fun n s s' hP hst => by
      obtain ⟨a, b, idx, g, ds, -, -, c, -, -, d⟩ := step_faithful src fuel n s s' hP.1 hst
      refine ⟨a, by rw [b, hP.2.1], ?_⟩
      rw [c]
      exact Drawn.append _ _ hP.2.2 d)
    numEvents.toNat 0 _ s ⟨load_faithful gens rnd, rfl, by rw [Drawn]⟩ h
  obtain ⟨hF, hlen, hD⟩ := inv
  have hk : (kept s.draws).length = s.rows.length := by
    have := congrArg List.length hF.rows
    simpa using this.symm
  have hlen' : (s.rows.length : ℤ) = numEvents := by rw [hlen]; omega
  have hgl : s.gens.length = gens.length := by rw [← hF.types]; simp
  have hr : ∀ d ∈ kept s.draws, d.gen < s.gens.length := fun d hd => by
    rw [hgl]; exact hF.range d (List.mem_filter.mp hd).1
  refine ⟨hlen', ?_, ?_, ?_, hD, hF⟩
  · intro r hr
    have hm : (some r.type, r.weight, r.kin) ∈ (kept s.draws).map fun d =>
        ((gens[d.gen]?).map fun g => typeCode g.1, d.weight, d.kin) := by
      rw [← hF.rows]
      exact List.mem_map_of_mem (f := fun r : Row K => (some r.type, r.weight, r.kin)) hr
    obtain ⟨d, hd, e⟩ := List.mem_map.mp hm
    simp only [Prod.mk.injEq] at e
    obtain ⟨e1, e2, -⟩ := e
    refine ⟨?_, ?_⟩
    · rw [← e2]; simpa using (List.mem_filter.mp hd).2
    · obtain ⟨g, hg, e⟩ := Option.map_eq_some_iff.mp e1
      exact ⟨g, List.mem_of_getElem? hg, e.symm⟩
  · rw [map_by_index s.gens _ _ fun i g hg => (hF.seen i g hg).2.2, length_by_gen _ _ hr, hk]
    exact hlen'
  · rw [map_by_index s.gens _ _ fun i g hg => (hF.seen i g hg).2.1,
      length_by_gen _ _ fun d hd => by rw [hgl]; exact hF.range d hd]

/-- C45. A number of events that is not positive is rejected. -/
theorem c45_invalid (src : Source R K) (fuel : ℕ) (gens : List (EventType × Fl × Fl))
    (numEvents : ℤ) (rnd : R) (h : numEvents ≤ 0) :
    (generate src fuel gens numEvents rnd : Out (State S R K)) = .invalid := by
  simp [generate, h]

/-- C45. The generator index is always initialised and in range: if there is at least one generator,
and all primes are positive numbers, no random numbers, weights (infinite and NaN ones included)
and rejection scales lead to undefined behaviour. -/
theorem c45_defined (hS : Counts S) (hR : RootMeanSquare S) (src : Source R K) (fuel : ℕ)
    (gens : List (EventType × Fl × Fl)) (hne : gens ≠ [])
    (hp : ∀ g ∈ gens, ∃ p : ℝ, 0 < p ∧ g.2.1 = .fin p) (numEvents : ℤ) (rnd : R) :
    (generate src fuel gens numEvents rnd : Out (State S R K)) ≠ .ub := by
  unfold generate
  split_ifs with hn
  · simp
  refine loop_safe src fuel (fun _ s => Faithful gens s ∧ Productive s.draws) ?_ ?_ _ _ _
    ⟨load_faithful gens rnd, by simp [Productive]⟩
  · intro n s s' hP hst
    obtain ⟨a, -, idx, g, ds, -, -, c, d, e, -⟩ := step_faithful src fuel n s s' hP.1 hst
    exact ⟨a, by rw [c]; exact productive_append hP.2 d e⟩
  · intro n s hP
    have hgl : s.gens.length = gens.length := by rw [← hP.1.types]; simp
    have hpos : 0 < s.gens.length := by rw [hgl]; exact List.length_pos_iff.mpr hne
    have hch : ∃ idx, chosenGen n s.gens = some idx ∧ idx < s.gens.length := by
      unfold chosenGen
      split_ifs with h0
      · exact ⟨0, rfl, hpos⟩
      · rcases choose_spec s.gens 0 (.fin 0) none with ⟨-, h2⟩ | ⟨i, g, hi, h1, -⟩
        · exfalso
          have hg := List.getElem?_eq_getElem hpos
          exact h2 _ (List.getElem_mem hpos) (ratio_cases hS hR hp hP.1 hP.2 hg).2.1
        · refine ⟨i, by simpa using h1, ?_⟩
          by_contra hh
          rw [List.getElem?_eq_none (by omega)] at hi
          simp at hi
    obtain ⟨idx, h1, h2⟩ := hch
    unfold eventStep
    rw [h1]
    simp only [List.getElem?_eq_getElem h2]
    split <;> simp

/-- C45. After the first event, the generator chosen is one whose ratio of root-mean-square accepted
weight to norm is largest (an infinite or undefined ratio counts as the largest possible). -/
theorem c45_choice (n : ℕ) (hn : n ≠ 0) (gens : List (GenTuple S)) (i : ℕ)
    (h : chosenGen n gens = some i) : ∃ g, gens[i]? = some g ∧
      ∀ g' ∈ gens, (g'.integ.total.sqrtM2Acc / g'.integ.total.norm).isFinite →
        g'.integ.total.sqrtM2Acc / g'.integ.total.norm ≤
          g.integ.total.sqrtM2Acc / g.integ.total.norm ∨
        ¬ (g.integ.total.sqrtM2Acc / g.integ.total.norm).isFinite := by
  unfold chosenGen at h
  rw [if_neg hn] at h
  rcases choose_spec gens 0 (.fin 0) none with ⟨h1, -⟩ | ⟨j, g, hj, h1, -, h3, -⟩
  · rw [h1] at h; simp at h
  · rw [h1] at h
    simp only [zero_add, Option.some.injEq] at h
    subst h
    refine ⟨g, hj, ?_⟩
    intro g' hg' hf
    have := h3 g' hg'
    rw [ratio_eq rfl, ratio_eq (g := g') rfl] at this
    revert this hf
    generalize g'.integ.total.sqrtM2Acc / g'.integ.total.norm = a
    generalize g.integ.total.sqrtM2Acc / g.integ.total.norm = b
    intro hf
    cases a <;> cases b <;> simp_all

/-! ## C71 -/

theorem drawOnce_finite (src : Source R K) (hsrc : ∀ i r, (src.draw i r).1.1.isFinite) (idx : ℕ)
    (scale : Fl) (hs : scale.isFinite) (rnd : R) :
    (drawOnce src idx scale rnd).1.1.isFinite := by
  have := hsrc idx rnd
  unfold drawOnce
  generalize src.draw idx rnd = x at this
  obtain ⟨⟨w, k⟩, r⟩ := x
  simp only at this ⊢
  split_ifs
  · exact this
  · simp only [reweight]
    split_ifs
    · simp
    · exact hs
    · exact this

theorem Drawn.finite {src : Source R K} (hsrc : ∀ i r, (src.draw i r).1.1.isFinite)
    {scale : ℕ → Fl} (hs : ∀ i, (scale i).isFinite) (ds : List (Draw K)) :
    ∀ {a b : R}, Drawn src scale a ds b → ∀ d ∈ ds, d.weight.isFinite := by
  induction ds with
  | nil => simp
  | cons d ds ih =>
    intro a b h d' hd'
    rcases List.mem_cons.mp hd' with rfl | hd'
    · have := drawOnce_finite src hsrc d'.gen _ (hs d'.gen) a
      rwa [h.2] at this
    · exact ih h.1 d' hd'

/-- C71. With finite weights and rejection scales and positive primes, if at least as many events
are requested as there are enabled event types, then every enabled type occurs among the events
written. -/
theorem c71_every_type (hS : Counts S) (hR : RootMeanSquare S) (src : Source R K)
    (hsrc : ∀ i r, (src.draw i r).1.1.isFinite) (fuel : ℕ)
    (gens : List (EventType × Fl × Fl))
    (hp : ∀ g ∈ gens, ∃ p : ℝ, 0 < p ∧ g.2.1 = .fin p) (hsc : ∀ g ∈ gens, g.2.2.isFinite)
    (numEvents : ℤ) (hnum : (gens.length : ℤ) ≤ numEvents) (rnd : R) (s : State S R K)
    (h : generate src fuel gens numEvents rnd = .done s) :
    ∀ g ∈ gens, ∃ r ∈ s.rows, r.type = typeCode g.1 := by
  classical
  have hscale : ∀ i, (scaleOf gens i).isFinite := by
    intro i
    unfold scaleOf
    cases hi : gens[i]? with
    | none => simp
    | some g => simpa using hsc g (List.mem_of_getElem? hi)
  unfold generate at h
  split_ifs at h with hn
  let used (s : State S R K) : Finset ℕ :=
    (Finset.range gens.length).filter fun i => ∃ d ∈ s.draws, d.gen = i
  have inv := loop_invariant src fuel
    (fun n s => Faithful gens s ∧ Productive s.draws ∧ (∀ d ∈ s.draws, d.weight.isFinite) ∧
      (n = 0 → s.draws = []) ∧ min n gens.length ≤ (used s).card)
    (fun n s s' hP hst => by
      obtain ⟨hF, hprod, hfin, h0, hcard⟩ := hP
      obtain ⟨a, -, idx, g, ds, hch, hg, c, d, e, dr⟩ := step_faithful src fuel n s s' hF hst
      have hgl : s.gens.length = gens.length := by rw [← hF.types]; simp
      have hidx : idx < gens.length := by
        by_contra hh
        rw [List.getElem?_eq_none (by omega)] at hg
        simp at hg
      have hds : idx ∈ used s' := by
        obtain ⟨x, hx, hxi⟩ := d
        exact Finset.mem_filter.mpr ⟨Finset.mem_range.mpr hidx, x, by
          rw [c]; exact List.mem_append_right _ (List.mem_filter.mp hx).1, hxi⟩
      have hsub : used s ⊆ used s' := by
        intro i hi
        obtain ⟨hi1, x, hx, hxi⟩ := Finset.mem_filter.mp hi
        exact Finset.mem_filter.mpr ⟨hi1, x, by rw [c]; exact List.mem_append_left _ hx, hxi⟩
      refine ⟨a, by rw [c]; exact productive_append hprod d e, ?_, by omega, ?_⟩
      · rw [c]
        intro x hx
        rcases List.mem_append.mp hx with hx | hx
        · exact hfin x hx
        · exact Drawn.finite hsrc hscale ds dr x hx
      · by_cases hall : ∃ j, j < gens.length ∧ j ∉ used s
        · obtain ⟨j, hj, hju⟩ := hall
          have hnew : idx ∉ used s := by
            intro hu
            obtain ⟨-, x, hx, hxi⟩ := Finset.mem_filter.mp hu
            have hn0 : n ≠ 0 := by
              intro hn0
              rw [h0 hn0] at hx
              simp at hx
            unfold chosenGen at hch
            rw [if_neg hn0] at hch
            rcases choose_spec s.gens 0 (.fin 0) none with ⟨h1, -⟩ | ⟨i, g', hi, h1, -, h3, -⟩
            · rw [h1] at hch; simp at hch
            · rw [h1] at hch
              simp only [zero_add, Option.some.injEq] at hch
              subst hch
              have hgj := List.getElem?_eq_getElem (show j < s.gens.length by omega)
              have hj1 := (ratio_cases hS hR hp hF hprod hgj).1 fun x hx hxj =>
                hju (Finset.mem_filter.mpr ⟨Finset.mem_range.mpr hj, x, hx, hxj⟩)
              have hj2 := h3 _ (List.getElem_mem (show j < s.gens.length by omega))
              rw [hj1] at hj2
              have hfi := (ratio_cases hS hR hp hF hprod hi).2.2 ⟨x, hx, hxi⟩ hfin
              revert hj2 hfi
              cases ratio g' <;> simp
          have : (insert idx (used s)).card ≤ (used s').card :=
            Finset.card_le_card (Finset.insert_subset hds hsub)
          rw [Finset.card_insert_of_notMem hnew] at this
          omega
        · push Not at hall
          have : Finset.range gens.length ⊆ used s := fun j hj => hall j (Finset.mem_range.mp hj)
          have := Finset.card_le_card (this.trans hsub)
          rw [Finset.card_range] at this
          omega)
    numEvents.toNat 0 _ s
      ⟨load_faithful gens rnd, by simp [Productive], by simp, by simp, by simp⟩ h
  obtain ⟨hF, hprod, -, -, hcard⟩ := inv
  have hfull : used s = Finset.range gens.length := by
    refine Finset.eq_of_subset_of_card_le (Finset.filter_subset _ _) ?_
    rw [Finset.card_range]
    omega
  intro g hg
  obtain ⟨i, hi, hgi⟩ := List.getElem_of_mem hg
  have : i ∈ used s := by rw [hfull]; exact Finset.mem_range.mpr hi
  obtain ⟨-, x, hx, hxi⟩ := Finset.mem_filter.mp this
  obtain ⟨d, hd, hdi⟩ := hprod x hx
  have hm : ((gens[d.gen]?).map fun g => typeCode g.1, d.weight, d.kin) ∈
      s.rows.map (fun r => (some r.type, r.weight, r.kin)) := by
    rw [hF.rows]
    exact List.mem_map_of_mem
      (f := fun d : Draw K => ((gens[d.gen]?).map fun g => typeCode g.1, d.weight, d.kin)) hd
  obtain ⟨r, hr, e⟩ := List.mem_map.mp hm
  refine ⟨r, hr, ?_⟩
  simp only [Prod.mk.injEq] at e
  rw [hdi, hxi, List.getElem?_eq_getElem hi, hgi] at e
  simpa using e.1

/-- C46. With rejection scale 0 the weight is left alone, and no random number is used. -/
theorem c46_off (src : Source R K) (idx : ℕ) (rnd : R) :
    drawOnce src idx (.fin 0) rnd = src.draw idx rnd := by
  unfold drawOnce
  simp [Fl.eq]

/-! A run: two generators of primes 1 and 1/2, a source in which every other draw has weight 0. -/

/-- The source: the engine is a counter. -/
noncomputable def exSrc : Source ℕ ℕ :=
  ⟨fun _ r => ((if r % 2 = 0 then .fin 0 else .fin 3, r), r + 1), fun r => (.fin 0, r)⟩

/-- The generators. -/
noncomputable def exGens : List (EventType × Fl × Fl) :=
  [(.nrad, .fin 1, .fin 0), (.rad, .fin 2, .fin 0)]

theorem ex_drawLoop (idx : ℕ) (integ : Accum Lemmas.Bag) (r : ℕ) :
    drawLoop exSrc idx (.fin 0) 2 integ r ≠ none := by
  have hval : ∀ r, drawOnce exSrc idx (.fin 0) r =
      ((if r % 2 = 0 then .fin 0 else .fin 3, r), r + 1) := fun r => by rw [c46_off]; rfl
  have h3 : ∀ r (integ : Accum Lemmas.Bag) n, r % 2 = 1 →
      drawLoop exSrc idx (.fin 0) (n + 1) integ r ≠ none := by
    intro r integ n h
    rw [drawLoop, hval, if_neg (by omega)]
    simp only
    rw [if_neg (by simp [Fl.eq])]
    simp
  rcases Nat.mod_two_eq_zero_or_one r with h | h
  · rw [drawLoop, hval, if_pos h]
    simp only
    rw [if_pos (by simp [Fl.eq])]
    have := h3 (r + 1) (integ.push (.fin 0)) 0 (by omega)
    simp only [zero_add] at this
    split
    · rename_i h'; exact absurd h' this
    · simp
  · exact h3 r integ 1 h

theorem ex_loop (k : ℕ) : ∀ (n : ℕ) (s : State Lemmas.Bag ℕ ℕ), Faithful exGens s →
    eventLoop exSrc 2 k n s ≠ .running := by
  induction k with
  | zero => intro n s _; simp [eventLoop]
  | succ k ih =>
    intro n s hs
    rw [eventLoop]
    split
    · rename_i s' h
      exact ih _ _ (step_faithful exSrc 2 n s s' hs h).1
    · rename_i h
      unfold eventStep at h
      split at h
      · simp at h
      · rename_i idx _
        split at h
        · simp at h
        · rename_i g hg
          have hm : (g.evType, g.integ.primeInv, g.rejScale) ∈ exGens := by
            rw [← hs.types]
            exact List.mem_map_of_mem (f := fun g : GenTuple Lemmas.Bag =>
              (g.evType, g.integ.primeInv, g.rejScale)) (List.mem_of_getElem? hg)
          have h0 : g.rejScale = .fin 0 := by
            simp only [exGens, List.mem_cons, Prod.mk.injEq, List.not_mem_nil, or_false] at hm
            rcases hm with hm | hm <;> exact hm.2.2
          rw [h0] at h
          split at h
          · rename_i hd; exact absurd hd (ex_drawLoop _ _ _)
          · simp at h
    · simp
    · simp

theorem exGens_primes : ∀ g ∈ exGens, ∃ p : ℝ, 0 < p ∧ g.2.1 = .fin p := by
  simp [exGens]

/-- The run ends, so that C45 and C71 apply to it. -/
theorem ex_done : ∃ s : State Lemmas.Bag ℕ ℕ, generate exSrc 2 exGens 5 0 = .done s := by
  have h1 := c45_defined Lemmas.Bag.counts Lemmas.Bag.rms exSrc 2 exGens (by simp [exGens])
    exGens_primes 5 0
  have h2 : (generate exSrc 2 exGens 5 0 : Out (State Lemmas.Bag ℕ ℕ)) ≠ .running := by
    simp only [generate, show ¬ (5 : ℤ) ≤ 0 by norm_num, if_false]
    exact ex_loop _ _ _ (load_faithful exGens 0)
  have h3 : (generate exSrc 2 exGens 5 0 : Out (State Lemmas.Bag ℕ ℕ)) ≠ .invalid := by
    simp only [generate, show ¬ (5 : ℤ) ≤ 0 by norm_num, if_false]
    generalize Int.toNat 5 = k
    generalize (⟨load exGens, 0, [], []⟩ : State Lemmas.Bag ℕ ℕ) = s
    generalize 0 = n
    induction k generalizing n s with
    | zero => simp [eventLoop]
    | succ k ih =>
      rw [eventLoop]
      split
      · exact ih _ _
      · simp
      · simp
      · rename_i h
        unfold eventStep at h
        split at h
        · simp at h
        · split at h
          · simp at h
          · split at h <;> simp at h
  cases h : (generate exSrc 2 exGens 5 0 : Out (State Lemmas.Bag ℕ ℕ)) with
  | done s => exact ⟨s, rfl⟩
  | running => exact absurd h h2
  | ub => exact absurd h h1
  | invalid => exact absurd h h3

example : ∃ s : State Lemmas.Bag ℕ ℕ, generate exSrc 2 exGens 5 0 = .done s ∧
    s.rows.length = 5 ∧ (∃ r ∈ s.rows, r.type = 1) ∧ ∃ r ∈ s.rows, r.type = 2 := by
  obtain ⟨s, hs⟩ := ex_done
  have h1 := (c45_generate exSrc 2 exGens 5 0 s hs).1
  have h2 := c71_every_type Lemmas.Bag.counts Lemmas.Bag.rms exSrc
    (by intro i r; simp only [exSrc]; split_ifs <;> simp) 2 exGens exGens_primes
    (by simp [exGens]) 5 (by simp [exGens]) 0 s hs
  exact ⟨s, hs, by exact_mod_cast h1, h2 (.nrad, .fin 1, .fin 0) (by simp [exGens]),
    h2 (.rad, .fin 2, .fin 0) (by simp [exGens])⟩

/-! ## C46 -/

/-- C46. Averaged over the uniform random number, the weight after rejection is the weight before,
for every non-negative weight and positive scale. -/
theorem c46_mean (w scale : ℝ) (hw : 0 ≤ w) (hs : 0 < scale) :
    ∫ u in (0 : ℝ)..1, num (reweight (.fin w) (.fin u) (.fin scale)) = w := by
  have hval : ∀ u : ℝ, num (reweight (.fin w) (.fin u) (.fin scale)) =
      if w < u * scale then 0 else if w < scale then scale else w := by
    intro u
    unfold reweight
    simp only [Fl.mul_fin, Fl.lt_fin]
    split_ifs <;> rfl
  simp only [hval]
  by_cases h : w < scale
  · simp only [h, if_true]
    have h0 : 0 ≤ w / scale := by positivity
    have h1 : w / scale ≤ 1 := by rw [div_le_one hs]; exact h.le
    have e1 : Set.EqOn (fun u : ℝ => if w < u * scale then (0 : ℝ) else scale) (fun _ => scale)
        (Set.uIcc 0 (w / scale)) := by
      intro u hu
      rw [Set.uIcc_of_le h0] at hu
      have : u * scale ≤ w := (le_div_iff₀ hs).mp hu.2
      simp [not_lt.mpr this]
    have e2 : Set.EqOn (fun u : ℝ => if w < u * scale then (0 : ℝ) else scale) (fun _ => 0)
        (Set.uIoo (w / scale) 1) := by
      intro u hu
      rw [Set.uIoo_of_le h1] at hu
      have : w < u * scale := (div_lt_iff₀ hs).mp hu.1
      simp [this]
    have i1 : IntervalIntegrable (fun u : ℝ => if w < u * scale then (0 : ℝ) else scale)
        MeasureTheory.volume 0 (w / scale) :=
      (intervalIntegrable_const (c := scale)).congr_uIoo fun u hu =>
        (e1 (Set.uIoo_subset_uIcc_self hu)).symm
    have i2 : IntervalIntegrable (fun u : ℝ => if w < u * scale then (0 : ℝ) else scale)
        MeasureTheory.volume (w / scale) 1 :=
      (intervalIntegrable_const (c := (0 : ℝ))).congr_uIoo e2.symm
    rw [← intervalIntegral.integral_add_adjacent_intervals i1 i2,
      intervalIntegral.integral_congr e1, intervalIntegral.integral_congr_uIoo e2]
    simp
    field_simp
  · have : ∀ u ∈ Set.uIcc (0 : ℝ) 1,
        (if w < u * scale then (0 : ℝ) else if w < scale then scale else w) = w := by
      intro u hu
      rw [Set.uIcc_of_le zero_le_one] at hu
      have h2 : u * scale ≤ w := by nlinarith [hu.2]
      simp [not_lt.mpr h2, h]
    rw [intervalIntegral.integral_congr this]
    simp

/-- C46. An event is kept exactly when the random fraction of the scale does not exceed its weight,
and every event that is kept has at least the scale as its weight. -/
theorem c46_accepted (w u scale : ℝ) (hw : 0 ≤ w) (hu : 0 ≤ u) (hs : 0 < scale) :
    (¬ (reweight (.fin w) (.fin u) (.fin scale)).eq (.fin 0) ↔ u * scale ≤ w) ∧
    (¬ (reweight (.fin w) (.fin u) (.fin scale)).eq (.fin 0) →
      reweight (.fin w) (.fin u) (.fin scale) = .fin (max w scale)) := by
  unfold reweight
  simp only [Fl.mul_fin, Fl.lt_fin]
  split_ifs with h1 h2
  · simp [Fl.eq, h1]
  · simp [Fl.eq, hs.ne', not_lt.mp h1, h2.le]
  · have : 0 < w := lt_of_lt_of_le hs (not_lt.mp h2)
    simp [Fl.eq, this.ne', not_lt.mp h1, not_lt.mp h2]

/-- C46 (a flaw). When the uniform random number is exactly 0, which its distribution can give, an
event of weight 0, that is outside of the cuts, is kept with the rejection scale as its weight. -/
theorem c46_zero_weight_refuted (scale : ℝ) (hs : 0 < scale) :
    reweight (.fin 0) (.fin 0) (.fin scale) = .fin scale := by
  unfold reweight
  simp [hs]

end Sidis.Props
