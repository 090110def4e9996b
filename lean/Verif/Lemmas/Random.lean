import Verif.Spec.Random
import Verif.Props.Generate

/-! # Runs of the event loop on given sequences of draws -/

namespace Sidis.Lemmas.Random

open Gen StatsLib Spec Lemmas.Generate Props Topology

variable {S K : Type} [StatsLib S]

open Classical in
/-- The weight after rejection. -/
noncomputable def wr (s w u : ℝ) : ℝ :=
  if s = 0 then w else if w < u * s then 0 else if w < s then s else w

/-- The weight of draw `n` from a generator of rejection scale `s`. -/
noncomputable def W (lots : ℕ → Lot K) (s : ℝ) (n : ℕ) : ℝ := wr s (lots n).weight (lots n).uniform

theorem drawOnce_eq (i : ℕ) (s : ℝ) (e : Engine K) :
    drawOnce (engine K) i (.fin s) e =
      ((.fin (W (e.lots i) s (e.made i)), (e.lots i (e.made i)).kin),
        ⟨e.lots, Function.update e.made i (e.made i + 1), (e.lots i (e.made i)).uniform⟩) := by
  unfold drawOnce W wr engine reweight
  by_cases hs : s = 0
  · simp [hs, Fl.eq]
  · simp only [Fl.eq, hs, not_false_eq_true, if_true, if_false, Fl.mul_fin, Fl.lt_fin]
    split_ifs <;> rfl

theorem drawn_weights (sc : ℕ → ℝ) (ds : List (Draw K)) : ∀ (e e' : Engine K),
    Drawn (engine K) (fun i => .fin (sc i)) e ds e' → ∀ i,
    weightsOf i ds = (List.range (ds.filter fun d => d.gen = i).length).map
      fun n => Fl.fin (W (e.lots i) (sc i) (e.made i + n)) := by
  induction ds with
  | nil => intro e e' _ i; simp [weightsOf]
  | cons d ds ih =>
    intro e e' h i
    obtain ⟨h1, h2⟩ := h
    rw [drawOnce_eq] at h1 h2
    have ih := ih _ _ h1 i
    simp only [Prod.mk.injEq] at h2
    by_cases hi : d.gen = i
    · subst hi
      have e1 : weightsOf d.gen (d :: ds) = d.weight :: weightsOf d.gen ds := by simp [weightsOf]
      rw [e1, ih]
      simp only [List.filter_cons, decide_true, if_true, List.length_cons, List.range_succ_eq_map,
        List.map_cons, List.map_map, add_zero, ← h2.1, List.cons.injEq, true_and,
        Function.update_self]
      refine List.map_congr_left fun n _ => ?_
      simp only [Function.comp_apply]
      congr 2
      omega
    · have e1 : weightsOf i (d :: ds) = weightsOf i ds := by simp [weightsOf, hi]
      rw [e1, ih]
      simp [hi, Function.update_of_ne (Ne.symm hi)]

open Classical in
theorem kept_weights (ds : List (Draw K)) (i : ℕ) :
    ((kept ds).filter fun d => d.gen = i).length =
      ((weightsOf i ds).filter fun w => ¬ w.eq (.fin 0)).length := by
  induction ds with
  | nil => rfl
  | cons d ds ih =>
    simp only [kept, weightsOf] at ih ⊢
    by_cases h : d.weight.eq (.fin 0) <;> by_cases hi : d.gen = i <;> simpa [h, hi] using ih

open Classical in
/-- How many of the first `n` terms are not zero. -/
noncomputable def acc (x : ℕ → ℝ) (n : ℕ) : ℕ := ((List.range n).filter fun m => x m ≠ 0).length

/-- What a generator has seen when `n` draws have been made from it. -/
structure Seen (g : GenTuple S) (x : ℕ → ℝ) : Prop where
  weights : g.integ.weights = collect (((List.range g.integ.count).map x).map Fl.fin)
  acc : g.integ.countAcc = acc x g.integ.count

theorem seen_of {gens : List (EventType × Fl × Fl)} {s : State S (Engine K) K}
    (hs : Faithful gens s) (sc : ℕ → ℝ) (lots : ℕ → ℕ → Lot K)
    (hd : Drawn (engine K) (fun i => .fin (sc i)) (fresh lots) s.draws s.rnd) {i : ℕ}
    {g : GenTuple S} (hg : s.gens[i]? = some g) : Seen g (W (lots i) (sc i)) := by
  obtain ⟨h1, h2, h3⟩ := hs.seen i g hg
  have hw := drawn_weights sc _ _ _ hd i
  simp only [fresh, zero_add, ← h2] at hw
  refine ⟨?_, ?_⟩
  · rw [h1, hw, List.map_map]; rfl
  · rw [h3, kept_weights, hw, List.filter_map, List.length_map]
    unfold acc
    congr 1

theorem count_seen (hS : Counts S) {g : GenTuple S} {x : ℕ → ℝ} (h : Seen g x) :
    StatsLib.count g.integ.weights = g.integ.count := by
  rw [h.weights, count_collect hS]; simp

theorem sum_range_list (x : ℕ → ℝ) (n : ℕ) :
    ((List.range n).map x).sum = ∑ m ∈ Finset.range n, x m := by
  induction n with
  | zero => simp
  | succ n ih => rw [List.range_succ, List.map_append, List.sum_append, ih, Finset.sum_range_succ]; simp

/-- The reported integral. -/
theorem report (hA : Averages S) {g : GenTuple S} {x : ℕ → ℝ} (h : Seen g x) {p : ℝ} (hp : 0 < p)
    (hg : g.integ.primeInv = .fin p) (hn : 0 < g.integ.count) :
    g.integ.total.integ =
      .fin ((∑ m ∈ Finset.range g.integ.count, x m) / g.integ.count / p) := by
  unfold Accum.total Integrator.integ Integrator.mk'
  simp only [hg, h.weights]
  rw [hA.mean _ (by simpa using hn.ne'), Fl.div_fin _ hp.ne', sum_range_list]
  simp

/-- The ratio that decides which generator comes next. -/
theorem ratio_seen (hS : Counts S) (hA : Averages S) {g : GenTuple S} {x : ℕ → ℝ} (h : Seen g x)
    {p : ℝ} (hp : 0 < p) (hg : g.integ.primeInv = .fin p) (hacc : 0 < g.integ.countAcc) :
    ratio g = .fin (Real.sqrt ((∑ m ∈ Finset.range g.integ.count, x m ^ 2) /
      acc x g.integ.count) / (g.integ.count * p)) := by
  have hn : 0 < g.integ.count := by
    rw [h.acc] at hacc
    by_contra hh
    have : g.integ.count = 0 := by omega
    rw [this] at hacc; simp [acc] at hacc
  have hnp : (0 : ℝ) < g.integ.count * p := by positivity
  have h0 : g.integ.total.norm = .fin (g.integ.count * p) := by
    simp [Accum.total, Integrator.mk', Integrator.norm, hg, count_seen hS h]
  have h1 : g.integ.total.sqrtM2Acc = .fin (Real.sqrt ((∑ m ∈ Finset.range g.integ.count, x m ^ 2) /
      acc x g.integ.count)) := by
    simp only [Accum.total, Integrator.mk', Integrator.sqrtM2Acc]
    rw [h.weights, hA.square _ _ hacc, List.map_map, h.acc, ← sum_range_list]
    rfl
  rw [ratio_eq (by rw [h0, h1]), Fl.div_fin _ hnp.ne']
  simp

theorem acc_pos {x : ℕ → ℝ} {n : ℕ} (h : 0 < acc x n) : ∃ m < n, x m ≠ 0 := by
  obtain ⟨m, hm⟩ := List.exists_mem_of_length_pos h
  exact ⟨m, by simpa using (List.mem_filter.mp hm).1, by simpa using (List.mem_filter.mp hm).2⟩

theorem acc_le (x : ℕ → ℝ) (n : ℕ) : acc x n ≤ n := by
  refine (List.length_filter_le _ _).trans (by simp)

/-- The number of draws from a generator never falls. -/
theorem step_counts {gens : List (EventType × Fl × Fl)} (src : Source (Engine K) K) (fuel n : ℕ)
    (s s' : State S (Engine K) K) (hs : Faithful gens s) (h : eventStep src fuel n s = .done s') :
    ∃ idx, chosenGen n s.gens = some idx ∧
      ∀ (i : ℕ) (g g' : GenTuple S), s.gens[i]? = some g → s'.gens[i]? = some g' →
        g.integ.count ≤ g'.integ.count ∧
        g'.integ.countAcc = g.integ.countAcc + if i = idx then 1 else 0 := by
  obtain ⟨hs', -, idx, g0, ds, hidx, hg0, hds, hk, hgen, -⟩ := step_faithful src fuel n s s' hs h
  refine ⟨idx, hidx, fun i g g' hg hg' => ?_⟩
  obtain ⟨-, a2, a3⟩ := hs.seen i g hg
  obtain ⟨-, b2, b3⟩ := hs'.seen i g' hg'
  refine ⟨?_, ?_⟩
  · rw [a2, b2, hds, List.filter_append, List.length_append]; omega
  · have hone : (kept ds).length = 1 := by
      have := (step_faithful src fuel n s s' hs h).2.1
      have e1 : s'.rows.length = (kept s'.draws).length := by
        simpa using congrArg List.length hs'.rows
      have e2 : s.rows.length = (kept s.draws).length := by
        simpa using congrArg List.length hs.rows
      rw [e1, e2, hds, kept_append, List.length_append] at this
      omega
    rw [a3, b3, hds, kept_append, List.filter_append, List.length_append]
    have hkg : ∀ d ∈ kept ds, d.gen = idx := fun d hd => hgen d (List.mem_filter.mp hd).1
    congr 1
    split_ifs with hi
    · subst hi
      rw [List.filter_eq_self.mpr fun d hd => by simpa using hkg d hd, hone]
    · rw [List.filter_eq_nil_iff.mpr fun d hd => by
        have := hkg d hd; simp; omega]
      rfl

/-- With enough events, every generator has been drawn from as often as one wishes. -/
theorem counts_grow (hS : Counts S) (hA : Averages S) (hR : RootMeanSquare S)
    (gens : List (EventType × Fl × Fl)) (p sc : ℕ → ℝ)
    (hgens : ∀ i g, gens[i]? = some g → g.2.1 = .fin (p i) ∧ 0 < p i ∧ g.2.2 = .fin (sc i))
    (hsc0 : ∀ i, gens[i]? = none → sc i = 0)
    (lots : ℕ → ℕ → Lot K)
    (hlim : ∀ i < gens.length, Filter.Tendsto (fun n : ℕ =>
      Real.sqrt (∑ m ∈ Finset.range n, W (lots i) (sc i) m ^ 2) / n) Filter.atTop (𝓝 0)) (M : ℕ) :
    ∃ N : ℕ, ∀ (fuel : ℕ) (numEvents : ℤ) (s : State S (Engine K) K), (N : ℤ) ≤ numEvents →
      Gen.generate (engine K) fuel gens numEvents (fresh lots) = .done s →
      ∀ (i : ℕ) (g : GenTuple S), s.gens[i]? = some g → M ≤ g.integ.count := by
  classical
  have hscale : scaleOf gens = fun i => Fl.fin (sc i) := by
    funext i
    unfold scaleOf
    cases hi : gens[i]? with
    | none => simp [hsc0 i hi]
    | some g => simp [(hgens i g hi).2.2]
  -- while generator `i` has few draws, its ratio is at least some `δ`
  have hδ : ∃ δ : ℝ, 0 < δ ∧ ∀ i < gens.length, ∀ n ≤ M, 0 < acc (W (lots i) (sc i)) n →
      δ ≤ Real.sqrt ((∑ m ∈ Finset.range n, W (lots i) (sc i) m ^ 2) /
        acc (W (lots i) (sc i)) n) / (n * p i) := by
    have key : ∀ F : Finset (ℕ × ℕ), (∀ q ∈ F, q.1 < gens.length) → ∃ δ : ℝ, 0 < δ ∧ ∀ q ∈ F,
        0 < acc (W (lots q.1) (sc q.1)) q.2 →
        δ ≤ Real.sqrt ((∑ m ∈ Finset.range q.2, W (lots q.1) (sc q.1) m ^ 2) /
          acc (W (lots q.1) (sc q.1)) q.2) / (q.2 * p q.1) := by
      intro F
      induction F using Finset.induction_on with
      | empty => intro _; exact ⟨1, one_pos, by simp⟩
      | insert q F _ ih =>
        intro hF
        obtain ⟨δ, h0, h1⟩ := ih fun q hq => hF q (Finset.mem_insert_of_mem hq)
        by_cases hq : 0 < acc (W (lots q.1) (sc q.1)) q.2
        · have hpos : 0 < Real.sqrt ((∑ m ∈ Finset.range q.2, W (lots q.1) (sc q.1) m ^ 2) /
              acc (W (lots q.1) (sc q.1)) q.2) / (q.2 * p q.1) := by
            obtain ⟨m, hm, hm0⟩ := acc_pos hq
            have : 0 < ∑ m ∈ Finset.range q.2, W (lots q.1) (sc q.1) m ^ 2 :=
              Finset.sum_pos' (fun m _ => sq_nonneg _)
                ⟨m, Finset.mem_range.mpr hm, by positivity⟩
            have hp : 0 < p q.1 :=
              (hgens q.1 _ (List.getElem?_eq_getElem (hF q (Finset.mem_insert_self _ _)))).2.1
            have hq2 : (0 : ℝ) < q.2 := by exact_mod_cast (by omega : 0 < q.2)
            have hq' : (0 : ℝ) < acc (W (lots q.1) (sc q.1)) q.2 := by exact_mod_cast hq
            positivity
          refine ⟨min δ _, lt_min h0 hpos, fun r hr ha => ?_⟩
          rcases Finset.mem_insert.mp hr with rfl | hr
          · exact min_le_right _ _
          · exact (min_le_left _ _).trans (h1 r hr ha)
        · refine ⟨δ, h0, fun r hr ha => ?_⟩
          rcases Finset.mem_insert.mp hr with rfl | hr
          · exact absurd ha hq
          · exact h1 r hr ha
    obtain ⟨δ, h0, h1⟩ := key (Finset.range gens.length ×ˢ Finset.range (M + 1)) (by
      intro q hq; simpa using (Finset.mem_product.mp hq).1)
    exact ⟨δ, h0, fun i hi n hn ha => h1 (i, n) (by simp; omega) ha⟩
  obtain ⟨δ, hδ0, hδ⟩ := hδ
  -- from some number of draws on, the ratio of a generator is below `δ`
  have hL : ∃ L : ℕ, ∀ i < gens.length, ∀ n, L < n → 0 < acc (W (lots i) (sc i)) n →
      Real.sqrt ((∑ m ∈ Finset.range n, W (lots i) (sc i) m ^ 2) /
        acc (W (lots i) (sc i)) n) / (n * p i) < δ := by
    have key : ∀ k ≤ gens.length, ∃ L : ℕ, ∀ i < k, ∀ n, L < n → 0 < acc (W (lots i) (sc i)) n →
        Real.sqrt ((∑ m ∈ Finset.range n, W (lots i) (sc i) m ^ 2) /
          acc (W (lots i) (sc i)) n) / (n * p i) < δ := by
      intro k
      induction k with
      | zero => intro _; exact ⟨0, by simp⟩
      | succ k ih =>
        intro hk
        obtain ⟨L, hL⟩ := ih (by omega)
        have hp : 0 < p k := (hgens k _ (List.getElem?_eq_getElem (by omega))).2.1
        obtain ⟨L', hL'⟩ := Filter.eventually_atTop.mp
          ((hlim k (by omega)).eventually (gt_mem_nhds (mul_pos hδ0 hp)))
        refine ⟨max L L', fun i hi n hn ha => ?_⟩
        rcases Nat.lt_succ_iff_lt_or_eq.mp hi with hi | rfl
        · exact hL i hi n (by omega) ha
        · have h1 := hL' n (by omega)
          have hn0 : (0 : ℝ) < n := by exact_mod_cast (by omega : 0 < n)
          rw [div_mul_eq_div_div, div_lt_iff₀ hp]
          refine lt_of_le_of_lt (div_le_div_of_nonneg_right (Real.sqrt_le_sqrt ?_) hn0.le) h1
          exact div_le_self (Finset.sum_nonneg fun m _ => sq_nonneg _) (by exact_mod_cast ha)
    exact key _ le_rfl
  obtain ⟨L, hL⟩ := hL
  refine ⟨(gens.length + 1) * (M + L + 2), fun fuel numEvents s hN hrun i g hg => ?_⟩
  by_contra hlt
  push Not at hlt
  have h45 := c45_generate (engine K) fuel gens numEvents (fresh lots) s hrun
  unfold generate at hrun
  split_ifs at hrun with hn0
  have inv := loop_invariant (engine K) fuel
    (fun (n : ℕ) (s : State S (Engine K) K) => Faithful gens s ∧ Productive s.draws ∧ (n = 0 → s.draws = []) ∧
      Drawn (engine K) (fun i => .fin (sc i)) (fresh lots) s.draws s.rnd ∧
      ∀ (i : ℕ) (g : GenTuple S), s.gens[i]? = some g → g.integ.count < M →
        ∀ (j : ℕ) (g' : GenTuple S), s.gens[j]? = some g' → j ≠ i → g'.integ.countAcc ≤ L + 1)
    (fun n s s' hP hst => by
      obtain ⟨hf, hpr, hz, hdr, hacc⟩ := hP
      obtain ⟨a, b, idx, g, ds, hidx, hgi, c, d1, d2, d3⟩ :=
        step_faithful (engine K) fuel n s s' hf hst
      obtain ⟨idx', hidx', hstep⟩ := step_counts (engine K) fuel n s s' hf hst
      obtain rfl : idx = idx' := by rw [hidx] at hidx'; simpa using hidx'
      have hlen : s.gens.length = s'.gens.length := by
        have h1 := congrArg List.length hf.types
        have h2 := congrArg List.length a.types
        simp at h1 h2; omega
      have hlen' : s.gens.length = gens.length := by
        have h1 := congrArg List.length hf.types
        simpa using h1
      refine ⟨a, by rw [c]; exact productive_append hpr d1 d2, by omega, ?_, ?_⟩
      · rw [c]
        refine Lemmas.Generate.Drawn.append _ _ hdr ?_
        have : (fun i => ((gens[i]?).map fun g => g.2.2).getD (.fin 0)) =
            fun i => Fl.fin (sc i) := hscale
        rwa [this] at d3
      · intro i gi' hi' hlt j gj' hj' hji
        have hi0 : i < s.gens.length := by
          rw [hlen]; by_contra hh; rw [List.getElem?_eq_none (by omega)] at hi'; simp at hi'
        have hj0 : j < s.gens.length := by
          rw [hlen]; by_contra hh; rw [List.getElem?_eq_none (by omega)] at hj'; simp at hj'
        have hi := List.getElem?_eq_getElem hi0
        have hj := List.getElem?_eq_getElem hj0
        obtain ⟨e1, e2⟩ := hstep i _ _ hi hi'
        obtain ⟨f1, f2⟩ := hstep j _ _ hj hj'
        have hold := hacc i _ hi (by omega) j _ hj hji
        by_cases hjx : j = idx
        · -- generator `j` was chosen although `i` has few draws
          rw [f2, if_pos hjx]
          have hsj := seen_of hf sc lots hdr hj
          have hsi := seen_of hf sc lots hdr hi
          by_cases hsmall : s.gens[j].integ.countAcc ≤ L
          · omega
          · exfalso
            have hcnt : L < s.gens[j].integ.count := by
              have := acc_le (W (lots j) (sc j)) s.gens[j].integ.count
              rw [← hsj.acc] at this; omega
            have haccj : 0 < s.gens[j].integ.countAcc := by omega
            have hgj : gens[j]? = some (s.gens[j].evType, s.gens[j].integ.primeInv,
                s.gens[j].rejScale) := by rw [← hf.types, List.getElem?_map, hj]; rfl
            have hgii : gens[i]? = some (s.gens[i].evType, s.gens[i].integ.primeInv,
                s.gens[i].rejScale) := by rw [← hf.types, List.getElem?_map, hi]; rfl
            obtain ⟨pj, pj0, -⟩ := hgens j _ hgj
            obtain ⟨pi, pi0, -⟩ := hgens i _ hgii
            simp only at pj pi
            have hrj := ratio_seen hS hA hsj pj0 pj haccj
            have hbj := hL j (by omega) _ hcnt (by rw [← hsj.acc]; exact haccj)
            -- the ratio of generator `i`
            have hri : ratio s.gens[j] < ratio s.gens[i] := by
              rw [hrj]
              by_cases hui : 0 < s.gens[i].integ.countAcc
              · rw [ratio_seen hS hA hsi pi0 pi hui]
                have := hδ i (by omega) s.gens[i].integ.count (by omega)
                  (by rw [← hsi.acc]; exact hui)
                exact lt_of_lt_of_le hbj this
              · have : ratio s.gens[i] = .pinf := by
                  refine (ratio_cases hS hR (fun g hg => ?_) hf hpr hi).1 ?_
                  · obtain ⟨q, hq, rfl⟩ := List.mem_iff_getElem.mp hg
                    exact ⟨p q, (hgens q _ (List.getElem?_eq_getElem hq)).2.1,
                      (hgens q _ (List.getElem?_eq_getElem hq)).1⟩
                  · intro d hd hdi
                    obtain ⟨d', hd', e⟩ := hpr d hd
                    have := (hf.seen i _ hi).2.2
                    have hpos : 0 < ((kept s.draws).filter fun d => d.gen = i).length :=
                      List.length_pos_of_mem (List.mem_filter.mpr ⟨hd', by simp [e, hdi]⟩)
                    omega
                rw [this]
                exact trivial
            -- but the chosen one has the largest ratio
            have hn : n ≠ 0 := by
              rintro rfl
              have := (hf.seen j _ hj).2.2
              rw [hz rfl] at this
              simp [kept] at this
              omega
            unfold chosenGen at hidx
            rw [if_neg hn] at hidx
            rcases choose_spec s.gens 0 (.fin 0) none with ⟨h1, -⟩ | ⟨k, gk, hk, h1, -, h3, -⟩
            · rw [h1] at hidx; simp at hidx
            · rw [h1] at hidx
              simp only [zero_add, Option.some.injEq] at hidx
              subst hidx
              subst hjx
              rw [hj] at hk
              simp only [Option.some.injEq] at hk
              subst hk
              exact h3 _ (List.getElem_mem hi0) hri
        · rw [f2, if_neg hjx]; simpa using hold)
    numEvents.toNat 0 ⟨load gens, fresh lots, [], []⟩ _ ⟨load_faithful gens _, by simp [Productive], fun _ => rfl, rfl, by
      intro i g _ _ j g' hj' _
      simp only [load, List.getElem?_map, Option.map_eq_some_iff] at hj'
      obtain ⟨a, _, rfl⟩ := hj'
      simp [Accum.new]⟩ hrun
  obtain ⟨-, -, h3, -, hdr, h6⟩ := h45
  have hlen : s.gens.length = gens.length := by simpa using congrArg List.length h6.types
  have hsmall : ∀ x ∈ s.gens.map fun g => g.integ.countAcc, x ≤ M + L + 1 := by
    intro x hx
    obtain ⟨g', hg', rfl⟩ := List.mem_map.mp hx
    obtain ⟨j, hj, rfl⟩ := List.mem_iff_getElem.mp hg'
    by_cases hji : j = i
    · subst hji
      rw [List.getElem?_eq_getElem hj] at hg
      simp only [Option.some.injEq] at hg
      subst hg
      rw [hscale] at hdr
      have h1 := (seen_of h6 sc lots hdr (List.getElem?_eq_getElem hj)).acc
      have h2 := acc_le (W (lots j) (sc j)) s.gens[j].integ.count
      omega
    · have := inv.2.2.2.2 i g hg hlt j _ (List.getElem?_eq_getElem hj) hji
      omega
  have hsum := List.sum_le_card_nsmul _ _ hsmall
  rw [List.length_map, hlen, smul_eq_mul] at hsum
  have : gens.length * (M + L + 1) < (gens.length + 1) * (M + L + 2) := by nlinarith
  have hN' : (((gens.length + 1) * (M + L + 2) : ℕ) : ℤ) ≤ numEvents := hN
  omega

end Sidis.Lemmas.Random
