import Verif.Model.ProcessEvents
import Verif.Props.RandomBias
import Verif.Props.Integ

/-! # The events of a file and the cross-section: C96 -/

namespace Sidis.Props

open Gen StatsLib Spec Lemmas.Generate

variable {S R K : Type} [StatsLib S]

/-- The element of the array `stats/norm` for an event type. -/
theorem norm_at (a : IntegratorArray S) (t : EventType) : ∃ l, (Integs.write a).norm = some l ∧
    Integs.at' l (typeCode t) = (a.map t.idx).norm := by
  rw [c44_layout]
  refine ⟨_, rfl, ?_⟩
  cases t <;> rfl

theorem weights_fin (ws : List Fl) (h : ∀ w ∈ ws, w.isFinite) : ws = (ws.map num).map Fl.fin := by
  rw [List.map_map]
  conv_lhs => rw [← List.map_id ws]
  refine List.map_congr_left fun w hw => ?_
  have := h w hw
  cases w with
  | fin r => rfl
  | _ => exact absurd this (by simp)

theorem sum_kept (ds : List (Draw K)) (i : ℕ) :
    ((weightsOf i ds).map num).sum =
      (((kept ds).filter fun d => d.gen = i).map fun d => num d.weight).sum := by
  classical
  induction ds with
  | nil => rfl
  | cons d ds ih =>
    simp only [weightsOf, kept] at ih ⊢
    by_cases h : d.weight.eq (.fin 0) <;> by_cases hi : d.gen = i
    · have h0 : num d.weight = 0 := by
        revert h; cases d.weight <;> simp [Fl.eq, num]
      simpa [h, hi, h0] using ih
    · simpa [h, hi] using ih
    · simpa [h, hi] using ih
    · simpa [h, hi] using ih

/-- The type written for an event of generator `i`. -/
def codeOf (gens : List (EventType × Fl × Fl)) (i : ℕ) : ℕ :=
  ((gens[i]?).map fun g => typeCode g.1).getD 0

theorem rows_sum {gens : List (EventType × Fl × Fl)} {s : State S R K} (hs : Faithful gens s)
    (f : ℕ → Fl → ℝ) : (s.rows.map fun r => f r.type r.weight).sum =
      ((kept s.draws).map fun d => f (codeOf gens d.gen) d.weight).sum := by
  have := congrArg (List.map fun q : Option ℕ × Fl × K => f (q.1.getD 0) q.2.1) hs.rows
  simpa only [List.map_map, Function.comp_def, Option.getD_some, codeOf] using congrArg List.sum this

theorem sum_by_gen (ds : List (Draw K)) (F : Draw K → ℝ) (n : ℕ) (h : ∀ d ∈ ds, d.gen < n) :
    (ds.map F).sum = ∑ i ∈ Finset.range n, ((ds.filter fun d => d.gen = i).map F).sum := by
  induction ds with
  | nil => simp
  | cons d ds ih =>
    have hd := h d (by simp)
    rw [List.map_cons, List.sum_cons, ih fun x hx => h x (by simp [hx])]
    have : ∀ i, (((d :: ds).filter fun d => d.gen = i).map F).sum =
        (if i = d.gen then F d else 0) + ((ds.filter fun d => d.gen = i).map F).sum := by
      intro i
      by_cases hi : d.gen = i
      · simp [hi]
      · simp [hi, Ne.symm hi]
    simp only [this, Finset.sum_add_distrib]
    rw [Finset.sum_ite_eq' (Finset.range n) d.gen fun _ => F d, if_pos (Finset.mem_range.mpr hd)]

theorem code_inj {gens : List (EventType × Fl × Fl)} (hnd : (gens.map fun g => g.1).Nodup)
    {i j : ℕ} (hi : i < gens.length) (hj : j < gens.length) (h : codeOf gens i = codeOf gens j) :
    i = j := by
  have h1 : (gens[i]).1 = (gens[j]).1 := by
    simp only [codeOf, List.getElem?_eq_getElem hi, List.getElem?_eq_getElem hj, Option.map_some,
      Option.getD_some] at h
    revert h
    cases gens[i].1 <;> cases gens[j].1 <;> simp [typeCode, EventType.idx]
  have := (List.nodup_iff_injective_getElem.mp hnd) (a₁ := ⟨i, by simpa using hi⟩)
    (a₂ := ⟨j, by simpa using hj⟩) (by simpa using h1)
  simpa using this

/-- What a generator contributes. -/
theorem gen_part (hS : Counts S) (hA : Averages S) {gens : List (EventType × ℝ × ℝ)}
    (hp : ∀ g ∈ gens, 0 < g.2.1) {s : State S R K} (hs : Faithful (loaded gens) s)
    (hfin : ∀ d ∈ s.draws, d.weight.isFinite) {i : ℕ} {g : GenTuple S} (hg : s.gens[i]? = some g)
    (hc : 0 < g.integ.count) :
    ∃ ν, 0 < ν ∧ ν = g.integ.count * num g.integ.primeInv ∧ g.integ.total.norm = .fin ν ∧
      g.integ.total.integ = .fin ((((kept s.draws).filter fun d => d.gen = i).map fun d => num d.weight).sum / ν) := by
  obtain ⟨h1, h2, -⟩ := hs.seen i g hg
  have e : (loaded gens)[i]? = some (g.evType, g.integ.primeInv, g.rejScale) := by
    rw [← hs.types, List.getElem?_map, hg]; rfl
  obtain ⟨g0, hg0, he⟩ := loaded_spec gens i _ e
  simp only [Prod.mk.injEq] at he
  have hp0 := hp g0 (List.mem_of_getElem? hg0)
  have hwf : ∀ w ∈ weightsOf i s.draws, w.isFinite := by
    intro w hw
    obtain ⟨d, hd, rfl⟩ := List.mem_map.mp hw
    exact hfin d (List.mem_filter.mp hd).1
  have hlen : (weightsOf i s.draws).length = g.integ.count := by
    rw [h2]; simp [weightsOf]
  have hcnt : StatsLib.count g.integ.weights = g.integ.count := by
    rw [h1, count_collect hS, hlen]
  have hcr : (0 : ℝ) < g.integ.count := by exact_mod_cast hc
  refine ⟨g.integ.count * g0.2.1, by positivity, by rw [he.2.1]; rfl, ?_, ?_⟩
  · simp [Accum.total, Integrator.mk', Integrator.norm, hcnt, he.2.1]
  · unfold Accum.total Integrator.mk' Integrator.integ
    simp only [he.2.1]
    rw [h1, weights_fin _ hwf, hA.mean _ (by
      intro h0
      have := congrArg List.length h0
      simp only [List.length_map, hlen, List.length_nil] at this
      omega), Fl.div_fin _ hp0.ne', sum_kept, List.length_map, hlen, div_div]

theorem draws_finite {gens : List (EventType × Fl × Fl)} {s : State S R K} (hs : Faithful gens s)
    (hfin : ∀ r ∈ s.rows, r.weight.isFinite) : ∀ d ∈ s.draws, d.weight.isFinite := by
  classical
  intro d hd
  by_cases h : d.weight.eq (.fin 0)
  · revert h; cases d.weight <;> simp [Fl.eq]
  · have hk : d ∈ kept s.draws := List.mem_filter.mpr ⟨hd, by simpa using h⟩
    have := congrArg (List.map fun q : Option ℕ × Fl × K => q.2.1) hs.rows
    simp only [List.map_map, Function.comp_def] at this
    have hm : d.weight ∈ s.rows.map fun r => r.weight := by
      rw [this]; exact List.mem_map.mpr ⟨d, hk, rfl⟩
    obtain ⟨r, hr, he⟩ := List.mem_map.mp hm
    rw [← he]; exact hfin r hr

theorem run_types {gens : List (EventType × ℝ × ℝ)} (hnd : (gens.map fun g => g.1).Nodup)
    {s : State S R K} (hs : Faithful (loaded gens) s) :
    ((loaded gens).map fun g => g.1).Nodup ∧ (s.gens.map (·.evType)).Nodup ∧
      s.gens.length = (loaded gens).length := by
  have h1 : ((loaded gens).map fun g => g.1) = gens.map fun g => g.1 := by simp [loaded]
  have h2 := congrArg (List.map fun q : EventType × Fl × Fl => q.1) hs.types
  simp only [List.map_map, Function.comp_def] at h2
  refine ⟨by rw [h1]; exact hnd, ?_, by rw [← hs.types, List.length_map]⟩
  rw [h2, h1]; exact hnd

theorem code_at {gens : List (EventType × Fl × Fl)} {s : State S R K} (hs : Faithful gens s)
    {i : ℕ} {g : GenTuple S} (hg : s.gens[i]? = some g) : codeOf gens i = typeCode g.evType := by
  rw [codeOf, ← hs.types, List.getElem?_map, hg]; rfl

/-- C96. The cross-section reported for a type of event is the sum of the weights of the events of
that type in the file, divided by the norm that the file holds for the type. -/
theorem c96_events (hS : Counts S) (hA : Averages S) (src : Source R K) (fuel : ℕ)
    (gens : List (EventType × ℝ × ℝ)) (hp : ∀ g ∈ gens, 0 < g.2.1)
    (hnd : (gens.map fun g => g.1).Nodup) (numEvents : ℤ) (rnd : R) (s : State S R K)
    (h : Gen.generate src fuel (loaded gens) numEvents rnd = .done s)
    (hfin : ∀ r ∈ s.rows, r.weight.isFinite) :
    ∃ norm, (Integs.write (finalStats s.gens)).norm = some norm ∧
      ∀ g ∈ s.gens, 0 < g.integ.count → ∃ ν, 0 < ν ∧
        Integs.at' norm (typeCode g.evType) = .fin ν ∧
        g.integ.total.integ = .fin (((s.rows.filter fun r => r.type = typeCode g.evType).map
          fun r => num r.weight).sum / ν) := by
  have hs := (c45_generate src fuel _ numEvents rnd s h).2.2.2.2.2
  obtain ⟨hn1, hn2, hlen⟩ := run_types hnd hs
  obtain ⟨norm, hnorm, -⟩ := norm_at (finalStats s.gens) .nrad
  refine ⟨norm, hnorm, fun g hg hc => ?_⟩
  obtain ⟨i, hi⟩ := List.mem_iff_getElem?.mp hg
  have hil : i < (loaded gens).length := hlen ▸ (List.getElem?_eq_some_iff.mp hi).1
  obtain ⟨ν, h0, -, hν, hint⟩ := gen_part hS hA hp hs (draws_finite hs hfin) hi hc
  obtain ⟨norm', hnorm', hat⟩ := norm_at (finalStats s.gens) g.evType
  obtain rfl : norm = norm' := Option.some.inj (hnorm ▸ hnorm')
  refine ⟨ν, h0, by rw [hat, (c69_written _ hn2).1 g hg, hν], ?_⟩
  rw [hint]
  congr 2
  have key := rows_sum hs fun t w => if t = typeCode g.evType then num w else 0
  have aux : ∀ {α : Type} (l : List α) (p : α → Prop) [DecidablePred p] (f : α → ℝ),
      ((l.filter fun a => decide (p a)).map f).sum = (l.map fun a => if p a then f a else 0).sum := by
    intro α l p _ f
    induction l with
    | nil => rfl
    | cons a l ih => by_cases hpa : p a <;> simp [hpa, ih]
  rw [aux, aux, key]
  congr 1
  refine List.map_congr_left fun d hd => ?_
  have hdr := hs.range d (List.mem_filter.mp hd).1
  have : d.gen = i ↔ codeOf (loaded gens) d.gen = typeCode g.evType := by
    rw [← code_at hs hi]
    exact ⟨fun e => by rw [e], fun e => code_inj hn1 hdr hil e⟩
  simp only [this]

theorem process_sum (norm : List Fl) (rows : List (Row K))
    (hr : ∀ r ∈ rows, r.weight.isFinite ∧ (Integs.at' norm r.type).isFinite) (t : Totals) (a : ℝ)
    (ht : t.weight = .fin a) :
    (rows.foldl (processStep norm) t).weight =
      .fin (a + (rows.map fun r => num r.weight * num (Integs.at' norm r.type)).sum) := by
  induction rows generalizing t a with
  | nil => simp [ht]
  | cons r rows ih =>
    obtain ⟨h1, h2⟩ := hr r (by simp)
    rw [List.foldl_cons, ih (fun x hx => hr x (by simp [hx])) _
      (a + num r.weight * num (Integs.at' norm r.type)), List.map_cons, List.sum_cons, add_assoc]
    unfold processStep
    revert h1 h2
    cases r.weight <;> cases Integs.at' norm r.type <;> simp [ht, num]

/-- What the example program shows for the cross-section (process_events.cpp): not the sum of the
reported cross-sections, but the sum of each one times the square of its norm. -/
theorem c96_example (hS : Counts S) (hA : Averages S) (src : Source R K) (fuel : ℕ)
    (gens : List (EventType × ℝ × ℝ)) (hp : ∀ g ∈ gens, 0 < g.2.1)
    (hnd : (gens.map fun g => g.1).Nodup) (numEvents : ℤ) (rnd : R) (s : State S R K)
    (h : Gen.generate src fuel (loaded gens) numEvents rnd = .done s)
    (hfin : ∀ r ∈ s.rows, r.weight.isFinite) (norm : List Fl)
    (hnorm : (Integs.write (finalStats s.gens)).norm = some norm) :
    (processEvents norm s.rows).weight = .fin ((s.gens.map fun g =>
      if g.integ.count = 0 then 0 else num g.integ.total.norm ^ 2 * num g.integ.total.integ).sum) := by
  have hs := (c45_generate src fuel _ numEvents rnd s h).2.2.2.2.2
  obtain ⟨hn1, hn2, hlen⟩ := run_types hnd hs
  have hfd := draws_finite hs hfin
  have hat : ∀ {i : ℕ} {g : GenTuple S}, s.gens[i]? = some g →
      Integs.at' norm (codeOf (loaded gens) i) = g.integ.total.norm := by
    intro i g hg
    obtain ⟨norm', hnorm', hat⟩ := norm_at (finalStats s.gens) g.evType
    obtain rfl : norm = norm' := Option.some.inj (hnorm ▸ hnorm')
    rw [code_at hs hg, hat, (c69_written _ hn2).1 g (List.mem_of_getElem? hg)]
  have hused : ∀ {i : ℕ} {g : GenTuple S}, s.gens[i]? = some g → ∀ d ∈ kept s.draws, d.gen = i →
      0 < g.integ.count := by
    intro i g hg d hd hi
    rw [(hs.seen i g hg).2.1]
    exact List.length_pos_of_mem (List.mem_filter.mpr ⟨(List.mem_filter.mp hd).1, by simpa using hi⟩)
  have hrow : ∀ r ∈ s.rows, r.weight.isFinite ∧ (Integs.at' norm r.type).isFinite := by
    intro r hr
    refine ⟨hfin r hr, ?_⟩
    have hm : (some r.type, r.weight, r.kin) ∈
        s.rows.map fun r => (some r.type, r.weight, r.kin) := List.mem_map.mpr ⟨r, hr, rfl⟩
    rw [hs.rows] at hm
    obtain ⟨d, hd, he⟩ := List.mem_map.mp hm
    have hdr := hs.range d (List.mem_filter.mp hd).1
    obtain ⟨g, hg⟩ : ∃ g, s.gens[d.gen]? = some g :=
      ⟨_, List.getElem?_eq_getElem (by rw [hlen]; exact hdr)⟩
    obtain ⟨ν, -, -, hν, -⟩ := gen_part hS hA hp hs hfd hg (hused hg d hd rfl)
    have : r.type = codeOf (loaded gens) d.gen := by
      simp only [Prod.mk.injEq] at he
      rw [codeOf, he.1]; rfl
    rw [this, hat hg, hν]; simp
  unfold processEvents
  rw [process_sum norm s.rows hrow _ 0 rfl, zero_add]
  congr 1
  rw [rows_sum hs fun t w => num w * num (Integs.at' norm t),
    sum_by_gen (kept s.draws) _ _ fun d hd => hs.range d (List.mem_filter.mp hd).1, ← hlen, Finset.sum_range,
    ← Fin.sum_univ_fun_getElem s.gens]
  refine Finset.sum_congr rfl fun i _ => ?_
  have hg : s.gens[(i : ℕ)]? = some s.gens[(i : ℕ)] := List.getElem?_eq_getElem i.2
  change _ = if (s.gens[(i : ℕ)]).integ.count = 0 then 0 else _
  split_ifs with h0
  · have : (kept s.draws).filter (fun d => d.gen = (i : ℕ)) = [] := by
      rw [List.filter_eq_nil_iff]
      intro d hd hi
      have := hused hg d hd (by simpa using hi)
      omega
    rw [this]; rfl
  · obtain ⟨ν, hν0, -, hν, hint⟩ := gen_part hS hA hp hs hfd hg (Nat.pos_of_ne_zero h0)
    have : ((kept s.draws).filter fun d => d.gen = (i : ℕ)).map
        (fun d => num d.weight * num (Integs.at' norm (codeOf (loaded gens) d.gen))) =
        ((kept s.draws).filter fun d => d.gen = (i : ℕ)).map (fun d => num d.weight * ν) := by
      refine List.map_congr_left fun d hd => ?_
      have hi : d.gen = i := by simpa using (List.mem_filter.mp hd).2
      rw [hi, hat hg, hν]; rfl
    rw [this, List.sum_map_mul_right]
    change _ = num (s.gens[(i : ℕ)]).integ.total.norm ^ 2 * num (s.gens[(i : ℕ)]).integ.total.integ
    rw [hν, hint]
    simp only [num]
    field_simp

/-- The generators of the run above. -/
noncomputable def exReal : List (EventType × ℝ × ℝ) := [(.nrad, 1, 0), (.rad, 2, 0)]

theorem exReal_loaded : loaded exReal = exGens := by simp [loaded, exReal, exGens]

theorem ex_weights (s : State Lemmas.Bag ℕ ℕ) (hs : generate exSrc 2 exGens 5 0 = .done s) :
    (∀ d ∈ kept s.draws, d.weight = .fin 3) ∧ ∀ r ∈ s.rows, r.weight.isFinite := by
  have h45 := c45_generate exSrc 2 exGens 5 0 s hs
  have hF := h45.2.2.2.2.2
  have hw : ∀ (ds : List (Draw ℕ)) (a b : ℕ), Drawn exSrc (scaleOf exGens) a ds b →
      ∀ d ∈ ds, d.weight = .fin 0 ∨ d.weight = .fin 3 := by
    intro ds
    induction ds with
    | nil => simp
    | cons d ds ih =>
      intro a b h d' hd'
      rcases List.mem_cons.mp hd' with rfl | hd'
      · have hsc : scaleOf exGens d'.gen = .fin 0 := by
          match d'.gen with
          | 0 => rfl
          | 1 => rfl
          | n + 2 => rfl
        have := h.2
        rw [hsc, c46_off] at this
        have := congrArg Prod.fst this
        simp only [exSrc] at this
        rw [← this]
        split_ifs <;> simp
      · exact ih _ _ h.1 d' hd'
  have hwd := hw _ _ _ h45.2.2.2.2.1
  have hk : ∀ d ∈ kept s.draws, d.weight = .fin 3 := by
    classical
    intro d hd
    obtain ⟨h1, h2⟩ := List.mem_filter.mp hd
    rcases hwd d h1 with h | h
    · rw [h] at h2; simp [Fl.eq] at h2
    · exact h
  refine ⟨hk, ?_⟩
  · intro r hr
    have hm : r.weight ∈ (s.rows.map fun r => (some r.type, r.weight, r.kin)).map fun q => q.2.1 := by
      simpa using ⟨r, hr, rfl⟩
    rw [hF.rows, List.map_map] at hm
    obtain ⟨d, hd, he⟩ := List.mem_map.mp hm
    rw [← he]
    simp [hk d hd]

/-- The run meets the hypotheses of `c96_events` and `c96_example`. -/
example : ∃ s : State Lemmas.Bag ℕ ℕ, generate exSrc 2 (loaded exReal) 5 0 = .done s ∧
    s.rows.length = 5 ∧ (∀ r ∈ s.rows, r.weight.isFinite) ∧ (∀ g ∈ exReal, 0 < g.2.1) ∧
    (exReal.map fun g => g.1).Nodup := by
  obtain ⟨s, hs⟩ := ex_done
  have h1 := (c45_generate exSrc 2 exGens 5 0 s hs).1
  exact ⟨s, exReal_loaded ▸ hs, by exact_mod_cast h1, (ex_weights s hs).2, by simp [exReal],
    by simp [exReal]⟩

/-- C96 (refuted). The cross-section that the example program shows is not the one that the statistics of
the file report: in the run above it is larger than the sum of the reported ones. -/
theorem c96_example_refuted : ∃ s : State Lemmas.Bag ℕ ℕ, generate exSrc 2 exGens 5 0 = .done s ∧
    ∃ norm shown, (Integs.write (finalStats s.gens)).norm = some norm ∧
      (processEvents norm s.rows).weight = .fin shown ∧
      (s.gens.map fun g => num g.integ.total.integ).sum < shown := by
  obtain ⟨s, hs⟩ := ex_done
  have hF := (c45_generate exSrc 2 exGens 5 0 s hs).2.2.2.2.2
  obtain ⟨hk, hfin⟩ := ex_weights s hs
  have hS := Lemmas.Bag.counts
  have hA := Lemmas.Bag.averages
  rw [← exReal_loaded] at hs hF
  have hp : ∀ g ∈ exReal, 0 < g.2.1 := by simp [exReal]
  obtain ⟨norm, hnorm, -⟩ := norm_at (finalStats s.gens) .nrad
  have hsh := c96_example hS hA exSrc 2 exReal hp (by simp [exReal]) 5 0 s hs hfin norm hnorm
  refine ⟨s, exReal_loaded ▸ hs, norm, _, hnorm, hsh, ?_⟩
  obtain ⟨g0, g1, hgs⟩ : ∃ g0 g1, s.gens = [g0, g1] := by
    have := congrArg List.length hF.types
    rw [List.length_map] at this
    exact List.length_eq_two.mp (by simpa [exReal, loaded] using this)
  have h71 := c71_every_type Lemmas.Bag.counts Lemmas.Bag.rms exSrc
    (by intro i r; simp only [exSrc]; split_ifs <;> simp) 2 exGens exGens_primes
    (by simp [exGens]) 5 (by simp [exGens]) 0 s (exReal_loaded ▸ hs)
  have hused : ∀ (i : ℕ) (g : GenTuple Lemmas.Bag), s.gens[i]? = some g →
      ∃ d ∈ kept s.draws, d.gen = i := by
    intro i g hg
    have hmem : (g.evType, g.integ.primeInv, g.rejScale) ∈ exGens := by
      rw [← exReal_loaded, ← hF.types]
      exact List.mem_map.mpr ⟨g, List.mem_of_getElem? hg, rfl⟩
    obtain ⟨r, hr, ht⟩ := h71 _ hmem
    have hm : (some r.type, r.weight, r.kin) ∈
        s.rows.map fun r => (some r.type, r.weight, r.kin) := List.mem_map.mpr ⟨r, hr, rfl⟩
    rw [hF.rows] at hm
    obtain ⟨d, hd, he⟩ := List.mem_map.mp hm
    refine ⟨d, hd, ?_⟩
    have hlen : i < (loaded exReal).length := by
      rw [← (run_types (by simp [exReal]) hF).2.2]
      exact (List.getElem?_eq_some_iff.mp hg).1
    refine code_inj (run_types (by simp [exReal]) hF).1 (hF.range d (List.mem_filter.mp hd).1) hlen ?_
    rw [code_at hF hg]
    simp only [Prod.mk.injEq] at he
    rw [codeOf, he.1, ← ht]; rfl
  have hpart : ∀ (i : ℕ) (g : GenTuple Lemmas.Bag), s.gens[i]? = some g →
      0 < num g.integ.total.integ ∧ 1 ≤ g.integ.count ∧
        num g.integ.total.norm = g.integ.count * num g.integ.primeInv := by
    intro i g hg
    obtain ⟨d, hd, hdi⟩ := hused i g hg
    have hc : 0 < g.integ.count := by
      rw [(hF.seen i g hg).2.1]
      exact List.length_pos_of_mem (List.mem_filter.mpr ⟨(List.mem_filter.mp hd).1, by simpa using hdi⟩)
    obtain ⟨ν, h0, hν, hn, hint⟩ := gen_part hS hA hp hF (draws_finite hF hfin) hg hc
    refine ⟨?_, hc, by rw [hn]; exact hν⟩
    rw [hint]
    refine div_pos ?_ h0
    have hpos : 0 < ((kept s.draws).filter fun d => d.gen = i).length :=
      List.length_pos_of_mem (List.mem_filter.mpr ⟨hd, by simpa using hdi⟩)
    have : ((kept s.draws).filter fun d => d.gen = i).map (fun d => num d.weight) =
        ((kept s.draws).filter fun d => d.gen = i).map fun _ => (3 : ℝ) :=
      List.map_congr_left fun d hd => by rw [hk d (List.mem_filter.mp hd).1]; rfl
    rw [this, List.map_const', List.sum_replicate, nsmul_eq_mul]
    have : (0 : ℝ) < ((kept s.draws).filter fun d => d.gen = i).length := by exact_mod_cast hpos
    positivity
  obtain ⟨a0, a1, a2⟩ := hpart 0 g0 (by rw [hgs]; rfl)
  obtain ⟨b0, b1, b2⟩ := hpart 1 g1 (by rw [hgs]; rfl)
  have hty := hF.types
  rw [hgs, exReal_loaded] at hty
  simp only [List.map_cons, List.map_nil, exGens, List.cons.injEq, Prod.mk.injEq, and_true] at hty
  rw [hty.1.2.1, show num (Fl.fin 1) = 1 from rfl] at a2
  rw [hty.2.2.1, show num (Fl.fin 2) = 2 from rfl] at b2
  have a3 : (1 : ℝ) ≤ g0.integ.count := by exact_mod_cast a1
  have b3 : (1 : ℝ) ≤ g1.integ.count := by exact_mod_cast b1
  rw [hgs]
  simp only [List.map_cons, List.map_nil, List.sum_cons, List.sum_nil, add_zero,
    if_neg (show g0.integ.count ≠ 0 by omega), if_neg (show g1.integ.count ≠ 0 by omega), a2, b2]
  nlinarith [mul_le_mul_of_nonneg_right (one_le_pow₀ a3 : 1 ≤ (g0.integ.count : ℝ) ^ 2) a0.le,
    mul_le_mul_of_nonneg_right (one_le_pow₀ b3 : 1 ≤ (g1.integ.count : ℝ) ^ 2) b0.le]

end Sidis.Props
