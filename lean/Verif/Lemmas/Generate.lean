import Verif.Lemmas.Integ

/-! # Lemmas about the event loop -/

namespace Sidis.Lemmas.Generate

open Gen StatsLib Spec

variable {S R K : Type} [StatsLib S]

theorem lt_trans' {a b c : Fl} (h1 : a < b) (h2 : b < c) : a < c := by
  cases a <;> cases b <;> cases c <;> simp_all
  linarith

theorem lt_asymm' {a b : Fl} (h1 : a < b) : ¬ b < a := by
  cases a <;> cases b <;> simp_all
  linarith

theorem lt_irrefl' (a : Fl) : ¬ a < a := by
  cases a <;> simp

open Classical in
/-- The ratio used to choose a generator. -/
noncomputable def ratio (g : GenTuple S) : Fl :=
  let r := g.integ.total.sqrtM2Acc / g.integ.total.norm
  if ¬ r.isFinite then .pinf else r

theorem choose_cons (idx : ℕ) (rm : Fl) (ch : Option ℕ) (g : GenTuple S) (gs : List (GenTuple S)) :
    choose idx rm ch (g :: gs) =
      if rm < ratio g then choose (idx + 1) (ratio g) (some idx) gs
      else choose (idx + 1) rm ch gs := rfl

theorem choose_spec (gs : List (GenTuple S)) : ∀ (idx : ℕ) (rm : Fl) (ch : Option ℕ),
    (choose idx rm ch gs = ch ∧ ∀ g ∈ gs, ¬ rm < ratio g) ∨
    ∃ i g, gs[i]? = some g ∧ choose idx rm ch gs = some (idx + i) ∧ rm < ratio g ∧
      (∀ g' ∈ gs, ¬ ratio g < ratio g') ∧
      ∀ i' < i, ∀ g', gs[i']? = some g' → ratio g' < ratio g := by
  induction gs with
  | nil => intro idx rm ch; left; exact ⟨rfl, by simp⟩
  | cons g gs ih =>
    intro idx rm ch
    rw [choose_cons]
    split_ifs with h
    · right
      rcases ih (idx + 1) (ratio g) (some idx) with ⟨h1, h2⟩ | ⟨i, g', hi, h1, h2, h3, h4⟩
      · refine ⟨0, g, rfl, h1, h, ?_, by simp⟩
        intro g' hg'
        rcases List.mem_cons.mp hg' with rfl | hg'
        · exact lt_irrefl' _
        · exact h2 g' hg'
      · refine ⟨i + 1, g', by simpa using hi, by rw [h1]; congr 1; omega, lt_trans' h h2, ?_, ?_⟩
        · intro g'' hg''
          rcases List.mem_cons.mp hg'' with rfl | hg''
          · exact lt_asymm' h2
          · exact h3 g'' hg''
        · intro i' hi' g'' hg''
          cases i' with
          | zero => simp at hg''; subst hg''; exact h2
          | succ n => exact h4 n (by omega) g'' (by simpa using hg'')
    · rcases ih (idx + 1) rm ch with ⟨h1, h2⟩ | ⟨i, g', hi, h1, h2, h3, h4⟩
      · left
        refine ⟨h1, ?_⟩
        intro g' hg'
        rcases List.mem_cons.mp hg' with rfl | hg'
        · exact h
        · exact h2 g' hg'
      · right
        have hlt : ¬ ratio g' < ratio g := fun hh => h (lt_trans' h2 hh)
        refine ⟨i + 1, g', by simpa using hi, by rw [h1]; congr 1; omega, h2, ?_, ?_⟩
        · intro g'' hg''
          rcases List.mem_cons.mp hg'' with rfl | hg''
          · exact hlt
          · exact h3 g'' hg''
        · intro i' hi' g'' hg''
          cases i' with
          | zero =>
            simp at hg''; subst hg''
            -- `ratio g` is at most `rm`
            revert h h2
            generalize ratio g' = a
            have hn : ¬ (ratio g).isNaN := by
              unfold ratio; simp only; split_ifs with hf
              · revert hf; cases (g.integ.total.sqrtM2Acc / g.integ.total.norm) <;> simp
              · simp
            revert hn
            generalize ratio g = b
            intro hn h h2
            cases a <;> cases b <;> cases rm <;> simp_all
            linarith
          | succ n => exact h4 n (by omega) g'' (by simpa using hg'')

open Classical in
/-- Adding several weights. -/
theorem foldl_push (ws : List Fl) : ∀ a : Accum S,
    (ws.foldl Accum.push a).primeInv = a.primeInv ∧
    (ws.foldl Accum.push a).count = a.count + ws.length ∧
    (ws.foldl Accum.push a).countAcc =
      a.countAcc + (ws.filter fun w => ¬ w.eq (.fin 0)).length ∧
    (ws.foldl Accum.push a).weights = ws.foldl StatsLib.push a.weights := by
  induction ws with
  | nil => intro a; simp
  | cons w ws ih =>
    intro a
    obtain ⟨h1, h2, h3, h4⟩ := ih (a.push w)
    simp only [List.foldl_cons, h1, h2, h3, h4]
    refine ⟨rfl, ?_, ?_, rfl⟩
    · simp [Accum.push]; omega
    · by_cases h : w.eq (.fin 0)
      · simp [Accum.push, h]
      · simp [Accum.push, h]; omega

theorem drawLoop_spec (src : Source R K) (idx : ℕ) (scale : ℕ → Fl) (fuel : ℕ) :
    ∀ (integ : Accum S) (rnd : R) (e : Fl × K) (integ' : Accum S) (rnd' : R) (ds : List (Draw K)),
    drawLoop src idx (scale idx) fuel integ rnd = some (e, integ', rnd', ds) →
    (∀ d ∈ ds, d.gen = idx) ∧ integ' = (ds.map Draw.weight).foldl Accum.push integ ∧
    kept ds = [⟨idx, e.1, e.2⟩] ∧ Drawn src scale rnd ds rnd' := by
  induction fuel with
  | zero => intro integ rnd e integ' rnd' ds h; simp [drawLoop] at h
  | succ n ih =>
    intro integ rnd e integ' rnd' ds h
    rw [drawLoop] at h
    revert h
    generalize hd : drawOnce src idx (scale idx) rnd = d
    obtain ⟨e1, rnd1⟩ := d
    simp only
    split_ifs with h0
    · intro h
      cases hr : drawLoop src idx (scale idx) n (integ.push e1.1) rnd1 with
      | none => rw [hr] at h; simp at h
      | some r =>
        obtain ⟨e2, i2, r2, ds2⟩ := r
        rw [hr] at h
        simp only [Option.some.injEq, Prod.mk.injEq] at h
        obtain ⟨rfl, rfl, rfl, rfl⟩ := h
        obtain ⟨h1, h2, h3, h4⟩ := ih _ _ _ _ _ _ hr
        refine ⟨?_, ?_, ?_, ?_⟩
        · intro d hd'
          rcases List.mem_cons.mp hd' with rfl | hd'
          · rfl
          · exact h1 d hd'
        · simpa using h2
        · simpa [kept, h0] using h3
        · exact ⟨by simpa [hd] using h4, by simp [hd]⟩
    · intro h
      simp only [Option.some.injEq, Prod.mk.injEq] at h
      obtain ⟨rfl, rfl, rfl, rfl⟩ := h
      refine ⟨by simp, by simp, by simp [kept, h0], ?_⟩
      simp [Drawn, hd]

theorem Drawn.append {src : Source R K} {scale : ℕ → Fl} (ds₁ ds₂ : List (Draw K)) :
    ∀ {a b c : R}, Drawn src scale a ds₁ b → Drawn src scale b ds₂ c →
      Drawn src scale a (ds₁ ++ ds₂) c := by
  induction ds₁ with
  | nil => intro a b c h1 h2; rw [Drawn] at h1; subst h1; exact h2
  | cons d ds ih =>
    intro a b c h1 h2
    exact ⟨ih h1.1 h2, h1.2⟩

theorem kept_append (a b : List (Draw K)) : kept (a ++ b) = kept a ++ kept b :=
  List.filter_append ..

theorem weightsOf_append (i : ℕ) (a b : List (Draw K)) :
    weightsOf i (a ++ b) = weightsOf i a ++ weightsOf i b := by
  simp [weightsOf]

theorem collect_append (a b : List Fl) :
    (collect (a ++ b) : S) = b.foldl StatsLib.push (collect a) := by
  simp [collect]

open Classical in
theorem kept_map_weight (ds : List (Draw K)) :
    ((ds.map Draw.weight).filter fun w => ¬ w.eq (.fin 0)).length = (kept ds).length := by
  induction ds with
  | nil => rfl
  | cons d ds ih =>
    by_cases h : d.weight.eq (.fin 0)
    · simpa [kept, h] using ih
    · simpa [kept, h] using ih

/-- One more event keeps the books right. -/
theorem step_faithful {gens : List (EventType × Fl × Fl)} (src : Source R K) (fuel n : ℕ)
    (s s' : State S R K) (hs : Faithful gens s) (h : eventStep src fuel n s = .done s') :
    Faithful gens s' ∧ s'.rows.length = s.rows.length + 1 ∧
    ∃ idx g ds, chosenGen n s.gens = some idx ∧ s.gens[idx]? = some g ∧
      s'.draws = s.draws ++ ds ∧ (∃ d ∈ kept ds, d.gen = idx) ∧ (∀ d ∈ ds, d.gen = idx) ∧
      Drawn src (fun i => ((gens[i]?).map fun g => g.2.2).getD (.fin 0)) s.rnd ds s'.rnd := by
  unfold eventStep at h
  split at h
  · simp at h
  · rename_i idx hidx
    split at h
    · simp at h
    · rename_i g hg
      split at h
      · simp at h
      · rename_i e integ rnd ds hd
        simp only [Out.done.injEq] at h
        subst h
        have hgen : gens[idx]? = some (g.evType, g.integ.primeInv, g.rejScale) := by
          rw [← hs.types, List.getElem?_map, hg]; rfl
        have hsc : g.rejScale = (fun i => ((gens[i]?).map fun g => g.2.2).getD (.fin 0)) idx := by
          simp [hgen]
        rw [hsc] at hd
        obtain ⟨h1, h2, h3, h4⟩ := drawLoop_spec src idx
          (fun i => ((gens[i]?).map fun g => g.2.2).getD (.fin 0)) fuel _ _ _ _ _ _ hd
        have hlt : idx < s.gens.length := by
          by_contra hh; rw [List.getElem?_eq_none (by omega)] at hg; simp at hg
        have hlen : gens.length = s.gens.length := by rw [← hs.types]; simp
        obtain ⟨p1, p2, p3, p4⟩ := foldl_push (ds.map Draw.weight) g.integ
        have hself : ds.filter (fun d => d.gen = idx) = ds :=
          List.filter_eq_self.mpr fun d hd => by simpa using h1 d hd
        have hother : ∀ i, i ≠ idx → ds.filter (fun d => d.gen = i) = [] := fun i hi =>
          List.filter_eq_nil_iff.mpr fun d hd => by
            have := h1 d hd; simp; omega
        have hkself : (kept ds).filter (fun d => d.gen = idx) = kept ds := by rw [h3]; simp
        have hkother : ∀ i, i ≠ idx → (kept ds).filter (fun d => d.gen = i) = [] := fun i hi => by
          rw [h3]; simp; omega
        refine ⟨⟨?_, ?_, ?_, ?_⟩, by simp, idx, g, ds, hidx, hg, rfl, ?_, h1, h4⟩
        · rw [List.map_set, ← hs.types]
          refine List.ext_getElem? fun j => ?_
          rw [List.getElem?_set]
          split_ifs with hj hj2
          · subst hj
            simp [List.getElem?_map, hg, h2, p1]
          · rw [List.getElem?_eq_none (by omega)]
          · rfl
        · intro i g' hg'
          obtain hi | hi := eq_or_ne i idx
          · subst hi
            rw [List.getElem?_set_self hlt] at hg'
            simp only [Option.some.injEq] at hg'
            subst hg'
            obtain ⟨q1, q2, q3⟩ := hs.seen i g hg
            simp only [h2]
            refine ⟨?_, ?_, ?_⟩
            · rw [p4, q1, weightsOf_append, collect_append, weightsOf, weightsOf, hself]
            · rw [p2, q2, List.filter_append, List.length_append, hself, List.length_map]
            · rw [p3, q3, kept_append, List.filter_append, List.length_append, hkself,
                kept_map_weight]
          · rw [List.getElem?_set_ne (Ne.symm hi)] at hg'
            obtain ⟨q1, q2, q3⟩ := hs.seen i g' hg'
            refine ⟨?_, ?_, ?_⟩
            · rw [q1, weightsOf_append, weightsOf, weightsOf, hother i hi]; simp
            · rw [q2, List.filter_append, hother i hi]; simp
            · rw [q3, kept_append, List.filter_append, hkother i hi]; simp
        · intro d hd'
          rcases List.mem_append.mp hd' with hd' | hd'
          · exact hs.range d hd'
          · rw [h1 d hd']; omega
        · rw [List.map_append, kept_append, List.map_append, hs.rows, h3]
          simp [hgen]
        · rw [h3]; simp

theorem load_faithful (gens : List (EventType × Fl × Fl)) (rnd : R) :
    Faithful gens (⟨load gens, rnd, [], []⟩ : State S R K) := by
  refine ⟨?_, ?_, by simp, by simp [kept]⟩
  · simp only [load, List.map_map]
    conv_rhs => rw [← List.map_id gens]
    exact List.map_congr_left fun g _ => rfl
  · intro i g hg
    simp only [load, List.getElem?_map, Option.map_eq_some_iff] at hg
    obtain ⟨a, _, rfl⟩ := hg
    simp [Accum.new, collect, weightsOf, kept]

/-- `x / 0` is never a number. -/
theorem div_zero_special (x : Fl) : ¬ (x / .fin 0).isFinite := by
  cases x with
  | fin r =>
    rw [Fl.div_fin_zero]; unfold Fl.infTimes; split_ifs <;> simp
  | nan => simp
  | pinf => rw [Fl.pinf_div_fin le_rfl]; simp
  | ninf => rw [Fl.ninf_div_fin le_rfl]; simp

open Classical in
theorem ratio_eq {g : GenTuple S} {r : Fl} (h : g.integ.total.sqrtM2Acc / g.integ.total.norm = r) :
    ratio g = if ¬ r.isFinite then .pinf else r := by subst h; rfl

theorem ratio_unused (hS : Counts S) {g : GenTuple S} {p : ℝ} (hp : g.integ.primeInv = .fin p)
    (hw : g.integ.weights = collect []) : ratio g = .pinf := by
  have h0 : g.integ.total.norm = .fin 0 := by
    simp [Accum.total, Integrator.mk', Integrator.norm, hp, hw, collect, hS.count_empty]
  rw [ratio_eq (by rw [h0])]
  simp only [div_zero_special, not_false_eq_true, if_true]

theorem count_collect (hS : Counts S) (ws : List Fl) :
    StatsLib.count (collect ws : S) = ws.length := by
  have : ∀ (ws : List Fl) (a : S), StatsLib.count (ws.foldl StatsLib.push a) =
      StatsLib.count a + ws.length := by
    intro ws
    induction ws with
    | nil => intro a; simp
    | cons w ws ih => intro a; simp [ih, hS.count_push]; omega
  rw [collect, this, hS.count_empty]; omega

theorem ratio_used (hS : Counts S) (hR : RootMeanSquare S) {g : GenTuple S} {p : ℝ} (hp0 : 0 < p)
    (hp : g.integ.primeInv = .fin p) (ws : List Fl) (hw : g.integ.weights = collect ws)
    (hne : ∃ w ∈ ws, ¬ w.eq (.fin 0)) (hacc : 0 < g.integ.countAcc) :
    Fl.fin 0 < ratio g ∧ ((∀ w ∈ ws, w.isFinite) → (ratio g).isFinite) := by
  have hn : 0 < (ws.length : ℝ) * p := by
    obtain ⟨w, hw, _⟩ := hne
    have : 0 < ws.length := List.length_pos_of_mem hw
    have : (0 : ℝ) < ws.length := by exact_mod_cast this
    positivity
  have h0 : g.integ.total.norm = .fin (ws.length * p) := by
    simp [Accum.total, Integrator.mk', Integrator.norm, hp, hw, count_collect hS]
  have h1 : g.integ.total.sqrtM2Acc = sqrtM2 (collect ws : S) g.integ.countAcc := by
    simp [Accum.total, Integrator.mk', Integrator.sqrtM2Acc, hw]
  rw [ratio_eq (by rw [h0, h1])]
  by_cases hf : ∀ w ∈ ws, w.isFinite
  · obtain ⟨r, hr, he⟩ := hR.pos ws g.integ.countAcc hf hne hacc
    rw [he, Fl.div_fin _ hn.ne']
    have : 0 < r / (ws.length * p) := by positivity
    simp [this]
  · have hs := hR.special ws g.integ.countAcc (by push Not at hf; exact hf) hacc
    refine ⟨?_, fun h => absurd h hf⟩
    have : ¬ (sqrtM2 (collect ws : S) g.integ.countAcc / .fin (ws.length * p)).isFinite := by
      revert hs
      cases sqrtM2 (collect ws : S) g.integ.countAcc with
      | fin r => simp
      | nan => simp
      | pinf => rw [Fl.pinf_div_fin hn.le]; simp
      | ninf => rw [Fl.ninf_div_fin hn.le]; simp
    simp [this]

/-- Every generator that was used has given an event. -/
def Productive (ds : List (Draw K)) : Prop := ∀ d ∈ ds, ∃ d' ∈ kept ds, d'.gen = d.gen

theorem productive_append {ds₁ ds₂ : List (Draw K)} {idx : ℕ} (h1 : Productive ds₁)
    (h2 : ∃ d ∈ kept ds₂, d.gen = idx) (h3 : ∀ d ∈ ds₂, d.gen = idx) :
    Productive (ds₁ ++ ds₂) := by
  intro d hd
  rw [kept_append]
  rcases List.mem_append.mp hd with hd | hd
  · obtain ⟨d', h, e⟩ := h1 d hd
    exact ⟨d', List.mem_append_left _ h, e⟩
  · obtain ⟨d', h, e⟩ := h2
    exact ⟨d', List.mem_append_right _ h, by rw [e, h3 d hd]⟩

/-- The ratio of a generator, in terms of the draws. -/
theorem ratio_cases (hS : Counts S) (hR : RootMeanSquare S) {gens : List (EventType × Fl × Fl)}
    (hp : ∀ g ∈ gens, ∃ p : ℝ, 0 < p ∧ g.2.1 = .fin p) {s : State S R K} (hs : Faithful gens s)
    (hprod : Productive s.draws) {i : ℕ} {g : GenTuple S} (hg : s.gens[i]? = some g) :
    ((∀ d ∈ s.draws, d.gen ≠ i) → ratio g = .pinf) ∧ Fl.fin 0 < ratio g ∧
    ((∃ d ∈ s.draws, d.gen = i) → (∀ d ∈ s.draws, d.weight.isFinite) → (ratio g).isFinite) := by
  have hgen : gens[i]? = some (g.evType, g.integ.primeInv, g.rejScale) := by
    rw [← hs.types, List.getElem?_map, hg]; rfl
  obtain ⟨p, hp0, hp1⟩ := hp _ (List.mem_of_getElem? hgen)
  simp only at hp1
  obtain ⟨q1, q2, q3⟩ := hs.seen i g hg
  have hun : (∀ d ∈ s.draws, d.gen ≠ i) → ratio g = .pinf := by
    intro h
    refine ratio_unused hS hp1 ?_
    rw [q1, weightsOf, List.filter_eq_nil_iff.mpr fun d hd => by simpa using h d hd]; rfl
  by_cases h : ∃ d ∈ s.draws, d.gen = i
  · obtain ⟨d, hd, hdi⟩ := h
    obtain ⟨d', hd', e⟩ := hprod d hd
    have hd'' := List.mem_filter.mp hd'
    have hnz : ¬ d'.weight.eq (.fin 0) := by simpa using hd''.2
    have := ratio_used hS hR hp0 hp1 (weightsOf i s.draws) q1
      ⟨d'.weight, List.mem_map_of_mem (List.mem_filter.mpr ⟨hd''.1, by simp [e, hdi]⟩), hnz⟩
      (by rw [q3]; exact List.length_pos_of_mem (List.mem_filter.mpr ⟨hd', by simp [e, hdi]⟩))
    refine ⟨hun, this.1, fun _ hf => this.2 ?_⟩
    intro w hw
    obtain ⟨d, hd, rfl⟩ := List.mem_map.mp hw
    exact hf d (List.mem_filter.mp hd).1
  · refine ⟨hun, ?_, fun h' => absurd h' h⟩
    rw [hun (by push Not at h; exact h)]
    simp

/-- The loop as a whole: an invariant that every event keeps holds at the end. -/
theorem loop_invariant (src : Source R K) (fuel : ℕ) (P : ℕ → State S R K → Prop)
    (hP : ∀ n s s', P n s → eventStep src fuel n s = .done s' → P (n + 1) s') :
    ∀ (k n : ℕ) (s s' : State S R K), P n s → eventLoop src fuel k n s = .done s' →
      P (n + k) s' := by
  intro k
  induction k with
  | zero => intro n s s' h hl; simp [eventLoop] at hl; subst hl; exact h
  | succ k ih =>
    intro n s s' h hl
    rw [eventLoop] at hl
    split at hl
    · rename_i s1 h1
      have := ih (n + 1) s1 s' (hP n s s1 h h1) hl
      rwa [show n + 1 + k = n + (k + 1) by omega] at this
    all_goals simp at hl

/-- If no event can go wrong, the loop does not. -/
theorem loop_safe (src : Source R K) (fuel : ℕ) (P : ℕ → State S R K → Prop)
    (hP : ∀ n s s', P n s → eventStep src fuel n s = .done s' → P (n + 1) s')
    (hs : ∀ n s, P n s → eventStep src fuel n s ≠ .ub) :
    ∀ (k n : ℕ) (s : State S R K), P n s → eventLoop src fuel k n s ≠ .ub := by
  intro k
  induction k with
  | zero => intro n s _; simp [eventLoop]
  | succ k ih =>
    intro n s h
    rw [eventLoop]
    split
    · rename_i s1 h1
      exact ih (n + 1) s1 (hP n s s1 h h1)
    · simp
    · rename_i h1; exact absurd h1 (hs n s h)
    · simp

end Sidis.Lemmas.Generate
