import Verif.Lemmas.CommandRun
import Verif.Props.Format
import Verif.Props.Density

namespace Sidis.Command

open Sidis.ParamStream Sidis.Codec Sidis.Format Sidis.Spec Sidis.Main

theorem std_okE {α : Type} {x : Except MErr α} {a : α} : std x = .ok a ↔ x = .ok a := by
  cases x <;> simp [std]

theorem lookString_ok {p : P} {n : Text} {s : Text} :
    lookString p n = .ok s ↔ av p n = some (.string s) := by
  unfold lookString
  rw [bind_ok]
  simp only [look_ok]
  constructor
  · rintro ⟨v, hv, h⟩
    split at h
    · cases h; exact hv
    · cases h
  · intro h
    exact ⟨_, h, rfl⟩

theorem av_of_gv {p p' : P} (hp : Std p) (hp' : Std p') {n : Text} (h : gv p n = gv p' n) :
    av p n = av p' n := by
  unfold av gv at *
  cases hq : p.find n with
  | none =>
    have h1 := std_find hp n
    have h2 := std_find hp' n
    rw [hq] at h1
    rw [h1] at h2
    cases hq' : p'.find n with
    | none => rfl
    | some q => rw [hq'] at h2; cases h2
  | some q =>
    obtain ⟨s, hs, -, -, hd⟩ := std_fmt hp hq
    obtain ⟨q', hq', -, -, hd'⟩ := std_some hp' hs
    rw [hq, hq'] at h
    simp only [Option.bind_some] at h
    rw [hq']
    simp only [Option.bind_some, h]
    rw [← hd, ← hd']

/-! ### initChecks -/

theorem checkBuilders_ok {p : P} {ts : List EventType} :
    checkBuilders p ts = .ok () ↔
      ∀ t ∈ ts, (∃ u, densityOk t p = .ok u) ∧ ∃ d, Density.DistParams.make t p = .ok d := by
  induction ts with
  | nil => simp [checkBuilders]
  | cons t ts ih =>
    unfold checkBuilders
    cases h1 : densityOk t p with
    | error e => simp [h1]
    | ok u =>
      cases h2 : Density.DistParams.make t p with
      | error e => simp [h1, h2]
      | ok d => simp [h1, h2, ih]

theorem initChecks_ok {p p' : P} (hp : Std p) {ts : List EventType} (h : initChecks p = .ok (ts, p')) :
    enabledTypes p = .ok ts ∧ ts ≠ [] ∧ (∀ t ∈ ts, ∃ u, densityOk t p = .ok u) ∧
    Std p' ∧ (∀ m, gv p' m = gv p m) ∧ ∀ m, av p' m = av p m := by
  unfold initChecks at h
  obtain ⟨ts', h1, h⟩ := bind_ok.1 h
  rw [std_okE] at h1
  split_ifs at h with hn
  obtain ⟨u, h2, h⟩ := bind_ok.1 h
  obtain ⟨u', h3, h⟩ := bind_ok.1 h
  simp only [Except.ok.injEq, Prod.mk.injEq] at h
  obtain ⟨rfl, rfl⟩ := h
  obtain ⟨k1, k2, k3⟩ := mark_spec hp (readsSf p ++ ["file.gen"] ++ readsTypes p ++
      ts'.flatMap fun t => readsDensity t ++ readsDist t)
  exact ⟨h1, hn, fun t ht => (checkBuilders_ok.1 h2 t ht).1, k1, k2, k3⟩

/-! ### Names -/

/-- The name of the last parameter of a generator file that matters. -/
def lastName : Text := "setup.target_pol".toList

theorem init_le_last : ∀ e ∈ stdEntries, Tag.init ∈ e.2.tags → nameLe e.1 lastName = true := by
  decide +kernel

theorem nameLe_total (a b : Text) : nameLe a b = true ∨ nameLe b a = true := by
  unfold nameLe
  by_cases h : List.Lex (· < ·) b a
  · right
    have : ¬ List.Lex (· < ·) a b := fun h' => absurd (List.lt_trans (l₁ := a) (l₂ := b) h' h) (List.lt_irrefl a)
    simpa using this
  · left; simpa using h

theorem nameLe_trans {a b c : Text} (h1 : nameLe a b = true) (h2 : nameLe b c = true) :
    nameLe a c = true := by
  unfold nameLe at *
  simp only [Bool.not_eq_true', decide_eq_false_iff_not] at *
  have e1 : a ≤ b := h1
  have e2 : b ≤ c := h2
  have : a ≤ c := List.le_trans e1 e2
  exact this

theorem nameLe_antisymm {a b : Text} (h1 : nameLe a b = true) (h2 : nameLe b a = true) : a = b := by
  unfold nameLe at *
  simp only [Bool.not_eq_true', decide_eq_false_iff_not] at *
  have e1 : a ≤ b := h1
  have e2 : b ≤ a := h2
  exact List.le_antisymm e1 e2

/-- The objects are written in the order of their names. -/
theorem rootEntries_sorted (p : P) : (rootEntries p).Pairwise fun a b => nameLe a.1 b.1 = true := by
  have h : (byName p).Pairwise fun a b => nameLe a.1 b.1 = true := by
    unfold byName
    haveI : Std.Total (fun a b : Text × Params.Param Tag Ty Val => nameLe a.1 b.1 = true) :=
      ⟨fun a b => nameLe_total a.1 b.1⟩
    haveI : IsTrans _ (fun a b : Text × Params.Param Tag Ty Val => nameLe a.1 b.1 = true) :=
      ⟨fun a b c => nameLe_trans⟩
    exact List.pairwise_insertionSort _ _
  rw [rootEntries_eq, List.pairwise_filterMap]
  refine h.imp ?_
  intro a b hab c hc d hd
  simp only [Option.map_eq_some_iff] at hc hd
  obtain ⟨v, -, rfl⟩ := hc
  obtain ⟨w, -, rfl⟩ := hd
  exact hab

/-- If a parameter was written, so were those before it. -/
theorem firstK_down {p : P} (hp : p.WF) {k : ℕ} {n m : Text} (hm : firstK p k m = true)
    (hnm : nameLe n m = true) (hn : gv p n ≠ none) : firstK p k n = true := by
  have hall := firstK_all hp n hn le_rfl
  unfold firstK at hm hall ⊢
  rw [decide_eq_true_eq] at hm hall ⊢
  rw [List.take_length] at hall
  obtain ⟨e, he, rfl⟩ := List.mem_map.1 hall
  obtain ⟨e', he', rfl⟩ := List.mem_map.1 hm
  obtain ⟨i, hi, rfl⟩ := List.getElem_of_mem he
  obtain ⟨j, hj, rfl⟩ := List.getElem_of_mem he'
  rw [List.length_take] at hj
  by_cases hij : i ≤ j
  · exact List.mem_map_of_mem (List.mem_take_iff_getElem.2 ⟨i, by omega, rfl⟩)
  · have hs := List.pairwise_iff_getElem.1 (rootEntries_sorted p) j i (by omega) hi (by omega)
    have hnd := rootEntries_nodup hp
    simp only [List.getElem_take] at hnm
    have := nameLe_antisymm hnm hs
    have := (List.Nodup.getElem_inj_iff hnd (i := i) (j := j) (hi := by simpa) (hj := by simp; omega)).1
      (by simpa using this)
    omega

/-! ### Densities -/

/-- Both sets provide the same values, except for seeds and identifiers. -/
def SameInputs (p p' : P) : Prop :=
  ∀ m, m ≠ "mc.seed".toList → (∀ t, m ≠ nameUid t) → gv p' m = gv p m

theorem density_inputs {t : EventType} {p : P} {u : Unit} (h : densityOk t p = .ok u) :
    ∃ i : Inputs, i.Of p := by
  cases t with
  | nrad =>
    simp only [densityOk] at h
    cases h1 : Density.nradMake p with
    | error e => rw [h1] at h; cases h
    | ok d =>
      obtain ⟨i, hi, -⟩ := Density.setup_ok (Density.nrad_ok h1)
      exact ⟨i, hi⟩
  | rad =>
    simp only [densityOk] at h
    cases h1 : Density.radMake p with
    | error e => rw [h1] at h; cases h
    | ok d =>
      obtain ⟨i, hi, -⟩ := Density.setup_ok (Density.rad_ok h1).1
      exact ⟨i, hi⟩

theorem densityOk_nrad {p : P} : (∃ u, densityOk .nrad p = .ok u) ↔ ∃ d, Density.nradMake p = .ok d := by
  simp only [densityOk]
  cases Density.nradMake p <;> simp [Except.map]

theorem densityOk_rad {p : P} : (∃ u, densityOk .rad p = .ok u) ↔ ∃ d, Density.radMake p = .ok d := by
  simp only [densityOk]
  cases Density.radMake p <;> simp [Except.map]

/-- The parameters that decide whether a density can be constructed. -/
def inputNames : List String :=
  ["phys.rc_method", "phys.soft_threshold", "setup.target", "setup.beam", "setup.hadron",
    "phys.mass_threshold", "setup.beam_energy", "setup.beam_pol", "setup.target_pol", "cut.k_0_bar",
    "cut.tau", "cut.phi_k", "cut.R", "cut.lab.mom_k", "cut.lab.theta_k"]

theorem inputNames_spec : ∀ n ∈ inputNames, n.toList ≠ "mc.seed".toList ∧ ∀ t, n.toList ≠ nameUid t := by
  have h : ∀ n ∈ inputNames, n.toList ≠ "mc.seed".toList ∧
      ∀ t ∈ [EventType.nrad, .rad], n.toList ≠ nameUid t := by decide +kernel
  intro n hn
  exact ⟨(h n hn).1, fun t => (h n hn).2 t (by cases t <;> simp)⟩

theorem density_congr {t : EventType} {p p' : P} (hp : Std p) (hp' : Std p') (h : SameInputs p p')
    (hd : ∃ u, densityOk t p = .ok u) : ∃ u, densityOk t p' = .ok u := by
  obtain ⟨u, hu⟩ := hd
  obtain ⟨i, hi⟩ := density_inputs hu
  have hg : ∀ n ∈ inputNames, given p' n = given p n ∧ actual p' n = actual p n := by
    intro n hn
    obtain ⟨h1, h2⟩ := inputNames_spec n hn
    have := h n.toList h1 h2
    exact ⟨this, av_of_gv hp' hp this⟩
  have ha : ∀ n ∈ inputNames, actual p' n = actual p n := fun n hn => (hg n hn).2
  simp only [inputNames, List.forall_mem_cons] at ha
  have hi' : i.Of p' := by
    obtain ⟨h1, h2, h3, h4, h5, h6, h7, h8, h9⟩ := hi
    exact ⟨ha.1.trans h1, ha.2.1.trans h2, ha.2.2.1.trans h3, ha.2.2.2.1.trans h4,
      ha.2.2.2.2.1.trans h5, ha.2.2.2.2.2.1.trans h6, ha.2.2.2.2.2.2.1.trans h7,
      ha.2.2.2.2.2.2.2.1.trans h8, ha.2.2.2.2.2.2.2.2.1.trans h9⟩
  have hk := hg "cut.k_0_bar" (by simp [inputNames])
  cases t with
  | nrad =>
    rw [densityOk_nrad, Props.c47_nrad_ctor hp' hi']
    have := (Props.c47_nrad_ctor hp hi).1 (densityOk_nrad.1 ⟨u, hu⟩)
    refine ⟨this.1, fun hrc => ?_⟩
    obtain ⟨k1, k2⟩ := this.2 hrc
    refine ⟨?_, ?_⟩
    · intro n hn
      rw [(hg n (by
        simp only [List.mem_cons, List.not_mem_nil, or_false, inputNames] at hn ⊢
        tauto)).1]
      exact k1 n hn
    · rw [hk.1]; exact k2
  | rad =>
    rw [densityOk_rad, Props.c47_rad_ctor hp' hi', hk.2]
    exact (Props.c47_rad_ctor hp hi).1 (densityOk_rad.1 ⟨u, hu⟩)

/-! ### Loading -/

theorem seed_row : ∃ s, stdFormat.find "mc.seed".toList = some s ∧ s.type = .seedGen ∧
    s.dflt = some (21, .seedGen []) := ⟨_, rfl, rfl, rfl⟩

theorem takeSeed_ok {seed s : ℤ} {p p' : P} (hp : Std p) (h : takeSeed seed p = .ok (p', s)) :
    Std p' ∧ gv p' "mc.seed".toList = some (.seedGen [s]) ∧
    (∀ m, m ≠ "mc.seed".toList → gv p' m = gv p m) ∧
    (gv p "mc.seed".toList = none → s = seed) := by
  obtain ⟨row, hrow, hty, hd⟩ := seed_row
  obtain ⟨q, hq, -, -, hqd⟩ := std_some hp hrow
  unfold takeSeed giveSeed at h
  obtain ⟨set, h1, h⟩ := bind_ok.1 h
  rw [std_okE, lift_ok, isSet_ok] at h1
  obtain ⟨p1, h2, h⟩ := bind_ok.1 h
  obtain ⟨l, h3, h⟩ := bind_ok.1 h
  rw [std_okE, lookSeeds_ok] at h3
  split at h
  · rename_i s'
    simp only [Except.ok.injEq, Prod.mk.injEq] at h
    obtain ⟨rfl, rfl⟩ := h
    cases hg : gv p "mc.seed".toList with
    | some v =>
      rw [hg] at h1
      rw [h1.2] at h2
      simp only [Option.isSome_some, if_true, Except.ok.injEq] at h2
      subst h2
      have : av p "mc.seed".toList = some v := by
        unfold gv at hg; unfold av
        rw [hq] at hg ⊢
        simp only [Option.bind_some] at hg ⊢
        rw [hg]; rfl
      rw [this] at h3
      exact ⟨hp, by rw [hg, h3], fun _ _ => rfl, by simp [hg]⟩
    | none =>
      rw [hg] at h1
      rw [h1.2] at h2
      simp only [Option.isSome_none, Bool.false_eq_true, if_false] at h2
      obtain ⟨b, p2, k1, k2, k3, -⟩ := set_spec hp (v := .seedGen [seed]) hrow hty
      rw [k1] at h2
      simp only [Except.ok.injEq] at h2
      subst h2
      have hg2 := k3 "mc.seed".toList
      rw [if_pos rfl] at hg2
      have : av p2 "mc.seed".toList = some (.seedGen [seed]) := by
        obtain ⟨q2, hq2, -⟩ := std_some k2 hrow
        unfold gv at hg2; unfold av
        rw [hq2] at hg2 ⊢
        simp only [Option.bind_some] at hg2 ⊢
        rw [hg2]; rfl
      rw [this] at h3
      simp only [Option.some.injEq, Val.seedGen.injEq, List.cons.injEq, and_true] at h3
      subst h3
      exact ⟨k2, hg2, fun m hm => by rw [k3, if_neg hm], fun _ => rfl⟩
  · cases h

theorem takeSeed_total {p : P} (hp : Std p) (seed : ℤ)
    (h : gv p "mc.seed".toList = none ∨ ∃ s, gv p "mc.seed".toList = some (.seedGen [s])) :
    ∃ p' s, takeSeed seed p = .ok (p', s) := by
  obtain ⟨row, hrow, hty, hd⟩ := seed_row
  obtain ⟨q, hq, -, -, hqd⟩ := std_some hp hrow
  have hs : p.isSet "mc.seed".toList = .ok (gv p "mc.seed".toList).isSome := isSet_ok.2 ⟨⟨q, hq⟩, rfl⟩
  have look : ∀ p2 : P, Std p2 → ∀ s, gv p2 "mc.seed".toList = some (.seedGen [s]) →
      lookSeeds p2 "mc.seed".toList = .ok [s] := by
    intro p2 k2 s hg2
    rw [lookSeeds_ok]
    obtain ⟨q2, hq2, -⟩ := std_some k2 hrow
    unfold gv at hg2; unfold av
    rw [hq2] at hg2 ⊢
    simp only [Option.bind_some] at hg2 ⊢
    rw [hg2]; rfl
  unfold takeSeed giveSeed
  rw [hs]
  rcases h with h | ⟨s, h⟩
  · obtain ⟨b, p2, k1, k2, k3, -⟩ := set_spec hp (v := .seedGen [seed]) hrow hty
    refine ⟨p2, seed, ?_⟩
    have := look p2 k2 seed (by rw [k3, if_pos rfl])
    simp only [h, lift, std, Option.isSome_none, bind, Except.bind, Bool.false_eq_true, if_false, k1, this]
  · refine ⟨p, s, ?_⟩
    have := look p hp s h
    simp only [h, lift, std, Option.isSome_some, bind, Except.bind, if_true, this]

theorem uid_tags (t : EventType) : ∀ e ∈ stdEntries,
    (t.tag ∈ e.2.tags ∧ Tag.init ∈ e.2.tags) ∧ Tag.uid ∈ e.2.tags ↔ e.1 = nameUid t := by
  cases t <;> decide +kernel

theorem uid_filter (t : EventType) {m : Text} {s : Params.Param Tag Ty Val}
    (hs : stdFormat.find m = some s) :
    (((Filter.tag t.tag).and (.tag .init)).and (.tag .uid)).check s.tags = true ↔ m = nameUid t := by
  have := Props.c34_filter_semantics (Tag := Tag) (.and (.and (.tag t.tag) (.tag .init)) (.tag .uid)) s.tags
  simp only [FExpr.build, FExpr.Holds] at this
  rw [this]
  exact uid_tags t (m, s) (Params.mem_of_find hs)

theorem setFromNames_total {o : P} (ho : ∀ n q, o.find n = some q → ∃ s, stdFormat.find n = some s ∧
      s.type = q.type ∧ s.tags = q.tags ∧ s.dflt = q.dflt)
    (hto : ∀ n q v, o.find n = some q → q.value = some v → v.ty = q.type)
    (ns : List Text) (hns : ∀ n ∈ ns, ∃ q, o.find n = some q) {p : P} (hp : Std p) (b : Bool) :
    ∃ b' p', p.setFromNames o ns b = (.ok b', p') := by
  induction ns generalizing p b with
  | nil => exact ⟨b, p, rfl⟩
  | cons n ns ih =>
    obtain ⟨q, hq⟩ := hns n List.mem_cons_self
    obtain ⟨s, hs, e1, e2, e3⟩ := ho n q hq
    obtain ⟨q', hq', f1, f2, f3⟩ := std_some hp hs
    have hstd := std_setFrom hp hto n
    simp only [Params.setFromNames]
    have : ∃ b2 p2, p.setFrom o n = (.ok b2, p2) := by
      unfold Params.setFrom
      rw [hq']
      simp only [hq]
      rw [if_neg (by rw [← f1, ← e1]; simp), if_neg (by rw [← f2, ← e2]; simp),
        if_neg (by rw [← f3, ← e3]; simp)]
      exact ⟨_, _, rfl⟩
    obtain ⟨b2, p2, h2⟩ := this
    rw [h2] at hstd ⊢
    exact ih (fun n hn => hns n (List.mem_cons_of_mem _ hn)) hstd _

theorem setFromAll_total {p o : P} (hp : Std p) (ho : Std o) (f : Filter Tag) :
    ∃ b p', p.setFromAll (o.filter f) = (.ok b, p') := by
  unfold Params.setFromAll
  refine setFromNames_total ?_ ?_ _ (fun n hn => Params.find_isSome_iff.2 hn) hp false
  · intro n q hq
    exact std_fmt ho ((find_filter (std_wf' ho) f n q).1 hq).1
  · intro n q v hq hv
    exact std_typed ho ((find_filter (std_wf' ho) f n q).1 hq).1 hv

section
variable {A B : Type}

/-- Copying the identifier of one event type. -/
theorem copyUid {p foam : P} (hp : Std p) (hf : Std foam) (t : EventType) :
    ∃ b p', Params.setFromAll p (foam.filter (((Filter.tag t.tag).and (.tag .init)).and (.tag .uid))) =
      (.ok b, p') ∧ Std p' ∧ ∀ m, gv p' m = if m = nameUid t then gv foam m else gv p m := by
  obtain ⟨b, p', h⟩ := setFromAll_total hp hf (((Filter.tag t.tag).and (.tag .init)).and (.tag .uid))
  obtain ⟨h1, h2⟩ := setFromAll_ok hp hf _ h
  refine ⟨b, p', h, h1, fun m => ?_⟩
  cases hs : stdFormat.find m with
  | some s =>
    rw [h2 m s hs]
    simp only [uid_filter t hs]
  | none =>
    have hn : ∀ p : P, Std p → gv p m = none := by
      intro p hp
      have := std_find hp m
      rw [hs] at this
      unfold gv
      cases hq : p.find m with
      | none => rfl
      | some q => rw [hq] at this; cases this
    rw [hn p' h1, hn foam hf, hn p hp]
    simp

theorem loadAll_ok {Y : GenEnv A B} {f : RootFile} {foam p : P} {ts : List EventType}
    (hp : Std p) (hf : Std foam) {r : P × List (EventType × Dist.Gen B)}
    (h : loadAll Y f foam p ts = .ok r) :
    Std r.1 ∧ (∀ m, gv r.1 m = if ∃ t ∈ ts, m = nameUid t then gv foam m else gv p m) ∧
    r.2.map Prod.fst = ts ∧
    ∀ t g, (t, g) ∈ r.2 → ∃ q, Std q ∧ (∀ m, (∀ t, m ≠ nameUid t) → gv q m = gv p m) ∧
      loadBlob Y f q t = .ok g := by
  induction ts generalizing p r with
  | nil =>
    simp only [loadAll, Except.ok.injEq] at h
    subst h
    exact ⟨hp, by simp, rfl, by simp⟩
  | cons t ts ih =>
    obtain ⟨b, p', h1, h2, h3⟩ := copyUid hp hf t
    unfold loadAll at h
    rw [h1] at h
    simp only at h
    obtain ⟨g, hg, h⟩ := bind_ok.1 h
    obtain ⟨r', hr', h⟩ := bind_ok.1 h
    simp only [Except.ok.injEq] at h
    subst h
    obtain ⟨k1, k2, k3, k4⟩ := ih h2 hr'
    refine ⟨k1, fun m => ?_, by simp [k3], ?_⟩
    · rw [k2, h3]
      by_cases hm : m = nameUid t
      · simp [hm]
      · simp [hm]
    · intro t' g' hmem
      rcases List.mem_cons.1 hmem with heq | hmem
      · cases heq
        exact ⟨p', h2, fun m hm => by rw [h3, if_neg (hm t)], hg⟩
      · obtain ⟨q, q1, q2, q3⟩ := k4 t' g' hmem
        exact ⟨q, q1, fun m hm => by rw [q2 m hm, h3, if_neg (hm t)], q3⟩

theorem loadAll_total {Y : GenEnv A B} {f : RootFile} {foam p : P} {ts : List EventType}
    (hp : Std p) (hf : Std foam)
    (h : ∀ t ∈ ts, ∀ q, Std q → (∀ m, (∀ t, m ≠ nameUid t) → gv q m = gv p m) →
      ∃ g, loadBlob Y f q t = .ok g) : ∃ r, loadAll Y f foam p ts = .ok r := by
  induction ts generalizing p with
  | nil => exact ⟨_, rfl⟩
  | cons t ts ih =>
    obtain ⟨b, p', h1, h2, h3⟩ := copyUid hp hf t
    have hsame : ∀ m, (∀ t, m ≠ nameUid t) → gv p' m = gv p m := fun m hm => by rw [h3, if_neg (hm t)]
    obtain ⟨g, hg⟩ := h t List.mem_cons_self p' h2 hsame
    obtain ⟨r, hr⟩ := ih h2 fun t' ht' q hq hs => h t' (List.mem_cons_of_mem _ ht') q hq
      fun m hm => (hs m hm).trans (hsame m hm)
    unfold loadAll
    rw [h1]
    simp only [hg, hr, bind, Except.bind]
    exact ⟨_, rfl⟩

/-- What `generate` has done when the generators are loaded. -/
theorem load_ok {Y : GenEnv A B} {fs : FS} {l : Loaded B} (h : load Y fs = .ok l) :
    ∃ p ts name f d p', loadParams Y.rnd Y.text = .ok p ∧ (∃ sf, loadSf Y.sf p = .ok sf) ∧
      enabledTypes p = .ok ts ∧ ts ≠ [] ∧ lookString p "file.gen".toList = .ok name ∧
      fs name = some f ∧ f.params = some d ∧ readRoot (some d) stdFormat = some l.foam ∧
      takeSeed Y.seed p = .ok (p', l.seed) ∧ checkCanProvideFoam l.foam p' = .ok () ∧
      loadAll Y f l.foam p' ts = .ok (l.params, l.gens) := by
  unfold load at h
  obtain ⟨p, h1, h⟩ := bind_ok.1 h
  obtain ⟨sf, h2, h⟩ := bind_ok.1 h
  obtain ⟨ts, h3, h⟩ := bind_ok.1 h
  rw [std_okE] at h3
  split_ifs at h with hts
  obtain ⟨name, h4, h⟩ := bind_ok.1 h
  rw [std_okE] at h4
  cases h5 : fs name with
  | none => rw [h5] at h; cases h
  | some f =>
    rw [h5] at h
    simp only at h
    cases h6 : readRoot f.params stdFormat with
    | none => rw [h6] at h; cases h
    | some foam =>
      rw [h6] at h
      simp only at h
      obtain ⟨r, h7, h⟩ := bind_ok.1 h
      cases h8 : checkCanProvideFoam foam r.1 with
      | error e => rw [h8] at h; cases h
      | ok u =>
        rw [h8] at h
        simp only at h
        obtain ⟨r', h9, h⟩ := bind_ok.1 h
        simp only [Except.ok.injEq] at h
        subst h
        cases hd : f.params with
        | none => rw [hd] at h6; cases h6
        | some d =>
          rw [hd] at h6
          exact ⟨p, ts, name, f, d, r.1, h1, ⟨sf, h2⟩, h3, hts, h4, h5, hd, h6, h7, h8, h9⟩

theorem load_total {Y : GenEnv A B} {fs : FS} {p foam p' : P} {ts : List EventType} {name : Text}
    {f : RootFile} {s : ℤ} {r : P × List (EventType × Dist.Gen B)}
    (h1 : loadParams Y.rnd Y.text = .ok p) (h2 : ∃ sf, loadSf Y.sf p = .ok sf)
    (h3 : enabledTypes p = .ok ts) (hts : ts ≠ []) (h4 : lookString p "file.gen".toList = .ok name)
    (h5 : fs name = some f) (h6 : readRoot f.params stdFormat = some foam)
    (h7 : takeSeed Y.seed p = .ok (p', s)) (h8 : checkCanProvideFoam foam p' = .ok ())
    (h9 : loadAll Y f foam p' ts = .ok r) : load Y fs = .ok ⟨r.1, foam, s, r.2⟩ := by
  obtain ⟨sf, h2⟩ := h2
  unfold load
  simp only [h1, h2, h3, h4, std, bind, Except.bind, if_neg hts, h5, h6, h7, h8, h9]

end

/-! ### Reading everything back -/

theorem fromRoot_restored (v : Val) : fromRoot v.ty (toRoot v) = (restored v).map some := by
  cases v with
  | string s => rfl
  | bound a b =>
    simp only [Val.ty, toRoot, fromRoot, restored]
    split_ifs <;> rfl
  | seedGen l =>
    simp only [Val.ty, toRoot, fromRoot, restored, Option.map_some, Option.some.injEq, Val.seedGen.injEq]
    have h1 := foldl_insert_perm l []
    rw [List.nil_append] at h1
    exact (h1.trans (List.perm_insertionSort _ l).symm).eq_of_pairwise'
      (foldl_insert_sorted l [] List.Pairwise.nil) (List.pairwise_insertionSort _ l)
  | rcMethod x => cases x <;> rfl
  | nucleus x => cases x <;> rfl
  | lepton x => cases x <;> rfl
  | hadron x => cases x <;> rfl
  | _ => rfl

theorem readDir_none {d : Dir} {l : List (Text × Params.Param Tag Ty Val)}
    {e : Text × Params.Param Tag Ty Val} (he : e ∈ l) {o : RootObj} (ho : d.lookup e.1 = some o)
    (hr : fromRoot e.2.type o = none) : readDir d l = none := by
  induction l with
  | nil => cases he
  | cons a l ih =>
    unfold readDir
    rcases List.mem_cons.1 he with rfl | he
    · rw [ho]
      simp only [hr]
    · rw [ih he]
      cases d.lookup a.1 with
      | none => rfl
      | some o =>
        simp only
        split <;> simp

theorem readDir_some {d : Dir} {F : Text → Option Val} {l : List (Text × Params.Param Tag Ty Val)}
    (h : ∀ e ∈ l, (d.lookup e.1 = none ∧ F e.1 = none) ∨
      ∃ o v, d.lookup e.1 = some o ∧ fromRoot e.2.type o = some (some v) ∧ F e.1 = some v) :
    readDir d l = some (l.map fun e => (e.1, { e.2 with used := false, value := F e.1 })) := by
  induction l with
  | nil => rfl
  | cons a l ih =>
    have ih := ih fun e he => h e (List.mem_cons_of_mem _ he)
    unfold readDir
    rcases h a List.mem_cons_self with ⟨h1, h2⟩ | ⟨o, v, h1, h2, h3⟩
    · rw [h1, ih, List.map_cons, h2]; rfl
    · rw [h1]
      simp only [h2]
      rw [ih, List.map_cons, h3]; rfl

theorem find_map (F : Text → Option Val) (l : List (Text × Params.Param Tag Ty Val)) (n : Text) :
    (⟨l.map fun e => (e.1, { e.2 with used := false, value := F e.1 })⟩ : P).find n =
      ((⟨l⟩ : P).find n).map fun q => { q with used := false, value := F n } := by
  unfold Params.find
  induction l with
  | nil => rfl
  | cons e l ih =>
    rw [List.map_cons, Params.lookup_cons', Params.lookup_cons', ih]
    by_cases h : n = e.1
    · subst h; simp
    · simp [h]

/-! ### Small facts about the table -/

theorem enabled_congr {p p' : P} (hp : Std p) (hp' : Std p') (h : SameInputs p p') (t : EventType) :
    Enabled p t ↔ Enabled p' t := by
  have hrc := av_of_gv hp' hp (h "phys.rc_method".toList (by decide) (by intro t; cases t <;> decide))
  have hen := av_of_gv hp' hp (h (nameEnable t) (by cases t <;> decide)
    (by intro t'; cases t <;> cases t' <;> decide))
  rw [enabled_iff, enabled_iff, hrc, hen]

theorem gv_of_av {p : P} (hp : Std p) {n : Text} {s : Params.Param Tag Ty Val}
    (hs : stdFormat.find n = some s) (hd : s.dflt = none) {v : Val} (h : av p n = some v) :
    gv p n = some v := by
  obtain ⟨q, hq, -, -, h3⟩ := std_some hp hs
  unfold av at h
  unfold gv
  rw [hq] at h ⊢
  simp only [Option.bind_some] at h ⊢
  rw [← h3, hd] at h
  simpa using h

theorem pol_row : ∃ s, stdFormat.find lastName = some s ∧ s.dflt = none ∧ Tag.init ∈ s.tags ∧
    Tag.xs ∈ s.tags ∧ Tag.nrad ∈ s.tags ∧ Tag.rad ∈ s.tags := by
  refine ⟨_, rfl, rfl, ?_⟩
  decide

theorem rc_row : ∃ s, stdFormat.find "phys.rc_method".toList = some s ∧ s.dflt = none ∧
    Tag.init ∈ s.tags ∧ Tag.xs ∈ s.tags ∧ Tag.nrad ∈ s.tags ∧ Tag.rad ∈ s.tags := by
  refine ⟨_, rfl, rfl, ?_⟩
  decide

theorem enable_row (t : EventType) : ∃ s, stdFormat.find (nameEnable t) = some s ∧
    Tag.init ∈ s.tags := by
  cases t
  · exact ⟨_, rfl, by decide⟩
  · exact ⟨_, rfl, by decide⟩

theorem uid_init (t : EventType) : ∃ s, stdFormat.find (nameUid t) = some s ∧
    Tag.init ∈ s.tags ∧ s.dflt = none := by
  cases t
  · exact ⟨_, rfl, by decide, rfl⟩
  · exact ⟨_, rfl, by decide, rfl⟩

theorem determines_tags : ∀ e ∈ stdEntries,
    (Tag.xs ∈ e.2.tags ∨ Tag.cut ∈ e.2.tags ∨ Tag.dist ∈ e.2.tags) →
      e.1 ≠ "mc.seed".toList ∧ ∀ t ∈ [EventType.nrad, .rad], e.1 ≠ nameUid t := by
  decide +kernel

theorem determines_ne {n : String} {t : EventType} (h : Determines n t) :
    n.toList ≠ "mc.seed".toList ∧ ∀ t, n.toList ≠ nameUid t := by
  have : ∃ q, stdFormat.find n.toList = some q ∧
      (Tag.xs ∈ q.tags ∨ Tag.cut ∈ q.tags ∨ Tag.dist ∈ q.tags) := by
    rcases h.1 with ⟨q, h1, h2⟩ | ⟨q, h1, h2⟩ | ⟨q, h1, h2⟩
    · exact ⟨q, h1, .inl h2⟩
    · exact ⟨q, h1, .inr (.inl h2)⟩
    · exact ⟨q, h1, .inr (.inr h2)⟩
  obtain ⟨q, h1, h2⟩ := this
  obtain ⟨h3, h4⟩ := determines_tags _ (Params.mem_of_find h1) h2
  exact ⟨h3, fun t => h4 t (by cases t <;> simp)⟩

theorem equiv_rc {t : Ty} {a : Val} {m : RcMethod} (h : equiv t a (.rcMethod m) = true) :
    a = .rcMethod m := by
  cases a <;> simpa [equiv] using h

theorem fromRoot_ty {t : Ty} {o : RootObj} {v : Val} (h : fromRoot t o = some (some v)) : v.ty = t := by
  unfold fromRoot at h
  split at h
  all_goals first
    | (simp only [Option.some.injEq] at h; subst h; rfl)
    | (split_ifs at h; simp only [Option.some.injEq] at h; subst h; rfl)
    | (simp only [Option.map_eq_some_iff, Function.comp_apply, Option.some.injEq] at h
       obtain ⟨x, -, rfl⟩ := h; rfl)
    | (simp at h)

theorem readDir_std {d : Dir} {l l' : List (Text × Params.Param Tag Ty Val)}
    (h : readDir d l = some l') : l'.map forget = l.map forget ∧
      ∀ e ∈ l', ∀ v, e.2.value = some v → v.ty = e.2.type := by
  induction l generalizing l' with
  | nil => cases h; simp
  | cons a l ih =>
    unfold readDir at h
    cases hl : d.lookup a.1 with
    | none =>
      rw [hl] at h
      simp only [Option.map_eq_some_iff] at h
      obtain ⟨l'', h1, rfl⟩ := h
      obtain ⟨i1, i2⟩ := ih h1
      refine ⟨by simp [i1, forget], ?_⟩
      intro e he v hv
      rcases List.mem_cons.1 he with rfl | he
      · cases hv
      · exact i2 e he v hv
    | some o =>
      rw [hl] at h
      simp only at h
      cases hr : fromRoot a.2.type o with
      | none => rw [hr] at h; cases h
      | some w =>
        rw [hr] at h
        simp only [Option.map_eq_some_iff] at h
        obtain ⟨l'', h1, rfl⟩ := h
        obtain ⟨i1, i2⟩ := ih h1
        refine ⟨by simp [i1, forget], ?_⟩
        intro e he v hv
        rcases List.mem_cons.1 he with rfl | he
        · simp only at hv
          subst hv
          exact fromRoot_ty hr
        · exact i2 e he v hv

theorem readRoot_std {d : Option Dir} {p : P} (h : readRoot d stdFormat = some p) : Std p := by
  unfold readRoot at h
  cases d with
  | none => cases h
  | some d =>
    simp only [Option.map_eq_some_iff] at h
    obtain ⟨l, h1, rfl⟩ := h
    obtain ⟨i1, i2⟩ := readDir_std h1
    exact ⟨by rw [i1]; exact std_stdFormat.1, i2⟩

/-! ### How commands end -/

theorem failed_throws {c : ℤ} (h1 : -21 ≤ c) (h2 : c ≤ -1) : Failed (throws c) :=
  ⟨_, rfl, .inl ⟨c, rfl, h1, h2⟩⟩

theorem failed_std : Failed (.result .stdException) := ⟨_, rfl, .inr rfl⟩

theorem failed_ne {s : Stop} (h : Failed s) : s ≠ success ∧ s ≠ .ub := by
  obtain ⟨r, rfl, ⟨c, rfl, -⟩ | rfl⟩ := h
  · exact ⟨fun h => (by cases h), fun h => (by cases h)⟩
  · exact ⟨fun h => (by cases h), fun h => (by cases h)⟩

theorem std_err {α : Type} {x : Except MErr α} {s : Stop} (h : std x = .error s) : Failed s := by
  cases x with
  | ok a => cases h
  | error e => cases h; exact failed_std

theorem bind_err {ε α β : Type} {x : Except ε α} {f : α → Except ε β} {e : ε} (h : x >>= f = .error e) :
    x = .error e ∨ ∃ a, x = .ok a ∧ f a = .error e := by
  cases x with
  | error e' => left; cases h; rfl
  | ok a => exact .inr ⟨a, rfl, h⟩

theorem complete_err {t : Tag} {p : P} {s : Stop} (h : complete t p = .error s) : Failed s := by
  unfold complete at h
  split at h
  · cases h
  · rcases bind_err h with h | ⟨b, -, h⟩
    · exact std_err h
    · split_ifs at h
      cases h
      exact failed_throws (by decide) (by decide)

theorem checkBuilders_err {p : P} {ts : List EventType} {s : Stop} (h : checkBuilders p ts = .error s) :
    Failed s := by
  induction ts with
  | nil => cases h
  | cons t ts ih =>
    unfold checkBuilders at h
    split at h
    · exact ih h
    · cases h; exact failed_throws (by decide) (by decide)

theorem initChecks_err {p : P} {s : Stop} (h : initChecks p = .error s) : Failed s := by
  unfold initChecks at h
  rcases bind_err h with h | ⟨ts, -, h⟩
  · exact std_err h
  · split_ifs at h with hts
    · cases h; exact failed_throws (by decide) (by decide)
    · rcases bind_err h with h | ⟨u, -, h⟩
      · exact checkBuilders_err h
      · rcases bind_err h with h | ⟨u, -, h⟩
        · exact complete_err h
        · cases h

section
variable {A B : Type}

/-- What a successful `initialize` has done. -/
theorem init_success {X : InitEnv A B} (h : (initCommand X).stop = success) :
    ∃ p name ts p' bs, loadParams X.rnd X.text = .ok p ∧ (∃ sf, loadSf X.sf p = .ok sf) ∧
      lookString p "file.gen".toList = .ok name ∧ X.taken name = false ∧
      initChecks p = .ok (ts, p') ∧ bs.map Prod.fst = ts ∧
      (∀ b ∈ bs, buildBlob X b.1 = some (.ok b.2)) ∧
      initCommand X = ⟨name, .create :: (blobOps bs ++
        .mkdir :: paramOps (rootEntries (withUids X.uid ts p'))), success⟩ := by
  rcases initCommand_cases X with ⟨s, hs, hne⟩ | ⟨p, name, h1, h1', h2, h3, h4⟩
  · rw [hs] at h; exact absurd h hne
  · obtain ⟨hstd, -, -⟩ := loadParams_ok h1
    rcases h4 with ⟨s, h4, h5⟩ | ⟨ts, p', h4, h5⟩
    · rw [h5] at h
      exact absurd h (failed_ne (initChecks_err h4)).1
    · obtain ⟨-, -, -, k2, -⟩ := initChecks_ok hstd h4
      obtain ⟨g0, bs, -, g1, g2⟩ := buildAll_spec X name k2 ts
      have hst : (buildAll X name p' ts).stop = success := by rw [h5] at h; exact h
      rcases g2 with ⟨-, c, -, g3⟩ | ⟨g3, k, g4, ⟨g5, -⟩ | ⟨-, g5⟩⟩
      · rw [g3] at hst; cases hst
      · refine ⟨p, name, ts, p', bs, h1, h1', h2, h3, h4, g3, g1, ?_⟩
        rw [List.take_of_length_le g5] at g4
        rw [h5]
        unfold Run.after
        rw [g0, hst, g4]
      · rw [g5] at hst; cases hst

end

section
variable {A B : Type}

theorem loadParams_err {rnd : ℚ → Option ℚ} {text : Option Text} {s : Stop}
    (h : loadParams rnd text = .error s) : Failed s := by
  unfold loadParams at h
  split at h
  · cases h; exact failed_throws (by decide) (by decide)
  · split at h
    · cases h; exact failed_throws (by decide) (by decide)
    · cases h

theorem loadSf_err {env : SfMask.Env A} {p : P} {s : Stop} (h : loadSf env p = .error s) :
    Failed s ∨ s = .ub := by
  unfold loadSf at h
  rcases bind_err h with h | ⟨n, -, h⟩
  · exact .inl (std_err h)
  · rcases bind_err h with h | ⟨t, -, h⟩
    · unfold sfTarget at h
      split_ifs at h
      split at h
      · cases h
      · cases h; exact .inl failed_std
    · split at h <;> cases h
      · exact .inl (failed_throws (by decide) (by decide))
      · exact .inl (failed_throws (by decide) (by decide))
      · exact .inl (failed_throws (by decide) (by decide))
      · exact .inl failed_std
      · exact .inr rfl

/-- Everything that was written was accepted. -/
theorem writeEntries_accepted (refuse : Op → Bool) (name : Text) (next : Run) (d : Dir) :
    ∀ o ∈ (writeEntries refuse name next d).ops, refuse o = false ∨ o ∈ next.ops := by
  induction d with
  | nil => exact fun o ho => .inr ho
  | cons e d ih =>
    unfold writeEntries
    split_ifs with h
    · simp
    · intro o ho
      rcases List.mem_cons.1 ho with rfl | ho
      · exact .inl (by simpa using h)
      · exact ih o ho

theorem writeRoot_accepted (refuse : Op → Bool) (name : Text) (p : P) (next : Run) :
    ∀ o ∈ (writeRoot refuse name p next).ops, refuse o = false ∨ o ∈ next.ops := by
  unfold writeRoot
  split_ifs with h
  · simp
  · intro o ho
    rcases List.mem_cons.1 ho with rfl | ho
    · exact .inl (by simpa using h)
    · exact writeEntries_accepted refuse name next _ o ho

theorem buildAll_accepted (X : InitEnv A B) (name : Text) (ts : List EventType) (p : P) :
    ∀ o ∈ (buildAll X name p ts).ops, X.refuse o = false := by
  induction ts generalizing p with
  | nil =>
    unfold buildAll
    intro o ho
    rcases writeRoot_accepted _ _ _ _ o ho with h | h
    · exact h
    · cases h
  | cons t ts ih =>
    unfold buildAll
    split
    · simp
    · split
      · simp
      · simp
      · split_ifs with h
        · simp
        · intro o ho
          rcases List.mem_cons.1 ho with rfl | ho
          · simpa using h
          · exact ih _ o ho

theorem init_accepted (X : InitEnv A B) :
    ∀ o ∈ (initCommand X).ops, o ≠ .create → X.refuse o = false := by
  rcases initCommand_cases X with ⟨s, hs, -⟩ | ⟨p, name, -, -, -, -, ⟨s, -, h⟩ | ⟨ts, p', -, h⟩⟩
  · rw [hs]; simp [Run.abort]
  · rw [h]; simp
  · rw [h]
    intro o ho hne
    rcases List.mem_cons.1 ho with rfl | ho
    · exact absurd rfl hne
    · exact buildAll_accepted X name ts p' o ho

theorem fromStd_err {α : Type} {x : Except Density.Err α} {s : Stop}
    (h : genChecks.fromStd x = .error s) : Failed s := by
  cases x with
  | ok a => cases h
  | error e => cases h; exact failed_std

theorem askIf_err {c : Bool} {p : P} {n : String} {s : Stop} (h : askIf c p n = .error s) : Failed s := by
  unfold askIf at h
  split_ifs at h
  exact std_err h

theorem genChecks_spec {p : P} (hp : Std p) :
    (∀ p', genChecks p = .ok p' → Std p' ∧ ∀ m, gv p' m = gv p m) ∧
    ∀ s, genChecks p = .error s → Failed s := by
  unfold genChecks
  constructor
  · intro p' h
    obtain ⟨target, -, h⟩ := bind_ok.1 h
    obtain ⟨beam, -, h⟩ := bind_ok.1 h
    obtain ⟨hadron, -, h⟩ := bind_ok.1 h
    obtain ⟨-, -, h⟩ := bind_ok.1 h
    obtain ⟨-, -, h⟩ := bind_ok.1 h
    obtain ⟨Mth, -, h⟩ := bind_ok.1 h
    split at h
    · cases h
    · obtain ⟨num, -, h⟩ := bind_ok.1 h
      split_ifs at h
      obtain ⟨momenta, -, h⟩ := bind_ok.1 h
      obtain ⟨-, -, h⟩ := bind_ok.1 h
      obtain ⟨coords, -, h⟩ := bind_ok.1 h
      obtain ⟨rad, -, h⟩ := bind_ok.1 h
      obtain ⟨-, -, h⟩ := bind_ok.1 h
      split_ifs at h
      obtain ⟨ts, -, h⟩ := bind_ok.1 h
      obtain ⟨-, -, h⟩ := bind_ok.1 h
      simp only [Except.ok.injEq] at h
      subst h
      obtain ⟨k1, k2, -⟩ := mark_spec hp (readsGen p ts momenta rad)
      exact ⟨k1, k2⟩
  · intro s h
    rcases bind_err h with h | ⟨target, -, h⟩
    · exact fromStd_err h
    rcases bind_err h with h | ⟨beam, -, h⟩
    · exact fromStd_err h
    rcases bind_err h with h | ⟨hadron, -, h⟩
    · exact fromStd_err h
    rcases bind_err h with h | ⟨-, -, h⟩
    · exact fromStd_err h
    rcases bind_err h with h | ⟨-, -, h⟩
    · exact fromStd_err h
    rcases bind_err h with h | ⟨Mth, -, h⟩
    · exact fromStd_err h
    split at h
    · cases h; exact failed_std
    · rcases bind_err h with h | ⟨num, -, h⟩
      · exact std_err h
      split_ifs at h
      · cases h; exact failed_throws (by decide) (by decide)
      rcases bind_err h with h | ⟨momenta, -, h⟩
      · exact std_err h
      rcases bind_err h with h | ⟨-, -, h⟩
      · exact std_err h
      rcases bind_err h with h | ⟨coords, -, h⟩
      · exact std_err h
      rcases bind_err h with h | ⟨rad, -, h⟩
      · exact askIf_err h
      rcases bind_err h with h | ⟨-, -, h⟩
      · exact askIf_err h
      split_ifs at h
      · cases h; exact failed_throws (by decide) (by decide)
      rcases bind_err h with h | ⟨ts, -, h⟩
      · exact std_err h
      rcases bind_err h with h | ⟨-, -, h⟩
      · exact complete_err h
      · cases h

theorem takeSeed_err {seed : ℤ} {p : P} (hp : Std p) {s : Stop} (h : takeSeed seed p = .error s) :
    Failed s := by
  unfold takeSeed at h
  rcases bind_err h with h | ⟨set, -, h⟩
  · exact std_err h
  rcases bind_err h with h | ⟨p', -, h⟩
  · unfold giveSeed at h
    split_ifs at h
    split at h
    · cases h
    · cases h; exact failed_std
  rcases bind_err h with h | ⟨l, -, h⟩
  · exact std_err h
  split at h
  · cases h
  · cases h; exact failed_throws (by decide) (by decide)

theorem loadBlob_err {Y : GenEnv A B} {f : RootFile} {p : P} {t : EventType} {s : Stop}
    (h : loadBlob Y f p t = .error s) : Failed s := by
  have hub := (loadBlob_spec Y f p t).1
  rw [h] at hub
  unfold loadBlob at h
  repeat' split at h
  all_goals first
    | cases h; exact failed_throws (by decide) (by decide)
    | cases h; exact absurd rfl hub
    | cases h

theorem loadAll_err {Y : GenEnv A B} {f : RootFile} {foam p : P} {ts : List EventType} {s : Stop}
    (h : loadAll Y f foam p ts = .error s) : Failed s := by
  induction ts generalizing p with
  | nil => cases h
  | cons t ts ih =>
    unfold loadAll at h
    split at h
    · cases h; exact failed_std
    · rcases bind_err h with h | ⟨g, -, h⟩
      · exact loadBlob_err h
      rcases bind_err h with h | ⟨r, -, h⟩
      · exact ih h
      · cases h

theorem load_err {Y : GenEnv A B} {fs : FS} {s : Stop} (h : load Y fs = .error s) :
    Failed s ∨ s = .ub ∧ ∃ p, loadParams Y.rnd Y.text = .ok p ∧ loadSf Y.sf p = .error .ub := by
  unfold load at h
  rcases bind_err h with h | ⟨p, hp, h⟩
  · exact .inl (loadParams_err h)
  rcases bind_err h with h | ⟨sf, -, h⟩
  · rcases loadSf_err h with h' | rfl
    · exact .inl h'
    · exact .inr ⟨rfl, p, hp, h⟩
  obtain ⟨sp, -, -⟩ := loadParams_ok hp
  left
  rcases bind_err h with h | ⟨ts, -, h⟩
  · exact std_err h
  split_ifs at h
  · cases h; exact failed_throws (by decide) (by decide)
  rcases bind_err h with h | ⟨name, -, h⟩
  · exact std_err h
  split at h
  · cases h; exact failed_throws (by decide) (by decide)
  split at h
  · cases h; exact failed_throws (by decide) (by decide)
  rcases bind_err h with h | ⟨⟨p2, s2⟩, -, h⟩
  · exact takeSeed_err sp h
  simp only at h
  split at h
  · cases h; exact failed_throws (by decide) (by decide)
  rcases bind_err h with h | ⟨r, -, h⟩
  · exact loadAll_err h
  · cases h

end

end Sidis.Command
