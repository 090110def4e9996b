import Verif.Spec.Command
import Verif.Lemmas.Format
import Verif.Lemmas.ParamStream
import Verif.Props.ParamStream

namespace Sidis.Command

open Sidis.ParamStream Sidis.Codec Sidis.Format Sidis.Spec Sidis.Main

/-! ### Values -/

theorem orderedInsert_last {l : List ℤ} {a : ℤ} (h : ∀ x ∈ l, x ≤ a) :
    (l.orderedInsert (· ≤ ·) a).Perm (l ++ [a]) := by
  exact (List.perm_orderedInsert _ a l).trans (List.perm_append_singleton a l).symm

theorem foldl_insert_perm (l acc : List ℤ) :
    (l.foldl (fun l s => l.orderedInsert (· ≤ ·) s) acc).Perm (acc ++ l) := by
  induction l generalizing acc with
  | nil => simp
  | cons a l ih =>
    rw [List.foldl_cons]
    refine (ih _).trans ?_
    have := (List.perm_orderedInsert (· ≤ ·) a acc).append_right l
    exact this.trans (List.perm_middle.symm)

theorem foldl_insert_sorted (l acc : List ℤ) (h : acc.Pairwise (· ≤ ·)) :
    (l.foldl (fun l s => l.orderedInsert (· ≤ ·) s) acc).Pairwise (· ≤ ·) := by
  induction l generalizing acc with
  | nil => exact h
  | cons a l ih => exact ih _ (h.orderedInsert a acc)

theorem foldl_insert_eq {l : List ℤ} (h : l.Pairwise (· ≤ ·)) :
    l.foldl (fun l s => l.orderedInsert (· ≤ ·) s) [] = l := by
  have h1 := foldl_insert_perm l []
  rw [List.nil_append] at h1
  exact h1.eq_of_pairwise' (foldl_insert_sorted l [] List.Pairwise.nil) h

theorem cStr_eq {s : Text} : cStr s = s ↔ '\x00' ∉ s := by
  unfold cStr
  rw [List.takeWhile_eq_self_iff]
  constructor
  · intro h hc
    exact absurd (h _ hc) (by simp)
  · intro h c hc
    simp only [bne_iff_ne, ne_eq]
    rintro rfl
    exact h hc

theorem fromRoot_toRoot (v : Val) : fromRoot v.ty (toRoot v) = some (some v) ↔ Storable v := by
  cases v with
  | string s => simp only [Val.ty, toRoot, fromRoot, Storable, Option.some.injEq, Val.string.injEq, cStr_eq]
  | bound a b =>
    simp only [Val.ty, toRoot, fromRoot, Storable]
    split_ifs with h <;> simp [h]
  | seedGen l =>
    simp only [Val.ty, toRoot, fromRoot, Storable, Option.some.injEq, Val.seedGen.injEq]
    exact ⟨fun h => h ▸ foldl_insert_sorted l [] List.Pairwise.nil, foldl_insert_eq⟩
  | rcMethod x => cases x <;> simp [Val.ty, toRoot, fromRoot, Storable, rcOf, rcCode]
  | nucleus x => cases x <;> simp [Val.ty, toRoot, fromRoot, Storable, nucleusOf, nucleusCode]
  | lepton x => cases x <;> simp [Val.ty, toRoot, fromRoot, Storable, leptonOf, leptonCode]
  | hadron x => cases x <;> simp [Val.ty, toRoot, fromRoot, Storable, hadronOf, hadronCode]
  | _ => simp [Val.ty, toRoot, fromRoot, Storable]

/-! ### Directories -/

theorem lookup_cons_if {β : Type*} (n : Text) (e : Text × β) (l : List (Text × β)) :
    (e :: l).lookup n = if n = e.1 then some e.2 else l.lookup n := by
  obtain ⟨a, b⟩ := e
  rw [List.lookup_cons]
  by_cases h : n = a
  · subst h; simp
  · simp [h, beq_eq_false_iff_ne.2 h]

theorem find_eq_lookup (p : P) (n : Text) : p.find n = p.entries.lookup n := by
  unfold Params.find
  induction p.entries with
  | nil => rfl
  | cons e l ih => rw [Params.lookup_cons', lookup_cons_if, ih]

/-- An entry after reading the objects whose names are in `S`. -/
def kept (S : Text → Bool) (e : Text × Params.Param Tag Ty Val) : Text × Params.Param Tag Ty Val :=
  (e.1, { e.2 with used := false, value := if S e.1 then e.2.value else none })

/-- What is read when the objects with names in `S` have been written. -/
def cutTo (S : Text → Bool) (p : P) : P := ⟨p.entries.map (kept S)⟩

theorem readDir_eq (d : Dir) (S : Text → Bool) (l : List (Text × Params.Param Tag Ty Val))
    (hd : ∀ e ∈ l, d.lookup e.1 = if S e.1 then e.2.value.map toRoot else none)
    (hs : ∀ e ∈ l, S e.1 = true → ∀ v, e.2.value = some v → Storable v ∧ v.ty = e.2.type) :
    readDir d (l.map forget) = some (l.map (kept S)) := by
  induction l with
  | nil => rfl
  | cons e l ih =>
    obtain ⟨n, q⟩ := e
    have h1 := hd (n, q) (by simp)
    have h2 := hs (n, q) (by simp)
    have h3 := ih (fun e he => hd e (List.mem_cons_of_mem _ he))
      (fun e he => hs e (List.mem_cons_of_mem _ he))
    simp only at h1 h2
    cases hS : S n with
    | false =>
      simp only [hS, Bool.false_eq_true, if_false] at h1
      simp only [List.map_cons, forget, readDir, h1, h3, kept, hS, Option.map_some,
        Bool.false_eq_true, if_false]
    | true =>
      simp only [hS, if_true] at h1 h2
      cases hv : q.value with
      | none =>
        rw [hv, Option.map_none] at h1
        simp only [List.map_cons, forget, readDir, h1, h3, kept, hS, hv, Option.map_some, if_true]
      | some v =>
        rw [hv, Option.map_some] at h1
        obtain ⟨h4, h5⟩ := h2 trivial v hv
        have h6 := (fromRoot_toRoot v).2 h4
        rw [h5] at h6
        simp only [List.map_cons, forget, readDir, h1, h3, kept, hS, hv, h6, Option.map_some, if_true]

theorem readRoot_eq {p : P} (hp : Std p) {d : Dir} {S : Text → Bool}
    (hd : ∀ n, d.lookup n = if S n then (gv p n).map toRoot else none)
    (hs : ∀ n v, S n = true → gv p n = some v → Storable v) :
    readRoot (some d) stdFormat = some (cutTo S p) := by
  unfold readRoot cutTo
  simp only
  rw [← hp.1, readDir_eq d S, Option.map_some]
  · intro e he
    rw [hd, gv, Params.find_of_mem (std_wf' hp) he, Option.bind_some]
  · intro e he hS v hv
    refine ⟨hs e.1 v hS ?_, hp.2 e he v hv⟩
    rw [gv, Params.find_of_mem (std_wf' hp) he, Option.bind_some, hv]

theorem find_cutTo (S : Text → Bool) (p : P) (n : Text) : (cutTo S p).find n =
    (p.find n).map fun q => { q with used := false, value := if S n then q.value else none } := by
  unfold Params.find cutTo
  induction p.entries with
  | nil => rfl
  | cons e l ih =>
    rw [List.map_cons, Params.lookup_cons', Params.lookup_cons', ih]
    by_cases hn : n = e.1
    · subst hn
      rw [if_pos rfl, if_pos (by rfl), Option.map_some]
      rfl
    · rw [if_neg hn, if_neg (by exact hn)]

theorem gv_cutTo (S : Text → Bool) (p : P) (n : Text) :
    gv (cutTo S p) n = if S n then gv p n else none := by
  unfold gv
  rw [find_cutTo]
  cases p.find n with
  | none => simp
  | some q =>
    cases S n <;> simp

theorem std_cutTo {p : P} (hp : Std p) (S : Text → Bool) : Std (cutTo S p) := by
  constructor
  · rw [← hp.1]
    unfold cutTo
    simp only [List.map_map]
    rfl
  · intro e he v hv
    unfold cutTo at he
    simp only [List.mem_map] at he
    obtain ⟨e', he', rfl⟩ := he
    simp only [kept] at hv ⊢
    split_ifs at hv
    exact hp.2 e' he' v hv

/-! ### The order of writing -/

theorem lookup_filterMap {l : List (Text × Params.Param Tag Ty Val)} (h : (l.map Prod.fst).Nodup)
    (n : Text) : (l.filterMap fun e => e.2.value.map fun v => (e.1, toRoot v)).lookup n =
      ((l.lookup n).bind (·.value)).map toRoot := by
  induction l with
  | nil => rfl
  | cons e l ih =>
    simp only [List.map_cons, List.nodup_cons] at h
    rw [lookup_cons_if]
    by_cases hn : n = e.1
    · subst hn
      rw [if_pos rfl, Option.bind_some]
      cases hv : e.2.value with
      | some v => simp [List.filterMap_cons, hv]
      | none =>
        simp only [List.filterMap_cons, hv, Option.map_none]
        rw [ih h.2]
        have : l.lookup e.1 = none := by
          rw [List.lookup_eq_none_iff]
          intro x hx
          simp only [bne_iff_ne, ne_eq]
          rintro h'
          exact h.1 (List.mem_map.2 ⟨x, hx, h'.symm⟩)
        rw [this]; rfl
    · rw [if_neg hn, ← ih h.2]
      cases hv : e.2.value with
      | none => simp [List.filterMap_cons, hv]
      | some v =>
        simp only [List.filterMap_cons, hv, Option.map_some]
        rw [lookup_cons_if, if_neg hn]

/-- The entries in the order of their names. -/
def byName (p : P) : List (Text × Params.Param Tag Ty Val) :=
  p.entries.insertionSort fun a b => nameLe a.1 b.1

theorem byName_perm (p : P) : (byName p).Perm p.entries := List.perm_insertionSort _ _

theorem byName_nodup {p : P} (hp : p.WF) : ((byName p).map Prod.fst).Nodup :=
  ((byName_perm p).map _).nodup_iff.2 hp

theorem lookup_byName {p : P} (hp : p.WF) (n : Text) : (byName p).lookup n = p.find n := by
  cases h : p.find n with
  | some q =>
    have := (byName_perm p).mem_iff.2 (Params.mem_of_find h)
    rw [← find_eq_lookup ⟨byName p⟩]
    exact Params.find_of_mem (P := ⟨byName p⟩) (byName_nodup hp) this
  | none =>
    rw [← find_eq_lookup ⟨byName p⟩]
    cases h' : (⟨byName p⟩ : P).find n with
    | none => rfl
    | some q =>
      have := (byName_perm p).mem_iff.1 (Params.mem_of_find (P := ⟨byName p⟩) h')
      have := Params.find_of_mem hp this
      rw [h] at this
      cases this

theorem rootEntries_eq (p : P) :
    rootEntries p = (byName p).filterMap fun e => e.2.value.map fun v => (e.1, toRoot v) := rfl

theorem rootEntries_lookup {p : P} (hp : p.WF) (n : Text) :
    (rootEntries p).lookup n = (gv p n).map toRoot := by
  rw [rootEntries_eq, lookup_filterMap (byName_nodup hp), lookup_byName hp]
  rfl

theorem rootEntries_nodup {p : P} (hp : p.WF) : ((rootEntries p).map Prod.fst).Nodup := by
  have h := byName_nodup hp
  rw [rootEntries_eq]
  generalize byName p = l at h
  induction l with
  | nil => simp
  | cons e l ih =>
    simp only [List.map_cons, List.nodup_cons] at h
    cases hv : e.2.value with
    | none => simpa [List.filterMap_cons, hv] using ih h.2
    | some v =>
      simp only [List.filterMap_cons, hv, Option.map_some, List.map_cons, List.nodup_cons]
      refine ⟨fun hc => h.1 ?_, ih h.2⟩
      simp only [List.mem_map, List.mem_filterMap, Option.map_eq_some_iff] at hc
      obtain ⟨x, ⟨y, hy, w, hw, rfl⟩, hx⟩ := hc
      exact List.mem_map.2 ⟨y, hy, hx⟩

theorem lookup_take {d : Dir} (h : (d.map Prod.fst).Nodup) (k : ℕ) (n : Text) :
    (d.take k).lookup n = if n ∈ (d.take k).map Prod.fst then d.lookup n else none := by
  induction d generalizing k with
  | nil => simp
  | cons e d ih =>
    simp only [List.map_cons, List.nodup_cons] at h
    cases k with
    | zero => simp
    | succ k =>
      rw [List.take_succ_cons, lookup_cons_if, lookup_cons_if, ih h.2 k]
      by_cases hn : n = e.1
      · subst hn; simp
      · simp only [List.map_cons, List.mem_cons, hn, false_or, if_false]

/-- Which parameters are among the first `k` that are written. -/
def firstK (p : P) (k : ℕ) (n : Text) : Bool := decide (n ∈ ((rootEntries p).take k).map Prod.fst)

theorem readRoot_take {p : P} (hp : Std p) (k : ℕ)
    (hs : ∀ n v, firstK p k n = true → gv p n = some v → Storable v) :
    readRoot (some ((rootEntries p).take k)) stdFormat = some (cutTo (firstK p k) p) := by
  refine readRoot_eq hp (fun n => ?_) hs
  rw [lookup_take (rootEntries_nodup (std_wf' hp)), rootEntries_lookup (std_wf' hp)]
  simp only [firstK, decide_eq_true_eq]

theorem firstK_all {p : P} (hp : p.WF) (n : Text) (hn : gv p n ≠ none) {k : ℕ}
    (hk : (rootEntries p).length ≤ k) : firstK p k n = true := by
  unfold firstK
  rw [List.take_of_length_le hk, decide_eq_true_eq]
  by_contra hc
  have h := rootEntries_lookup hp n
  have : (rootEntries p).lookup n = none := by
    rw [List.lookup_eq_none_iff]
    intro x hx
    rw [bne_iff_ne]
    rintro rfl
    exact hc (List.mem_map_of_mem hx)
  rw [this] at h
  cases h' : gv p n with
  | none => exact hn h'
  | some v => rw [h'] at h; cases h

/-! ### Values read from text -/

theorem read_ty (rnd : ℚ → Option ℚ) (t : Ty) (s : Text) : (Codec.read rnd t s).1.ty = t := by
  cases t <;> simp only [Codec.read] <;> repeat' split
  all_goals rfl

theorem readDouble_some {rnd : ℚ → Option ℚ} {s r : Text} {d : Dbl}
    (h : readDouble rnd s = (d, some r)) : ∃ x, d = .fin x := by
  unfold readDouble at h
  simp only at h
  split_ifs at h
  · simp at h
  · split at h
    · simp at h
    · unfold convert at h
      split at h
      · simp at h
      · simp only [Prod.mk.injEq] at h
        exact ⟨_, h.1.symm⟩

theorem readDouble_snd {rnd : ℚ → Option ℚ} {s r : Text} (h : (readDouble rnd s).2 = some r) :
    ∃ x, (readDouble rnd s).1 = .fin x :=
  readDouble_some (d := (readDouble rnd s).1) (r := r) (by rw [← h])

theorem readSeeds_sorted (n : ℕ) (s : Text) (acc : List ℤ) (h : acc.Pairwise (· ≤ ·)) :
    (readSeeds n s acc).1.Pairwise (· ≤ ·) := by
  induction n generalizing s acc with
  | zero => exact h
  | succ n ih =>
    unfold readSeeds
    split
    · exact h.orderedInsert _ _
    · exact h.orderedInsert _ _
    · exact ih _ _ (h.orderedInsert _ _)

theorem dblEq_fin (x : ℚ) : dblEq (.fin x) (.fin x) = true := by simp [dblEq]

/-- A value read from text survives in a ROOT file, and equals itself. -/
theorem read_plain {rnd : ℚ → Option ℚ} {t : Ty} {s r : Text} {v : Val}
    (h : Codec.read rnd t s = (v, some r)) (h0 : '\x00' ∉ s) : Storable v ∧ equiv v.ty v v = true := by
  cases t with
  | string =>
    simp only [Codec.read] at h
    split_ifs at h
    · simp at h
    · simp only [Prod.mk.injEq] at h
      rw [← h.1]
      exact ⟨fun hc => h0 (List.takeWhile_subset _ hc), by simp [equiv]⟩
  | double =>
    simp only [Codec.read, Prod.mk.injEq] at h
    obtain ⟨x, hx⟩ := readDouble_snd h.2
    rw [← h.1, hx]
    exact ⟨trivial, dblEq_fin x⟩
  | vec3 =>
    simp only [Codec.read] at h
    split at h
    · simp at h
    · rename_i s₁ h1
      split at h
      · simp at h
      · rename_i s₂ h2
        simp only [Prod.mk.injEq] at h
        obtain ⟨x, hx⟩ := readDouble_snd h1
        obtain ⟨y, hy⟩ := readDouble_snd h2
        obtain ⟨z, hz⟩ := readDouble_snd h.2
        rw [← h.1, hx, hy, hz]
        exact ⟨trivial, by simp [equiv, dblEq_fin]⟩
  | bound =>
    simp only [Codec.read] at h
    split at h
    · simp at h
    · rename_i s₁ h1
      split at h
      · simp at h
      · rename_i s₂ h2
        split_ifs at h with hle
        · simp only [Prod.mk.injEq] at h
          obtain ⟨x, hx⟩ := readDouble_snd h1
          obtain ⟨y, hy⟩ := readDouble_snd h2
          rw [← h.1]
          refine ⟨hle, ?_⟩
          rw [hx, hy]
          simp [equiv, dblEq_fin]
        · simp at h
  | seedGen =>
    simp only [Codec.read, Prod.mk.injEq] at h
    rw [← h.1]
    exact ⟨readSeeds_sorted _ _ _ List.Pairwise.nil, by simp [equiv]⟩
  | version =>
    have := read_ty rnd .version s
    rw [h] at this
    cases v <;> simp [Val.ty] at this
    exact ⟨trivial, by simp [equiv]⟩
  | int =>
    have := read_ty rnd .int s
    rw [h] at this
    cases v <;> simp [Val.ty] at this
    exact ⟨trivial, by simp [equiv]⟩
  | long =>
    have := read_ty rnd .long s
    rw [h] at this
    cases v <;> simp [Val.ty] at this
    exact ⟨trivial, by simp [equiv]⟩
  | bool =>
    have := read_ty rnd .bool s
    rw [h] at this
    cases v <;> simp [Val.ty] at this
    exact ⟨trivial, by simp [equiv]⟩
  | rcMethod =>
    have := read_ty rnd .rcMethod s
    rw [h] at this
    cases v <;> simp [Val.ty] at this
    exact ⟨trivial, by simp [equiv]⟩
  | nucleus =>
    have := read_ty rnd .nucleus s
    rw [h] at this
    cases v <;> simp [Val.ty] at this
    exact ⟨trivial, by simp [equiv]⟩
  | lepton =>
    have := read_ty rnd .lepton s
    rw [h] at this
    cases v <;> simp [Val.ty] at this
    exact ⟨trivial, by simp [equiv]⟩
  | hadron =>
    have := read_ty rnd .hadron s
    rw [h] at this
    cases v <;> simp [Val.ty] at this
    exact ⟨trivial, by simp [equiv]⟩

theorem mem_said {ls : List Line} (hok : ∀ l ∈ ls, l.Ok) {k v : Text} (h : (k, v) ∈ said ls) :
    ∃ l ∈ ls, ∃ x y, l.text = x ++ v ++ y := by
  induction ls with
  | nil => cases h
  | cons a ls ih =>
    have ih' := fun h => ih (fun l hl => hok l (List.mem_cons_of_mem _ hl)) h
    cases a with
    | nothing t =>
      obtain ⟨l, hl, r⟩ := ih' h
      exact ⟨l, List.mem_cons_of_mem _ hl, r⟩
    | «says» t k' v' =>
      simp only [said, List.mem_cons, Prod.mk.injEq] at h
      rcases h with ⟨rfl, rfl⟩ | h
      · obtain ⟨⟨w₁, w₂, w₃, c, -, -, -, -, -, -, -, h⟩, -⟩ := hok _ (List.mem_cons_self)
        exact ⟨_, List.mem_cons_self, w₁ ++ k ++ w₂, w₃ ++ c, by simp [Line.text, h]⟩
      · obtain ⟨l, hl, r⟩ := ih' h
        exact ⟨l, List.mem_cons_of_mem _ hl, r⟩

theorem mem_intercalate {x : Text} {ls : List Text} {l : Text} {c : Char} (hl : l ∈ ls) (hc : c ∈ l) :
    c ∈ x.intercalate ls := by
  induction ls with
  | nil => cases hl
  | cons a ls ih =>
    cases ls with
    | nil =>
      rw [List.mem_singleton] at hl
      subst hl
      simpa [List.intercalate] using hc
    | cons b ls =>
      rw [List.intercalate_cons_cons]
      rcases List.mem_cons.1 hl with rfl | hl
      · simp [hc]
      · have := ih hl
        simp [this]

/-- What the commands get from a parameter file. -/
theorem loadParams_ok {rnd : ℚ → Option ℚ} {text : Option Text} {p : P}
    (h : loadParams rnd text = .ok p) :
    Std p ∧ (∀ e ∈ p.entries, e.2.used = false) ∧
    ((∀ s ∈ text, '\x00' ∉ s) → ∀ n v, gv p n = some v → Storable v ∧ equiv v.ty v v = true) := by
  unfold loadParams at h
  cases text with
  | none => simp at h
  | some s =>
    obtain ⟨ls, hok, rfl⟩ := Props.c38_every_text_is_a_file s
    simp only at h
    rcases readStream_spec (Codec.std rnd) stdFormat std_wf ls hok with ⟨h1, h2, h3⟩ | ⟨-, e, h3⟩
    · rw [h3] at h
      simp only [Except.ok.injEq] at h
      subst h
      have hupd : ∀ e : Text × Params.Param Tag Ty Val, forget (upd (Codec.std rnd) (said ls) e) = forget e := by
        intro e
        unfold upd
        split <;> rfl
      refine ⟨⟨?_, ?_⟩, ?_, ?_⟩
      · simp only [List.map_map]
        rw [← std_stdFormat.1]
        rw [List.map_map]
        apply List.map_congr_left
        intro e _
        simp only [Function.comp]
        rw [hupd]
        rfl
      · intro e he v hv
        simp only [List.mem_map] at he
        obtain ⟨e', he', rfl⟩ := he
        have hty : (upd (Codec.std rnd) (said ls) e').2.type = e'.2.type := by
          unfold upd
          split <;> rfl
        rw [hty]
        unfold upd at hv
        split at hv
        · exact std_stdFormat.2 e' he' v hv
        · simp only [Option.some.injEq] at hv
          subst hv
          exact read_ty rnd _ _
      · intro e he
        simp only [List.mem_map] at he
        obtain ⟨e', he', rfl⟩ := he
        have hu : ∀ e ∈ stdEntries, e.2.used = false := by decide +kernel
        unfold upd
        split
        · exact hu e' he'
        · rfl
      · intro h0 n v hv
        unfold gv at hv
        rw [find_upd] at hv
        have hn : ∀ n, gv stdFormat n = none := by
          intro n
          unfold gv
          cases hf : stdFormat.find n with
          | none => rfl
          | some q =>
            have := Params.mem_of_find hf
            have hu : ∀ e ∈ stdEntries, e.2.value = none := by decide +kernel
            exact hu _ this
        cases ha : assoc (said ls) n with
        | none =>
          rw [ha] at hv
          have := hn n
          unfold gv at this
          rw [this] at hv; cases hv
        | some t =>
          rw [ha] at hv
          have hmem := mem_of_assoc ha
          obtain ⟨q, hq, w, hw⟩ := h2 _ hmem
          simp only at hq hw
          rw [hq] at hv
          simp only [Option.map_some, Option.bind_some, Option.some.injEq] at hv
          unfold Parses at hw
          rw [hw] at hv
          simp only at hv
          subst hv
          refine read_plain hw ?_
          intro hc
          obtain ⟨l, hl, x, y, hxy⟩ := mem_said hok hmem
          refine h0 _ rfl (mem_intercalate (List.mem_map_of_mem hl) ?_)
          rw [hxy]; simp [hc]
    · cases hr : readStream (Codec.std rnd) stdFormat (fileText ls) with
      | mk a b =>
        rw [hr] at h h3
        simp only at h3
        subst h3
        simp at h

end Sidis.Command
