import Verif.Lemmas.ParamStream

/-!
# C38 (parameter files) and the file part of C39
-/

namespace Sidis.Props

open Sidis.ParamStream Sidis.Spec

variable {Tag T V : Type} [DecidableEq T] [DecidableEq Tag]

/-- **C38.** Every line either says nothing or gives one name one value text, and never both. -/
theorem c38_lines_have_one_meaning (line : Text) :
    (SaysNothing line ∧ ∀ k v, ¬ Says line k v) ∨
    (¬ SaysNothing line ∧ ∃ k v, Says line k v ∧ ∀ k' v', Says line k' v' → k' = k ∧ v' = v) := by
  have excl : ∀ k v, Says line k v → ¬ SaysNothing line := by
    intro k v h hn
    have h1 := keyValue_says h
    have h2 := keyValue_nothing hn
    rw [h1] at h2
    obtain ⟨_, _, _, _, _, _, _, _, hw, _⟩ := h
    exact hw.1 h2
  rcases says_total line with h | ⟨k, v, h⟩
  · exact Or.inl ⟨h, fun k v hs => excl k v hs h⟩
  · refine Or.inr ⟨excl k v h, k, v, h, fun k' v' h' => ?_⟩
    have := (keyValue_says h').symm.trans (keyValue_says h)
    exact ⟨congrArg Prod.fst this, congrArg Prod.snd this⟩

/-- **C38.** Every text is a file of such lines. -/
theorem c38_every_text_is_a_file (text : Text) :
    ∃ ls : List Line, (∀ l ∈ ls, l.Ok) ∧ fileText ls = text := by
  classical
  let f : Text → Line := fun l =>
    if h : ∃ kv : Text × Text, Says l kv.1 kv.2 then .says l h.choose.1 h.choose.2 else .nothing l
  have hf : ∀ l, (f l).text = l := by
    intro l; simp only [f]; split_ifs <;> rfl
  refine ⟨(lines text).map f, ?_, ?_⟩
  · intro l hl
    obtain ⟨s, hs, rfl⟩ := List.mem_map.1 hl
    have hnl := lines_no_newline text s hs
    simp only [f]
    split_ifs with h
    · exact ⟨h.choose_spec, hnl⟩
    · refine ⟨?_, hnl⟩
      rcases says_total s with h1 | ⟨k, v, h1⟩
      · exact h1
      · exact absurd ⟨(k, v), h1⟩ h
  · unfold fileText
    rw [List.map_map]
    have : (lines text).map (Line.text ∘ f) = lines text := by
      conv_rhs => rw [← List.map_id (lines text)]
      exact List.map_congr_left fun l _ => hf l
    rw [this, intercalate_lines]

/-- **C38.** Reading succeeds exactly when no name is given twice, every name given is known and
every value text is a complete value of the parameter's type. -/
theorem c38_read_succeeds_iff (c : Codec T V) (P : Params Text Tag T V) (hP : P.WF)
    (ls : List Line) (hok : ∀ l ∈ ls, l.Ok) :
    (readStream c P (fileText ls)).1 = .ok () ↔
      ((said ls).map Prod.fst).Nodup ∧
      ∀ k s, (k, s) ∈ said ls → ∃ p, P.find k = some p ∧ ∃ v, Parses c p.type s v := by
  rcases readStream_spec c P hP ls hok with ⟨h1, h2, h3⟩ | ⟨h1, e, h3⟩
  · rw [h3]
    exact ⟨fun _ => ⟨h1, fun k s h => h2 (k, s) h⟩, fun _ => rfl⟩
  · rw [h3]
    refine ⟨fun h => by simp at h, fun h => absurd ⟨h.1, fun kv hkv => h.2 kv.1 kv.2 hkv⟩ h1⟩

/-- **C38.** After a successful read a parameter named in the file has exactly the value the file
gives it and counts as not yet used; every other parameter, and every format, is untouched. -/
theorem c38_read_effect (c : Codec T V) (P : Params Text Tag T V) (hP : P.WF)
    (ls : List Line) (hok : ∀ l ∈ ls, l.Ok)
    (hread : (readStream c P (fileText ls)).1 = .ok ()) :
    let P' := (readStream c P (fileText ls)).2
    P'.names = P.names ∧
    (∀ k s, (k, s) ∈ said ls → ∃ p v, P.find k = some p ∧ Parses c p.type s v ∧
      P'.find k = some { p with value := some v, used := false }) ∧
    (∀ n, (∀ s, (n, s) ∉ said ls) → P'.find n = P.find n) := by
  rcases readStream_spec c P hP ls hok with ⟨h1, h2, h3⟩ | ⟨h1, e, h3⟩
  · rw [h3]
    refine ⟨names_upd c P _, ?_, ?_⟩
    · intro k s hks
      obtain ⟨p, hp, v, hv⟩ := h2 (k, s) hks
      refine ⟨p, v, hp, hv, ?_⟩
      rw [find_upd, assoc_of_mem h1 hks]
      simp only [hp, Option.map_some]
      have : (c.read p.type s).1 = v := by rw [show c.read p.type s = _ from hv]
      rw [this]
    · intro n hn
      rw [find_upd, assoc_none_iff.2]
      rintro ⟨k, s⟩ he rfl
      exact hn s he
  · rw [hread] at h3; cases h3

/-- **C38.** Line order does not matter. -/
theorem c38_line_order (c : Codec T V) (P : Params Text Tag T V) (hP : P.WF)
    (ls ls' : List Line) (hok : ∀ l ∈ ls, l.Ok) (hperm : List.Perm ls ls')
    (hread : (readStream c P (fileText ls)).1 = .ok ()) :
    readStream c P (fileText ls') = readStream c P (fileText ls) := by
  have hok' : ∀ l ∈ ls', l.Ok := fun l hl => hok l (hperm.mem_iff.2 hl)
  have hs : List.Perm (said ls) (said ls') := by
    clear hread hok hok'
    induction hperm with
    | nil => exact .nil
    | cons a _ ih => cases a <;> simp only [said]; exacts [ih, ih.cons _]
    | swap a b l => cases a <;> cases b <;> simp only [said] <;> first | exact .refl _ | exact .swap _ _ _
    | trans _ _ ih1 ih2 => exact ih1.trans ih2
  rcases readStream_spec c P hP ls hok with ⟨h1, h2, h3⟩ | ⟨h1, e, h3⟩
  · rcases readStream_spec c P hP ls' hok' with ⟨g1, g2, g3⟩ | ⟨g1, e, g3⟩
    · rw [h3, g3]
      have : ∀ x : Text × Params.Param Tag T V, upd c (said ls') x = upd c (said ls) x := by
        intro x; simp only [upd, lookup_perm hs h1]
      rw [List.map_congr_left fun x _ => this x]
    · exact absurd ⟨(hs.map _).nodup_iff.1 h1, fun kv hkv => h2 kv (hs.mem_iff.2 hkv)⟩ g1
  · rw [hread] at h3; cases h3

/-- **C38/C35.** A successful read is the same as setting, in the order of the file, each parameter
named in it; so every statement about histories of `set` calls covers reading. -/
theorem c38_read_is_sets (c : Codec T V) (ty : V → T) (P : Params Text Tag T V) (hP : P.WF)
    (hty : ∀ t s v, Parses c t s v → ty v = t)
    (ls : List Line) (hok : ∀ l ∈ ls, l.Ok)
    (hread : (readStream c P (fileText ls)).1 = .ok ()) (tr : List (Fact Text V)) :
    ∃ vals : List V,
      List.Forall₂ (fun (kv : Text × Text) v => ∃ p, P.find kv.1 = some p ∧ Parses c p.type kv.2 v)
        (said ls) vals ∧
      (readStream c P (fileText ls)).2 =
        (runCalls ty P tr
          (List.zipWith (fun (kv : Text × Text) v => Call.set kv.1 (some v)) (said ls) vals)).1 := by
  rcases readStream_spec c P hP ls hok with ⟨h1, h2, h3⟩ | ⟨h1, e, h3⟩
  swap
  · rw [hread] at h3; cases h3
  rw [h3]
  clear h3 hread hok
  generalize said ls = m at *
  -- generalise over the object, keeping types
  suffices H : ∀ (m : List (Text × Text)) (Q : Params Text Tag T V) (tr : List (Fact Text V)),
      Q.WF → (m.map Prod.fst).Nodup →
      (∀ kv ∈ m, ∃ p, Q.find kv.1 = some p ∧ ∃ v, Parses c p.type kv.2 v) →
      ∃ vals : List V,
        List.Forall₂ (fun (kv : Text × Text) v =>
          ∃ p, Q.find kv.1 = some p ∧ Parses c p.type kv.2 v) m vals ∧
        (⟨Q.entries.map (upd c m)⟩ : Params Text Tag T V) =
          (runCalls ty Q tr
            (List.zipWith (fun (kv : Text × Text) v => Call.set kv.1 (some v)) m vals)).1 from
    H m P tr hP h1 h2
  clear h1 h2 m tr hP P ls
  intro m
  induction m with
  | nil =>
    intro Q tr _ _ _
    refine ⟨[], .nil, ?_⟩
    simp only [List.zipWith_nil_left, runCalls]
    have : ∀ x : Text × Params.Param Tag T V, upd c [] x = x := fun x => rfl
    rw [List.map_congr_left fun x _ => this x, List.map_id']
  | cons kv m ih =>
    intro Q tr hQ hn hall
    obtain ⟨k, s⟩ := kv
    simp only [List.map_cons, List.nodup_cons] at hn
    obtain ⟨p, hp, v, hv⟩ := hall (k, s) (by simp)
    simp only at hp hv
    set Q' := Q.update k { p with used := false, value := some v } with hQ'
    have hset : Q.set ty k (some v) = (.ok p.value.isSome, Q') := by
      unfold Params.set
      simp only [hp]
      rw [if_neg]
      rintro ⟨w, hw, hne⟩
      simp only [Option.mem_def, Option.some.injEq] at hw
      subst hw
      exact hne (hty _ _ _ hv).symm
    have hfind : ∀ k', k' ≠ k → Q'.find k' = Q.find k' := by
      intro k' hk'
      rw [hQ', Params.find_update, if_neg hk']
    have hne : ∀ kv ∈ m, kv.1 ≠ k := by
      intro kv hkv hc
      apply hn.1; rw [← hc]; exact List.mem_map_of_mem hkv
    obtain ⟨vals, hf, he⟩ := ih Q' (Call.facts ty Q tr (.set k (some v)) ++ tr)
      (Params.wf_update hQ _ _) hn.2 (by
        intro kv hkv
        rw [hfind kv.1 (hne kv hkv)]
        exact hall kv (by simp [hkv]))
    refine ⟨v :: vals, .cons ⟨p, hp, hv⟩ ?_, ?_⟩
    · refine forall₂_imp_mem hf ?_
      intro kv hkv v hR
      rw [hfind kv.1 (hne kv hkv)] at hR
      exact hR
    · simp only [List.zipWith_cons_cons, runCalls, Call.exec, hset]
      rw [← he]
      congr 1
      rw [hQ']
      simp only [Params.update, List.map_map]
      apply List.map_congr_left
      intro e he
      simp only [Function.comp]
      have hmk : assoc m k = none := assoc_none_iff.2 hne
      by_cases hek : e.1 = k
      · have hp' := Params.find_of_mem hQ he
        rw [hek, hp] at hp'
        obtain ⟨e1, e2⟩ := e
        simp only at hek hp'
        subst hek
        cases hp'
        simp only [upd, assoc_cons, if_true, hmk]
        rw [show c.read p.type s = _ from hv]
      · simp only [if_neg hek, upd, assoc_cons]

/-- The value of `v` is written as text that is a legal value text and reads back as `v`. -/
def RoundTrips (c : Codec T V) (t : T) (v : V) : Prop :=
  ∃ w, c.write v = some w ∧ Body w ∧ '\n' ∉ w ∧ Parses c t w v

/-- **C39 (files).** Writing all provided parameters to a file and reading that file into another
table with the same names and types gives every written parameter the value it had, and leaves the
parameters that were not provided untouched. -/
theorem c39_file_round_trip (c : Codec T V) (P Q : Params Text Tag T V) (hP : P.WF)
    (hnames : Q.names = P.names)
    (htypes : ∀ n p q, P.find n = some p → Q.find n = some q → q.type = p.type)
    (hword : ∀ n ∈ P.names, Word n)
    (hval : ∀ n p v, P.find n = some p → p.value = some v → RoundTrips c p.type v) :
    ∃ text Q', writeStream c P = some text ∧ readStream c Q text = (.ok (), Q') ∧
      Q'.names = P.names ∧
      ∀ n p q, P.find n = some p → Q.find n = some q →
        Q'.find n = some
          (match p.value with
           | some v => { q with value := some v, used := false }
           | none => q) := by
  classical
  have hQ : Q.WF := by
    unfold Params.WF; unfold Params.names at hnames; rw [hnames]; exact hP
  let ws : V → Text := fun v => (c.write v).getD []
  have hws : ∀ e ∈ P.entries, ∀ v, e.2.value = some v → c.write v = some (ws v) := by
    intro e he v hv
    obtain ⟨w, hw, _⟩ := hval e.1 e.2 v (Params.find_of_mem hP he) hv
    simp [ws, hw]
  have hRT : ∀ e ∈ P.entries, ∀ v, e.2.value = some v →
      Body (ws v) ∧ '\n' ∉ ws v ∧ Parses c e.2.type (ws v) v := by
    intro e he v hv
    obtain ⟨w, hw, h1, h2, h3⟩ := hval e.1 e.2 v (Params.find_of_mem hP he) hv
    have : ws v = w := by simp [ws, hw]
    rw [this]; exact ⟨h1, h2, h3⟩
  let mk : Text × Params.Param Tag T V → Option Line := fun e =>
    e.2.value.map fun v => Line.says (e.1 ++ [' '] ++ ws v) e.1 (ws v)
  let ls : List Line := P.entries.filterMap mk ++ [.nothing []]
  have htext : writeStream c P = some (fileText ls) := by
    rw [writeStream_eq c P ws hws]
    congr 1
    simp only [ls]
    induction P.entries with
    | nil => rfl
    | cons e l ih =>
      cases hv : e.2.value with
      | none => simpa [List.filterMap_cons, mk, hv] using ih
      | some v =>
        have : fileText (Line.says (e.1 ++ [' '] ++ ws v) e.1 (ws v) ::
              (l.filterMap mk ++ [.nothing []])) =
            (e.1 ++ [' '] ++ ws v) ++ '\n' :: fileText (l.filterMap mk ++ [.nothing []]) := by
          cases h : l.filterMap mk ++ [.nothing []] with
          | nil => simp at h
          | cons a b => simp [fileText, List.intercalate, List.intersperse, Line.text]
        simp only [List.filterMap_cons, mk, hv, Option.map_some, List.flatten_cons]
        rw [ih]
        simp only [List.cons_append]
        rw [this]
        simp [mk]
  have hsp : isSpace '\n' = true := by decide
  have hok : ∀ l ∈ ls, l.Ok := by
    intro l hl
    simp only [ls, List.mem_append, List.mem_filterMap, List.mem_singleton] at hl
    rcases hl with ⟨e, he, hl⟩ | rfl
    · simp only [mk, Option.map_eq_some_iff] at hl
      obtain ⟨v, hv, rfl⟩ := hl
      obtain ⟨h1, h2, h3⟩ := hRT e he v hv
      have hw : Word e.1 := hword e.1 (List.mem_map_of_mem he)
      refine ⟨⟨[], [' '], [], [], by simp [Blank], ?_, by simp [Blank], Or.inl rfl, hw, h1, by simp,
        by simp⟩, ?_⟩
      · intro x hx; simp at hx; subst hx; decide
      · simp only [List.mem_append, List.mem_singleton, not_or]
        refine ⟨⟨?_, by decide⟩, h2⟩
        intro hc
        have := (hw.2 _ hc).1
        rw [hsp] at this; cases this
    · exact ⟨⟨[], [], by simp [Blank], Or.inl rfl, rfl⟩, by simp⟩
  have hsaid : said ls = P.entries.filterMap fun e => e.2.value.map fun v => (e.1, ws v) := by
    simp only [ls]
    induction P.entries with
    | nil => rfl
    | cons e l ih =>
      cases hv : e.2.value with
      | none => simpa [List.filterMap_cons, mk, hv] using ih
      | some v =>
        simp only [List.filterMap_cons, mk, hv, Option.map_some, List.cons_append, said]
        rw [← ih]
  have hmem : ∀ k s, (k, s) ∈ said ls ↔ ∃ e ∈ P.entries, ∃ v, e.2.value = some v ∧ k = e.1 ∧ s = ws v := by
    intro k s
    rw [hsaid, List.mem_filterMap]
    constructor
    · rintro ⟨e, he, h⟩
      simp only [Option.map_eq_some_iff, Prod.mk.injEq] at h
      obtain ⟨v, hv, rfl, rfl⟩ := h
      exact ⟨e, he, v, hv, rfl, rfl⟩
    · rintro ⟨e, he, v, hv, rfl, rfl⟩
      exact ⟨e, he, by simp [hv]⟩
  have hnd : ((said ls).map Prod.fst).Nodup := by
    rw [hsaid, List.map_filterMap]
    have : (P.entries.filterMap fun e => (e.2.value.map fun v => (e.1, ws v)).map Prod.fst) =
        (P.entries.filter fun e => e.2.value.isSome).map Prod.fst := by
      induction P.entries with
      | nil => rfl
      | cons e l ih => cases hv : e.2.value <;> simpa [hv] using ih
    rw [this]
    have h := hP
    unfold Params.WF at h
    exact (List.filter_sublist.map Prod.fst).nodup h
  have hfq : ∀ e ∈ P.entries, ∃ q, Q.find e.1 = some q := by
    intro e he
    apply Params.find_isSome_iff.2
    rw [hnames]; exact List.mem_map_of_mem he
  have hgood : (readStream c Q (fileText ls)).1 = .ok () := by
    rw [c38_read_succeeds_iff c Q hQ ls hok]
    refine ⟨hnd, ?_⟩
    intro k s hks
    obtain ⟨e, he, v, hv, rfl, rfl⟩ := (hmem k s).1 hks
    obtain ⟨q, hq⟩ := hfq e he
    refine ⟨q, hq, v, ?_⟩
    rw [htypes e.1 e.2 q (Params.find_of_mem hP he) hq]
    exact (hRT e he v hv).2.2
  obtain ⟨e1, e2, e3⟩ := c38_read_effect c Q hQ ls hok hgood
  refine ⟨fileText ls, (readStream c Q (fileText ls)).2, htext, Prod.ext hgood rfl,
    e1.trans hnames, ?_⟩
  intro n p q hp hq
  have he := Params.mem_of_find hp
  cases hv : p.value with
  | none =>
    simp only
    rw [e3 n ?_, hq]
    intro s hs
    obtain ⟨e, he', v, hv', hn, -⟩ := (hmem n s).1 hs
    subst hn
    have := Params.find_of_mem hP he'
    rw [hp] at this; cases this
    rw [hv] at hv'; cases hv'
  | some v =>
    simp only
    obtain ⟨q', v', hq', hv', hf⟩ := e2 n (ws v) ((hmem n (ws v)).2 ⟨(n, p), he, v, hv, rfl, rfl⟩)
    rw [hq] at hq'; cases hq'
    rw [hf]
    have h3 := (hRT (n, p) he v hv).2.2
    have ht := htypes n p q hp hq
    unfold Parses at hv' h3
    rw [ht] at hv'
    simp only at h3
    rw [h3] at hv'
    cases hv'
    rfl

end Sidis.Props
