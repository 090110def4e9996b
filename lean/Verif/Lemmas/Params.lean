import Verif.Spec.Params

namespace Sidis.Params

variable {N Tag T V : Type} [DecidableEq N] [DecidableEq T] [DecidableEq Tag]

theorem forM_ok_iff {ε α : Type} (f : α → Except ε Unit) (l : List α) :
    l.forM f = .ok () ↔ ∀ a ∈ l, f a = .ok () := by
  induction l with
  | nil => simp [List.forM, pure, Except.pure]
  | cons a l ih =>
    show (f a >>= fun _ => l.forM f) = .ok () ↔ _
    simp only [List.mem_cons, forall_eq_or_imp]
    cases h : f a with
    | error e => simp [bind, Except.bind]
    | ok u => simp only [bind, Except.bind, true_and]; exact ih

theorem lookup_cons' {β : Type} (e : N × β) (l : List (N × β)) (m : N) :
    (e :: l).lookup m = if m = e.1 then some e.2 else l.lookup m := by
  by_cases h : m = e.1
  · rw [if_pos h]; show (match m == e.1 with | true => some e.2 | false => l.lookup m) = _
    rw [show (m == e.1) = true by simpa using h]
  · rw [if_neg h]; show (match m == e.1 with | true => some e.2 | false => l.lookup m) = _
    rw [show (m == e.1) = false by simpa using h]

theorem lookup_map_update (l : List (N × Param Tag T V)) (n m : N) (p : Param Tag T V) :
    (l.map fun e => if e.1 = n then (e.1, p) else e).lookup m =
      if m = n then (l.lookup n).map (fun _ => p) else l.lookup m := by
  induction l with
  | nil => simp
  | cons e l ih =>
    obtain ⟨k, q⟩ := e
    simp only [List.map_cons]
    by_cases hk : k = n
    · subst hk
      by_cases hm : m = k
      · subst hm; simp [lookup_cons']
      · simp [lookup_cons', ih, hm]
    · by_cases hm : m = k
      · subst hm; simp [lookup_cons', hk]
      · have : n ≠ k := Ne.symm hk
        simp [lookup_cons', ih, hm, hk, this]

theorem find_update (P : Sidis.Params N Tag T V) (n m : N) (p : Param Tag T V) :
    (P.update n p).find m = if m = n then (P.find n).map (fun _ => p) else P.find m :=
  lookup_map_update P.entries n m p

theorem names_update (P : Sidis.Params N Tag T V) (n : N) (p : Param Tag T V) :
    (P.update n p).names = P.names := by
  simp only [names, update, List.map_map]
  apply List.map_congr_left
  intro e _; simp only [Function.comp]; split_ifs <;> rfl

theorem wf_update {P : Sidis.Params N Tag T V} (h : P.WF) (n : N) (p : Param Tag T V) :
    (P.update n p).WF := by
  have := names_update P n p
  unfold WF; unfold names at this; rw [this]; exact h

theorem lookup_of_mem {β : Type} {l : List (N × β)} (h : (l.map Prod.fst).Nodup)
    {e : N × β} (he : e ∈ l) : l.lookup e.1 = some e.2 := by
  induction l with
  | nil => simp at he
  | cons a l ih =>
    simp only [List.map_cons, List.nodup_cons] at h
    rw [List.mem_cons] at he
    rcases he with rfl | he
    · simp [lookup_cons']
    · have hne : e.1 ≠ a.1 := by
        intro hc; apply h.1; rw [← hc]; exact List.mem_map_of_mem he
      rw [lookup_cons', if_neg hne]; exact ih h.2 he

theorem find_of_mem {P : Sidis.Params N Tag T V} (h : P.WF) {e : N × Param Tag T V}
    (he : e ∈ P.entries) : P.find e.1 = some e.2 := lookup_of_mem h he

theorem mem_of_find {P : Sidis.Params N Tag T V} {n : N} {p : Param Tag T V}
    (h : P.find n = some p) : (n, p) ∈ P.entries := by
  unfold find at h
  generalize P.entries = l at *
  induction l with
  | nil => simp at h
  | cons a l ih =>
    rw [lookup_cons'] at h
    by_cases hn : n = a.1
    · simp only [hn, if_true, Option.some.injEq] at h
      subst h; simp [hn]
    · rw [if_neg hn] at h
      exact List.mem_cons_of_mem _ (ih h)

theorem find_isSome_iff {P : Sidis.Params N Tag T V} {n : N} :
    (∃ p, P.find n = some p) ↔ n ∈ P.names := by
  constructor
  · rintro ⟨p, h⟩
    exact List.mem_map.mpr ⟨(n, p), mem_of_find h, rfl⟩
  · intro h
    obtain ⟨e, he, rfl⟩ := List.mem_map.mp h
    by_contra hc
    push Not at hc
    have : P.find e.1 = none := by
      cases h : P.find e.1 with
      | none => rfl
      | some p => exact absurd h (hc p)
    unfold find at this
    rw [List.lookup_eq_none_iff] at this
    have := this e he
    simp at this

theorem lookup_map_val (l : List (N × Param Tag T V)) (g : Param Tag T V → Param Tag T V) (n : N) :
    (l.map fun e => (e.1, g e.2)).lookup n = (l.lookup n).map g := by
  induction l with
  | nil => simp
  | cons e l ih =>
    simp only [List.map_cons, lookup_cons', ih]
    split_ifs <;> simp

theorem find_clearUnused (P : Sidis.Params N Tag T V) (n : N) :
    P.clearUnused.find n =
      (P.find n).map fun p => if !p.used then { p with value := none } else p := by
  have : P.clearUnused.entries =
      P.entries.map fun e =>
        (e.1, (fun p : Param Tag T V => if !p.used then { p with value := none } else p) e.2) := by
    unfold clearUnused
    apply List.map_congr_left
    intro e _; dsimp only; split_ifs <;> rfl
  unfold find; rw [this]
  exact lookup_map_val P.entries (fun p => if !p.used then { p with value := none } else p) n

theorem names_clearUnused (P : Sidis.Params N Tag T V) : P.clearUnused.names = P.names := by
  simp only [names, clearUnused, List.map_map]
  apply List.map_congr_left
  intro e _; simp only [Function.comp]; split_ifs <;> rfl

/-- The object agrees with the trace. -/
def Rel (P : Sidis.Params N Tag T V) (tr : List (Spec.Fact N V)) : Prop :=
  ∀ n p, P.find n = some p → p.value = Spec.provided n tr ∧
    (p.value.isSome → (p.used = true ↔ Spec.fetchedSince n tr))

theorem rel_get {P : Sidis.Params N Tag T V} {tr : List (Spec.Fact N V)} (h : Rel P tr)
    (ty : V → T) (n : N) : Rel ((Spec.Call.get n).exec ty P) ((Spec.Call.get n).facts ty P tr ++ tr) := by
  intro m q hq
  simp only [Spec.Call.exec, Spec.Call.facts, get, isSet] at hq ⊢
  cases hf : P.find n with
  | none => simp only [hf] at hq ⊢; simpa using h m q hq
  | some p =>
    cases hv : p.value with
    | none =>
      cases hd : p.dflt with
      | none => simp only [hf, hv, hd] at hq ⊢; simpa using h m q hq
      | some d => simp only [hf, hv, hd] at hq ⊢; simpa using h m q hq
    | some v =>
      have hp := h n p hf
      simp only [hf, hv, find_update, Option.map_some] at hq
      simp only [hf, hv, Option.isSome_some, List.singleton_append, Spec.provided,
        Spec.fetchedSince]
      by_cases hm : m = n
      · subst hm
        simp only [if_true, Option.some.injEq] at hq
        subst hq
        simp only [true_or, iff_true, implies_true, and_true]
        rw [← hv]; exact hp.1
      · simp only [hm, if_false] at hq
        have := h m q hq
        refine ⟨this.1, fun hs => ?_⟩
        rw [this.2 hs]
        constructor
        · exact Or.inr
        · rintro (rfl | hh)
          · exact absurd rfl hm
          · exact hh

theorem rel_set {P : Sidis.Params N Tag T V} {tr : List (Spec.Fact N V)} (h : Rel P tr)
    (ty : V → T) (n : N) (v : Option V) :
    Rel ((Spec.Call.set n v).exec ty P) ((Spec.Call.set n v).facts ty P tr ++ tr) := by
  intro m q hq
  simp only [Spec.Call.exec, Spec.Call.facts, set] at hq ⊢
  cases hf : P.find n with
  | none => simp only [hf] at hq ⊢; simpa using h m q hq
  | some p =>
    by_cases ht : ∃ w ∈ v, p.type ≠ ty w
    · simp only [hf, ht, if_true] at hq ⊢; simpa using h m q hq
    · simp only [hf, ht, if_false, find_update] at hq ⊢
      simp only [List.singleton_append, Spec.provided, Spec.fetchedSince]
      by_cases hm : m = n
      · subst hm
        simp only [if_true, Option.map_some, Option.some.injEq] at hq
        subst hq
        simp
      · simp only [hm, if_false] at hq
        have hm' : n ≠ m := Ne.symm hm
        simp only [hm', if_false]
        exact h m q hq

theorem rel_setFrom {P : Sidis.Params N Tag T V} {tr : List (Spec.Fact N V)} (h : Rel P tr)
    (ty : V → T) (o : Sidis.Params N Tag T V) (n : N) :
    Rel ((Spec.Call.setFrom o n).exec ty P) ((Spec.Call.setFrom o n).facts ty P tr ++ tr) := by
  intro m q hq
  simp only [Spec.Call.exec, Spec.Call.facts, setFrom] at hq ⊢
  cases hf : P.find n with
  | none => simp only [hf] at hq ⊢; simpa using h m q hq
  | some p =>
    cases ho : o.find n with
    | none => simp only [hf, ho] at hq ⊢; simpa using h m q hq
    | some p' =>
      simp only [hf, ho] at hq ⊢
      by_cases h1 : p.type ≠ p'.type
      · simp only [h1, if_true, not_false_eq_true, ne_eq] at hq ⊢; simpa using h m q hq
      by_cases h2 : p.tags ≠ p'.tags
      · simp only [h1, h2, if_true, if_false, ne_eq, not_true_eq_false] at hq ⊢
        simpa using h m q hq
      by_cases h3 : p.dflt.map Prod.fst ≠ p'.dflt.map Prod.fst
      · simp only [h1, h2, h3, if_true, if_false, ne_eq, not_true_eq_false] at hq ⊢
        simpa using h m q hq
      simp only [h1, h2, h3, if_false, find_update, ne_eq, not_true_eq_false] at hq ⊢
      simp only [List.singleton_append, Spec.provided, Spec.fetchedSince]
      by_cases hm : m = n
      · subst hm
        simp only [if_true, Option.map_some, Option.some.injEq, hf] at hq
        subst hq
        simp
      · simp only [hm, if_false] at hq
        have hm' : n ≠ m := Ne.symm hm
        simp only [hm', if_false]
        exact h m q hq

theorem provided_clear (ns : List N) (tr : List (Spec.Fact N V)) (m : N) :
    Spec.provided m ((ns.map fun n => Spec.Fact.provided n none) ++ tr) =
      if m ∈ ns then none else Spec.provided m tr := by
  induction ns with
  | nil => simp
  | cons a ns ih =>
    simp only [List.map_cons, List.cons_append, Spec.provided, ih, List.mem_cons]
    by_cases h : a = m
    · simp [h]
    · have : m ≠ a := Ne.symm h
      simp [h, this]

theorem fetched_clear (ns : List N) (tr : List (Spec.Fact N V)) (m : N) (hm : m ∉ ns) :
    Spec.fetchedSince m ((ns.map fun n => Spec.Fact.provided n (none : Option V)) ++ tr) ↔
      Spec.fetchedSince m tr := by
  induction ns with
  | nil => simp
  | cons a ns ih =>
    simp only [List.mem_cons, not_or] at hm
    have : a ≠ m := Ne.symm hm.1
    simp only [List.map_cons, List.cons_append, Spec.fetchedSince, this, if_false]
    exact ih hm.2

open Classical in
theorem rel_clearUnused {P : Sidis.Params N Tag T V} {tr : List (Spec.Fact N V)} (h : Rel P tr)
    (ty : V → T) :
    Rel ((Spec.Call.clearUnused).exec ty P) ((Spec.Call.clearUnused).facts ty P tr ++ tr) := by
  intro m q hq
  simp only [Spec.Call.exec, Spec.Call.facts] at hq ⊢
  rw [find_clearUnused] at hq
  cases hf : P.find m with
  | none => simp [hf] at hq
  | some p =>
    rw [hf] at hq
    simp only [Option.map_some, Option.some.injEq] at hq
    have hp := h m p hf
    have hmem : m ∈ P.names := find_isSome_iff.mp ⟨p, hf⟩
    rw [provided_clear]
    by_cases hfs : Spec.fetchedSince m tr
    · have hnot : m ∉ P.names.filter fun n => ¬ Spec.fetchedSince n tr := by
        simp [hfs]
      rw [if_neg hnot, fetched_clear _ _ _ hnot]
      cases hv : p.value with
      | none =>
        have : q.value = none := by rw [← hq]; split_ifs <;> simp [hv]
        rw [this, ← hp.1, hv]; simp
      | some v =>
        have hu : p.used = true := (hp.2 (by simp [hv])).mpr hfs
        have : q = p := by rw [← hq, hu]; simp
        rw [this]; exact hp
    · have hin : m ∈ P.names.filter fun n => ¬ Spec.fetchedSince n tr := by
        simp [hfs, hmem]
      rw [if_pos hin]
      have hqn : q.value = none := by
        cases hv : p.value with
        | none => rw [← hq]; split_ifs <;> simp [hv]
        | some v =>
          have hu : p.used = false := by
            have := (hp.2 (by simp [hv])).not.mpr hfs
            simpa using this
          rw [← hq, hu]; simp
      rw [hqn]; simp

theorem rel_exec {P : Sidis.Params N Tag T V} {tr : List (Spec.Fact N V)} (h : Rel P tr)
    (ty : V → T) (c : Spec.Call N Tag T V) : Rel (c.exec ty P) (c.facts ty P tr ++ tr) := by
  cases c with
  | get n => exact rel_get h ty n
  | getSoft n => simpa [Spec.Call.exec, Spec.Call.facts] using h
  | set n v => exact rel_set h ty n v
  | setFrom o n => exact rel_setFrom h ty o n
  | clearUnused => exact rel_clearUnused h ty

theorem wf_exec {P : Sidis.Params N Tag T V} (h : P.WF) (ty : V → T) (c : Spec.Call N Tag T V) :
    (c.exec ty P).WF ∧ (c.exec ty P).names = P.names := by
  have upd : ∀ n p, (P.update n p).WF ∧ (P.update n p).names = P.names :=
    fun n p => ⟨wf_update h n p, names_update P n p⟩
  cases c with
  | get n =>
    simp only [Spec.Call.exec, get]
    split <;> [exact ⟨h, rfl⟩; skip]
    split <;> first | exact ⟨h, rfl⟩ | exact upd _ _
  | getSoft n => exact ⟨h, rfl⟩
  | set n v =>
    simp only [Spec.Call.exec, set]
    split <;> [exact ⟨h, rfl⟩; skip]
    split <;> first | exact ⟨h, rfl⟩ | exact upd _ _
  | setFrom o n =>
    simp only [Spec.Call.exec, setFrom]
    split <;> [exact ⟨h, rfl⟩; skip]
    split <;> [exact ⟨h, rfl⟩; skip]
    split_ifs <;> first | exact ⟨h, rfl⟩ | exact upd _ _
  | clearUnused =>
    have := names_clearUnused P
    refine ⟨?_, this⟩
    unfold WF; unfold names at this; show (P.clearUnused.entries.map Prod.fst).Nodup
    rw [this]; exact h

theorem run_inv (ty : V → T) (cs : List (Spec.Call N Tag T V)) :
    ∀ (P : Sidis.Params N Tag T V) (tr : List (Spec.Fact N V)), P.WF → Rel P tr →
      (Spec.runCalls ty P tr cs).1.WF ∧ (Spec.runCalls ty P tr cs).1.names = P.names ∧
      Rel (Spec.runCalls ty P tr cs).1 (Spec.runCalls ty P tr cs).2 := by
  induction cs with
  | nil => intro P tr h1 h2; exact ⟨h1, rfl, h2⟩
  | cons c cs ih =>
    intro P tr h1 h2
    have w := wf_exec h1 ty c
    have := ih (c.exec ty P) (c.facts ty P tr ++ tr) w.1 (rel_exec h2 ty c)
    exact ⟨this.1, this.2.1.trans w.2, this.2.2⟩

theorem rel_fresh {P : Sidis.Params N Tag T V} (h : Spec.Fresh P) : Rel P [] := by
  intro n p hp
  have h1 : p.value = none := (h.2 _ (mem_of_find hp)).1
  simp [h1, Spec.provided]

/-- The format (type, default, tags) of every parameter. -/
def fmtOf (P : Sidis.Params N Tag T V) (n : N) : Option (T × Option (ℕ × V) × Finset Tag) :=
  (P.find n).map fun p => (p.type, p.dflt, p.tags)

theorem fmt_update (P : Sidis.Params N Tag T V) (n m : N) (p q : Param Tag T V)
    (hp : P.find n = some p) (h : q.type = p.type ∧ q.dflt = p.dflt ∧ q.tags = p.tags) :
    fmtOf (P.update n q) m = fmtOf P m := by
  unfold fmtOf
  rw [find_update]
  split_ifs with hm
  · subst hm; simp [hp, h]
  · rfl

theorem fmt_exec (ty : V → T) (P : Sidis.Params N Tag T V) (c : Spec.Call N Tag T V) (m : N) :
    fmtOf (c.exec ty P) m = fmtOf P m := by
  cases c with
  | get n =>
    simp only [Spec.Call.exec, get]
    cases hf : P.find n with
    | none => rfl
    | some p =>
      cases hv : p.value <;> cases hd : p.dflt <;> simp only [hv, hd]
      · exact fmt_update P n m p _ hf ⟨rfl, hd ▸ rfl, rfl⟩
      · exact fmt_update P n m p _ hf ⟨rfl, hd ▸ rfl, rfl⟩
  | getSoft n => rfl
  | set n v =>
    simp only [Spec.Call.exec, set]
    cases hf : P.find n with
    | none => rfl
    | some p =>
      dsimp only
      split_ifs
      · rfl
      · exact fmt_update P n m p _ hf ⟨rfl, rfl, rfl⟩
  | setFrom o n =>
    simp only [Spec.Call.exec, setFrom]
    cases hf : P.find n with
    | none => rfl
    | some p =>
      cases ho : o.find n with
      | none => rfl
      | some p' =>
        dsimp only
        split_ifs
        all_goals first | rfl | exact fmt_update P n m p _ hf ⟨rfl, rfl, rfl⟩
  | clearUnused =>
    simp only [Spec.Call.exec, fmtOf, find_clearUnused, Option.map_map]
    congr 1
    funext p; simp only [Function.comp]; split_ifs <;> rfl

theorem fmt_run (ty : V → T) (cs : List (Spec.Call N Tag T V)) (m : N) :
    ∀ (P : Sidis.Params N Tag T V) (tr : List (Spec.Fact N V)),
      fmtOf (Spec.runCalls ty P tr cs).1 m = fmtOf P m := by
  induction cs with
  | nil => intro P tr; rfl
  | cons c cs ih =>
    intro P tr
    show fmtOf (Spec.runCalls ty (c.exec ty P) _ cs).1 m = _
    rw [ih, fmt_exec]

end Sidis.Params
