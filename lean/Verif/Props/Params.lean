import Verif.Lemmas.Params

/-! # C34-C37: filters and parameter sets -/

namespace Sidis.Props

open Sidis Params

section Filter
variable {Tag : Type} [DecidableEq Tag]

private theorem check_iff (f : Filter Tag) (tags : Finset Tag) : f.check tags = true ↔
    ∃ term ∈ f.condition, ∀ factor ∈ term, factor ∈ tags := by
  unfold Filter.check; exact decide_eq_true_iff

/-- C34. A filter object built with any nesting of `|` and `&` accepts a set of tags exactly when
the Boolean formula written by the caller holds. -/
theorem c34_filter_semantics (e : Spec.FExpr Tag) (tags : Finset Tag) :
    e.build.check tags = true ↔ e.Holds tags := by
  induction e with
  | reject => simp [Spec.FExpr.build, Spec.FExpr.Holds, Filter.check, Filter.reject]
  | accept => simp [Spec.FExpr.build, Spec.FExpr.Holds, Filter.check, Filter.accept]
  | tag t => simp [Spec.FExpr.build, Spec.FExpr.Holds, Filter.check, Filter.tag]
  | or a b iha ihb =>
    rw [Spec.FExpr.Holds, ← iha, ← ihb]
    simp only [Spec.FExpr.build, check_iff, Filter.or, Finset.mem_union]
    constructor
    · rintro ⟨t, h1 | h1, h2⟩
      · exact Or.inl ⟨t, h1, h2⟩
      · exact Or.inr ⟨t, h1, h2⟩
    · rintro (⟨t, h1, h2⟩ | ⟨t, h1, h2⟩)
      · exact ⟨t, Or.inl h1, h2⟩
      · exact ⟨t, Or.inr h1, h2⟩
  | and a b iha ihb =>
    rw [Spec.FExpr.Holds, ← iha, ← ihb]
    simp only [Spec.FExpr.build, check_iff, Filter.and, Finset.mem_image₂]
    constructor
    · rintro ⟨t, ⟨x, hx, y, hy, rfl⟩, h2⟩
      exact ⟨⟨x, hx, fun f hf => h2 f (Finset.mem_union_left _ hf)⟩,
        ⟨y, hy, fun f hf => h2 f (Finset.mem_union_right _ hf)⟩⟩
    · rintro ⟨⟨x, hx, h1⟩, ⟨y, hy, h2⟩⟩
      refine ⟨x ∪ y, ⟨x, hx, y, hy, rfl⟩, ?_⟩
      intro f hf
      rcases Finset.mem_union.mp hf with hf | hf
      · exact h1 f hf
      · exact h2 f hf

example : (Spec.FExpr.and (.or (.tag "xs") (.tag "cut")) (.tag "init")).Holds {"cut", "init"} ∧
    ¬ (Spec.FExpr.and (.or (.tag "xs") (.tag "cut")) (.tag "init")).Holds {"cut", "gen"} := by
  simp [Spec.FExpr.Holds]

end Filter

variable {N Tag T V : Type} [DecidableEq N] [DecidableEq T] [DecidableEq Tag]

/-- `Params::filter` keeps exactly the parameters whose tags satisfy the formula, unchanged. -/
theorem c34_params_filter (P : Params N Tag T V) (hP : P.WF) (e : Spec.FExpr Tag) (n : N)
    (p : Param Tag T V) :
    (P.filter e.build).find n = some p ↔ P.find n = some p ∧ e.Holds p.tags := by
  have hwf : (P.filter e.build).WF := by
    unfold WF filter
    exact hP.sublist (List.Sublist.map _ List.filter_sublist)
  constructor
  · intro h
    have := mem_of_find h
    simp only [filter, List.mem_filter] at this
    exact ⟨find_of_mem hP this.1, (c34_filter_semantics e p.tags).mp this.2⟩
  · rintro ⟨h1, h2⟩
    have hm : (n, p) ∈ (P.filter e.build).entries := by
      simp only [filter, List.mem_filter]
      exact ⟨mem_of_find h1, (c34_filter_semantics e p.tags).mpr h2⟩
    exact find_of_mem hwf hm

/-- C35. After any history of calls starting from a fresh parameter table, `check_complete`
returns normally exactly when every parameter that has a provided value was fetched with `get`
since that value was provided. -/
theorem c35_check_complete (ty : V → T) (P : Params N Tag T V) (hP : Spec.Fresh P)
    (cs : List (Spec.Call N Tag T V)) :
    let (Q, trace) := Spec.runCalls ty P [] cs
    Q.checkComplete = .ok () ↔
      ∀ n ∈ P.names, (Spec.provided n trace).isSome → Spec.fetchedSince n trace := by
  obtain ⟨hwf, hnames, hrel⟩ := run_inv ty cs P [] hP.1 (rel_fresh hP)
  dsimp only
  generalize (Spec.runCalls ty P [] cs).1 = Q at *
  generalize (Spec.runCalls ty P [] cs).2 = tr at *
  rw [checkComplete, forM_ok_iff]
  constructor
  · intro h n hn hv
    rw [← hnames] at hn
    obtain ⟨p, hp⟩ := find_isSome_iff.mpr hn
    have h1 := h (n, p) (mem_of_find hp)
    obtain ⟨h2, h3⟩ := hrel n p hp
    rw [← h2] at hv
    rw [← h3 hv]
    by_contra hc
    simp [hv, hc] at h1
  · intro h e he
    have hf := find_of_mem hwf he
    obtain ⟨h2, h3⟩ := hrel _ _ hf
    have hn : e.1 ∈ P.names := hnames ▸ find_isSome_iff.mp ⟨_, hf⟩
    by_cases hv : e.2.value.isSome
    · have := (h3 hv).mpr (h e.1 hn (h2 ▸ hv))
      simp [this]
    · simp [hv]

/-- C36. After any history of calls on a fresh table, `get` (and `get_soft`) return the value most
recently provided for that name, otherwise the default of the original table, otherwise throw;
unknown names throw. -/
theorem c36_get (ty : V → T) (P : Params N Tag T V) (hP : Spec.Fresh P)
    (cs : List (Spec.Call N Tag T V)) (n : N) :
    let (Q, trace) := Spec.runCalls ty P [] cs
    (Q.get n).1 = (match P.find n with
      | none => .error (.unknown n)
      | some p => match Spec.provided n trace, p.dflt with
        | some v, _ => .ok v
        | none, some d => .ok d.2
        | none, none => .error (.notProvided n)) ∧
    Q.getSoft n = (Q.get n).1 := by
  obtain ⟨hwf, hnames, hrel⟩ := run_inv ty cs P [] hP.1 (rel_fresh hP)
  have hfmt := fmt_run ty cs n P []
  dsimp only
  generalize (Spec.runCalls ty P [] cs).1 = Q at *
  generalize (Spec.runCalls ty P [] cs).2 = tr at *
  unfold fmtOf at hfmt
  constructor
  · cases hq : Q.find n with
    | none =>
      cases hp : P.find n with
      | none => simp [Params.get, hq]
      | some p => simp [hq, hp] at hfmt
    | some q =>
      cases hp : P.find n with
      | none => simp [hq, hp] at hfmt
      | some p =>
        simp only [hq, hp, Option.map_some, Option.some.injEq, Prod.mk.injEq] at hfmt
        obtain ⟨h1, -⟩ := hrel n q hq
        simp only [Params.get, hq]
        rw [← h1, ← hfmt.2.1]
        cases hv : q.value <;> cases hd : q.dflt <;> simp
  · unfold getSoft Params.get
    cases hq : Q.find n with
    | none => rfl
    | some q => cases hv : q.value <;> cases hd : q.dflt <;> simp [hv, hd]

/-- C36. Providing a value of the wrong type throws and leaves the object unchanged; a value of
the right type is stored, is what `get` then returns, and no other name is affected. -/
theorem c36_set (ty : V → T) (P : Params N Tag T V) (n : N) (p : Param Tag T V) (v : V)
    (hp : P.find n = some p) :
    (p.type ≠ ty v → P.set ty n (some v) = (.error (.diffType n), P)) ∧
    (p.type = ty v → (P.set ty n (some v)).1 = .ok p.value.isSome ∧
      ((P.set ty n (some v)).2.get n).1 = .ok v ∧
      ∀ m, m ≠ n → (P.set ty n (some v)).2.find m = P.find m) := by
  constructor
  · intro h; simp [Params.set, hp, h]
  · intro h
    have e : P.set ty n (some v) =
        (.ok p.value.isSome, P.update n { p with used := false, value := some v }) := by
      simp [Params.set, hp, h]
    rw [e]
    refine ⟨rfl, ?_, ?_⟩
    · simp [Params.get, find_update, hp]
    · intro m hm; simp [find_update, hm]

/-- C36. `set_from` copies the other object's value (also its absence) exactly when both have the
same format, and otherwise throws and changes nothing. -/
theorem c36_setFrom (P O : Params N Tag T V) (n : N) (p o : Param Tag T V)
    (hp : P.find n = some p) (ho : O.find n = some o) :
    (Spec.SameFormat p o → (P.setFrom O n).1 = .ok p.value.isSome ∧
      (P.setFrom O n).2.find n = some { p with value := o.value, used := false } ∧
      ∀ m, m ≠ n → (P.setFrom O n).2.find m = P.find m) ∧
    (¬ Spec.SameFormat p o → (∃ e, (P.setFrom O n).1 = .error e) ∧ (P.setFrom O n).2 = P) := by
  constructor
  · rintro ⟨h1, h2, h3⟩
    have e : P.setFrom O n =
        (.ok p.value.isSome, P.update n { p with used := false, value := o.value }) := by
      simp [setFrom, hp, ho, h1, h2, h3]
    rw [e]
    refine ⟨rfl, by simp [find_update, hp], fun m hm => by simp [find_update, hm]⟩
  · intro h
    simp only [setFrom, hp, ho]
    split_ifs with h1 h2 h3
    · exact ⟨⟨_, rfl⟩, rfl⟩
    · exact ⟨⟨_, rfl⟩, rfl⟩
    · exact ⟨⟨_, rfl⟩, rfl⟩
    · exact absurd ⟨not_not.mp h1, not_not.mp h2, not_not.mp h3⟩ h

/-- C37. `check_format` succeeds exactly when every parameter of this object exists in the other
with the same type, tags and default (the other may have more). -/
theorem c37_check_format (P O : Params N Tag T V) (hP : P.WF) :
    P.checkFormat O = .ok () ↔
      ∀ n p, P.find n = some p → ∃ o, O.find n = some o ∧ Spec.SameFormat p o := by
  rw [checkFormat, forM_ok_iff]
  have key : ∀ e : N × Param Tag T V, checkFormatEntry O e = .ok () ↔
      ∃ o, O.find e.1 = some o ∧ Spec.SameFormat e.2 o := by
    intro e
    unfold checkFormatEntry Spec.SameFormat
    cases ho : O.find e.1 with
    | none => simp
    | some o =>
      dsimp only
      split_ifs with h1 h2 h3 <;> simp_all
  constructor
  · intro h n p hp; exact (key (n, p)).mp (h _ (mem_of_find hp))
  · intro h e he; exact (key e).mpr (h _ _ (find_of_mem hP he))

/-- C37. `check_equivalent` succeeds exactly when every parameter of this object exists in the
other with the same format, and both are unset or both are set to equivalent values. -/
theorem c37_check_equivalent (equiv : T → V → V → Bool) (P O : Params N Tag T V) (hP : P.WF) :
    P.checkEquivalent equiv O = .ok () ↔
      ∀ n p, P.find n = some p → ∃ o, O.find n = some o ∧ Spec.SameFormat p o ∧
        Spec.SameValue equiv p.type p.value o.value := by
  have key : ∀ e : N × Param Tag T V, checkEquivalentEntry equiv O e = .ok () ↔
      ∃ o, O.find e.1 = some o ∧ Spec.SameValue equiv e.2.type e.2.value o.value := by
    intro e
    unfold checkEquivalentEntry
    cases ho : O.find e.1 with
    | none => simp
    | some o =>
      cases hv : e.2.value <;> cases hw : o.value <;> simp [hw, Spec.SameValue]
  have split : P.checkEquivalent equiv O = .ok () ↔ P.checkFormat O = .ok () ∧
      P.entries.forM (checkEquivalentEntry equiv O) = .ok () := by
    unfold checkEquivalent
    cases P.checkFormat O <;> simp [bind, Except.bind]
  rw [split, c37_check_format P O hP, forM_ok_iff]
  constructor
  · rintro ⟨h1, h2⟩ n p hp
    obtain ⟨o, ho, hf⟩ := h1 n p hp
    obtain ⟨o', ho', hv⟩ := (key (n, p)).mp (h2 _ (mem_of_find hp))
    simp only [ho, Option.some.injEq] at ho'
    subst ho'
    exact ⟨o, ho, hf, hv⟩
  · intro h
    refine ⟨fun n p hp => ?_, fun e he => (key e).mpr ?_⟩
    · obtain ⟨o, ho, hf, -⟩ := h n p hp; exact ⟨o, ho, hf⟩
    · obtain ⟨o, ho, -, hv⟩ := h _ _ (find_of_mem hP he); exact ⟨o, ho, hv⟩

/-! Non-vacuity: a table with two parameters, one with a default. -/

/-- Table `{a : type 0, required} {b : type 0, default 7}` -/
private def demo : Params String String ℕ ℕ :=
  ⟨[("a", ⟨0, none, none, {"x"}, false⟩), ("b", ⟨0, none, some (1, 7), {"y"}, false⟩)]⟩

example : Spec.Fresh demo := by
  refine ⟨by unfold WF; decide, ?_⟩
  simp [demo]

/-- Providing `a`, then fetching only `b`: `check_complete` throws; after also fetching `a` it does
not. -/
example : ((Spec.runCalls (fun _ => 0) demo [] [.set "a" (some 3), .get "b"]).1).checkComplete ≠ .ok () ∧
    ((Spec.runCalls (fun _ => 0) demo [] [.set "a" (some 3), .get "b", .get "a"]).1).checkComplete
      = .ok () := by
  constructor
  · intro h; simp [Spec.runCalls, Spec.Call.exec, demo, Params.get, Params.set, find, update,
      checkComplete, List.lookup, List.forM, bind, Except.bind] at h
  · rfl

example : demo.WF ∧ Spec.SameFormat (⟨0, none, none, {"x"}, false⟩ : Param String ℕ ℕ)
    ⟨0, some 3, none, {"x"}, true⟩ := ⟨by unfold WF; decide, rfl, rfl, rfl⟩

example : demo.checkEquivalent (fun _ a b => a == b) demo = .ok () := rfl

end Sidis.Props
