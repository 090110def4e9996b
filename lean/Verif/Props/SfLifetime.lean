import Mathlib.Tactic.Set
import Mathlib.Tactic.Linarith
import Verif.Spec.SfLifetime

/-!
# C122: sets of structure functions behave like values

`meanings` (Verif.Spec.SfLifetime) is what a program means when each object has a value of its own.
-/

namespace Sidis.Props

open Sidis.SfLifetime Sidis.Spec

variable {ι R : Type}

/-- The `Impl` an object owns. -/
def owned : Obj ι R → Option ℕ
  | .prok _ p => p
  | .other _ => none
  | .ref _ => none
  | .mask _ o => owned o
  | .maskNull _ => none

/-- An object and its value, with a heap. -/
private inductive Rel (h : ℕ → Option (ι → R)) : Obj ι R → SetVal ι R → Prop
  | null (k) : Rel h (.prok k none) (.prok k none)
  | prok (k) {i f} : h i = some f → Rel h (.prok k (some i)) (.prok k (some f))
  | other (f) : Rel h (.other f) (.other f)
  | ref (j) : Rel h (.ref j) (.ref j)
  | mask (m) {o v} : Rel h o v → Rel h (.mask m o) (.mask m v)
  | empty (m) : Rel h (.maskNull m) (.empty m)

private theorem Rel.congr {h h' : ℕ → Option (ι → R)} {o : Obj ι R} {v : SetVal ι R} (r : Rel h o v)
    (e : ∀ k, owned o = some k → h' k = h k) : Rel h' o v := by
  induction r with
  | null k => exact .null k
  | prok k hi => exact .prok k (by rw [e _ rfl, hi])
  | other f => exact .other f
  | ref j => exact .ref j
  | mask m _ ih => exact .mask m (ih e)
  | empty m => exact .empty m

private theorem Rel.alloc {h : ℕ → Option (ι → R)} {o : Obj ι R} {v : SetVal ι R} (r : Rel h o v) {k : ℕ}
    (e : owned o = some k) : ∃ f, h k = some f := by
  induction r with
  | null k => cases e
  | prok k hi => cases e; exact ⟨_, hi⟩
  | other f => cases e
  | ref j => cases e
  | mask m _ ih => exact ih e
  | empty m => cases e

private def Slot (h : ℕ → Option (ι → R)) (o : Option (Obj ι R)) (v : Option (SetVal ι R)) : Prop :=
  (o = none ∧ v = none) ∨ ∃ o' v', o = some o' ∧ v = some v' ∧ Rel h o' v'

private structure Inv (h : ℕ → Option (ι → R)) (next : ℕ) (S : ℕ → Option (Obj ι R))
    (σ : ℕ → Option (SetVal ι R)) : Prop where
  rel : ∀ i, Slot h (S i) (σ i)
  uniq : ∀ i j o o' k, S i = some o → S j = some o' → owned o = some k → owned o' = some k → i = j
  reach : ∀ k f, h k = some f → ∃ i o, S i = some o ∧ owned o = some k
  fresh : ∀ k, next ≤ k → h k = none

private theorem Slot.none {h : ℕ → Option (ι → R)} {v : Option (SetVal ι R)} (s : Slot h none v) : v = none := by
  rcases s with s | ⟨_, _, e, -⟩
  · exact s.2
  · cases e

private theorem Slot.some {h : ℕ → Option (ι → R)} {o : Obj ι R} {v : Option (SetVal ι R)}
    (s : Slot h (some o) v) : ∃ v', v = some v' ∧ Rel h o v' := by
  rcases s with s | ⟨_, v', e, e', r⟩
  · cases s.1
  · cases e; exact ⟨v', e', r⟩

section
variable {h : ℕ → Option (ι → R)} {next : ℕ} {S : ℕ → Option (Obj ι R)} {σ : ℕ → Option (SetVal ι R)}

/-- Handing the resource of `a` to a new object in `b`. -/
private theorem Inv.transfer (H : Inv h next S σ) {a b : ℕ} {o o₂ : Obj ι R} {v₂ : SetVal ι R}
    {res : Option (Obj ι R)} {res' : Option (SetVal ι R)} (ha : S a = some o)
    (hr : Slot h res res') (hn : ∀ r, res = some r → owned r = none) (ho : owned o₂ = owned o) (h2 : Rel h o₂ v₂)
    (hb : Function.update S a res b = none) :
    Inv h next (Function.update (Function.update S a res) b (some o₂))
      (Function.update (Function.update σ a res') b (some v₂)) := by
  -- the owner of an `Impl` other than that of `a` is unchanged
  have key : ∀ i x k, Function.update (Function.update S a res) b (some o₂) i = some x → owned x = some k →
      (i = b ∧ owned o = some k) ∨ (i ≠ b ∧ i ≠ a ∧ S i = some x) := by
    intro i x k hi hk
    by_cases e : i = b
    · subst e
      rw [Function.update_self] at hi
      cases hi
      exact .inl ⟨rfl, by rw [← ho, hk]⟩
    · rw [Function.update_of_ne e] at hi
      by_cases e2 : i = a
      · subst e2
        rw [Function.update_self] at hi
        rw [hn x hi] at hk
        cases hk
      · rw [Function.update_of_ne e2] at hi
        exact .inr ⟨e, e2, hi⟩
  refine ⟨fun i => ?_, ?_, ?_, H.fresh⟩
  · by_cases e : i = b
    · subst e
      rw [Function.update_self, Function.update_self]
      exact .inr ⟨_, _, rfl, rfl, h2⟩
    · rw [Function.update_of_ne e, Function.update_of_ne e]
      by_cases e2 : i = a
      · subst e2
        rw [Function.update_self, Function.update_self]
        exact hr
      · rw [Function.update_of_ne e2, Function.update_of_ne e2]
        exact H.rel i
  · intro i j x y k hi hj hk hk'
    rcases key i x k hi hk with ⟨e1, e2⟩ | ⟨e1, e1', e2⟩ <;> rcases key j y k hj hk' with ⟨f1, f2⟩ | ⟨f1, f1', f2⟩
    · rw [e1, f1]
    · exact absurd (H.uniq _ _ _ _ _ ha f2 e2 hk').symm f1'
    · exact absurd (H.uniq _ _ _ _ _ e2 ha hk f2) e1'
    · exact H.uniq _ _ _ _ _ e2 f2 hk hk'
  · intro k f hk
    obtain ⟨i, x, hi, hx⟩ := H.reach k f hk
    by_cases e : i = a
    · subst e
      rw [ha] at hi
      cases hi
      exact ⟨b, o₂, Function.update_self .., by rw [ho, hx]⟩
    · have e2 : i ≠ b := by
        rintro rfl
        rw [Function.update_of_ne e, hi] at hb
        cases hb
      exact ⟨i, x, by rw [Function.update_of_ne e2, Function.update_of_ne e, hi], hx⟩

private theorem Inv.add (H : Inv h next S σ) {b : ℕ} {o₂ : Obj ι R} {v₂ : SetVal ι R} (ho : owned o₂ = none)
    (h2 : Rel h o₂ v₂) (hb : S b = none) :
    Inv h next (Function.update S b (some o₂)) (Function.update σ b (some v₂)) := by
  have key : ∀ i x k, Function.update S b (some o₂) i = some x → owned x = some k → S i = some x := by
    intro i x k hi hk
    by_cases e : i = b
    · subst e
      rw [Function.update_self] at hi
      cases hi
      rw [ho] at hk
      cases hk
    · rwa [Function.update_of_ne e] at hi
  refine ⟨fun i => ?_, ?_, ?_, H.fresh⟩
  · by_cases e : i = b
    · subst e
      rw [Function.update_self, Function.update_self]
      exact .inr ⟨_, _, rfl, rfl, h2⟩
    · rw [Function.update_of_ne e, Function.update_of_ne e]
      exact H.rel i
  · intro i j x y k hi hj hk hk'
    exact H.uniq _ _ _ _ _ (key _ _ _ hi hk) (key _ _ _ hj hk') hk hk'
  · intro k f hk
    obtain ⟨i, x, hi, hx⟩ := H.reach k f hk
    have e : i ≠ b := by rintro rfl; rw [hi] at hb; cases hb
    exact ⟨i, x, by rw [Function.update_of_ne e, hi], hx⟩

private theorem Inv.alloc (H : Inv h next S σ) {b : ℕ} (k : Kind) (f : ι → R) (hb : S b = none) :
    Inv (Function.update h next (some f)) (next + 1) (Function.update S b (some (.prok k (some next))))
      (Function.update σ b (some (.prok k (some f)))) := by
  have ne : ∀ i x k, S i = some x → owned x = some k → k ≠ next := by
    rintro i x k hi hk rfl
    obtain ⟨v, -, r⟩ := (hi ▸ H.rel i).some
    obtain ⟨g, hg⟩ := r.alloc hk
    rw [H.fresh k le_rfl] at hg
    cases hg
  have key : ∀ i x k', Function.update S b (some (.prok k (some next))) i = some x → owned x = some k' →
      (i = b ∧ k' = next) ∨ S i = some x := by
    intro i x k' hi hk
    by_cases e : i = b
    · subst e
      rw [Function.update_self] at hi
      cases hi
      cases hk
      exact .inl ⟨rfl, rfl⟩
    · rw [Function.update_of_ne e] at hi
      exact .inr hi
  refine ⟨fun i => ?_, ?_, ?_, ?_⟩
  · by_cases e : i = b
    · subst e
      rw [Function.update_self, Function.update_self]
      exact .inr ⟨_, _, rfl, rfl, .prok k (Function.update_self ..)⟩
    · rw [Function.update_of_ne e, Function.update_of_ne e]
      rcases H.rel i with hi | ⟨o, v, h1, h2, r⟩
      · exact .inl hi
      · exact .inr ⟨o, v, h1, h2, r.congr fun k hk => Function.update_of_ne (ne i o k h1 hk) _ _⟩
  · intro i j x y k' hi hj hk hk'
    rcases key _ _ _ hi hk with ⟨e1, e2⟩ | e <;> rcases key _ _ _ hj hk' with ⟨f1, f2⟩ | f
    · rw [e1, f1]
    · exact absurd e2 (ne _ _ _ f hk')
    · exact absurd f2 (ne _ _ _ e hk)
    · exact H.uniq _ _ _ _ _ e f hk hk'
  · intro k' g hg
    by_cases e : k' = next
    · subst e
      exact ⟨b, _, Function.update_self .., rfl⟩
    · rw [Function.update_of_ne e] at hg
      obtain ⟨i, x, hi, hx⟩ := H.reach k' g hg
      have e : i ≠ b := by rintro rfl; rw [hi] at hb; cases hb
      exact ⟨i, x, by rw [Function.update_of_ne e, hi], hx⟩
  · intro k' hk
    rw [Function.update_of_ne (by omega)]
    exact H.fresh k' (by omega)

/-- What the destructor of an object does to the heap. -/
private theorem destroyObj_eq (s : State ι R) {o : Obj ι R} {v : SetVal ι R} (r : Rel s.impls o v) :
    destroyObj s o = some { s with impls := match owned o with
      | none => s.impls
      | some k => Function.update s.impls k none } := by
  induction r with
  | null k => rfl
  | prok k hi => simp [destroyObj, free, hi, owned]
  | other f => rfl
  | ref j => rfl
  | mask m _ ih => exact ih
  | empty m => rfl

private theorem Inv.remove (H : Inv h next S σ) {a : ℕ} {o : Obj ι R} (ha : S a = some o) :
    Inv (match owned o with
      | none => h
      | some k => Function.update h k none) next (Function.update S a none) (Function.update σ a none) := by
  set h' := match owned o with
    | none => h
    | some k => Function.update h k none with hh
  have same : ∀ k, owned o ≠ some k → h' k = h k := by
    intro k hk
    rw [hh]
    cases e : owned o with
    | none => rfl
    | some k' => exact Function.update_of_ne (by rintro rfl; exact hk e) _ _
  have gone : ∀ k, owned o = some k → h' k = none := by
    intro k hk
    rw [hh, hk]
    exact Function.update_self ..
  have key : ∀ i x, Function.update S a none i = some x → i ≠ a ∧ S i = some x := by
    intro i x hi
    by_cases e : i = a
    · subst e
      rw [Function.update_self] at hi
      cases hi
    · rw [Function.update_of_ne e] at hi
      exact ⟨e, hi⟩
  refine ⟨fun i => ?_, ?_, ?_, ?_⟩
  · by_cases e : i = a
    · subst e
      rw [Function.update_self, Function.update_self]
      exact .inl ⟨rfl, rfl⟩
    · rw [Function.update_of_ne e, Function.update_of_ne e]
      rcases H.rel i with hi | ⟨o', v, h1, h2, r⟩
      · exact .inl hi
      · refine .inr ⟨o', v, h1, h2, r.congr fun k hk => same k fun ho => e ?_⟩
        exact H.uniq _ _ _ _ _ h1 ha hk ho
  · intro i j x y k hi hj hk hk'
    exact H.uniq _ _ _ _ _ (key _ _ hi).2 (key _ _ hj).2 hk hk'
  · intro k f hk
    have ho : owned o ≠ some k := fun ho => by rw [gone k ho] at hk; cases hk
    rw [same k ho] at hk
    obtain ⟨i, x, hi, hx⟩ := H.reach k f hk
    refine ⟨i, x, ?_, hx⟩
    rw [Function.update_of_ne, hi]
    rintro rfl
    rw [ha] at hi
    cases hi
    exact ho hx
  · intro k hk
    by_cases ho : owned o = some k
    · exact gone k ho
    · rw [same k ho]
      exact H.fresh k hk

private theorem Inv.swap (H : Inv h next S σ) {a b : ℕ} {k : Kind} {p p' : Option ℕ} {v v' : Option (ι → R)}
    (ha : S a = some (.prok k p)) (hb : S b = some (.prok k p')) (ha' : σ a = some (.prok k v))
    (hb' : σ b = some (.prok k v')) :
    Inv h next (Function.update (Function.update S a (some (.prok k p'))) b (some (.prok k p)))
      (Function.update (Function.update σ a (some (.prok k v'))) b (some (.prok k v))) := by
  by_cases hab : a = b
  · subst hab
    have e1 : Function.update (Function.update S a (some (.prok k p'))) a (some (.prok k p)) = S := by
      rw [Function.update_idem, ← ha, Function.update_eq_self]
    have e2 : Function.update (Function.update σ a (some (.prok k v'))) a (some (.prok k v)) = σ := by
      rw [Function.update_idem, ← ha', Function.update_eq_self]
    rw [e1, e2]
    exact H
  have ra : Rel h (.prok k p) (.prok k v) := by
    obtain ⟨x, hx, r⟩ := (ha ▸ H.rel a).some
    rw [ha'] at hx
    cases hx
    exact r
  have rb : Rel h (.prok k p') (.prok k v') := by
    obtain ⟨x, hx, r⟩ := (hb ▸ H.rel b).some
    rw [hb'] at hx
    cases hx
    exact r
  set π : ℕ → ℕ := fun i => if i = a then b else if i = b then a else i with hπ
  have inj : ∀ i j, π i = π j → i = j := by
    intro i j
    simp only [hπ]
    split_ifs <;> intro e <;> subst_vars <;> first | rfl | contradiction | (exact absurd rfl ‹_›)
  have key : ∀ i x, Function.update (Function.update S a (some (.prok k p'))) b (some (.prok k p)) i = some x →
      S (π i) = some x := by
    intro i x hi
    by_cases e : i = b
    · subst e
      rw [Function.update_self] at hi
      cases hi
      simp only [hπ, if_neg (Ne.symm hab), if_true]
      exact ha
    · rw [Function.update_of_ne e] at hi
      by_cases e2 : i = a
      · subst e2
        rw [Function.update_self] at hi
        cases hi
        simp only [hπ, if_true]
        exact hb
      · rw [Function.update_of_ne e2] at hi
        simpa [hπ, e, e2] using hi
  refine ⟨fun i => ?_, ?_, ?_, H.fresh⟩
  · by_cases e : i = b
    · subst e
      rw [Function.update_self, Function.update_self]
      exact .inr ⟨_, _, rfl, rfl, ra⟩
    · rw [Function.update_of_ne e, Function.update_of_ne e]
      by_cases e2 : i = a
      · subst e2
        rw [Function.update_self, Function.update_self]
        exact .inr ⟨_, _, rfl, rfl, rb⟩
      · rw [Function.update_of_ne e2, Function.update_of_ne e2]
        exact H.rel i
  · intro i j x y k' hi hj hk hk'
    exact inj _ _ (H.uniq _ _ _ _ _ (key _ _ hi) (key _ _ hj) hk hk')
  · intro k' f hk
    obtain ⟨i, x, hi, hx⟩ := H.reach k' f hk
    by_cases e : i = a
    · subst e
      rw [ha] at hi
      cases hi
      exact ⟨b, _, Function.update_self .., hx⟩
    · by_cases e2 : i = b
      · subst e2
        rw [hb] at hi
        cases hi
        exact ⟨a, _, by rw [Function.update_of_ne hab, Function.update_self], hx⟩
      · exact ⟨i, x, by rw [Function.update_of_ne e2, Function.update_of_ne e, hi], hx⟩

end

private theorem eval_eq [Zero R] {s : State ι R} {σ : ℕ → Option (SetVal ι R)} (H : Inv s.impls s.next s.slots σ)
    {o : Obj ι R} {v : SetVal ι R} (r : Rel s.impls o v) (n : ι) : evalObj s o n = v.at σ n := by
  induction r with
  | null k => rfl
  | prok k hi => simp [evalObj, SetVal.at, hi]
  | other f => rfl
  | ref j =>
    rw [evalObj, SetVal.at]
    rcases H.rel j with ⟨h1, h2⟩ | ⟨o, v, h1, h2, r⟩
    · rw [h1, h2]
    · rw [h1, h2]
      cases r with
      | null k => cases k <;> rfl
      | prok k hi => cases k <;> simp [hi]
      | other f => rfl
      | ref j => rfl
      | mask m _ => rfl
      | empty m => rfl
  | mask m _ ih =>
    rw [evalObj, SetVal.at, ih]
  | empty m => rfl

private def Agrees (x : Option (State ι R × Option R)) (y : Option ((ℕ → Option (SetVal ι R)) × Option R)) : Prop :=
  (x = none ∧ y = none) ∨ ∃ s σ r, x = some (s, r) ∧ y = some (σ, r) ∧ Inv s.impls s.next s.slots σ

private theorem agrees_put {s : State ι R} {τ : ℕ → Option (SetVal ι R)} {i : ℕ} {o : Obj ι R} {v : SetVal ι R}
    (hs : s.slots i = none ↔ τ i = none)
    (h : s.slots i = none → Inv s.impls s.next (Function.update s.slots i (some o)) (Function.update τ i (some v))) :
    Agrees ((put s i o).map (·, none)) ((newVal τ i v).map (·, none)) := by
  unfold put newVal
  cases e : s.slots i with
  | none =>
    rw [hs.1 e]
    exact .inr ⟨_, _, _, rfl, rfl, h e⟩
  | some x =>
    cases e' : τ i with
    | none => rw [hs.2 e'] at e; cases e
    | some y => exact .inl ⟨rfl, rfl⟩

private theorem step_agrees [Zero R] {s : State ι R} {σ : ℕ → Option (SetVal ι R)}
    (H : Inv s.impls s.next s.slots σ) (op : Op ι R) : Agrees (step s op) (meaning σ op) := by
  have free : ∀ i, s.slots i = none ↔ σ i = none := by
    intro i
    rcases H.rel i with ⟨h1, h2⟩ | ⟨o, v, h1, h2, -⟩ <;> simp [h1, h2]
  have freeU : ∀ j (a : Option (Obj ι R)) (b : Option (SetVal ι R)) i, (a = none ↔ b = none) →
      (Function.update s.slots j a i = none ↔ Function.update σ j b i = none) := by
    intro j a b i hab
    by_cases e : i = j
    · subst e; simpa using hab
    · simpa [Function.update_of_ne e] using free i
  cases op with
  | newProk k i load =>
    cases load with
    | none =>
      rw [step, meaning]
      cases e : s.slots i with
      | none =>
        rw [(free i).1 e]
        exact .inr ⟨s, σ, none, rfl, rfl, H⟩
      | some x =>
        cases e' : σ i with
        | none => rw [(free i).2 e'] at e; cases e
        | some y => exact .inl ⟨rfl, rfl⟩
    | some f => exact agrees_put (free i) fun hi => H.alloc k f hi
  | newOther i f => exact agrees_put (free i) fun hi => H.add rfl (.other f) hi
  | newRef i j =>
    rw [step, meaning]
    rcases H.rel j with ⟨h1, h2⟩ | ⟨o, v, h1, h2, r⟩
    · rw [h1, h2]; exact .inl ⟨rfl, rfl⟩
    · rw [h1, h2]
      cases r with
      | null k =>
        cases k
        · exact .inl ⟨rfl, rfl⟩
        · exact agrees_put (free i) fun hi => H.add rfl (.ref j) hi
      | prok k hi =>
        cases k
        · exact .inl ⟨rfl, rfl⟩
        · exact agrees_put (free i) fun hi => H.add rfl (.ref j) hi
      | other f => exact .inl ⟨rfl, rfl⟩
      | ref j => exact .inl ⟨rfl, rfl⟩
      | mask m _ => exact .inl ⟨rfl, rfl⟩
      | empty m => exact .inl ⟨rfl, rfl⟩
  | newMask i j m =>
    rw [step, meaning]
    rcases H.rel j with ⟨h1, h2⟩ | ⟨o, v, h1, h2, r⟩
    · rw [h1, h2]; exact .inl ⟨rfl, rfl⟩
    · have go : Agrees
          ((put { s with slots := Function.update s.slots j none } i (.mask m o)).map (·, none))
          ((newVal (Function.update σ j none) i (.mask m v)).map (·, none)) :=
        agrees_put (freeU j none none i (by simp)) fun hi =>
          H.transfer (a := j) (res := none) (res' := none) h1 (.inl ⟨rfl, rfl⟩) (by simp) rfl (.mask m r) hi
      rw [h1, h2]
      cases r with
      | null k => cases k <;> first | exact .inl ⟨rfl, rfl⟩ | exact go
      | prok k hi => cases k <;> first | exact .inl ⟨rfl, rfl⟩ | exact go
      | other f => exact go
      | ref j => exact go
      | mask m _ => exact go
      | empty m => exact go
  | moveNew i j =>
    rw [step, meaning]
    rcases H.rel j with ⟨h1, h2⟩ | ⟨o, v, h1, h2, r⟩
    · rw [h1, h2]; exact .inl ⟨rfl, rfl⟩
    · have r' := r
      rw [h1, h2]
      cases r with
      | null k =>
        exact agrees_put (freeU j _ _ i (by simp)) fun hi =>
          H.transfer h1 (.inr ⟨_, _, rfl, rfl, .null k⟩) (by rintro r ⟨⟩; rfl) rfl r' hi
      | prok k hi =>
        exact agrees_put (freeU j _ _ i (by simp)) fun hi =>
          H.transfer h1 (.inr ⟨_, _, rfl, rfl, .null k⟩) (by rintro r ⟨⟩; rfl) rfl r' hi
      | other f => exact .inl ⟨rfl, rfl⟩
      | ref j => exact .inl ⟨rfl, rfl⟩
      | mask m _ =>
        exact agrees_put (freeU j _ _ i (by simp)) fun hi =>
          H.transfer h1 (.inr ⟨_, _, rfl, rfl, .empty m⟩) (by rintro r ⟨⟩; rfl) rfl r' hi
      | empty m => exact .inl ⟨rfl, rfl⟩
  | moveAssign i j =>
    rw [step, meaning]
    rcases H.rel i with ⟨h1, h2⟩ | ⟨o, v, h1, h2, r⟩
    · rw [h1, h2]; exact .inl ⟨rfl, rfl⟩
    rcases H.rel j with ⟨g1, g2⟩ | ⟨o', v', g1, g2, r'⟩
    · rw [h1, h2, g1, g2]
      left
      cases r <;> exact ⟨rfl, rfl⟩
    have go : ∀ {k k' : Kind} {p p' : Option ℕ} {u u' : Option (ι → R)}, s.slots i = some (.prok k p) →
        s.slots j = some (.prok k' p') → σ i = some (.prok k u) → σ j = some (.prok k' u') →
        Agrees (if k = k' then some ({ s with
            slots := Function.update (Function.update s.slots i (some (.prok k p'))) j (some (.prok k p)) }, none)
          else none)
        (if k = k' then some (Function.update (Function.update σ i (some (.prok k u'))) j (some (.prok k u)), none)
          else none) := by
      intro k k' p p' u u' a1 a2 a3 a4
      split_ifs with hk
      · subst hk
        exact .inr ⟨_, _, _, rfl, rfl, H.swap a1 a2 a3 a4⟩
      · exact .inl ⟨rfl, rfl⟩
    rw [h1, h2, g1, g2]
    cases r <;> cases r' <;> first | exact .inl ⟨rfl, rfl⟩ | exact go h1 g1 h2 g2
  | destroy i =>
    rw [step, meaning]
    rcases H.rel i with ⟨h1, h2⟩ | ⟨o, v, h1, h2, r⟩
    · rw [h1, h2]; exact .inl ⟨rfl, rfl⟩
    · rw [h1, h2]
      simp only
      rw [destroyObj_eq { s with slots := Function.update s.slots i none } r]
      exact .inr ⟨_, _, none, rfl, rfl, H.remove h1⟩
  | eval i n =>
    rw [step, meaning]
    rcases H.rel i with ⟨h1, h2⟩ | ⟨o, v, h1, h2, r⟩
    · rw [h1, h2]; exact .inl ⟨rfl, rfl⟩
    · rw [h1, h2]
      simp only
      rw [eval_eq H r n]
      cases e : v.at σ n with
      | none => exact .inl ⟨rfl, rfl⟩
      | some x => exact .inr ⟨_, _, _, rfl, rfl, H⟩

private theorem run_agrees [Zero R] : ∀ (ops : List (Op ι R)) {s : State ι R} {σ : ℕ → Option (SetVal ι R)},
    Inv s.impls s.next s.slots σ →
    (run s ops = none ∧ meanings σ ops = none) ∨
      ∃ s' σ' rs, run s ops = some (s', rs) ∧ meanings σ ops = some (σ', rs) ∧ Inv s'.impls s'.next s'.slots σ'
  | [], s, σ, H => .inr ⟨s, σ, [], rfl, rfl, H⟩
  | op :: ops, s, σ, H => by
    rw [run, meanings]
    rcases step_agrees H op with ⟨e1, e2⟩ | ⟨s', σ', r, e1, e2, H'⟩
    · rw [e1, e2]; exact .inl ⟨rfl, rfl⟩
    · rw [e1, e2]
      rcases run_agrees ops H' with ⟨f1, f2⟩ | ⟨s₂, σ₂, rs, f1, f2, H₂⟩
      · exact .inl ⟨by simp [f1], by simp [f2]⟩
      · exact .inr ⟨s₂, σ₂, r.toList ++ rs, by simp [f1], by simp [f2], H₂⟩

private theorem inv_empty : Inv (State.empty : State ι R).impls (State.empty : State ι R).next
    (State.empty : State ι R).slots fun _ => none :=
  ⟨fun _ => .inl ⟨rfl, rfl⟩, by rintro i j o o' k ⟨⟩, by rintro k f ⟨⟩, fun _ _ => rfl⟩

/-- C122: a program with sets, moves, masks and references has undefined behaviour exactly when it uses an object
that is not there, or whose functions were moved away (`meanings`), and otherwise sees the values that the objects
have as values. -/
theorem c122_values [Zero R] (ops : List (Op ι R)) :
    (run State.empty ops).map Prod.snd = (meanings (fun _ => none) ops).map Prod.snd := by
  rcases run_agrees ops inv_empty with ⟨e1, e2⟩ | ⟨_, _, rs, e1, e2, -⟩ <;> rw [e1, e2] <;> rfl

/-- C122: no `Impl` is leaked: each that is allocated belongs to exactly one object. -/
theorem c122_owner [Zero R] {ops : List (Op ι R)} {s : State ι R} {rs : List R}
    (h : run State.empty ops = some (s, rs)) {k : ℕ} {f : ι → R} (hk : s.impls k = some f) :
    ∃! i, ∃ o, s.slots i = some o ∧ owned o = some k := by
  rcases run_agrees ops inv_empty with ⟨e1, -⟩ | ⟨s', σ', rs', e1, -, H⟩ <;> rw [e1] at h
  · cases h
  · cases h
    obtain ⟨i, o, h1, h2⟩ := H.reach k f hk
    exact ⟨i, ⟨o, h1, h2⟩, fun j ⟨o', g1, g2⟩ => H.uniq _ _ _ _ _ g1 h1 g2 h2⟩

/-- C122: and when all objects were destroyed, the heap is empty. -/
theorem c122_no_leak [Zero R] {ops : List (Op ι R)} {s : State ι R} {rs : List R}
    (h : run State.empty ops = some (s, rs)) (hs : ∀ i, s.slots i = none) (k : ℕ) : s.impls k = none := by
  cases e : s.impls k with
  | none => rfl
  | some f =>
    obtain ⟨i, ⟨o, h1, -⟩, -⟩ := c122_owner h e
    rw [hs i] at h1
    cases h1

/-- C122: any objects that are left can be destroyed, in any order, also those moved from. -/
theorem c122_destroy [Zero R] {ops : List (Op ι R)} {s : State ι R} {rs : List R}
    (h : run State.empty ops = some (s, rs)) (i : ℕ) (hi : s.slots i ≠ none) :
    ∃ s', step s (.destroy i) = some (s', none) ∧ s'.slots = Function.update s.slots i none := by
  rcases run_agrees ops inv_empty with ⟨e1, -⟩ | ⟨s', σ', rs', e1, -, H⟩ <;> rw [e1] at h
  · cases h
  · cases h
    rcases H.rel i with ⟨h1, h2⟩ | ⟨o, v, h1, h2, r⟩
    · exact absurd h1 hi
    · rw [step, h1]
      simp only
      rw [destroyObj_eq { s with slots := Function.update s.slots i none } r]
      exact ⟨_, rfl, rfl⟩

/-- C122: what a set was loaded with is seen by its evaluation after any number of moves into new objects, with
other operations on other objects in between left out. -/
theorem c122_chain [Zero R] (k : Kind) (f : ι → R) (n : ι) (m : ℕ) :
    (run State.empty (.newProk k 0 (some f) :: (List.range m).map (fun i => .moveNew (i + 1) i) ++
      [.eval m n])).map Prod.snd = some [f n] := by
  rw [c122_values]
  have app : ∀ (a b : List (Op ι R)) σ σ' rs, meanings σ a = some (σ', rs) →
      meanings σ (a ++ b) = (meanings σ' b).map fun p => (p.1, rs ++ p.2) := by
    intro a b
    induction a with
    | nil => rintro σ σ' rs ⟨⟩; simp
    | cons op a ih =>
      intro σ σ' rs h
      rw [List.cons_append, meanings]
      rw [meanings] at h
      cases e : meaning σ op with
      | none => rw [e] at h; cases h
      | some p =>
        rw [e] at h
        simp only at h ⊢
        cases e2 : meanings p.1 a with
        | none => rw [e2] at h; cases h
        | some q =>
          rw [e2] at h
          cases h
          rw [ih _ _ _ e2]
          cases meanings q.1 b <;> simp
  have key : ∀ m, ∃ σ, meanings (fun _ => none) (.newProk k 0 (some f) :: (List.range m).map
      (fun i => Op.moveNew (ι := ι) (R := R) (i + 1) i)) = some (σ, []) ∧ σ m = some (.prok k (some f)) ∧
      ∀ i, m < i → σ i = none := by
    intro m
    induction m with
    | zero => exact ⟨_, rfl, by simp, fun i hi => by simp [Function.update_of_ne (by omega : i ≠ 0)]⟩
    | succ m ih =>
      obtain ⟨σ, h1, h2, h3⟩ := ih
      rw [List.range_succ, List.map_append, ← List.cons_append, app _ _ _ _ _ h1]
      refine ⟨Function.update (Function.update σ m (some (.prok k none))) (m + 1) (some (.prok k (some f))), ?_,
        Function.update_self .., fun i hi => ?_⟩
      · simp [meanings, meaning, h2, newVal, h3 (m + 1) (by omega)]
      · rw [Function.update_of_ne (by omega), Function.update_of_ne (by omega), h3 i (by omega)]
  obtain ⟨σ, h1, h2, -⟩ := key m
  rw [app _ _ _ _ _ h1]
  simp [meanings, meaning, h2, SetVal.at]

/-- A program that loads two sets, masks one, moves the mask and the other, assigns, evaluates and destroys. -/
private def exOps : List (Op ℕ ℕ) :=
  [.newProk .sf 0 (some (· + 1)), .newProk .sf 1 (some (· + 2)), .newMask 2 0 (fun n => n != 5), .moveNew 3 2,
    .moveNew 4 1, .eval 3 7, .eval 3 5, .eval 4 7, .newProk .sf 0 (some (· + 3)), .moveAssign 0 4, .eval 0 7,
    .eval 4 7, .newProk .tmd 6 (some (· * 2)), .newRef 7 6, .eval 7 9, .newProk .tmd 9 none,
    .destroy 0, .destroy 1, .destroy 2, .destroy 3, .destroy 4, .destroy 6, .destroy 7]

/-- The program is defined, sees these values, and leaves no object and no `Impl`. -/
example : (run State.empty exOps).map Prod.snd = some [8, 0, 9, 9, 10, 18] := by
  rw [c122_values]
  rfl

example (s : State ℕ ℕ) (rs : List ℕ) (h : run State.empty exOps = some (s, rs)) (k : ℕ) : s.impls k = none := by
  refine c122_no_leak h (fun i => ?_) k
  have e : ∃ s', run State.empty exOps = some (s', [8, 0, 9, 9, 10, 18]) ∧ ∀ i, s'.slots i = none := by
    refine ⟨_, rfl, fun i => ?_⟩
    rcases i with _ | _ | _ | _ | _ | _ | _ | _ | i <;> rfl
  obtain ⟨s', e1, e2⟩ := e
  rw [h] at e1
  cases e1
  exact e2 i

/-- An `Impl` is there and owned after the first four steps of the program. -/
example : ∃ s rs, run State.empty (exOps.take 4) = some (s, rs) ∧ s.impls 0 = some (· + 1) ∧
    (∃! i, ∃ o, s.slots i = some o ∧ owned o = some 0) ∧ s.slots 2 ≠ none :=
  have h : ∃ s, run State.empty (exOps.take 4) = some (s, []) ∧ s.impls 0 = some (· + 1) ∧ s.slots 2 ≠ none :=
    ⟨_, rfl, rfl, by intro h; cases h⟩
  let ⟨s, h1, h2, h3⟩ := h
  ⟨s, [], h1, h2, c122_owner h1 h2, h3⟩

/-- C122, refuted: that a set can be used after it was moved from. For every set and function, the evaluation of a
moved-from Prokudin set, and of structure functions on a TMD set that was moved or destroyed after they were made, is
undefined, and so is the move of a moved-from mask (its `noexcept` constructor reads the target through a null
pointer) and an evaluation of one that is not masked. -/
theorem c122_moved_from_refuted [Zero R] (k : Kind) (f : ι → R) (m : ι → Bool) (n : ι) :
    run State.empty [.newProk k 0 (some f), .moveNew 1 0, .eval 0 n] = none ∧
    run State.empty [.newProk .tmd 0 (some f), .newRef 1 0, .moveNew 2 0, .eval 1 n] = none ∧
    run State.empty [.newProk .tmd 0 (some f), .newRef 1 0, .destroy 0, .eval 1 n] = none ∧
    run State.empty [.newOther 0 f, .newMask 1 0 m, .moveNew 2 1, .moveNew 3 1] = none ∧
    (m n = true → run State.empty [.newOther 0 f, .newMask 1 0 m, .moveNew 2 1, .eval 1 n] = none) := by
  refine ⟨rfl, rfl, rfl, rfl, fun h => ?_⟩
  have : (run State.empty [.newOther 0 f, .newMask 1 0 m, .moveNew 2 1, .eval 1 n]).map Prod.snd = none := by
    rw [c122_values]
    simp [meanings, meaning, newVal, SetVal.at, h]
  simpa using this

/-- C122, refuted: that an assignment frees the tables that are replaced. They stay allocated, in the object assigned
from, until that is destroyed. -/
theorem c122_assign_frees_refuted [Zero R] (k : Kind) (f g : ι → R) (n : ι) :
    ∃ s : State ι R, run State.empty [.newProk k 0 (some f), .newProk k 1 (some g), .moveAssign 0 1, .eval 0 n,
      .eval 1 n] = some (s, [g n, f n]) ∧ s.impls 0 = some f ∧ s.impls 1 = some g := by
  cases k <;> exact ⟨_, rfl, rfl, rfl⟩

end Sidis.Props
