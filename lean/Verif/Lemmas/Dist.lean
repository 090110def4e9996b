import Verif.Spec.Dist
import Mathlib.Data.List.Perm.Basic
import Mathlib.Tactic.Linarith
import Mathlib.Tactic.SplitIfs

/-!
# Lemmas for C48 and C49
-/

namespace Sidis.Dist

open Spec

variable {B : Type}

/-! ### The ghost log -/

/-- The engines that are alive are those in the list, no two the same. -/
structure WI (a : List ℕ) (w : World) : Prop where
  nodup : a.Nodup
  alive : ∀ i ∈ a, Alive w.log i
  done : ∀ i, i < w.next → i ∉ a → Done w.log i
  unborn : ∀ i, w.next ≤ i → Unborn w.log i

theorem WI.lt {a : List ℕ} {w : World} (h : WI a w) {i : ℕ} (hi : i ∈ a) : i < w.next := by
  by_contra hc
  obtain ⟨n, hn⟩ := h.alive i hi
  have := h.unborn i (not_lt.1 hc)
  rw [Unborn, hn] at this
  cases this

theorem WI.perm {a b : List ℕ} {w : World} (h : WI a w) (p : a.Perm b) : WI b w :=
  ⟨p.nodup_iff.1 h.nodup, fun i hi => h.alive i (p.mem_iff.2 hi),
    fun i hi hn => h.done i hi fun hc => hn (p.mem_iff.1 hc), h.unborn⟩

theorem life_same (l : List Ev) (e : Ev) : life (l ++ [e]) (idOf e) = life l (idOf e) ++ [e] := by
  unfold life
  rw [List.filter_append]
  simp

theorem life_other (l : List Ev) (e : Ev) {i : ℕ} (h : idOf e ≠ i) :
    life (l ++ [e]) i = life l i := by
  unfold life
  rw [List.filter_append]
  simp [h]

theorem alive_of {l l' : List Ev} {i : ℕ} (e : life l' i = life l i) (h : Alive l i) : Alive l' i := by
  unfold Alive at *
  rwa [e]

theorem done_of {l l' : List Ev} {i : ℕ} (e : life l' i = life l i) (h : Done l i) : Done l' i := by
  unfold Done at *
  rwa [e]

theorem unborn_of {l l' : List Ev} {i : ℕ} (e : life l' i = life l i) (h : Unborn l i) :
    Unborn l' i := by
  unfold Unborn at *
  rwa [e]

/-- The effect of a computation on its own engines, whatever others there are. -/
def Eff (a : List ℕ) (w : World) (a' : List ℕ) (w' : World) : Prop :=
  ∀ r, WI (a ++ r) w → WI (a' ++ r) w'

theorem Eff.refl (a : List ℕ) (w : World) : Eff a w a w := fun _ h => h

theorem Eff.trans {a b c : List ℕ} {u v w : World} (h : Eff a u b v) (h' : Eff b v c w) :
    Eff a u c w := fun r hr => h' r (h r hr)

theorem Eff.frame {a b : List ℕ} {u v : World} (h : Eff a u b v) (c : List ℕ) :
    Eff (a ++ c) u (b ++ c) v := by
  intro r hr
  rw [List.append_assoc] at hr ⊢
  exact h _ hr

theorem Eff.perm {a a' b b' : List ℕ} {u v : World} (h : Eff a u b v) (p : a'.Perm a)
    (q : b.Perm b') : Eff a' u b' v :=
  fun r hr => (h r (hr.perm (p.append_right r))).perm (q.append_right r)

theorem eff_ctor (w : World) : Eff [] w [w.next] ⟨w.next + 1, w.log ++ [.ctor w.next]⟩ := by
  intro r h
  simp only [List.nil_append, List.singleton_append] at h ⊢
  have ho : ∀ i, w.next ≠ i → life (w.log ++ [.ctor w.next]) i = life w.log i :=
    fun i hi => life_other w.log (.ctor w.next) hi
  refine ⟨?_, ?_, ?_, ?_⟩
  · rw [List.nodup_cons]
    exact ⟨fun hc => absurd (h.lt hc) (lt_irrefl _), h.nodup⟩
  · intro i hi
    rcases List.mem_cons.1 hi with rfl | hi
    · refine ⟨0, (life_same w.log (.ctor w.next)).trans ?_⟩
      rw [show life w.log (idOf (.ctor w.next)) = [] from h.unborn _ le_rfl]
      rfl
    · exact alive_of (ho i (by have := h.lt hi; omega)) (h.alive i hi)
  · intro i hi hn
    simp only [List.mem_cons, not_or] at hn
    simp only at hi
    exact done_of (ho i (fun e => hn.1 e.symm)) (h.done i (by omega) hn.2)
  · intro i hi
    simp only at hi
    exact unborn_of (ho i (by omega)) (h.unborn i (by omega))

theorem eff_use {a : List ℕ} {i : ℕ} (hi : i ∈ a) (w : World) : Eff a w a (w.put (.use i)) := by
  intro r h
  have ho : ∀ j, i ≠ j → life (w.log ++ [.use i]) j = life w.log j :=
    fun j hj => life_other w.log (.use i) hj
  refine ⟨h.nodup, ?_, ?_, ?_⟩
  · intro j hj
    by_cases e : i = j
    · subst e
      obtain ⟨n, hn⟩ := h.alive i hj
      refine ⟨n + 1, (life_same w.log (.use i)).trans ?_⟩
      rw [show life w.log (idOf (.use i)) = _ from hn, List.replicate_succ']
      rfl
    · exact alive_of (ho j e) (h.alive j hj)
  · intro j hj hn
    have : i ≠ j := fun e => hn (e ▸ List.mem_append_left _ hi)
    exact done_of (ho j this) (h.done j hj hn)
  · intro j hj
    have := h.lt (List.mem_append_left r hi)
    simp only [World.put] at hj
    exact unborn_of (ho j (by omega)) (h.unborn j hj)

theorem eff_dtor (i : ℕ) (w : World) : Eff [i] w [] (w.put (.dtor i)) := by
  intro r h
  simp only [List.singleton_append, List.nil_append] at h ⊢
  have hni := (List.nodup_cons.1 h.nodup).1
  have hil := h.lt (List.mem_cons_self ..)
  have ho : ∀ j, i ≠ j → life (w.log ++ [.dtor i]) j = life w.log j :=
    fun j hj => life_other w.log (.dtor i) hj
  refine ⟨(List.nodup_cons.1 h.nodup).2, ?_, ?_, ?_⟩
  · intro j hj
    have hne : i ≠ j := fun e => hni (e ▸ hj)
    exact alive_of (ho j hne) (h.alive j (List.mem_cons_of_mem _ hj))
  · intro j hj hn
    by_cases e : i = j
    · subst e
      obtain ⟨n, hn⟩ := h.alive i (List.mem_cons_self ..)
      refine ⟨n, (life_same w.log (.dtor i)).trans ?_⟩
      rw [show life w.log (idOf (.dtor i)) = _ from hn]
    · refine done_of (ho j e) (h.done j hj ?_)
      simp only [List.mem_cons, not_or]
      exact ⟨fun e' => e e'.symm, hn⟩
  · intro j hj
    simp only [World.put] at hj
    exact unborn_of (ho j (by omega)) (h.unborn j hj)

/-! ### Dist -/

/-- The engines of an object. -/
def Obj.ids (o : Obj B) : List ℕ := o.engine.toList.map Engine.id

/-- An engine is only alive under its tag and the flag. -/
def Obj.Good (o : Obj B) : Prop := ∀ e, o.engine = some e → o.valid = true ∧ e.type = o.type

theorem Obj.Usable.good {o : Obj B} (h : o.Usable) : o.Good := by
  obtain ⟨hv, e, he, ht⟩ := h
  intro e' he'
  rw [he] at he'
  cases he'
  exact ⟨hv, ht⟩

theorem Obj.live_some {o : Obj B} {e : Engine B} (h : o.live = some e) :
    o.engine = some e ∧ e.type = o.type := by
  unfold Obj.live at h
  rw [Option.filter_eq_some_iff] at h
  exact ⟨h.1, by simpa using h.2⟩

theorem Obj.Usable.live {o : Obj B} (h : o.Usable) : ∃ e, o.live = some e ∧ o.engine = some e := by
  obtain ⟨-, e, he, ht⟩ := h
  refine ⟨e, ?_, he⟩
  unfold Obj.live
  rw [he]
  simp [Option.filter, ht]

theorem Obj.ids_some {o : Obj B} {e : Engine B} (h : o.engine = some e) : o.ids = [e.id] := by
  unfold Obj.ids
  rw [h]
  rfl

theorem make_eff (L : Lib B) (t : DistType) (th : Bool) (w : World) :
    match Obj.make L t th w with
    | (none, w') => w' = w ∧ t = .bubble ∧ th = true
    | (some o, w') => Eff [] w o.ids w' ∧ o.Usable ∧ o.type = t ∧ (t = .bubble → th = false) ∧
        ∃ e, o.engine = some e ∧ e.val = L.empty := by
  unfold Obj.make
  split_ifs with h
  · exact ⟨rfl, h.1, h.2⟩
  · refine ⟨eff_ctor w, ⟨rfl, _, rfl, rfl⟩, rfl, ?_, _, rfl, rfl⟩
    intro ht
    by_contra hc
    exact h ⟨ht, by simpa using hc⟩

theorem move_eff {L : Lib B} {o o1 o2 : Obj B} {w w' : World}
    (h : o.move L w = some (o1, o2, w')) (hg : o.Good) :
    Eff o.ids w (o1.ids ++ o2.ids) w' ∧ o1.Usable ∧ o2.Usable := by
  unfold Obj.move at h
  split at h
  · cases h
  · rename_i e he
    obtain ⟨h1, h2⟩ := Obj.live_some he
    simp only [Option.some.injEq, Prod.mk.injEq] at h
    obtain ⟨rfl, rfl, rfl⟩ := h
    refine ⟨?_, ⟨rfl, _, rfl, rfl⟩, ⟨(hg _ h1).1, _, rfl, h2⟩⟩
    rw [Obj.ids_some h1]
    refine (eff_use (List.mem_singleton_self e.id) w).trans ?_
    exact (eff_ctor (w.put (.use e.id))).frame [e.id]

theorem move_ok (L : Lib B) {o : Obj B} (h : o.Usable) (w : World) :
    ∃ x, o.move L w = some x := by
  obtain ⟨e, he, -⟩ := h.live
  unfold Obj.move
  rw [he]
  exact ⟨_, rfl⟩

theorem destroy_eff {o o' : Obj B} {k : Bool} {w w' : World} (h : o.destroy k w = some (o', w'))
    (hg : o.Good) : Eff o.ids w [] w' ∧ o'.engine = none ∧ (k = false → o'.valid = false) ∧
      o'.type = o.type := by
  unfold Obj.destroy at h
  split_ifs at h with hv
  · split at h
    · cases h
    · rename_i e he
      obtain ⟨h1, -⟩ := Obj.live_some he
      cases h
      rw [Obj.ids_some h1]
      exact ⟨eff_dtor _ _, rfl, fun h => h, rfl⟩
  · cases h
    have : o.engine = none := by
      cases he : o.engine with
      | none => rfl
      | some e => exact absurd (hg e he).1 hv
    refine ⟨?_, this, fun _ => by simpa using hv, rfl⟩
    unfold Obj.ids
    rw [this]
    exact Eff.refl _ _

theorem destroy_ok {o : Obj B} (h : o.Usable) (k : Bool) (w : World) :
    ∃ w', o.destroy k w = some (⟨o.type, k, none⟩, w') := by
  obtain ⟨e, he, -⟩ := h.live
  unfold Obj.destroy
  rw [if_pos h.1, he]
  exact ⟨_, rfl⟩

theorem relocate_eff {L : Lib B} {n : ℕ} {o o' : Obj B} {w w' : World}
    (h : o.relocate L n w = some (o', w')) (hg : o.Usable) :
    Eff o.ids w o'.ids w' ∧ o'.Usable := by
  induction n generalizing o w with
  | zero =>
    cases h
    exact ⟨Eff.refl _ _, hg⟩
  | succ n ih =>
    unfold Obj.relocate at h
    split at h
    · cases h
    · rename_i o1 o2 w1 hm
      obtain ⟨e1, u1, u2⟩ := move_eff hm hg.good
      split at h
      · cases h
      · rename_i o3 w2 hd
        obtain ⟨e2, -, -, -⟩ := destroy_eff hd u2.good
        obtain ⟨e3, u3⟩ := ih h u1
        refine ⟨e1.trans (Eff.trans ?_ e3), u3⟩
        exact (e2.frame o1.ids).perm List.perm_append_comm (by simp)

theorem relocate_ok (L : Lib B) (n : ℕ) {o : Obj B} (h : o.Usable) (w : World) :
    ∃ x, o.relocate L n w = some x := by
  induction n generalizing o w with
  | zero => exact ⟨_, rfl⟩
  | succ n ih =>
    obtain ⟨⟨o1, o2, w1⟩, hm⟩ := move_ok L h w
    obtain ⟨-, u1, u2⟩ := move_eff hm h.good
    obtain ⟨w2, hd⟩ := destroy_ok u2 false w1
    obtain ⟨x, hx⟩ := ih u1 w2
    refine ⟨x, ?_⟩
    unfold Obj.relocate
    rw [hm]
    simp only [hd]
    exact hx

theorem draw_eff {o : Obj B} {w w' : World} {x : Option (Source B)}
    (h : o.draw w = some (x, w')) : Eff o.ids w o.ids w' := by
  unfold Obj.draw at h
  split at h
  · cases h; exact Eff.refl _ _
  · cases h; exact Eff.refl _ _
  · split at h
    · cases h
    · rename_i e he
      cases h
      rw [Obj.ids_some (Obj.live_some he).1]
      exact eff_use (List.mem_singleton_self _) _
  · cases h; exact Eff.refl _ _

theorem draw_ok {o : Obj B} (h : o.Usable) (w : World) : ∃ x, o.draw w = some x := by
  obtain ⟨e, he, -⟩ := h.live
  unfold Obj.draw
  rw [he]
  split <;> exact ⟨_, rfl⟩

theorem prime_draw (o : Obj B) (w : World) : o.prime w = o.draw w := by
  unfold Obj.prime Obj.draw
  rfl

theorem write_eff {L : Lib B} {D : ℕ} {o : Obj B} {os os' : OStream} {w w' : World}
    (h : o.write L D os w = some (os', w')) : Eff o.ids w o.ids w' := by
  unfold Obj.write at h
  simp only at h
  split_ifs at h
  · cases h; exact Eff.refl _ _
  · cases h; exact Eff.refl _ _
  · split at h
    · cases h; exact Eff.refl _ _
    · cases h; exact Eff.refl _ _
    · split at h
      · cases h
      · rename_i e he
        cases h
        rw [Obj.ids_some (Obj.live_some he).1]
        exact eff_use (List.mem_singleton_self _) _
    · cases h; exact Eff.refl _ _

theorem write_ok (L : Lib B) (D : ℕ) {o : Obj B} (h : o.Usable) (os : OStream) (w : World) :
    ∃ x, o.write L D os w = some x := by
  obtain ⟨e, he, -⟩ := h.live
  unfold Obj.write
  simp only [he]
  split_ifs
  · exact ⟨_, rfl⟩
  · exact ⟨_, rfl⟩
  · split <;> exact ⟨_, rfl⟩

/-! ### Reading -/

theorem get_header (is : IStream) :
    (header is = none ∧ ((is.get typeSize).1 = none ∨ ((is.get typeSize).2.get dimSize).1 = none)) ∨
    ∃ t d, header is = some (ofLe t, ofLe d) ∧ is.fail = false ∧ 12 ≤ is.data.length ∧
      is.get typeSize = (some t, ⟨is.data.drop 4, false⟩) ∧
      (⟨is.data.drop 4, false⟩ : IStream).get dimSize = (some d, ⟨is.data.drop 12, false⟩) := by
  unfold header
  by_cases h : is.fail = false ∧ 12 ≤ is.data.length
  · right
    rw [if_pos h]
    refine ⟨_, _, rfl, h.1, h.2, ?_, ?_⟩
    · unfold IStream.get typeSize
      rw [if_neg (by simp [h.1]), if_neg (by omega)]
    · unfold IStream.get dimSize
      rw [if_neg (by simp), if_neg (by simp only [List.length_drop]; omega)]
      simp only [List.drop_drop]
  · left
    rw [if_neg h]
    refine ⟨rfl, ?_⟩
    by_cases hf : is.fail = true
    · left
      unfold IStream.get
      rw [if_pos hf]
    · have hf' : is.fail = false := by simpa using hf
      by_cases h4 : is.data.length < 4
      · left
        unfold IStream.get typeSize
        rw [if_neg hf, if_pos h4]
      · right
        have : is.get typeSize = (some (is.data.take 4), ⟨is.data.drop 4, false⟩) := by
          unfold IStream.get typeSize
          rw [if_neg hf, if_neg h4]
        rw [this]
        unfold IStream.get dimSize
        rw [if_neg (by simp), if_pos]
        simp only [List.length_drop]
        have : ¬ 12 ≤ is.data.length := fun hc => h ⟨hf', hc⟩
        omega

/-- Where the header is missing or of another dimension, nothing is touched. -/
theorem read_bad_header (L : Lib B) (D : ℕ) (o : Obj B) (is : IStream) (f : ReadFault B) (k : Bool)
    (w : World) (h : ∀ t, header is ≠ some (t, D)) :
    ∃ is', o.read L D is f k w = some ⟨o, is', false, w⟩ ∧ is'.fail = true := by
  rcases get_header is with ⟨-, h1⟩ | ⟨t, d, e, -, -, h1, h2⟩
  · unfold Obj.read
    rcases h1 with h1 | h1
    · split
      · exact ⟨_, rfl, rfl⟩
      · rename_i t' is' e'
        rw [e'] at h1
        cases h1
    · split
      · exact ⟨_, rfl, rfl⟩
      · rename_i t' is' e'
        rw [e'] at h1
        simp only at h1
        split
        · exact ⟨_, rfl, rfl⟩
        · rename_i t'' is'' e''
          rw [e''] at h1
          cases h1
  · unfold Obj.read
    rw [h1]
    simp only [h2]
    rw [if_pos]
    · exact ⟨_, rfl, rfl⟩
    · intro hd
      exact h (ofLe t) (by rw [e, hd])

/-- The rest of `Dist::read`, after the header. -/
theorem read_good_header (L : Lib B) {D t : ℕ} (o : Obj B) {is : IStream} (f : ReadFault B) (k : Bool)
    (w : World) (h : header is = some (t, D)) :
    o.read L D is f k w =
      match o.destroy k w with
      | none => none
      | some (o, w) =>
        match DistType.ofCode t with
        | some .bubble =>
          match f with
          | .ctor => some ⟨{ o with type := .bubble }, ⟨is.data.drop 12, false⟩, true, w⟩
          | .none =>
            let (e, w) := Engine.make .bubble L.empty w
            let (b, rest, fail) := L.read L.empty (is.data.drop 12)
            some ⟨⟨.bubble, true, some { e with val := b }⟩, ⟨rest, fail⟩, false, w.put (.use e.id)⟩
          | .read b =>
            let (e, w) := Engine.make .bubble L.empty w
            some ⟨⟨.bubble, true, some { e with val := b }⟩, ⟨is.data.drop 12, false⟩, true,
              w.put (.use e.id)⟩
        | some t =>
          let (e, w) := Engine.make t L.empty w
          some ⟨⟨t, true, some e⟩, ⟨is.data.drop 12, true⟩, false, w⟩
        | none => some ⟨o, ⟨is.data.drop 12, true⟩, false, w⟩ := by
  rcases get_header is with ⟨h1, -⟩ | ⟨t', d, e, -, -, h1, h2⟩
  · rw [h1] at h; cases h
  · rw [e] at h
    simp only [Option.some.injEq, Prod.mk.injEq] at h
    obtain ⟨rfl, hd⟩ := h
    unfold Obj.read
    rw [h1]
    simp only [h2, hd]
    rw [if_neg (by simp)]
    cases o.destroy k w with
    | none => rfl
    | some x => rfl

theorem ofCode_none {t : ℕ} : DistType.ofCode t = none ↔ 3 < t := by
  unfold DistType.ofCode
  split_ifs <;> simp <;> omega

theorem ofCode_bubble {t : ℕ} : DistType.ofCode t = some .bubble ↔ t = 2 := by
  unfold DistType.ofCode
  split_ifs <;> simp <;> omega

theorem read_eff {L : Lib B} {D : ℕ} {o : Obj B} {is : IStream} {f : ReadFault B} {k : Bool}
    {w : World} {r : ReadResult B} (h : o.read L D is f k w = some r) (hg : o.Good) :
    Eff o.ids w r.obj.ids r.world ∧ r.obj.Good := by
  by_cases hh : ∃ t, header is = some (t, D)
  · obtain ⟨t, ht⟩ := hh
    rw [read_good_header L o f k w ht] at h
    split at h
    · cases h
    · rename_i o1 w1 hd
      obtain ⟨e1, e2, -, -⟩ := destroy_eff hd hg
      split at h
      · split at h
        · cases h
          refine ⟨?_, fun e he => ?_⟩
          · simp only [Obj.ids, e2]
            exact e1
          · simp only [e2] at he
            cases he
        · cases h
          refine ⟨e1.trans ((eff_ctor w1).trans ?_), Obj.Usable.good ⟨rfl, _, rfl, rfl⟩⟩
          exact eff_use (List.mem_singleton_self _) _
        · cases h
          refine ⟨e1.trans ((eff_ctor w1).trans ?_), Obj.Usable.good ⟨rfl, _, rfl, rfl⟩⟩
          exact eff_use (List.mem_singleton_self _) _
      · cases h
        exact ⟨e1.trans (eff_ctor w1), Obj.Usable.good ⟨rfl, _, rfl, rfl⟩⟩
      · cases h
        refine ⟨?_, fun e he => ?_⟩
        · simp only [Obj.ids, e2]
          exact e1
        · rw [e2] at he
          cases he
  · push Not at hh
    obtain ⟨is', e, -⟩ := read_bad_header L D o is f k w hh
    rw [e] at h
    cases h
    exact ⟨Eff.refl _ _, hg⟩

theorem read_ok (L : Lib B) {ev : Format.EventType} {o : Obj B} (ho : o.Usable) (is : IStream)
    (f : ReadFault B) (k : Bool) (w : World) :
    ∃ r, o.read L (dim ev) is f k w = some r ∧ (¬ ReadSpoils ev is f → r.obj.Usable) ∧
      (ReadSpoils ev is f → k = false → r.obj.valid = false ∧ r.obj.engine = none) := by
  by_cases hh : ∃ t, header is = some (t, dim ev)
  · obtain ⟨t, ht⟩ := hh
    rw [read_good_header L o f k w ht]
    obtain ⟨w1, hd⟩ := destroy_ok ho k w
    rw [hd]
    simp only
    have hsp : ReadSpoils ev is f ↔ (3 < t ∨ t = 2 ∧ f = .ctor) := by
      unfold ReadSpoils
      rw [ht]
      constructor
      · rintro ⟨t', e, h⟩
        simp only [Option.some.injEq, Prod.mk.injEq, and_true] at e
        exact e ▸ h
      · exact fun h => ⟨t, rfl, h⟩
    rw [hsp]
    split
    · rename_i hb
      have h2 := ofCode_bubble.1 hb
      split
      · exact ⟨_, rfl, fun h => absurd (Or.inr ⟨h2, rfl⟩) h, fun _ h => ⟨h, rfl⟩⟩
      · refine ⟨_, rfl, fun _ => ⟨rfl, _, rfl, rfl⟩, fun h => ?_⟩
        rcases h with h | ⟨-, h⟩
        · omega
        · cases h
      · refine ⟨_, rfl, fun _ => ⟨rfl, _, rfl, rfl⟩, fun h => ?_⟩
        rcases h with h | ⟨-, h⟩
        · omega
        · cases h
    · rename_i t' ht' hb
      refine ⟨_, rfl, fun _ => ⟨rfl, _, rfl, rfl⟩, fun h => ?_⟩
      rcases h with h | ⟨h, -⟩
      · rw [ofCode_none.2 h] at hb
        cases hb
      · rw [ofCode_bubble.2 h] at hb
        cases hb
        exact absurd rfl ht'
    · rename_i hb
      exact ⟨_, rfl, fun h => absurd (Or.inl (ofCode_none.1 hb)) h, fun _ h => ⟨h, rfl⟩⟩
  · push Not at hh
    obtain ⟨is', e, -⟩ := read_bad_header L (dim ev) o is f k w hh
    refine ⟨_, e, fun _ => ho, ?_⟩
    rintro ⟨t, ht, -⟩
    exact absurd ht (hh t)

/-! ### Building -/

theorem buildDist_eff {L : Lib B} {t : DistType} {f : BuildFault B} {w w' : World}
    {x : Option (Obj B)} (h : buildDistApprox L t f w = some (x, w')) :
    (x = none → Eff [] w [] w') ∧ ∀ o, x = some o → Eff [] w o.ids w' ∧ o.Usable := by
  unfold buildDistApprox at h
  have hm := make_eff L t f.isCtor w
  split at h
  · rename_i w1 e1
    rw [e1] at hm
    cases h
    rw [hm.1]
    exact ⟨fun _ => Eff.refl _ _, fun o h => by cases h⟩
  · rename_i o w1 e1
    rw [e1] at hm
    obtain ⟨e2, u, -⟩ := hm
    have hdes : ∀ {y : Option (Obj B)} {w2 : World},
        (o.destroy false w1).map (fun x => ((none : Option (Obj B)), x.2)) = some (y, w2) →
        y = none ∧ Eff [] w [] w2 := by
      intro y w2 hh
      rw [Option.map_eq_some_iff] at hh
      obtain ⟨⟨o', w3⟩, hd, he⟩ := hh
      cases he
      exact ⟨rfl, e2.trans (destroy_eff hd u.good).1⟩
    cases t with
    | uniform => cases h; exact ⟨(fun h => nomatch h), fun o h => by cases h; exact ⟨e2, u⟩⟩
    | foam => obtain ⟨rfl, h'⟩ := hdes h; exact ⟨fun _ => h', fun o h => by cases h⟩
    | vegas => obtain ⟨rfl, h'⟩ := hdes h; exact ⟨fun _ => h', fun o h => by cases h⟩
    | bubble =>
      simp only at h
      split at h
      · split at h
        · cases h
        · rename_i e he
          obtain ⟨h1, h2⟩ := Obj.live_some he
          cases h
          refine ⟨(fun h => nomatch h), fun o h => ?_⟩
          cases h
          refine ⟨e2.trans ?_, u.1, _, rfl, h2⟩
          rw [Obj.ids_some h1]
          exact eff_use (List.mem_singleton_self _) _
      · obtain ⟨rfl, h'⟩ := hdes h; exact ⟨fun _ => h', fun o h => by cases h⟩

theorem buildDist_ok (L : Lib B) (t : DistType) (f : BuildFault B) (w : World) :
    ∃ x w', buildDistApprox L t f w = some (x, w') ∧ (BuildOk t f ↔ x.isSome = true) := by
  unfold buildDistApprox BuildOk
  have hm := make_eff L t f.isCtor w
  split
  · rename_i w1 e1
    rw [e1] at hm
    obtain ⟨-, rfl, hf⟩ := hm
    refine ⟨_, _, rfl, ?_⟩
    cases f <;> simp_all [BuildFault.isCtor]
  · rename_i o w1 e1
    rw [e1] at hm
    obtain ⟨-, u, -, hn, -⟩ := hm
    obtain ⟨w2, hd⟩ := destroy_ok u false w1
    obtain ⟨e, he, -⟩ := u.live
    cases t with
    | uniform => exact ⟨_, _, rfl, by simp⟩
    | foam => simp only [hd, Option.map_some]; exact ⟨_, _, rfl, by simp⟩
    | vegas => simp only [hd, Option.map_some]; exact ⟨_, _, rfl, by simp⟩
    | bubble =>
      simp only [he, hd, Option.map_some]
      cases f with
      | none b => exact ⟨_, _, rfl, by simp⟩
      | ctor => exact ⟨_, _, rfl, by simp⟩
      | build => exact ⟨_, _, rfl, by simp⟩

/-! ### Generators -/

/-- The engines of a generator. -/
def Gen.ids (g : Gen B) : List ℕ := g.dist.toList.flatMap Obj.ids

/-- A generator without a distribution has its flag cleared, and the other way round. -/
def Gen.Good (g : Gen B) : Prop :=
  (g.valid = true → ∃ o, g.dist = some o ∧ o.Good) ∧ (g.valid = false → g.dist = none)

theorem Gen.ids_some {g : Gen B} {o : Obj B} (h : g.dist = some o) : g.ids = o.ids := by
  unfold Gen.ids
  rw [h]
  simp

theorem Gen.Good.obj {g : Gen B} (h : g.Good) {o : Obj B} (ho : g.dist = some o) :
    g.valid = true ∧ o.Good := by
  cases hv : g.valid with
  | false =>
    rw [h.2 hv] at ho
    cases ho
  | true =>
    obtain ⟨o', e, h'⟩ := h.1 hv
    rw [ho] at e
    cases e
    exact ⟨rfl, h'⟩

theorem gmake_eff {L : Lib B} {ev : Format.EventType} {w w' : World} {g : Gen B}
    (h : Gen.make L ev w = some (g, w')) :
    Eff [] w g.ids w' ∧ g.Good ∧ g.ev = ev ∧ g.valid = true ∧ ∃ o, g.dist = some o ∧ o.Usable := by
  unfold Gen.make at h
  have hm := make_eff L .uniform false w
  split at h
  · cases h
  · rename_i o w1 e1
    rw [e1] at hm
    obtain ⟨e2, u, -⟩ := hm
    cases h
    refine ⟨?_, ⟨fun _ => ⟨o, rfl, u.good⟩, fun h => by cases h⟩, rfl, rfl, o, rfl, u⟩
    rw [Gen.ids_some rfl]
    exact e2

theorem gmove_eff {L : Lib B} {g g1 g2 : Gen B} {w w' : World}
    (h : g.move L w = some (g1, g2, w')) (hg : g.Good) :
    Eff g.ids w (g1.ids ++ g2.ids) w' ∧ g1.Good ∧ g2.Good := by
  unfold Gen.move at h
  split at h
  · cases h
  · rename_i o ho
    split at h
    · cases h
    · rename_i o1 o2 w1 hm
      cases h
      obtain ⟨hv, hog⟩ := hg.obj ho
      obtain ⟨e1, u1, u2⟩ := move_eff hm hog
      rw [Gen.ids_some ho]
      refine ⟨?_, ⟨fun _ => ⟨_, rfl, u1.good⟩, fun h => by cases h⟩,
        ⟨fun _ => ⟨_, rfl, u2.good⟩, fun h => ?_⟩⟩
      · simpa [Gen.ids] using e1
      · rw [show g.valid = false from h] at hv
        cases hv

theorem gdestroy_eff {g : Gen B} {w w' : World} (h : g.destroy w = some w') (hg : g.Good) :
    Eff g.ids w [] w' := by
  unfold Gen.destroy at h
  split_ifs at h with hv
  · split at h
    · cases h
    · rename_i o ho
      rw [Option.map_eq_some_iff] at h
      obtain ⟨⟨o', w1⟩, hd, rfl⟩ := h
      rw [Gen.ids_some ho]
      exact (destroy_eff hd (hg.obj ho).2).1
  · cases h
    have := hg.2 (by simpa using hv)
    unfold Gen.ids
    rw [this]
    exact Eff.refl _ _

theorem gbuild_eff {L : Lib B} {g g' : Gen B} {t : DistType} {f : BuildFault B} {n : ℕ}
    {w w' : World} {b : Bool} (h : g.build L t f n w = some (g', b, w')) (hg : g.Good) :
    Eff g.ids w g'.ids w' ∧ g'.Good := by
  unfold Gen.build at h
  split at h
  · cases h
  · rename_i o ho
    rw [Gen.ids_some ho]
    split at h
    · cases h
    · rename_i o1 w1 hd
      obtain ⟨e1, -⟩ := destroy_eff hd (hg.obj ho).2
      split at h
      · cases h
      · rename_i w2 hb
        cases h
        exact ⟨e1.trans ((buildDist_eff hb).1 rfl), fun h => by simp at h, fun _ => rfl⟩
      · rename_i o2 w2 hb
        obtain ⟨e2, u2⟩ := (buildDist_eff hb).2 _ rfl
        split at h
        · cases h
        · rename_i o3 w3 hr
          cases h
          obtain ⟨e3, u3⟩ := relocate_eff hr u2
          refine ⟨?_, fun _ => ⟨_, rfl, u3.good⟩, fun h => by cases h⟩
          rw [Gen.ids_some rfl]
          exact e1.trans (e2.trans e3)

theorem gread_eff {L : Lib B} {g g' : Gen B} {is is' : IStream} {f : ReadFault B} {k b : Bool}
    {w w' : World} (h : g.read L is f k w = some (g', is', b, w')) (hg : g.Good) :
    Eff g.ids w g'.ids w' ∧ g'.Good := by
  unfold Gen.read at h
  split at h
  · cases h
  · rename_i o ho
    rw [Option.map_eq_some_iff] at h
    obtain ⟨r, hr, e⟩ := h
    cases e
    obtain ⟨hv, hog⟩ := hg.obj ho
    obtain ⟨e1, h1⟩ := read_eff hr hog
    rw [Gen.ids_some ho]
    refine ⟨?_, fun _ => ⟨_, rfl, h1⟩, fun h => ?_⟩
    · rw [Gen.ids_some rfl]
      exact e1
    · rw [show g.valid = false from h] at hv
      cases hv

theorem gwrite_eff {L : Lib B} {g : Gen B} {os os' : OStream} {w w' : World}
    (h : g.write L os w = some (os', w')) : Eff g.ids w g.ids w' := by
  unfold Gen.write at h
  split at h
  · cases h
  · rename_i o ho
    rw [Gen.ids_some ho]
    exact write_eff h

theorem gdraw_eff {g : Gen B} {w w' : World} {x : Option (Source B)}
    (h : g.draw w = some (x, w')) : Eff g.ids w g.ids w' := by
  unfold Gen.draw at h
  split at h
  · cases h
  · rename_i o ho
    rw [Gen.ids_some ho]
    exact draw_eff h

theorem gprime_eff {g : Gen B} {w w' : World} {x : Option (Source B)}
    (h : g.prime w = some (x, w')) : Eff g.ids w g.ids w' := by
  unfold Gen.prime at h
  split at h
  · cases h
  · rename_i o ho
    rw [Gen.ids_some ho]
    rw [prime_draw] at h
    exact draw_eff h

/-! ### Histories -/

/-- The engines of all generators. -/
def State.ids (s : State B) : List ℕ := s.gens.flatMap fun g => g.toList.flatMap Gen.ids

/-- The invariant of all histories. -/
def Inv (s : State B) : Prop :=
  (∀ g, some g ∈ s.gens → g.Good) ∧ WI s.ids s.world

theorem flatMap_set {α β : Type} (f : α → List β) (l : List α) {i : ℕ} {x : α}
    (h : l[i]? = some x) :
    (l.flatMap f).Perm (f x ++ (l.eraseIdx i).flatMap f) ∧
    ∀ y, ((l.set i y).flatMap f).Perm (f y ++ (l.eraseIdx i).flatMap f) := by
  induction l generalizing i with
  | nil => simp at h
  | cons a l ih =>
    cases i with
    | zero =>
      simp only [List.getElem?_cons_zero, Option.some.injEq] at h
      subst h
      simp
    | succ i =>
      simp only [List.getElem?_cons_succ] at h
      obtain ⟨h1, h2⟩ := ih h
      simp only [List.flatMap_cons, List.eraseIdx_cons_succ, List.set_cons_succ]
      refine ⟨(h1.append_left _).trans ?_, fun y => ((h2 y).append_left _).trans ?_⟩
      · rw [← List.append_assoc, ← List.append_assoc]
        exact List.perm_append_comm.append_right _
      · rw [← List.append_assoc, ← List.append_assoc]
        exact List.perm_append_comm.append_right _

theorem get_some {s : State B} {i : ℕ} {g : Gen B} (h : s.get i = some g) :
    s.gens[i]? = some (some g) := by
  unfold State.get at h
  rw [List.getD_eq_getElem?_getD] at h
  cases hh : s.gens[i]? with
  | none => rw [hh] at h; cases h
  | some x => rw [hh] at h; exact congrArg some h

theorem inv_set {s : State B} (hs : Inv s) {i : ℕ} {g : Gen B} (hg : s.get i = some g)
    {g' : Option (Gen B)} {w' : World} (he : Eff g.ids s.world (g'.toList.flatMap Gen.ids) w')
    (hg' : ∀ x, g' = some x → x.Good) : Inv (s.set i g' w') := by
  obtain ⟨p1, p2⟩ := flatMap_set (fun g : Option (Gen B) => g.toList.flatMap Gen.ids) s.gens
    (get_some hg)
  refine ⟨fun x hx => ?_, ?_⟩
  · rcases List.mem_or_eq_of_mem_set hx with h | h
    · exact hs.1 x h
    · exact hg' x h.symm
  · refine (he _ (hs.2.perm ?_)).perm (p2 g').symm
    refine p1.trans ?_
    simp

theorem Inv.good {s : State B} (hs : Inv s) {i : ℕ} {g : Gen B} (hg : s.get i = some g) :
    g.Good := hs.1 g (List.mem_of_getElem? (get_some hg))

theorem step_inv {L : Lib B} {s s' : State B} {o : Op B} (hs : Inv s) (h : step L s o = some s') :
    Inv s' := by
  cases o with
  | make ev =>
    simp only [step, Option.map_eq_some_iff] at h
    obtain ⟨⟨g, w⟩, hm, rfl⟩ := h
    obtain ⟨e, hg, -⟩ := gmake_eff hm
    refine ⟨fun x hx => ?_, ?_⟩
    · simp only [List.mem_append, List.mem_singleton, Option.some.injEq] at hx
      rcases hx with hx | rfl
      · exact hs.1 x hx
      · exact hg
    · have := e s.ids (by simpa using hs.2)
      refine this.perm ?_
      simp only [State.ids, List.flatMap_append, List.flatMap_cons, List.flatMap_nil,
        List.append_nil, Option.toList_some]
      exact List.perm_append_comm
  | move i =>
    simp only [step, Option.bind_eq_bind, Option.bind_eq_some_iff] at h
    obtain ⟨g, hg, ⟨g1, g2, w⟩, hm, h⟩ := h
    cases h
    obtain ⟨e, k1, k2⟩ := gmove_eff hm (hs.good hg)
    obtain ⟨p1, p2⟩ := flatMap_set (fun g : Option (Gen B) => g.toList.flatMap Gen.ids) s.gens
      (get_some hg)
    refine ⟨fun x hx => ?_, ?_⟩
    · simp only [List.mem_append, List.mem_singleton, Option.some.injEq] at hx
      rcases hx with hx | rfl
      · rcases List.mem_or_eq_of_mem_set hx with h | h
        · exact hs.1 x h
        · simp only [Option.some.injEq] at h
          exact h ▸ k2
      · exact k1
    · have p1' : s.ids.Perm (g.ids ++ (s.gens.eraseIdx i).flatMap
          fun g : Option (Gen B) => g.toList.flatMap Gen.ids) := by
        refine p1.trans ?_
        simp
      have := e _ (hs.2.perm p1')
      refine this.perm ?_
      simp only [State.ids, List.flatMap_append, List.flatMap_cons, List.flatMap_nil,
        List.append_nil, Option.toList_some]
      refine List.Perm.symm ?_
      refine List.perm_append_comm.trans ?_
      rw [List.append_assoc]
      refine List.Perm.append_left _ ((p2 _).trans ?_)
      simp
  | build i t f n =>
    simp only [step, Option.bind_eq_bind, Option.bind_eq_some_iff] at h
    obtain ⟨g, hg, ⟨g1, b, w⟩, hm, h⟩ := h
    cases h
    obtain ⟨e, k⟩ := gbuild_eff hm (hs.good hg)
    exact inv_set hs hg (by simpa using e) (by rintro x h; cases h; exact k)
  | read i is f k =>
    simp only [step, Option.bind_eq_bind, Option.bind_eq_some_iff] at h
    obtain ⟨g, hg, ⟨g1, is', b, w⟩, hm, h⟩ := h
    cases h
    obtain ⟨e, k⟩ := gread_eff hm (hs.good hg)
    exact inv_set hs hg (by simpa using e) (by rintro x h; cases h; exact k)
  | write i os =>
    simp only [step, Option.bind_eq_bind, Option.bind_eq_some_iff] at h
    obtain ⟨g, hg, ⟨os', w⟩, hm, h⟩ := h
    cases h
    exact inv_set hs hg (by simpa using gwrite_eff hm) (by rintro x h; cases h; exact hs.good hg)
  | draw i =>
    simp only [step, Option.bind_eq_bind, Option.bind_eq_some_iff] at h
    obtain ⟨g, hg, ⟨x, w⟩, hm, h⟩ := h
    cases h
    exact inv_set hs hg (by simpa using gdraw_eff hm) (by rintro x h; cases h; exact hs.good hg)
  | prime i =>
    simp only [step, Option.bind_eq_bind, Option.bind_eq_some_iff] at h
    obtain ⟨g, hg, ⟨x, w⟩, hm, h⟩ := h
    cases h
    exact inv_set hs hg (by simpa using gprime_eff hm) (by rintro x h; cases h; exact hs.good hg)
  | destroy i =>
    simp only [step, Option.bind_eq_bind, Option.bind_eq_some_iff] at h
    obtain ⟨g, hg, w, hm, h⟩ := h
    cases h
    exact inv_set hs hg (by simpa using gdestroy_eff hm (hs.good hg)) (by rintro x h; cases h)

theorem run_inv {L : Lib B} {os : List (Op B)} {s s' : State B} (hs : Inv s)
    (h : run L os s = some s') : Inv s' := by
  induction os generalizing s with
  | nil => cases h; exact hs
  | cons o os ih =>
    simp only [run, Option.bind_eq_some_iff] at h
    obtain ⟨s1, h1, h2⟩ := h
    exact ih (step_inv hs h1) h2

theorem init_inv : Inv (State.init : State B) := by
  refine ⟨fun g hg => absurd hg List.not_mem_nil, List.nodup_nil, ?_, ?_, ?_⟩
  · intro i hi; exact absurd hi List.not_mem_nil
  · intro i hi; exact absurd hi (Nat.not_lt_zero i)
  · intro i _; rfl

/-! ### Disciplined histories -/

/-- What a status says about the generator. -/
def Fits : Status → Option (Gen B) → Prop
  | .usable ev, g => ∃ x o, g = some x ∧ x.ev = ev ∧ x.valid = true ∧ x.dist = some o ∧ o.Usable
  | .spoilt, g => ∃ x, g = some x ∧ (x.valid = false ∨
      ∃ o, x.dist = some o ∧ o.valid = false)
  | .gone, g => g = none

/-- All generators are as the client thinks. -/
def Agree (S : List Status) (s : State B) : Prop := List.Forall₂ Fits S s.gens

theorem Agree.get {S : List Status} {s : State B} (h : Agree S s) {i : ℕ} {x : Status}
    (hx : S[i]? = some x) : Fits x (s.get i) := by
  unfold Agree at h
  unfold State.get
  rw [List.getD_eq_getElem?_getD]
  generalize s.gens = l at h
  revert hx i
  induction h with
  | nil => intro i hx; simp at hx
  | cons h1 _ ih =>
    intro i hx
    cases i with
    | zero => simp only [List.getElem?_cons_zero, Option.some.injEq] at hx ⊢; subst hx; exact h1
    | succ i => simp only [List.getElem?_cons_succ] at hx ⊢; exact ih hx

theorem Agree.set {S : List Status} {s : State B} (h : Agree S s) (i : ℕ) {x : Status}
    {g : Option (Gen B)} (hx : Fits x g) (w : World) : Agree (S.set i x) (s.set i g w) := by
  unfold Agree State.set at *
  simp only
  generalize s.gens = l at h
  revert i
  induction h with
  | nil => intro i; exact .nil
  | cons h1 h2 ih =>
    intro i
    cases i with
    | zero => exact .cons hx h2
    | succ i => exact .cons h1 (ih i)

theorem Agree.set' {S : List Status} {s : State B} (h : Agree S s) {i : ℕ} {x : Status}
    (hS : S[i]? = some x) {g : Option (Gen B)} (hx : Fits x g) (w : World) : Agree S (s.set i g w) := by
  have := h.set i hx w
  have e : S.set i x = S := by
    apply List.ext_getElem?
    intro j
    rw [List.getElem?_set]
    split_ifs with h1 h2
    · subst h1; exact hS.symm
    · subst h1; rw [List.getElem?_eq_none (by omega)]
    · rfl
  rwa [e] at this

theorem Agree.append {S : List Status} {l : List (Option (Gen B))}
    (h : List.Forall₂ Fits S l) {x : Status} {g : Option (Gen B)} (hx : Fits x g) :
    List.Forall₂ Fits (S ++ [x]) (l ++ [g]) :=
  List.rel_append h (.cons hx .nil)

theorem next_step (L : Lib B) {S S' : List Status} {o : Op B} {s : State B} (hn : Next S o S')
    (h : Agree S s) : ∃ s', step L s o = some s' ∧ Agree S' s' := by
  cases hn with
  | make ev =>
    have hm := make_eff L .uniform false s.world
    cases e : Obj.make L .uniform false s.world with
    | mk x w =>
      rw [e] at hm
      cases x with
      | none => exact absurd hm.2.1 (by simp)
      | some o =>
        refine ⟨⟨s.gens ++ [some ⟨ev, true, some o⟩], w⟩, ?_, ?_⟩
        · simp only [step, Gen.make, e, Option.map_some]
        · exact Agree.append h ⟨_, o, rfl, rfl, rfl, rfl, hm.2.1⟩
  | @move i ev hS =>
    obtain ⟨g, o, hg, rfl, hv, ho, u⟩ := h.get hS
    obtain ⟨⟨o1, o2, w1⟩, hm⟩ := move_ok L u s.world
    obtain ⟨-, u1, u2⟩ := move_eff hm u.good
    refine ⟨⟨(s.gens.set i (some { g with dist := some o2 })) ++
      [some ⟨g.ev, true, some o1⟩], w1⟩, ?_, ?_⟩
    · simp only [step, hg, Gen.move, ho, hm, Option.bind_eq_bind, Option.bind_some]
    · refine Agree.append ?_ ⟨_, o1, rfl, rfl, rfl, rfl, u1⟩
      exact h.set' (g := some { g with dist := some o2 }) hS ⟨_, o2, rfl, rfl, hv, rfl, u2⟩ w1
  | @build i ev t f n hS hb =>
    obtain ⟨g, o, hg, rfl, hv, ho, u⟩ := h.get hS
    obtain ⟨w1, hd⟩ := destroy_ok u false s.world
    obtain ⟨x, w2, hb1, hb2⟩ := buildDist_ok L t f w1
    obtain ⟨o', rfl⟩ := Option.isSome_iff_exists.1 (hb2.1 hb)
    obtain ⟨-, u1⟩ := (buildDist_eff hb1).2 _ rfl
    obtain ⟨⟨o2, w3⟩, hr⟩ := relocate_ok L n u1 w2
    refine ⟨s.set i (some ⟨g.ev, true, some o2⟩) w3, ?_, h.set' hS ?_ _⟩
    · simp only [step, hg, Gen.build, ho, hd, hb1, hr, Option.bind_eq_bind, Option.bind_some]
    · exact ⟨_, o2, rfl, rfl, rfl, rfl, (relocate_eff hr u1).2⟩
  | @buildThrows i ev t f n hS hb =>
    obtain ⟨g, o, hg, rfl, hv, ho, u⟩ := h.get hS
    obtain ⟨w1, hd⟩ := destroy_ok u false s.world
    obtain ⟨x, w2, hb1, hb2⟩ := buildDist_ok L t f w1
    have hx : x = none := by
      cases x with
      | none => rfl
      | some x => exact absurd (hb2.2 rfl) hb
    subst hx
    refine ⟨s.set i (some ⟨g.ev, false, none⟩) w2, ?_, h.set (x := .spoilt) i ⟨_, rfl, .inl rfl⟩ _⟩
    simp only [step, hg, Gen.build, ho, hd, hb1, Option.bind_eq_bind, Option.bind_some]
  | @read i ev is f k hS hb =>
    obtain ⟨g, o, hg, rfl, hv, ho, u⟩ := h.get hS
    obtain ⟨r, hr, h1, -⟩ := read_ok L (ev := g.ev) u is f k s.world
    refine ⟨s.set i (some { g with dist := some r.obj }) r.world, ?_, h.set' hS ?_ _⟩
    · simp only [step, hg, Gen.read, ho, hr, Option.map_some, Option.bind_eq_bind, Option.bind_some]
    · exact ⟨_, r.obj, rfl, rfl, hv, rfl, h1 hb⟩
  | @readSpoils i ev is f hS hb =>
    obtain ⟨g, o, hg, rfl, hv, ho, u⟩ := h.get hS
    obtain ⟨r, hr, -, h2⟩ := read_ok L (ev := g.ev) u is f false s.world
    refine ⟨s.set i (some { g with dist := some r.obj }) r.world, ?_, h.set i ?_ _⟩
    · simp only [step, hg, Gen.read, ho, hr, Option.map_some, Option.bind_eq_bind, Option.bind_some]
    · exact ⟨_, rfl, .inr ⟨_, rfl, (h2 hb rfl).1⟩⟩
  | @write i ev os hS =>
    obtain ⟨g, o, hg, rfl, hv, ho, u⟩ := h.get hS
    obtain ⟨⟨os', w⟩, hw⟩ := write_ok L (dim g.ev) u os s.world
    refine ⟨s.set i (some g) w, ?_, h.set' hS ⟨_, o, rfl, rfl, hv, ho, u⟩ _⟩
    simp only [step, hg, Gen.write, ho, hw, Option.bind_eq_bind, Option.bind_some]
  | @draw i ev hS =>
    obtain ⟨g, o, hg, rfl, hv, ho, u⟩ := h.get hS
    obtain ⟨⟨x, w⟩, hw⟩ := draw_ok u s.world
    refine ⟨s.set i (some g) w, ?_, h.set' hS ⟨_, o, rfl, rfl, hv, ho, u⟩ _⟩
    simp only [step, hg, Gen.draw, ho, hw, Option.bind_eq_bind, Option.bind_some]
  | @prime i ev hS =>
    obtain ⟨g, o, hg, rfl, hv, ho, u⟩ := h.get hS
    obtain ⟨⟨x, w⟩, hw⟩ := draw_ok u s.world
    refine ⟨s.set i (some g) w, ?_, h.set' hS ⟨_, o, rfl, rfl, hv, ho, u⟩ _⟩
    simp only [step, hg, Gen.prime, ho, prime_draw, hw, Option.bind_eq_bind, Option.bind_some]
  | @destroy i ev hS =>
    obtain ⟨g, o, hg, rfl, hv, ho, u⟩ := h.get hS
    obtain ⟨w, hd⟩ := destroy_ok u false s.world
    refine ⟨s.set i none w, ?_, h.set (x := .gone) (g := none) i rfl _⟩
    simp only [step, hg, Gen.destroy, hv, if_true, ho, hd, Option.map_some, Option.bind_eq_bind,
      Option.bind_some]
  | @destroySpoilt i hS =>
    obtain ⟨g, hg, h'⟩ := h.get hS
    have : ∃ w, g.destroy s.world = some w := by
      unfold Gen.destroy
      split_ifs with hv
      · rcases h' with h' | ⟨o, ho, hov⟩
        · rw [h'] at hv; cases hv
        · rw [ho]
          simp [Obj.destroy, hov]
      · exact ⟨_, rfl⟩
    obtain ⟨w, hd⟩ := this
    refine ⟨s.set i none w, ?_, h.set (x := .gone) (g := none) i rfl _⟩
    simp only [step, hg, hd, Option.bind_eq_bind, Option.bind_some]

theorem follows_run (L : Lib B) {S S' : List Status} {os : List (Op B)} {s : State B}
    (hf : Follows S os S') (h : Agree S s) : ∃ s', run L os s = some s' ∧ Agree S' s' := by
  induction hf generalizing s with
  | nil S => exact ⟨s, rfl, h⟩
  | cons hn _ ih =>
    obtain ⟨s1, h1, h2⟩ := next_step L hn h
    obtain ⟨s2, h3, h4⟩ := ih h2
    exact ⟨s2, by simp only [run, h1, Option.bind_some, h3], h4⟩

end Sidis.Dist
