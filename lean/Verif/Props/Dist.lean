import Verif.Lemmas.Dist

/-!
# C48, C49: lifetimes and serialisation of generators
-/

namespace Sidis.Props

open Sidis.Dist Sidis.Dist.Spec

variable {B : Type}

/-! ### C48: lifetimes -/

/-- C48: in every history without undefined behaviour, disciplined or not, each engine is
constructed, then used, then destroyed, at most once and in this order; and when all generators are
destroyed so is every engine that was ever constructed. -/
theorem c48_lifecycle (L : Lib B) (ops : List (Op B)) (s : State B)
    (h : run L ops .init = some s) :
    (∀ i, Unborn s.world.log i ∨ Alive s.world.log i ∨ Done s.world.log i) ∧
    ((∀ g ∈ s.gens, g = none) → ∀ i, Unborn s.world.log i ∨ Done s.world.log i) := by
  have hi := (run_inv init_inv h).2
  refine ⟨fun i => ?_, fun hn i => ?_⟩
  · by_cases h1 : i < s.world.next
    · by_cases h2 : i ∈ s.ids
      · exact .inr (.inl (hi.alive i h2))
      · exact .inr (.inr (hi.done i h1 h2))
    · exact .inl (hi.unborn i (not_lt.1 h1))
  · by_cases h1 : i < s.world.next
    · refine .inr (hi.done i h1 fun hc => ?_)
      unfold State.ids at hc
      rw [List.mem_flatMap] at hc
      obtain ⟨g, hg, hc⟩ := hc
      rw [hn g hg] at hc
      exact absurd hc List.not_mem_nil
    · exact .inl (hi.unborn i (not_lt.1 h1))

/-- Full statement: no history has undefined behaviour.  This is false (see the refutations below).
Proved: no disciplined history has, where a generator whose `build_dist` threw or whose `read_dist`
met an unknown type is only destroyed; and if it ends with every generator destroyed, every engine
was destroyed exactly once. -/
theorem c48_no_ub_partial (L : Lib B) (ops : List (Op B)) (S : List Status)
    (h : Follows [] ops S) :
    ∃ s, run L ops .init = some s ∧
      ((∀ x ∈ S, x = .gone) → ∀ i, Unborn s.world.log i ∨ Done s.world.log i) := by
  obtain ⟨s, hr, ha⟩ := follows_run L h (s := .init) .nil
  refine ⟨s, hr, fun hg => (c48_lifecycle L ops s hr).2 fun g hgm => ?_⟩
  unfold Agree at ha
  obtain ⟨i, hi, rfl⟩ := List.getElem_of_mem hgm
  have hl := ha.length_eq
  have := (List.forall₂_iff_get.1 ha).2 i (by omega) hi
  simp only [List.get_eq_getElem] at this
  rw [hg _ (List.getElem_mem (by omega))] at this
  exact this

/-- A library whose generators have no state. -/
def unitLib : Lib Unit := ⟨(), fun _ => (), fun _ => [], fun _ bs => ((), bs, false)⟩

/-- Non-vacuity: a disciplined history with a build that throws, a move, a successful build, a
failed read and drawing. -/
example : Follows [] ([.make .nrad, .build 0 .bubble .build 1, .destroy 0, .make .rad,
    .build 1 .bubble (.none ()) 2, .move 1, .destroy 1, .draw 2, .read 2 ⟨[1, 2, 3], false⟩ .none true,
    .draw 2, .destroy 2] : List (Op Unit)) [.gone, .gone, .gone] := by
  refine .cons (.make _ _) (.cons (.buildThrows (ev := .nrad) rfl ?_) (.cons (.destroySpoilt rfl)
    (.cons (.make _ _) (.cons (.build (ev := .rad) rfl (.inr ⟨rfl, _, rfl⟩))
    (.cons (.move (ev := .rad) rfl)
    (.cons (.destroy (ev := .rad) rfl) (.cons (.draw (ev := .rad) rfl)
    (.cons (.read (ev := .rad) rfl ?_) (.cons (.draw (ev := .rad) rfl)
    (.cons (.destroy (ev := .rad) rfl) (.nil _)))))))))))
  · rintro (h | ⟨-, b, h⟩) <;> cases h
  · rintro ⟨t, h, -⟩
    simp [header] at h

/-- Drawing from a generator after `build_dist` threw is undefined behaviour. -/
theorem c48_draw_after_throw_refuted (L : Lib B) (ev : Format.EventType) :
    run L [.make ev, .build 0 .bubble .build 0, .draw 0] .init = none := by
  cases ev <;> rfl

/-- Moving a generator after `build_dist` threw is undefined behaviour. -/
theorem c48_move_after_throw_refuted (L : Lib B) (ev : Format.EventType) :
    run L [.make ev, .build 0 .bubble .build 0, .move 0] .init = none := by
  cases ev <;> rfl

/-- Trying `build_dist` again after it threw is undefined behaviour: the destructor of the
distribution is called a second time. -/
theorem c48_rebuild_after_throw_refuted (L : Lib B) (ev : Format.EventType) (b : B) (n : ℕ) :
    run L [.make ev, .build 0 .bubble .build 0, .build 0 .bubble (.none b) n] .init = none := by
  cases ev <;> rfl

/-- The twelve bytes of a header. -/
def headerBytes (t D : ℕ) : List UInt8 := leBytes 4 t ++ leBytes 8 D

/-- After `read_dist` has met an unknown type, drawing from a generator that was built is undefined
behaviour. -/
theorem c48_draw_after_unknown_refuted (L : Lib B) (b : B) :
    run L [.make .nrad, .build 0 .bubble (.none b) 0,
      .read 0 ⟨headerBytes 4 6, false⟩ .none false, .draw 0] .init = none := by
  rfl

/-- If the store of the destructor does not survive, destroying a generator whose `read_dist` has met
an unknown type destroys the engine a second time. -/
theorem c48_unknown_kept_refuted (L : Lib B) :
    run L [.make .nrad, .read 0 ⟨headerBytes 4 6, false⟩ .none true, .destroy 0] .init = none := by
  rfl

/-! #### The programs -/

/-- What `initialize` does with its generators (main.cpp 575-632): each is built and, unless that
throws, its prime is printed, it is written, and it is destroyed at the end of the loop body. -/
def initHistory : ℕ → List (Format.EventType × BuildFault B × ℕ × OStream) → List (Op B)
  | _, [] => []
  | i, (ev, f, n, os) :: r =>
    [.make ev, .build i .bubble f n] ++
      match f with
      | .none _ => [.prime i, .write i os, .destroy i] ++ initHistory (i + 1) r
      | _ => [.destroy i]

theorem init_follows (S : List Status) (hS : ∀ x ∈ S, x = .gone)
    (l : List (Format.EventType × BuildFault B × ℕ × OStream)) :
    ∃ S', Follows S (initHistory S.length l) S' ∧ ∀ x ∈ S', x = Status.gone := by
  induction l generalizing S with
  | nil => exact ⟨S, .nil _, hS⟩
  | cons a r ih =>
    obtain ⟨ev, f, n, os⟩ := a
    have h0 : (S ++ [Status.usable ev])[S.length]? = some (.usable ev) := by simp
    have e1 : ∀ x y, (S ++ [x]).set S.length y = S ++ [y] := by simp
    have hg : ∀ x ∈ S ++ [Status.gone], x = Status.gone := by
      intro x hx
      rcases List.mem_append.1 hx with h | h
      · exact hS x h
      · exact List.mem_singleton.1 h
    have hbad : ¬ BuildOk .bubble f → ∃ S', Follows S ([.make ev, .build S.length .bubble f n] ++
        [.destroy S.length]) S' ∧ ∀ x ∈ S', x = Status.gone := by
      intro hb
      refine ⟨S ++ [.gone], .cons (.make _ _) (.cons (.buildThrows h0 hb) ?_), hg⟩
      rw [e1]
      have := Next.destroySpoilt (B := B) (S := S ++ [.spoilt]) (i := S.length) (by simp)
      rw [e1] at this
      exact .cons this (.nil _)
    cases f with
    | ctor => exact hbad (by rintro (h | ⟨-, b, h⟩) <;> cases h)
    | build => exact hbad (by rintro (h | ⟨-, b, h⟩) <;> cases h)
    | none b =>
      obtain ⟨S', h1, h2⟩ := ih (S ++ [.gone]) hg
      refine ⟨S', ?_, h2⟩
      refine .cons (.make _ _) (.cons (.build h0 (.inr ⟨rfl, _, rfl⟩)) (.cons (.prime h0)
        (.cons (.write h0) ?_)))
      have := Next.destroy (B := B) h0
      rw [e1] at this
      refine .cons this ?_
      simpa using h1

/-- C48 for `initialize`: whatever event types are enabled, wherever building throws and whatever
happens to the streams, there is no undefined behaviour and every engine is destroyed exactly
once. -/
theorem c48_initialize (L : Lib B) (l : List (Format.EventType × BuildFault B × ℕ × OStream)) :
    ∃ s, run L (initHistory 0 l) .init = some s ∧
      ∀ i, Unborn s.world.log i ∨ Done s.world.log i := by
  obtain ⟨S, h1, h2⟩ := init_follows [] (by simp) l
  obtain ⟨s, h3, h4⟩ := c48_no_ub_partial L _ S h1
  exact ⟨s, h3, h4 h2⟩

/-- `read_dist` succeeds. -/
def ReadOk (L : Lib B) (ev : Format.EventType) (is : IStream) (f : ReadFault B) : Prop :=
  header is = some (2, dim ev) ∧ (match f with | .none => True | _ => False) ∧
    (L.read L.empty (is.data.drop 12)).2.2 = false

/-- The new numbers of `k` generators that are moved one after the other, the next number being
`n`. -/
def renumber (n k : ℕ) : List ℕ := List.range' n k

open Classical in
/-- What `generate` does with its generators (main.cpp 741-775 and 917-1050).  `vec` are the numbers
of the generators in the vector `gens`, `n` is the number of the next one.  Each generator read from
the file is moved into a temporary and from there into the vector, which moves the generators already
there if it has to be enlarged (`grow`); the temporary and the generator are destroyed at the end of
the loop body; a failure destroys what there is.  Afterwards events are drawn from the elements `ds`
of the vector, and in the end it is destroyed. -/
noncomputable def genHistory (L : Lib B) (ds : List ℕ) :
    List ℕ → ℕ → List (Format.EventType × IStream × ReadFault B × Bool) → List (Op B)
  | vec, _, [] => (ds.flatMap fun d => (vec[d]?).toList.map Op.draw) ++ vec.map Op.destroy
  | vec, n, (ev, is, f, grow) :: r =>
    [.make ev, .read n is f false] ++
      if ReadOk L ev is f then
        [.prime n, .move n, .move (n + 1)] ++
          if grow then
            vec.map Op.move ++ (vec.map Op.destroy ++ ([.destroy (n + 1), .destroy n] ++
              genHistory L ds (renumber (n + 3) vec.length ++ [n + 2]) (n + 3 + vec.length) r))
          else [.destroy (n + 1), .destroy n] ++ genHistory L ds (vec ++ [n + 2]) (n + 3) r
      else [.destroy n] ++ vec.map Op.destroy

theorem follows_append {S S' S'' : List Status} {a b : List (Op B)} (h : Follows S a S')
    (h' : Follows S' b S'') : Follows S (a ++ b) S'' := by
  induction h with
  | nil => exact h'
  | cons hn _ ih => exact .cons hn (ih h')

/-- Exactly the generators with the numbers in `vec` exist, and they are usable. -/
structure Tidy (S : List Status) (vec : List ℕ) : Prop where
  nodup : vec.Nodup
  lt : ∀ i ∈ vec, i < S.length
  usable : ∀ i ∈ vec, ∃ ev, S[i]? = some (.usable ev)
  gone : ∀ i, i < S.length → i ∉ vec → S[i]? = some .gone

theorem Tidy.perm {S : List Status} {a b : List ℕ} (h : Tidy S a) (p : a.Perm b) : Tidy S b :=
  ⟨p.nodup_iff.1 h.nodup, fun i hi => h.lt i (p.mem_iff.2 hi), fun i hi => h.usable i (p.mem_iff.2 hi),
    fun i hi hn => h.gone i hi fun hc => hn (p.mem_iff.1 hc)⟩

theorem Tidy.nil_gone {S : List Status} (h : Tidy S []) : ∀ x ∈ S, x = .gone := by
  intro x hx
  obtain ⟨i, hi, rfl⟩ := List.getElem_of_mem hx
  have := h.gone i hi (by simp)
  rw [List.getElem?_eq_getElem hi] at this
  exact Option.some.inj this

theorem Tidy.destroy {S : List Status} {i : ℕ} {vec : List ℕ} (h : Tidy S (i :: vec)) :
    Next S (.destroy i : Op B) (S.set i .gone) ∧ Tidy (S.set i .gone) vec := by
  obtain ⟨ev, he⟩ := h.usable i (List.mem_cons_self ..)
  have hn := List.nodup_cons.1 h.nodup
  refine ⟨.destroy he, hn.2, ?_, ?_, ?_⟩
  · intro j hj
    rw [List.length_set]
    exact h.lt j (List.mem_cons_of_mem _ hj)
  · intro j hj
    have : i ≠ j := fun e => hn.1 (e ▸ hj)
    rw [List.getElem?_set_ne this]
    exact h.usable j (List.mem_cons_of_mem _ hj)
  · intro j hj hnj
    rw [List.length_set] at hj
    by_cases e : i = j
    · subst e
      rw [List.getElem?_set_self hj]
    · rw [List.getElem?_set_ne e]
      refine h.gone j hj ?_
      simp only [List.mem_cons, not_or]
      exact ⟨fun e' => e e'.symm, hnj⟩

theorem Tidy.destroyAll {S : List Status} {vec rest : List ℕ} (h : Tidy S (vec ++ rest)) :
    ∃ S', Follows S (vec.map Op.destroy : List (Op B)) S' ∧ Tidy S' rest ∧ S'.length = S.length := by
  induction vec generalizing S with
  | nil => exact ⟨S, .nil _, h, rfl⟩
  | cons i vec ih =>
    obtain ⟨h1, h2⟩ := Tidy.destroy (B := B) h
    obtain ⟨S', h3, h4, h5⟩ := ih h2
    exact ⟨S', .cons h1 h3, h4, by rw [h5, List.length_set]⟩

theorem Tidy.add {S : List Status} {vec : List ℕ} (h : Tidy S vec) (ev : Format.EventType) :
    Tidy (S ++ [.usable ev]) (vec ++ [S.length]) := by
  refine ⟨?_, ?_, ?_, ?_⟩
  · rw [List.nodup_append]
    refine ⟨h.nodup, List.nodup_singleton _, ?_⟩
    intro a ha b hb e
    have := h.lt a ha
    rw [List.mem_singleton] at hb
    omega
  · intro i hi
    rw [List.length_append, List.length_singleton]
    rcases List.mem_append.1 hi with hi | hi
    · have := h.lt i hi; omega
    · rw [List.mem_singleton] at hi; omega
  · intro i hi
    rcases List.mem_append.1 hi with hi | hi
    · rw [List.getElem?_append_left (h.lt i hi)]
      exact h.usable i hi
    · rw [List.mem_singleton] at hi
      subst hi
      exact ⟨ev, by simp⟩
  · intro i hi hn
    simp only [List.mem_append, List.mem_singleton, not_or] at hn
    rw [List.length_append, List.length_singleton] at hi
    rw [List.getElem?_append_left (by omega)]
    exact h.gone i (by omega) hn.1

theorem Tidy.moveAll {S : List Status} {vec all : List ℕ} (h : Tidy S all) (hv : ∀ i ∈ vec, i ∈ all) :
    ∃ S', Follows S (vec.map Op.move : List (Op B)) S' ∧
      Tidy S' (all ++ List.range' S.length vec.length) ∧ S'.length = S.length + vec.length := by
  induction vec generalizing S all with
  | nil => exact ⟨S, .nil _, by simpa using h, rfl⟩
  | cons i vec ih =>
    obtain ⟨ev, he⟩ := h.usable i (hv i (List.mem_cons_self ..))
    obtain ⟨S', h1, h2, h3⟩ := ih (h.add ev) (fun j hj => List.mem_append_left _
      (hv j (List.mem_cons_of_mem _ hj)))
    refine ⟨S', .cons (.move he) h1, ?_, ?_⟩
    · simp only [List.length_append, List.length_singleton] at h2
      simp only [List.length_cons, List.range'_succ]
      rwa [List.append_assoc] at h2
    · rw [h3]
      simp only [List.length_append, List.length_cons, List.length_nil]
      omega

theorem Tidy.draws {S : List Status} {vec : List ℕ} (h : Tidy S vec) (ds : List ℕ) :
    Follows S (ds.flatMap fun d => (vec[d]?).toList.map Op.draw : List (Op B)) S := by
  induction ds with
  | nil => exact .nil _
  | cons d ds ih =>
    simp only [List.flatMap_cons]
    refine follows_append ?_ ih
    cases hd : vec[d]? with
    | none => exact .nil _
    | some i =>
      obtain ⟨ev, he⟩ := h.usable i (List.mem_of_getElem? hd)
      exact .cons (.draw he) (.nil _)

theorem gen_follows (L : Lib B) (ds : List ℕ) (S : List Status) (vec : List ℕ) (h : Tidy S vec)
    (l : List (Format.EventType × IStream × ReadFault B × Bool)) :
    ∃ S', Follows S (genHistory L ds vec S.length l) S' ∧ ∀ x ∈ S', x = Status.gone := by
  induction l generalizing S vec with
  | nil =>
    obtain ⟨S', h1, h2, -⟩ := Tidy.destroyAll (B := B) (rest := []) (by simpa using h)
    exact ⟨S', follows_append (h.draws ds) h1, h2.nil_gone⟩
  | cons a r ih =>
    obtain ⟨ev, is, f, grow⟩ := a
    have h1 := h.add ev
    have h0 : (S ++ [Status.usable ev])[S.length]? = some (.usable ev) := by simp
    have e1 : ∀ x y, (S ++ [x]).set S.length y = S ++ [y] := by simp
    by_cases hok : ReadOk L ev is f
    · have hsp : ¬ ReadSpoils ev is f := by
        rintro ⟨t, ht, hc⟩
        rw [hok.1] at ht
        simp only [Option.some.injEq, Prod.mk.injEq, and_true] at ht
        subst ht
        rcases hc with hc | ⟨-, rfl⟩
        · omega
        · exact hok.2.1
      have h01 : (S ++ [Status.usable ev] ++ [Status.usable ev])[S.length + 1]? =
          some (.usable ev) := by simp
      have hstart : ∀ {ops S'}, Follows (S ++ [.usable ev] ++ [.usable ev] ++ [.usable ev]) ops S' →
          Follows S ([.make ev, .read S.length is f false] ++
            ([.prime S.length, .move S.length, .move (S.length + 1)] ++ ops)) S' := fun ho =>
        .cons (.make _ _) (.cons (.read h0 hsp) (.cons (.prime h0) (.cons (.move h0)
          (.cons (.move h01) ho))))
      have h2 := (h1.add ev).add ev
      simp only [List.length_append, List.length_singleton] at h2
      unfold genHistory
      rw [if_pos hok]
      cases grow with
      | true =>
        rw [if_pos rfl]
        obtain ⟨S1, f1, t1, l1⟩ := h2.moveAll (B := B) (vec := vec) (fun i hi => by simp [hi])
        simp only [List.length_append, List.length_singleton] at t1 l1
        have t1' : Tidy S1 (vec ++ ((S.length + 1) :: S.length ::
            (renumber (S.length + 3) vec.length ++ [S.length + 2]))) := by
          refine t1.perm ?_
          simp only [renumber, List.append_assoc]
          refine List.Perm.append_left _ ?_
          simp only [List.cons_append, List.nil_append]
          refine (List.Perm.swap _ _ _).trans (List.Perm.cons _ (List.Perm.cons _ ?_))
          exact List.perm_append_comm (l₁ := [S.length + 2])
        obtain ⟨S2, f2, t2, l2⟩ := t1'.destroyAll (B := B)
        obtain ⟨n3, t3⟩ := t2.destroy (B := B)
        obtain ⟨n4, t4⟩ := t3.destroy (B := B)
        obtain ⟨S', f4, hg⟩ := ih _ _ t4
        refine ⟨S', hstart ?_, hg⟩
        rw [List.length_set, List.length_set, l2, l1] at f4
        exact follows_append f1 (follows_append f2 (.cons n3 (.cons n4 f4)))
      | false =>
        rw [if_neg (by simp)]
        have t1 : Tidy (S ++ [.usable ev] ++ [.usable ev] ++ [.usable ev])
            ((S.length + 1) :: S.length :: (vec ++ [S.length + 2])) := by
          refine h2.perm ?_
          simp only [List.append_assoc, List.cons_append, List.nil_append]
          refine List.Perm.trans List.perm_middle ?_
          refine List.Perm.trans (List.Perm.cons _ List.perm_middle) ?_
          exact List.Perm.swap _ _ _
        obtain ⟨n3, t3⟩ := t1.destroy (B := B)
        obtain ⟨n4, t4⟩ := t3.destroy (B := B)
        obtain ⟨S', f4, hg⟩ := ih _ _ t4
        refine ⟨S', hstart ?_, hg⟩
        simp only [List.length_set, List.length_append, List.length_singleton] at f4
        exact .cons n3 (.cons n4 f4)
    · unfold genHistory
      rw [if_neg hok]
      have key : ∀ {x : Status}, Next (B := B) (S ++ [.usable ev]) (.read S.length is f false) (S ++ [x]) →
          Next (B := B) (S ++ [x]) (.destroy S.length) (S ++ [.gone]) →
          ∃ S', Follows S ([.make ev, .read S.length is f false] ++ ([.destroy S.length] ++
            vec.map Op.destroy)) S' ∧ ∀ y ∈ S', y = Status.gone := by
        intro x hr hd
        have t1 : Tidy (S ++ [.usable ev]) (S.length :: vec) :=
          h1.perm (List.perm_append_comm (l₂ := [S.length]))
        have t2 := (t1.destroy (B := B)).2
        rw [e1] at t2
        obtain ⟨S', f3, t3, -⟩ := Tidy.destroyAll (B := B) (rest := []) (by simpa using t2)
        exact ⟨S', .cons (.make _ _) (.cons hr (.cons hd f3)), t3.nil_gone⟩
      by_cases hsp : ReadSpoils ev is f
      · have hr := Next.readSpoils (B := B) h0 hsp
        rw [e1] at hr
        have hd := Next.destroySpoilt (B := B) (S := S ++ [.spoilt]) (i := S.length) (by simp)
        rw [e1] at hd
        exact key hr hd
      · have hd := Next.destroy (B := B) h0
        rw [e1] at hd
        exact key (.read h0 hsp) hd

/-- C48 for `generate`: whatever the file contains, wherever reading fails and however the vector
grows, there is no undefined behaviour and every engine is destroyed exactly once (provided that the
last store of the destructor of `Dist` survives). -/
theorem c48_generate_partial (L : Lib B) (ds : List ℕ)
    (l : List (Format.EventType × IStream × ReadFault B × Bool)) :
    ∃ s, run L (genHistory L ds [] 0 l) .init = some s ∧
      ∀ i, Unborn s.world.log i ∨ Done s.world.log i := by
  obtain ⟨S, h1, h2⟩ := gen_follows L ds [] [] ⟨List.nodup_nil, by simp, by simp, by simp⟩ l
  obtain ⟨s, h3, h4⟩ := c48_no_ub_partial L _ S h1
  exact ⟨s, h3, h4 h2⟩

/-! #### Contents -/

theorem relocate_spec (L : Lib B) (n : ℕ) (o : Obj B) (e : Engine B) (he : o.engine = some e)
    (ht : e.type = o.type) (hv : o.valid = true) (w : World) :
    ∃ o' e' w', o.relocate L n w = some (o', w') ∧ o'.valid = true ∧ o'.type = o.type ∧
      o'.engine = some e' ∧ e'.type = o.type ∧ e'.val = e.val := by
  induction n generalizing o e w with
  | zero => exact ⟨o, e, w, rfl, hv, rfl, he, ht, rfl⟩
  | succ n ih =>
    have hl : o.live = some e := by
      unfold Obj.live
      rw [he]
      simp [Option.filter, ht]
    unfold Obj.relocate Obj.move
    simp only [hl, Engine.make]
    unfold Obj.destroy
    simp only [hv, if_true]
    have hl' : Obj.live ⟨o.type, true, some { e with val := L.movedFrom e.val }⟩ =
        some { e with val := L.movedFrom e.val } := by
      unfold Obj.live
      simp [Option.filter, ht]
    rw [hl']
    obtain ⟨o', e', w', h1, h2, h3, h4, h5, h6⟩ := ih
      ⟨o.type, true, some ⟨(w.put (.use e.id)).next, o.type, e.val⟩⟩ _ rfl rfl rfl _
    exact ⟨o', e', w', h1, h2, h3, h4, h5, h6⟩

theorem drawsFrom_iff {g : Gen B} {o : Obj B} (hg : g.dist = some o) (ho : o.Usable) (b : B) :
    DrawsFrom g b ↔ ∃ e, o.engine = some e ∧ e.type = .bubble ∧ e.val = b := by
  obtain ⟨hv, e, he, ht⟩ := ho
  have hl : o.live = some e := by
    unfold Obj.live
    rw [he]
    simp [Option.filter, ht]
  constructor
  · intro h
    obtain ⟨w', hw⟩ := h ⟨0, []⟩
    unfold Gen.draw Obj.draw at hw
    rw [hg] at hw
    simp only [hl] at hw
    split at hw
    · cases hw
    · cases hw
    · rename_i hty
      simp only [Option.some.injEq, Prod.mk.injEq, Source.bubble.injEq] at hw
      exact ⟨e, he, by rw [ht, hty], hw.1⟩
    · cases hw
  · rintro ⟨e', he', ht', rfl⟩ w
    rw [he] at he'
    cases he'
    unfold Gen.draw Obj.draw
    rw [hg]
    have : o.type = .bubble := by rw [← ht, ht']
    simp only [this, hl]
    exact ⟨_, rfl⟩

/-- Moving a generator succeeds and the new one draws from what the old one drew from. -/
theorem c48_move_keeps (L : Lib B) (g : Gen B) (o : Obj B) (hg : g.dist = some o) (ho : o.Usable)
    (w : World) :
    ∃ g' old w', g.move L w = some (g', old, w') ∧ g'.ev = g.ev ∧ (∃ o', g'.dist = some o' ∧ o'.Usable) ∧
      ∀ b, DrawsFrom g b → DrawsFrom g' b := by
  obtain ⟨hv, e, he, ht⟩ := id ho
  have hl : o.live = some e := by
    unfold Obj.live
    rw [he]
    simp [Option.filter, ht]
  unfold Gen.move Obj.move
  rw [hg]
  simp only [hl, Engine.make]
  have hu : Obj.Usable (⟨o.type, true, some ⟨(w.put (.use e.id)).next, o.type, e.val⟩⟩ : Obj B) :=
    ⟨rfl, _, rfl, rfl⟩
  refine ⟨_, _, _, rfl, rfl, ⟨_, rfl, hu⟩, fun b hb => ?_⟩
  obtain ⟨e', he', ht', hv'⟩ := (drawsFrom_iff hg ho b).1 hb
  rw [he] at he'
  cases he'
  exact (drawsFrom_iff rfl hu b).2 ⟨_, rfl, by rw [← ht, ht'], hv'⟩

/-- After `build_dist` has returned, points are drawn from what was built, however often the result
was moved. -/
theorem c48_build_draws (L : Lib B) (g : Gen B) (o : Obj B) (hg : g.dist = some o) (ho : o.Usable)
    (b : B) (moves : ℕ) (w : World) :
    ∃ g' w', g.build L .bubble (.none b) moves w = some (g', false, w') ∧ g'.ev = g.ev ∧
      (∃ o', g'.dist = some o' ∧ o'.Usable) ∧ DrawsFrom g' b := by
  obtain ⟨w1, hd⟩ := destroy_ok ho false w
  unfold Gen.build
  rw [hg]
  simp only [hd]
  have hb : ∃ e w2, buildDistApprox L .bubble (.none b) w1 = some (some ⟨.bubble, true, some e⟩, w2) ∧
      e.type = .bubble ∧ e.val = b := ⟨⟨w1.next, .bubble, b⟩, _, rfl, rfl, rfl⟩
  obtain ⟨e, w2, h1, h2, h3⟩ := hb
  rw [h1]
  simp only
  obtain ⟨o', e', w3, k1, k2, k3, k4, k5, k6⟩ :=
    relocate_spec L moves ⟨.bubble, true, some e⟩ e rfl h2 rfl w2
  rw [k1]
  have hu : o'.Usable := ⟨k2, e', k4, by rw [k5, k3]⟩
  refine ⟨_, _, rfl, rfl, ⟨o', rfl, hu⟩, ?_⟩
  exact (drawsFrom_iff rfl hu b).2 ⟨e', k4, k5, by rw [k6, h3]⟩

/-! ### C49: serialisation -/

/-- The library reads back what it writes. -/
def RoundTrip (L : Lib B) : Prop := ∀ b b0 rest, L.read b0 (L.write b ++ rest) = (b, rest, false)

theorem length_le (k n : ℕ) : (leBytes k n).length = k := by
  induction k generalizing n with
  | zero => rfl
  | succ k ih => simp only [leBytes, List.length_cons, ih]

theorem ofLe_le {k n : ℕ} (h : n < 256 ^ k) : ofLe (leBytes k n) = n := by
  induction k generalizing n with
  | zero => simp only [Nat.pow_zero] at h; simp only [leBytes, ofLe]; omega
  | succ k ih =>
    have : n / 256 < 256 ^ k := by
      rw [Nat.div_lt_iff_lt_mul (by norm_num)]
      rwa [pow_succ] at h
    simp only [leBytes, ofLe, ih this]
    have e : (UInt8.ofNat (n % 256)).toNat = n % 256 := by
      simp
    rw [e]
    omega

/-- The bytes of a saved bubble distribution. -/
def saved (L : Lib B) (D : ℕ) (b : B) : List UInt8 := headerBytes 2 D ++ L.write b

theorem header_of (t D : ℕ) (ht : t < 256 ^ 4) (hD : D < 256 ^ 8) (rest : List UInt8) :
    header ⟨headerBytes t D ++ rest, false⟩ = some (t, D) ∧
    (headerBytes t D ++ rest).drop 12 = rest := by
  have l1 := length_le 4 t
  have l2 := length_le 8 D
  have l3 : (headerBytes t D).length = 12 := by
    rw [headerBytes, List.length_append, l1, l2]
  refine ⟨?_, ?_⟩
  · unfold header
    rw [if_pos ⟨rfl, by simp only [List.length_append, l3]; omega⟩]
    have e1 : (headerBytes t D ++ rest).take 4 = leBytes 4 t := by
      rw [headerBytes, List.append_assoc, List.take_left' l1]
    have e2 : ((headerBytes t D ++ rest).drop 4).take 8 = leBytes 8 D := by
      rw [headerBytes, List.append_assoc, List.drop_left' l1, List.take_left' l2]
    simp only [e1, e2, ofLe_le ht, ofLe_le hD]
  · rw [List.drop_left' l3]

/-- C49: `write` succeeds exactly for bubble distributions, on a stream that is good and has room
for all of the bytes; then these are the header and the state; otherwise the stream has failed. -/
theorem c49_write (L : Lib B) (D : ℕ) (o : Obj B) (ho : o.Usable) (os : OStream) (w : World) :
    ∃ os' w', o.write L D os w = some (os', w') ∧
      (os'.fail = false ↔ os.fail = false ∧ ∃ e, o.engine = some e ∧ e.type = .bubble ∧
        ∀ r, os.room = some r → (saved L D e.val).length ≤ r) ∧
      (os'.fail = false → ∃ e, o.engine = some e ∧ os'.data = os.data ++ saved L D e.val) := by
  obtain ⟨e, he, he'⟩ := ho.live
  have ht := (Obj.live_some he).2
  have hput : ∀ (s : OStream) (bs : List UInt8),
      ((s.put bs).fail = false ↔ s.fail = false ∧ ∀ r, s.room = some r → bs.length ≤ r) ∧
      ((s.put bs).fail = false → (s.put bs).data = s.data ++ bs ∧
        ∀ r, (s.put bs).room = some r ↔ s.room = some (r + bs.length)) := by
    rintro ⟨d, f, r⟩ bs
    unfold OStream.put
    cases f with
    | true => simp
    | false =>
      cases r with
      | none => simp
      | some r =>
        simp only [Bool.false_eq_true, if_false]
        split_ifs with hr
        · simp only [true_and, Option.some.injEq, forall_eq', true_iff, iff_true]
          refine ⟨hr, fun _ => fun r' => ?_⟩
          omega
        · simp only [Bool.true_eq_false, false_iff, Option.some.injEq, forall_eq', true_and,
            false_implies, and_true]
          exact hr
  have len : ∀ b, (saved L D b).length = 12 + (L.write b).length := by
    intro b
    rw [saved, headerBytes, List.length_append, List.length_append, length_le, length_le]
  obtain ⟨p1, q1⟩ := hput os (leBytes typeSize o.type.code)
  obtain ⟨p2, q2⟩ := hput (os.put (leBytes typeSize o.type.code)) (leBytes dimSize D)
  unfold Obj.write
  simp only [he]
  split_ifs with c1 c2
  · refine ⟨_, _, rfl, ?_, by simp⟩
    simp only [Bool.true_eq_false, false_iff]
    rintro ⟨h1, e', h2, h3, h4⟩
    have := p1.2 ⟨h1, fun r hr => ?_⟩
    · rw [this] at c1; cases c1
    · have := h4 r hr
      have l := len (e'.val)
      rw [length_le]
      simp only [typeSize]
      omega
  · refine ⟨_, _, rfl, ?_, by simp⟩
    simp only [Bool.true_eq_false, false_iff]
    rintro ⟨h1, e', h2, h3, h4⟩
    have c1' : (os.put (leBytes typeSize o.type.code)).fail = false := by simpa using c1
    have := p2.2 ⟨c1', fun r hr => ?_⟩
    · rw [this] at c2; cases c2
    · have := h4 _ (((q1 c1').2 r).1 hr)
      have l := len (e'.val)
      simp only [length_le, typeSize, dimSize] at *
      omega
  · have c1' : (os.put (leBytes typeSize o.type.code)).fail = false := by simpa using c1
    have c2' : ((os.put (leBytes typeSize o.type.code)).put (leBytes dimSize D)).fail = false := by
      simpa using c2
    have hbad : o.type ≠ .bubble → ¬ (os.fail = false ∧ ∃ e, o.engine = some e ∧ e.type = .bubble ∧
        ∀ r, os.room = some r → (saved L D e.val).length ≤ r) := by
      rintro hb ⟨-, e', h1, h2, -⟩
      rw [he'] at h1
      cases h1
      exact hb (ht ▸ h2)
    split
    · rename_i hb
      exact ⟨_, _, rfl, by simp only [Bool.true_eq_false, false_iff]; exact hbad (by simp [hb]), by simp⟩
    · rename_i hb
      exact ⟨_, _, rfl, by simp only [Bool.true_eq_false, false_iff]; exact hbad (by simp [hb]), by simp⟩
    · rename_i hb
      obtain ⟨p3, q3⟩ := hput ((os.put (leBytes typeSize o.type.code)).put (leBytes dimSize D))
        (L.write e.val)
      refine ⟨_, _, rfl, ?_, ?_⟩
      · rw [p3]
        constructor
        · rintro ⟨-, h⟩
          refine ⟨(p1.1 c1').1, e, he', ht.trans hb, fun r hr => ?_⟩
          have a1 := (p1.1 c1').2 r hr
          have r1 := ((q1 c1').2 (r - 4)).2 (by
            rw [hr, length_le]; simp only [length_le, typeSize] at *; congr 1; omega)
          have a2 := (p2.1 c2').2 _ r1
          have r2 := ((q2 c2').2 (r - 12)).2 (by
            rw [r1, length_le]; simp only [length_le, typeSize, dimSize] at *; congr 1; omega)
          have a3 := h _ r2
          have l := len e.val
          simp only [length_le, typeSize, dimSize] at *
          omega
        · rintro ⟨h1, e', h2, -, h4⟩
          rw [he'] at h2
          cases h2
          refine ⟨c2', fun r hr => ?_⟩
          have := h4 _ (((q1 c1').2 _).1 (((q2 c2').2 r).1 hr))
          have l := len e.val
          simp only [length_le, typeSize, dimSize] at *
          omega
      · intro hf
        refine ⟨e, he', ?_⟩
        rw [(q3 hf).1, (q2 c2').1, (q1 c1').1, hb]
        simp only [saved, headerBytes, List.append_assoc]
        rfl
    · rename_i hb
      exact ⟨_, _, rfl, by simp only [Bool.true_eq_false, false_iff]; exact hbad (by simp [hb]), by simp⟩

/-- C49: `read` succeeds exactly when the header is that of a bubble distribution of the right
dimension and the engine can be read, and then the distribution is the one that was read. -/
theorem c49_read (L : Lib B) (D : ℕ) (o : Obj B) (ho : o.Usable) (is : IStream) (f : ReadFault B)
    (k : Bool) (w : World) :
    ∃ r, o.read L D is f k w = some r ∧
      (r.is.fail = false ∧ r.threw = false ↔ header is = some (2, D) ∧ f = .none ∧
        (L.read L.empty (is.data.drop 12)).2.2 = false) ∧
      (r.threw = true ↔ header is = some (2, D) ∧ f ≠ .none) ∧
      (r.is.fail = false ∧ r.threw = false → r.obj.Usable ∧ r.obj.type = .bubble ∧
        (∃ e, r.obj.engine = some e ∧ e.val = (L.read L.empty (is.data.drop 12)).1) ∧
        r.is.data = (L.read L.empty (is.data.drop 12)).2.1) := by
  by_cases hh : ∃ t, header is = some (t, D)
  · obtain ⟨t, ht⟩ := hh
    rw [read_good_header L o f k w ht, ht]
    obtain ⟨w1, hd⟩ := destroy_ok ho k w
    rw [hd]
    simp only [Option.some.injEq, Prod.mk.injEq, and_true]
    split
    · rename_i hb
      have h2 := ofCode_bubble.1 hb
      split
      · exact ⟨_, rfl, by simp, by simp [h2], by simp⟩
      · refine ⟨_, rfl, ?_, by simp, fun _ => ⟨⟨rfl, _, rfl, rfl⟩, rfl, ⟨_, rfl, rfl⟩, rfl⟩⟩
        simp [h2]
      · exact ⟨_, rfl, by simp, by simp [h2], by simp⟩
    · rename_i t' ht' hb
      have h2 : t ≠ 2 := by
        rintro rfl
        cases hb
        exact absurd rfl ht'
      exact ⟨_, rfl, by simp [h2], by simp [h2], by simp⟩
    · rename_i hb
      have h2 := ofCode_none.1 hb
      have h3 : t ≠ 2 := by omega
      exact ⟨_, rfl, by simp [h3], by simp [h3], by simp⟩
  · push Not at hh
    obtain ⟨is', e, hf⟩ := read_bad_header L D o is f k w hh
    refine ⟨_, e, ?_, by simp [hh 2], by simp [hf]⟩
    simp only [hf, Bool.true_eq_false, false_and, false_iff]
    rintro ⟨h, -⟩
    exact hh _ h

/-- C49: a stream with a truncated header or of another dimension sets `failbit` and leaves the
distribution as it was. -/
theorem c49_untouched (L : Lib B) (D : ℕ) (o : Obj B) (is : IStream) (f : ReadFault B)
    (k : Bool) (w : World) (h : is.fail = true ∨ is.data.length < 12 ∨
      ofLe ((is.data.drop 4).take 8) ≠ D) :
    ∃ is', o.read L D is f k w = some ⟨o, is', false, w⟩ ∧ is'.fail = true := by
  apply read_bad_header
  intro t ht
  unfold header at ht
  split_ifs at ht with hc
  simp only [Option.some.injEq, Prod.mk.injEq] at ht
  rcases h with h | h | h
  · rw [h] at hc; simp at hc
  · omega
  · exact h ht.2

/-- C49: a stream of another known type sets `failbit` and leaves a fresh distribution of that type;
one of an unknown type sets `failbit` and leaves no distribution. -/
theorem c49_other_types (L : Lib B) (D : ℕ) (o : Obj B) (ho : o.Usable) (is : IStream)
    (f : ReadFault B) (k : Bool) (w : World) (t : ℕ) (h : header is = some (t, D)) (ht : t ≠ 2) :
    ∃ r, o.read L D is f k w = some r ∧ r.is.fail = true ∧ r.threw = false ∧
      (t ≤ 3 → r.obj.Usable ∧ r.obj.type.code = t) ∧
      (3 < t → r.obj.engine = none ∧ r.obj.type = o.type ∧ r.obj.valid = k) := by
  rw [read_good_header L o f k w h]
  obtain ⟨w1, hd⟩ := destroy_ok ho k w
  rw [hd]
  simp only
  split
  · rename_i hb
    exact absurd (ofCode_bubble.1 hb) ht
  · rename_i t' ht' hb
    refine ⟨_, rfl, rfl, rfl, fun _ => ⟨⟨rfl, _, rfl, rfl⟩, ?_⟩, fun h3 => ?_⟩
    · unfold DistType.ofCode at hb
      split_ifs at hb <;> cases hb <;> simp_all [DistType.code]
    · rw [ofCode_none.2 h3] at hb
      cases hb
  · rename_i hb
    have h3 := ofCode_none.1 hb
    exact ⟨_, rfl, rfl, rfl, fun h => by omega, fun _ => ⟨rfl, rfl, rfl⟩⟩

/-- C49: what `write` produces for a bubble distribution of dimension `D` is restored by `read` into
any distribution of that dimension. -/
theorem c49_roundtrip (L : Lib B) (hL : RoundTrip L) (D : ℕ) (hD : D < 256 ^ 8) (o o' : Obj B)
    (ho : o.Usable) (ho' : o'.Usable) (e : Engine B) (he : o.engine = some e)
    (ht : e.type = .bubble) (w w' : World) (k : Bool) (rest : List UInt8) :
    ∃ os w1 r, o.write L D ⟨[], false, none⟩ w = some (os, w1) ∧ os.fail = false ∧
      o'.read L D ⟨os.data ++ rest, false⟩ .none k w' = some r ∧ r.is = ⟨rest, false⟩ ∧
      r.threw = false ∧ r.obj.Usable ∧ r.obj.type = .bubble ∧
      ∃ e', r.obj.engine = some e' ∧ e'.val = e.val := by
  obtain ⟨os, w1, h1, h2, h3⟩ := c49_write L D o ho ⟨[], false, none⟩ w
  have hf : os.fail = false := h2.2 ⟨rfl, e, he, ht, by simp⟩
  obtain ⟨e1, he1, hd⟩ := h3 hf
  rw [he] at he1
  cases he1
  simp only [List.nil_append] at hd
  obtain ⟨r, h4, h5, -, h6⟩ := c49_read L D o' ho' ⟨os.data ++ rest, false⟩ .none k w'
  rw [hd] at h4 h5 h6
  obtain ⟨g1, g2⟩ := header_of 2 D (by norm_num) hD (L.write e.val ++ rest)
  simp only [saved, List.append_assoc, g1, g2, hL e.val L.empty rest] at h4 h5 h6
  obtain ⟨k1, k2⟩ := h5.2 (by simp)
  obtain ⟨k3, k4, k5, k6⟩ := h6 ⟨k1, k2⟩
  refine ⟨os, w1, r, h1, hf, ?_, ?_, k2, k3, k4, k5⟩
  · rw [hd]
    simp only [saved, List.append_assoc]
    exact h4
  · cases hr : r.is with
    | mk d f =>
      rw [hr] at k1 k6
      simp only at k1 k6
      rw [k1, k6]

/-- C49: if the library notices that its bytes are truncated, then every proper initial segment of a
saved distribution sets `failbit`. -/
theorem c49_truncated (L : Lib B) (hL : ∀ b b0 n, n < (L.write b).length →
      (L.read b0 ((L.write b).take n)).2.2 = true) (D : ℕ) (hD : D < 256 ^ 8) (b : B) (n : ℕ)
    (hn : n < (saved L D b).length) (o : Obj B) (ho : o.Usable) (k : Bool) (w : World) :
    ∃ r, o.read L D ⟨(saved L D b).take n, false⟩ .none k w = some r ∧ r.is.fail = true := by
  obtain ⟨r, h1, h2, h3, -⟩ := c49_read L D o ho ⟨(saved L D b).take n, false⟩ .none k w
  refine ⟨r, h1, ?_⟩
  have ht : r.threw = false := by
    cases hh : r.threw with
    | false => rfl
    | true => exact absurd rfl (h3.1 hh).2
  by_contra hc
  obtain ⟨g1, -, g2⟩ := h2.1 ⟨by simpa using hc, ht⟩
  have l3 : (headerBytes 2 D).length = 12 := by
    rw [headerBytes, List.length_append, length_le, length_le]
  have h12 : 12 ≤ n := by
    unfold header at g1
    split_ifs at g1 with hl
    have := hl.2
    simp only [List.length_take] at this
    omega
  have e : ((saved L D b).take n).drop 12 = (L.write b).take (n - 12) := by
    rw [List.drop_take, saved, List.drop_left' l3]
  simp only [e] at g2
  rw [hL b L.empty (n - 12) ?_] at g2
  · cases g2
  · rw [saved, List.length_append, l3] at hn
    omega

/-- C49 for generators: a file written by a built generator restores its distribution in any usable
generator of the same event type, and the events are then drawn from the same engine state; in a
generator of the other event type reading fails and leaves it as it was. -/
theorem c49_generators (L : Lib B) (hL : RoundTrip L) (g g' : Gen B) (o o' : Obj B)
    (hg : g.dist = some o) (ho : o.Usable) (hg' : g'.dist = some o') (ho' : o'.Usable) (e : Engine B)
    (he : o.engine = some e) (ht : e.type = .bubble) (w w' : World) (k : Bool) (rest : List UInt8) :
    ∃ os w1, g.write L ⟨[], false, none⟩ w = some (os, w1) ∧ os.fail = false ∧
      (g'.ev = g.ev → ∃ g'' w2 w3, g'.read L ⟨os.data ++ rest, false⟩ .none k w' =
          some (g'', ⟨rest, false⟩, false, w2) ∧ g''.draw w2 = some (some (.bubble e.val), w3) ∧
          g''.ev = g'.ev ∧ g''.valid = g'.valid) ∧
      (g'.ev ≠ g.ev → ∃ is, g'.read L ⟨os.data ++ rest, false⟩ .none k w' =
          some (g', is, false, w') ∧ is.fail = true) := by
  have hD : ∀ ev, dim ev < 256 ^ 8 := by intro ev; cases ev <;> norm_num [dim]
  obtain ⟨os, w1, r, h1, h2, h3, h4, h5, h6, h7, e', h8, h9⟩ :=
    c49_roundtrip L hL (dim g.ev) (hD _) o o' ho ho' e he ht w w' k rest
  refine ⟨os, w1, by simp only [Gen.write, hg, h1], h2, fun hev => ?_, fun hev => ?_⟩
  · obtain ⟨e1, k1, k2⟩ := h6.live
    rw [h8] at k2
    cases k2
    refine ⟨{ g' with dist := some r.obj }, r.world, r.world.put (.use e'.id), ?_, ?_, rfl, rfl⟩
    · simp only [Gen.read, hg', hev, h3, Option.map_some, h4, h5]
    · simp only [Gen.draw, Obj.draw, h7, k1, h9]
  · obtain ⟨os', w1', q1, q2, q3⟩ := c49_write L (dim g.ev) o ho ⟨[], false, none⟩ w
    rw [h1] at q1
    cases q1
    obtain ⟨e1, he1, hd⟩ := q3 h2
    simp only [List.nil_append] at hd
    have hh : ∀ t, header ⟨os.data ++ rest, false⟩ ≠ some (t, dim g'.ev) := by
      intro t hc
      rw [hd, saved, List.append_assoc, (header_of 2 (dim g.ev) (by norm_num) (hD _) _).1] at hc
      simp only [Option.some.injEq, Prod.mk.injEq] at hc
      have := hc.2
      revert hev this
      cases g'.ev <;> cases g.ev <;> simp [dim]
    obtain ⟨is', q4, q5⟩ := read_bad_header L (dim g'.ev) o' ⟨os.data ++ rest, false⟩ .none k w' hh
    refine ⟨is', ?_, q5⟩
    simp only [Gen.read, hg', q4, Option.map_some]
    congr 2
    rw [← hg']

/-- A library whose generators have one byte of state. -/
def byteLib : Lib UInt8 := ⟨0, fun _ => 0, fun b => [b], fun b0 bs =>
  match bs with
  | [] => (b0, [], true)
  | b :: r => (b, r, false)⟩

/-- Non-vacuity of C49: the library satisfies the hypotheses of the round trip and of the truncation
theorem. -/
example : RoundTrip byteLib ∧ ∀ b b0 n, n < (byteLib.write b).length →
    (byteLib.read b0 ((byteLib.write b).take n)).2.2 = true := by
  refine ⟨fun _ _ _ => rfl, fun b b0 n hn => ?_⟩
  have : n = 0 := by simpa [byteLib] using hn
  subst this
  rfl

/-- A built non-radiative generator. -/
def builtGen (ev : Format.EventType) (b : UInt8) : Gen UInt8 :=
  ⟨ev, true, some ⟨.bubble, true, some ⟨7, .bubble, b⟩⟩⟩

/-- Non-vacuity: a generator that can be moved, rebuilt and drawn from. -/
example : (∃ o, (builtGen .nrad 42).dist = some o ∧ o.Usable) ∧ DrawsFrom (builtGen .nrad 42) 42 ∧
    ¬ DrawsFrom (builtGen .nrad 42) 43 := by
  refine ⟨⟨_, rfl, rfl, _, rfl, rfl⟩, fun w => ⟨_, rfl⟩, fun h => ?_⟩
  obtain ⟨w, hw⟩ := h ⟨0, []⟩
  have h1 : ((builtGen .nrad 42).draw ⟨0, []⟩).map Prod.fst = some (some (.bubble 42)) := by decide +kernel
  rw [hw] at h1
  exact absurd h1 (by simp)

/-- Non-vacuity of C49: the bytes of a file, reading it back, truncated and with another header. -/
example : (builtGen .nrad 42).write byteLib ⟨[], false, none⟩ ⟨8, []⟩ =
      some (⟨[2, 0, 0, 0, 6, 0, 0, 0, 0, 0, 0, 0, 42], false, none⟩, ⟨8, [.use 7]⟩) ∧
    ((builtGen .nrad 1).read byteLib ⟨[2, 0, 0, 0, 6, 0, 0, 0, 0, 0, 0, 0, 42, 5], false⟩ .none false
      ⟨8, []⟩).map (fun r => (r.1.dist.bind Obj.engine, r.2.1)) =
      some (some ⟨8, .bubble, 42⟩, ⟨[5], false⟩) ∧
    ((builtGen .rad 1).read byteLib ⟨[2, 0, 0, 0, 6, 0, 0, 0, 0, 0, 0, 0, 42, 5], false⟩ .none false
      ⟨8, []⟩).map (fun r => (r.1.dist.bind Obj.engine, r.2.1.fail)) =
      some (some ⟨7, .bubble, 1⟩, true) ∧
    ((builtGen .nrad 1).read byteLib ⟨[2, 0, 0, 0, 6, 0, 0, 0, 0, 0, 0, 0], false⟩ .none false
      ⟨8, []⟩).map (fun r => r.2.1.fail) = some true ∧
    (∃ o, (builtGen .nrad 42).dist = some o ∧ o.Usable) := by
  refine ⟨by decide +kernel, by decide +kernel, by decide +kernel, by decide +kernel, _, rfl, ?_⟩
  exact ⟨rfl, _, rfl, rfl⟩

/-- Non-vacuity of the histories of the programs: two distributions are initialised, then read again,
the second of which makes the vector grow, and two events are drawn from each. -/
example (os : OStream) : initHistory 0 ([(.nrad, .none (3 : UInt8), 1, os), (.rad, .build, 0, os)]) =
    [.make .nrad, .build 0 .bubble (.none 3) 1, .prime 0, .write 0 os, .destroy 0, .make .rad,
      .build 1 .bubble .build 0, .destroy 1] := rfl

@[inherit_doc initHistory] example : genHistory byteLib [0, 1, 1] [] 0
      [(.nrad, ⟨[2, 0, 0, 0, 6, 0, 0, 0, 0, 0, 0, 0, 42], false⟩, .none, true),
        (.rad, ⟨[2, 0, 0, 0, 9, 0, 0, 0, 0, 0, 0, 0, 43], false⟩, .none, true)] =
    [.make .nrad, .read 0 ⟨[2, 0, 0, 0, 6, 0, 0, 0, 0, 0, 0, 0, 42], false⟩ .none false, .prime 0,
      .move 0, .move 1, .destroy 1, .destroy 0,
      .make .rad, .read 3 ⟨[2, 0, 0, 0, 9, 0, 0, 0, 0, 0, 0, 0, 43], false⟩ .none false, .prime 3,
      .move 3, .move 4, .move 2, .destroy 2, .destroy 4, .destroy 3,
      .draw 6, .draw 5, .draw 5, .destroy 6, .destroy 5] := by
  have h1 : ReadOk byteLib .nrad ⟨[2, 0, 0, 0, 6, 0, 0, 0, 0, 0, 0, 0, 42], false⟩ .none :=
    ⟨by decide +kernel, trivial, rfl⟩
  have h2 : ReadOk byteLib .rad ⟨[2, 0, 0, 0, 9, 0, 0, 0, 0, 0, 0, 0, 43], false⟩ .none :=
    ⟨by decide +kernel, trivial, rfl⟩
  simp [genHistory, h1, h2, renumber, List.range']

end Sidis.Props
