import Verif.Spec.SfMask
import Mathlib.Data.List.TakeWhile
import Mathlib.Tactic.Basic

/-! # Lemmas about structure function filters -/

namespace Sidis.Lemmas.SfMask

open Sidis.SfMask Sidis.Spec
open Sidis.ParamStream (isSpace)

theorem sw_space {c : Char} (h : isSpace c = true) (s : List Char) :
    spacedWords (c :: s) = spacedWords s := by
  simp [spacedWords, List.splitOnP_cons, h]

theorem sw_skip (s : List Char) : spacedWords (s.dropWhile isSpace) = spacedWords s := by
  induction s with
  | nil => rfl
  | cons c s ih =>
    by_cases h : isSpace c = true
    · rw [sw_space h, List.dropWhile_cons, if_pos h, ih]
    · rw [List.dropWhile_cons, if_neg h]

theorem sw_split (s : List Char) : s.splitOnP isSpace =
    s.takeWhile (fun c => !isSpace c) ::
      ((s.dropWhile (fun c => !isSpace c)).splitOnP isSpace).tail := by
  induction s with
  | nil => simp [List.splitOnP_nil]
  | cons c s ih =>
    by_cases h : isSpace c = true
    · simp [List.splitOnP_cons, h]
    · simp only [Bool.not_eq_true] at h
      rw [List.splitOnP_cons]
      simp only [h, Bool.false_eq_true, if_false, Bool.not_false, List.takeWhile_cons, if_true,
        List.dropWhile_cons]
      rw [ih]
      rfl

theorem sw_cons {t : List Char} (ht : t ≠ []) (h0 : t.dropWhile isSpace = t) :
    spacedWords t = t.takeWhile (fun c => !isSpace c) ::
      spacedWords (t.dropWhile (fun c => !isSpace c)) ∧
      t.takeWhile (fun c => !isSpace c) ≠ [] := by
  have hne : t.takeWhile (fun c => !isSpace c) ≠ [] := by
    cases t with
    | nil => exact absurd rfl ht
    | cons c t =>
      by_cases h : isSpace c = true
      · rw [List.dropWhile_cons, if_pos h] at h0
        have := congrArg List.length h0
        have h2 := (List.dropWhile_sublist isSpace (l := t)).length_le
        simp at this
        omega
      · simp [h]
  refine ⟨?_, hne⟩
  have hhead : ∀ c u, t.dropWhile (fun c => !isSpace c) = c :: u → isSpace c = true := by
    intro c u hd
    have := List.head?_dropWhile_not (fun x : Char => !isSpace x) t
    rw [hd] at this
    simpa using this
  unfold spacedWords
  rw [sw_split]
  generalize t.takeWhile (fun c => !isSpace c) = u at *
  generalize t.dropWhile (fun c => !isSpace c) = d at *
  cases d with
  | nil => simp [List.splitOnP_nil, hne]
  | cons c v => simp [List.splitOnP_cons, hhead c v rfl, hne]

theorem readParts_eq : ∀ (fuel : ℕ) (s : List Char), s.length ≤ fuel →
    readParts fuel s = spacedWords s := by
  intro fuel
  induction fuel with
  | zero =>
    intro s h
    have : s = [] := List.length_eq_zero_iff.mp (by omega)
    subst this; rfl
  | succ n ih =>
    intro s h
    rw [readParts, ← sw_skip]
    have hlen := (List.dropWhile_sublist isSpace (l := s)).length_le
    have hid : (s.dropWhile isSpace).dropWhile isSpace = s.dropWhile isSpace := by
      induction s with
      | nil => rfl
      | cons c s ih' =>
        by_cases hc : isSpace c = true
        · simp only [List.dropWhile_cons, hc, if_true]
          exact ih' (by simp at h; omega) (List.dropWhile_sublist _).length_le
        · simp [hc]
    generalize s.dropWhile isSpace = t at *
    by_cases ht : t = []
    · simp [ht, spacedWords, List.splitOnP_nil]
    · obtain ⟨h1, h2⟩ := sw_cons ht hid
      simp only [ht, if_false]
      rw [h1, ih]
      have hl := congrArg List.length
        (List.takeWhile_append_dropWhile (p := fun c => !isSpace c) (l := t))
      rw [List.length_append] at hl
      have := List.length_pos_iff.mpr h2
      omega

/-- A mask of eighteen entries says for every structure function whether it is kept. -/
def keeps (m : Mask) (n : SfName) : Bool := m.getD n.number false

theorem of_maskSfSet {A : Type} (m : Mask) (sf : SfSet A) (n : SfName) (a : A) :
    n.of (maskSfSet m sf) a = if keeps m n then n.of sf a else .fin 0 := by
  cases n <;> rfl

theorem keeps_zipAnd {m m' : Mask} (h : m.length = 18) (h' : m'.length = 18) (n : SfName) :
    keeps (zipAnd m m') n = (keeps m n && keeps m' n) := by
  have hn : n.number < 18 := by cases n <;> decide
  unfold keeps zipAnd
  simp only [List.getD_eq_getElem?_getD, List.getElem?_zipWith,
    List.getElem?_eq_getElem (show n.number < m.length by omega),
    List.getElem?_eq_getElem (show n.number < m'.length by omega)]
  rfl

theorem zipAnd_length {m m' : Mask} (h : m.length = 18) (h' : m'.length = 18) :
    (zipAnd m m').length = 18 := by
  simp [zipAnd, h, h']

theorem keeps_all {m : Mask} (h : m.length = 18) (ha : m.all id = true) (n : SfName) :
    keeps m n = true := by
  have hn : n.number < 18 := by cases n <;> decide
  have := List.all_eq_true.mp ha (m[n.number]) (List.getElem_mem _)
  simpa [keeps, List.getD_eq_getElem?_getD,
    List.getElem?_eq_getElem (show n.number < m.length by omega)] using this

instance (a b : Char) : Decidable (letterFits a b) := by unfold letterFits; infer_instance

/-- The known filter words have the masks of their meaning. -/
theorem filterMask_known (r : List Char → Option (List Char)) {w : List Char} (hw : IsFilter w) :
    ∃ m, filterMask r w = .ok m ∧ m.length = 18 ∧ ∀ n, keeps m n = true ↔ Passes w n := by
  rcases hw with rfl | rfl | ⟨b, hb, t, ht, rfl⟩
  · refine ⟨maskLeading, rfl, rfl, fun n => ?_⟩
    constructor
    · intro h; left; exact ⟨rfl, by cases n <;> first | rfl | exact absurd h (by decide)⟩
    · rintro (⟨-, h⟩ | ⟨h, -⟩ | ⟨b, t, h, -⟩)
      · cases n <;> first | rfl | exact absurd h (by decide)
      · exact absurd h (by decide)
      · exact absurd (congrArg List.length h) (by simp)
  · refine ⟨maskSubleading, rfl, rfl, fun n => ?_⟩
    constructor
    · intro h; right; left; exact ⟨rfl, by cases n <;> first | rfl | exact absurd h (by decide)⟩
    · rintro (⟨h, -⟩ | ⟨-, h⟩ | ⟨b, t, h, -⟩)
      · exact absurd h (by decide)
      · cases n <;> first | rfl | exact absurd h (by decide)
      · exact absurd (congrArg List.length h) (by simp)
  · have key : ∀ b ∈ ['u', 'l', 'x'], ∀ t ∈ ['u', 'l', 't', 'p', 'x'], ∃ m,
        filterMask r [b, t] = .ok m ∧ m.length = 18 ∧
        ∀ n, keeps m n = true ↔ letterFits b n.beam ∧ letterFits t n.target := by
      intro b hb t ht
      simp only [List.mem_cons, List.not_mem_nil, or_false] at hb ht
      rcases hb with rfl | rfl | rfl <;> rcases ht with rfl | rfl | rfl | rfl | rfl <;>
        exact ⟨_, rfl, rfl, fun n => by cases n <;> decide⟩
    obtain ⟨m, h1, h2, h3⟩ := key b hb t ht
    refine ⟨m, h1, h2, fun n => (h3 n).trans ?_⟩
    constructor
    · intro h; exact .inr (.inr ⟨b, t, rfl, h⟩)
    · rintro (⟨h, -⟩ | ⟨h, -⟩ | ⟨b', t', h, h'⟩)
      · exact absurd (congrArg List.length h) (by simp)
      · exact absurd (congrArg List.length h) (by simp)
      · simp only [List.cons.injEq, and_true] at h
        obtain ⟨rfl, rfl⟩ := h
        exact h'

/-- Other words go to the regular expression. -/
theorem filterMask_other (r : List Char → Option (List Char)) {w : List Char} (hw : ¬ IsFilter w) :
    filterMask r w = match r w with
      | some group => (stoul group).bind fun idx =>
          if idx > numSf then .parseError
          else if idx < numSf then .ok ((List.replicate numSf false).set idx true)
          else .ub
      | none => .parseError := by
  have h : ∀ v, IsFilter v → w ≠ v := by rintro v hv rfl; exact hw hv
  have two : ∀ b ∈ ['u', 'l', 'x'], ∀ t ∈ ['u', 'l', 't', 'p', 'x'], IsFilter (String.ofList [b, t]).toList :=
    fun b hb t ht => .inr (.inr ⟨b, hb, t, ht, by simp⟩)
  unfold filterMask
  rw [if_neg (h _ (.inl rfl)), if_neg (h _ (.inr (.inl rfl))),
    if_neg (h "uu".toList (two 'u' (by decide) 'u' (by decide))),
    if_neg (h "ul".toList (two 'u' (by decide) 'l' (by decide))),
    if_neg (h "ut".toList (two 'u' (by decide) 't' (by decide))),
    if_neg (h "up".toList (two 'u' (by decide) 'p' (by decide))),
    if_neg (h "ux".toList (two 'u' (by decide) 'x' (by decide))),
    if_neg (h "lu".toList (two 'l' (by decide) 'u' (by decide))),
    if_neg (h "ll".toList (two 'l' (by decide) 'l' (by decide))),
    if_neg (h "lt".toList (two 'l' (by decide) 't' (by decide))),
    if_neg (h "lp".toList (two 'l' (by decide) 'p' (by decide))),
    if_neg (h "lx".toList (two 'l' (by decide) 'x' (by decide))),
    if_neg (h "xu".toList (two 'x' (by decide) 'u' (by decide))),
    if_neg (h "xl".toList (two 'x' (by decide) 'l' (by decide))),
    if_neg (h "xt".toList (two 'x' (by decide) 't' (by decide))),
    if_neg (h "xp".toList (two 'x' (by decide) 'p' (by decide))),
    if_neg (h "xx".toList (two 'x' (by decide) 'x' (by decide)))]
  cases r w <;> rfl

/-- The loop, when every word has a mask with a meaning. -/
theorem maskLoop_ok (r : List Char → Option (List Char)) (P : List Char → SfName → Prop) :
    ∀ (parts : List (List Char)) (mask : Mask), mask.length = 18 →
      (∀ w ∈ parts, ∃ m, filterMask r w = .ok m ∧ m.length = 18 ∧ ∀ n, keeps m n = true ↔ P w n) →
      ∃ m, maskLoop r parts mask = .ok m ∧ m.length = 18 ∧
        ∀ n, keeps m n = true ↔ keeps mask n = true ∧ ∀ w ∈ parts, P w n := by
  intro parts
  induction parts with
  | nil => intro mask h _; exact ⟨mask, rfl, h, by simp⟩
  | cons w parts ih =>
    intro mask h hw
    obtain ⟨m, h1, h2, h3⟩ := hw w (by simp)
    obtain ⟨m', h1', h2', h3'⟩ := ih (zipAnd mask m) (zipAnd_length h h2)
      fun v hv => hw v (by simp [hv])
    refine ⟨m', by simp [maskLoop, h1, Res.bind, h1'], h2', fun n => ?_⟩
    rw [h3' n, keeps_zipAnd h h2]
    simp [h3 n, and_assoc]

/-- A word that fails makes the loop fail, with this or an earlier failure. -/
theorem maskLoop_fail (r : List Char → Option (List Char)) :
    ∀ (parts : List (List Char)) (mask : Mask) (w : List Char), w ∈ parts →
      (∀ m, filterMask r w ≠ .ok m) → ∀ m, maskLoop r parts mask ≠ .ok m := by
  intro parts
  induction parts with
  | nil => intro _ w h; simp at h
  | cons v parts ih =>
    intro mask w hw hf m
    rw [maskLoop]
    rcases List.mem_cons.mp hw with rfl | hw
    · cases h : filterMask r w <;> simp [Res.bind]
      exact fun _ => hf _ h
    · cases h : filterMask r v <;> simp [Res.bind]
      exact ih _ w hw hf m

/-- When all failures among the words are of one kind, that is the failure of the loop. -/
theorem maskLoop_parse (r : List Char → Option (List Char)) :
    ∀ (parts : List (List Char)) (mask : Mask) (w : List Char), w ∈ parts →
      filterMask r w = .parseError →
      (∀ v ∈ parts, (∃ m, filterMask r v = .ok m) ∨ filterMask r v = .parseError) →
      maskLoop r parts mask = .parseError := by
  intro parts
  induction parts with
  | nil => intro _ w h; simp at h
  | cons v parts ih =>
    intro mask w hw hf hall
    rw [maskLoop]
    rcases hall v (by simp) with ⟨m, h⟩ | h
    · rw [h]
      rcases List.mem_cons.mp hw with rfl | hw
      · rw [hf] at h; cases h
      · exact ih _ w hw hf fun u hu => hall u (by simp [hu])
    · rw [h]; rfl

end Sidis.Lemmas.SfMask
