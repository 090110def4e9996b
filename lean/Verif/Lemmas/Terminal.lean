import Verif.Spec.Terminal
import Mathlib.Data.List.TakeWhile
import Mathlib.Data.List.DropRight

/-! # Lemmas about terminal output -/

namespace Sidis.Lemmas.Terminal

open Sidis.Terminal Spec

theorem words_space (s : List Char) : words (' ' :: s) = words s := by
  simp [words, List.splitOn, List.splitOnP_cons]

theorem words_skip (s : List Char) : words (skipSpaces s) = words s := by
  induction s with
  | nil => rfl
  | cons c s ih =>
    by_cases h : c = ' '
    · subst h
      rw [words_space]
      simpa [skipSpaces] using ih
    · simp [skipSpaces, h]

theorem words_split (u t : List Char) (hu : ∀ c ∈ u, c ≠ ' ') :
    (u ++ t).splitOn ' ' = ((t.splitOn ' ').head?.elim u (u ++ ·)) :: (t.splitOn ' ').tail := by
  induction u with
  | nil =>
    have : t.splitOn ' ' ≠ [] := List.splitOn_ne_nil _ _
    cases h : t.splitOn ' ' with
    | nil => exact absurd h this
    | cons a l => simp [h]
  | cons c u ih =>
    have ih := ih fun x hx => hu x (by simp [hx])
    have hc : c ≠ ' ' := hu c (by simp)
    have : t.splitOn ' ' ≠ [] := List.splitOn_ne_nil _ _
    cases h : t.splitOn ' ' with
    | nil => exact absurd h this
    | cons a l =>
      rw [h] at ih
      simp only [List.head?_cons, Option.elim_some, List.tail_cons] at ih ⊢
      rw [List.cons_append, List.splitOn, List.splitOnP_cons]
      simp only [beq_iff_eq, hc, if_false]
      rw [List.splitOn] at ih
      rw [ih]
      rfl

/-- A text that begins with a word. -/
theorem words_cons {s : List Char} (hs : s ≠ []) (h0 : skipSpaces s = s) :
    words s = s.takeWhile (· ≠ ' ') :: words (s.dropWhile (· ≠ ' ')) ∧
      s.takeWhile (· ≠ ' ') ≠ [] := by
  have hne : s.takeWhile (· ≠ ' ') ≠ [] := by
    cases s with
    | nil => exact absurd rfl hs
    | cons c s =>
      have : c ≠ ' ' := by
        rintro rfl
        have := congrArg List.length h0
        simp only [skipSpaces, List.dropWhile_cons, decide_true, if_true, List.length_cons] at this
        have h2 := (List.dropWhile_sublist (fun x : Char => decide (x = ' ')) (l := s)).length_le
        omega
      simp [this]
  refine ⟨?_, hne⟩
  have hu : ∀ c ∈ s.takeWhile (· ≠ ' '), c ≠ ' ' := by
    intro c hc
    simpa using List.mem_takeWhile_imp hc
  conv_lhs => rw [← List.takeWhile_append_dropWhile (p := (· ≠ ' ')) (l := s)]
  unfold words
  rw [words_split _ _ hu]
  have hhead : ∀ c t, s.dropWhile (· ≠ ' ') = c :: t → c = ' ' := by
    intro c t hd
    have := List.head?_dropWhile_not (fun x : Char => decide (x ≠ ' ')) s
    rw [hd] at this
    simpa using this
  generalize s.takeWhile (· ≠ ' ') = u at *
  generalize s.dropWhile (· ≠ ' ') = d at *
  cases d with
  | nil => simp [List.splitOn, List.splitOnP_nil, hne]
  | cons c t =>
    have hc : c = ' ' := hhead c t rfl
    subst hc
    simp [List.splitOn, List.splitOnP_cons, hne]

theorem skip_idem (s : List Char) : skipSpaces (skipSpaces s) = skipSpaces s :=
  List.dropWhile_idempotent _ s

theorem line_append {g : List (List Char)} (hg : g ≠ []) (w : List Char) :
    line (g ++ [w]) = line g ++ ' ' :: w := by
  induction g with
  | nil => exact absurd rfl hg
  | cons a g ih =>
    cases g with
    | nil => simp [line, List.intercalate, List.intersperse]
    | cons b g =>
      have := ih (by simp)
      simp only [line, List.intercalate, List.cons_append, List.intersperse_cons₂,
        List.flatten_cons, List.append_assoc] at this ⊢
      rw [this]

/-- The characters other than spaces. -/
def ink (s : List Char) : List Char := s.filter (· ≠ ' ')

theorem ink_append (a b : List Char) : ink (a ++ b) = ink a ++ ink b := List.filter_append ..

theorem ink_skip (s : List Char) : ink (skipSpaces s) = ink s := by
  induction s with
  | nil => rfl
  | cons c s ih =>
    by_cases h : c = ' '
    · subst h; simpa [skipSpaces, ink] using ih
    · simp [skipSpaces, h]

/-- Everything in the state, without spaces. -/
def total (s : SplitState) : List Char := ink s.prev.flatten ++ ink s.cur ++ ink s.rest

theorem step_total (width : ℕ) (s : SplitState) : total (splitStep width s) = total s := by
  have h1 : ink (s.rest.takeWhile (· ≠ ' ')) ++ ink (s.rest.dropWhile (· ≠ ' ')) = ink s.rest := by
    rw [← ink_append, List.takeWhile_append_dropWhile]
  have h2 : ink (s.rest.take width) ++ ink (s.rest.drop width) = ink s.rest := by
    rw [← ink_append, List.take_append_drop]
  have h3 : ∀ w, ink (' ' :: w) = ink w := fun w => by simp [ink]
  have h4 : ink [] = [] := rfl
  unfold total splitStep place
  simp only
  split_ifs with a b
  all_goals simp only [ink_append, ink_skip, List.flatten_append, List.flatten_cons,
    List.flatten_nil, List.append_nil, List.append_assoc, h1, h2, h3, h4, List.nil_append, if_true,
    Bool.false_eq_true, if_false] at *
  all_goals split_ifs <;> simp only [h1, h3, List.append_assoc]

/-- Every round after the first consumes part of the text. -/
theorem step_length (width : ℕ) (s : SplitState) (hs : s.rest ≠ [])
    (h0 : skipSpaces s.rest = s.rest) :
    (s.lineWidth ≠ 0 → (splitStep width s).rest.length < s.rest.length) ∧
      (splitStep width s).rest.length ≤ s.rest.length ∧ (splitStep width s).lineWidth ≠ 0 ∧
      skipSpaces (splitStep width s).rest = (splitStep width s).rest := by
  obtain ⟨-, hne⟩ := words_cons hs h0
  have hl := congrArg List.length
    (List.takeWhile_append_dropWhile (p := fun c => decide (c ≠ ' ')) (l := s.rest))
  rw [List.length_append] at hl
  have hpos : 0 < (s.rest.takeWhile (· ≠ ' ')).length := List.length_pos_iff.mpr hne
  have hskip : ∀ t : List Char, (skipSpaces t).length ≤ t.length := fun t =>
    (List.dropWhile_sublist _).length_le
  have hr : 0 < s.rest.length := List.length_pos_iff.mpr hs
  refine ⟨fun hlw => ?_, ?_, ?_, skip_idem _⟩
  · unfold splitStep place
    simp only [hlw, decide_false, Bool.false_eq_true, if_false]
    split_ifs
    all_goals
      refine lt_of_le_of_lt (hskip _) ?_
      simp only
      omega
  · unfold splitStep place
    simp only
    split_ifs
    · refine le_trans (hskip _) ?_
      rw [List.length_drop]; omega
    all_goals
      refine le_trans (hskip _) ?_
      simp only
      omega
  · unfold splitStep place
    simp only
    split_ifs <;> simp only <;> omega

theorem loop_ends (width : ℕ) : ∀ (fuel : ℕ) (s : SplitState),
    skipSpaces s.rest = s.rest → s.lineWidth ≠ 0 → s.rest.length ≤ fuel →
    ∃ r, splitLoop width fuel s = some r := by
  intro fuel
  induction fuel with
  | zero =>
    intro s _ _ h
    have : s.rest = [] := List.length_eq_zero_iff.mp (by omega)
    exact ⟨s.prev ++ [s.cur], by simp [splitLoop, this]⟩
  | succ n ih =>
    intro s h0 hlw h
    by_cases hs : s.rest = []
    · exact ⟨s.prev ++ [s.cur], by simp [splitLoop, hs]⟩
    · obtain ⟨h1, -, h2, h3⟩ := step_length width s hs h0
      have := h1 hlw
      obtain ⟨r, hr⟩ := ih (splitStep width s) h3 h2 (by omega)
      exact ⟨r, by rw [splitLoop, if_neg hs, hr]⟩

/-- Invariants of the loop carry over to its result. -/
theorem loop_invariant (width : ℕ) (P : SplitState → Prop)
    (hP : ∀ s, P s → s.rest ≠ [] → P (splitStep width s)) : ∀ (fuel : ℕ) (s : SplitState) r,
    P s → splitLoop width fuel s = some r →
      ∃ s', P s' ∧ s'.rest = [] ∧ r = s'.prev ++ [s'.cur] := by
  intro fuel
  induction fuel with
  | zero =>
    intro s r hs h
    rw [splitLoop] at h
    split_ifs at h with h0
    simp only [Option.some.injEq] at h
    exact ⟨s, hs, h0, h.symm⟩
  | succ n ih =>
    intro s r hs h
    rw [splitLoop] at h
    split_ifs at h with h0
    · simp only [Option.some.injEq] at h
      exact ⟨s, hs, h0, h.symm⟩
    · exact ih _ _ (hP s hs h0) h

/-- The lines so far, after the first word: `G` and `g` are the groups of words of the finished lines
and of the current line, `ws` all the words. -/
structure Fits (width : ℕ) (ws : List (List Char)) (s : SplitState) (G : List (List (List Char)))
    (g : List (List Char)) : Prop where
  prev : s.prev = G.map line
  cur : s.cur = line g
  lw : s.lineWidth = s.cur.length ∨ s.cur.length = width ∧ width < s.lineWidth
  pos : s.lineWidth ≠ 0
  all : G.flatten ++ g ++ words s.rest = ws
  fit : ∀ h ∈ G ++ [g], (line h).length ≤ width ∨ ∃ w, h = [w]
  skip : skipSpaces s.rest = s.rest
  start : ∀ h ∈ G ++ [g], h ≠ []
  greedy : ∀ i a b w, (G ++ [g])[i]? = some a → (G ++ [g])[i + 1]? = some b → b.head? = some w →
    width < (line a).length + 1 + w.length

theorem line_one (w : List Char) : line [w] = w := by
  simp [line, List.intercalate, List.intersperse]

theorem fits_step (width : ℕ) (ws : List (List Char)) (s : SplitState)
    (h : ∃ G g, Fits width ws s G g) (hs : s.rest ≠ []) :
    ∃ G g, Fits width ws (splitStep width s) G g := by
  obtain ⟨G, g, h⟩ := h
  obtain ⟨hw, hne⟩ := words_cons hs h.skip
  generalize hu : s.rest.takeWhile (· ≠ ' ') = u at *
  generalize hd : s.rest.dropWhile (· ≠ ' ') = d at *
  have hupos : 0 < u.length := List.length_pos_iff.mpr hne
  have h0 := h.pos
  have hg : g ≠ [] := h.start g (by simp)
  by_cases hfit : s.lineWidth + (u.length + 1) > width
  · -- next line
    have hstep : splitStep width s =
        ⟨s.prev ++ [s.cur], u, u.length, skipSpaces d⟩ := by
      unfold splitStep place
      simp only [hu, hd, h0, decide_false, Bool.false_eq_true, if_false, hfit, if_true]
      simp
    rw [hstep]
    refine ⟨G ++ [g], [u], ⟨by simp [h.prev, h.cur], (line_one u).symm, .inl rfl,
      by simp only; omega, ?_, ?_, skip_idem _, ?_, ?_⟩⟩
    · have := h.all
      rw [hw] at this
      simpa [words_skip] using this
    · intro l hl
      rcases List.mem_append.mp hl with hl | hl
      · exact h.fit l hl
      · simp at hl; subst hl; exact .inr ⟨u, rfl⟩
    · intro x hx
      rcases List.mem_append.mp hx with hx | hx
      · exact h.start x hx
      · simp at hx; subst hx; simp
    · intro i a b w h1 h2 h3
      by_cases hi : i + 1 < (G ++ [g]).length
      · rw [List.getElem?_append_left (by omega)] at h1
        rw [List.getElem?_append_left hi] at h2
        exact h.greedy i a b w h1 h2 h3
      · have hlen : (G ++ [g]).length = G.length + 1 := by simp
        have hi' : i = G.length := by
          by_contra hne'
          rw [List.getElem?_eq_none (by simp; omega)] at h2
          simp at h2
        subst hi'
        simp at h1 h2
        subst h1
        subst h2
        simp only [List.head?_cons, Option.some.injEq] at h3
        subst h3
        rw [← h.cur]
        rcases h.lw with e | ⟨e, -⟩ <;> omega
  · -- same line
    have hlw : s.lineWidth = s.cur.length := by
      rcases h.lw with e | ⟨e, e'⟩
      · exact e
      · omega
    have hstep : splitStep width s =
        ⟨s.prev, s.cur ++ ' ' :: u, s.lineWidth + (u.length + 1), skipSpaces d⟩ := by
      unfold splitStep place
      simp only [hu, hd, h0, decide_false, Bool.false_eq_true, if_false, hfit]
    rw [hstep]
    have hline : line (g ++ [u]) = s.cur ++ ' ' :: u := by rw [line_append hg, h.cur]
    refine ⟨G, g ++ [u], ⟨h.prev, hline.symm, by simp [hlw], by simp only; omega, ?_, ?_,
      skip_idem _, ?_, ?_⟩⟩
    · have := h.all
      rw [hw] at this
      simpa [words_skip] using this
    · intro l hl
      rcases List.mem_append.mp hl with hl | hl
      · exact h.fit l (List.mem_append_left _ hl)
      · simp at hl; subst hl
        left
        rw [hline, List.length_append, List.length_cons]
        omega
    · intro x hx
      rcases List.mem_append.mp hx with hx | hx
      · exact h.start x (List.mem_append_left _ hx)
      · simp at hx; subst hx; simp
    · intro i a b w h1 h2 h3
      by_cases hi : i + 1 < G.length
      · rw [List.getElem?_append_left (by omega)] at h1
        rw [List.getElem?_append_left hi] at h2
        refine h.greedy i a b w ?_ ?_ h3
        · rw [List.getElem?_append_left (by omega)]; exact h1
        · rw [List.getElem?_append_left hi]; exact h2
      · have hi' : i + 1 = G.length := by
          by_contra hne'
          rw [List.getElem?_eq_none (by simp; omega)] at h2
          simp at h2
        refine h.greedy i a g w ?_ ?_ ?_
        · rw [List.getElem?_append_left (by omega)] at h1 ⊢; exact h1
        · rw [hi']; simp
        · rw [hi'] at h2
          simp at h2
          subst h2
          cases g with
          | nil => exact absurd rfl hg
          | cons x g => simpa using h3

/-- The first round. -/
theorem fits_first (width : ℕ) (r : List Char) (hr : r ≠ []) (h0 : skipSpaces r = r) :
    ∃ G g, Fits width (cutFirst width (words r)) (splitStep width ⟨[], [], 0, r⟩) G g := by
  obtain ⟨hw, hne⟩ := words_cons hr h0
  have hall : r.takeWhile (· ≠ ' ') ++ r.dropWhile (· ≠ ' ') = r :=
    List.takeWhile_append_dropWhile
  have hnosp : ∀ c ∈ r.takeWhile (· ≠ ' '), c ≠ ' ' := fun c hc => by
    simpa using List.mem_takeWhile_imp hc
  generalize hu : r.takeWhile (· ≠ ' ') = u at *
  generalize hd : r.dropWhile (· ≠ ' ') = d at *
  have hupos : 0 < u.length := List.length_pos_iff.mpr hne
  by_cases hc : u.length ≤ width
  · have hstep : splitStep width ⟨[], [], 0, r⟩ = ⟨[], u, u.length, skipSpaces d⟩ := by
      have : ¬ 0 + (u.length + 0) > width := by omega
      unfold splitStep place
      simp only [hu, hd, decide_true, if_true, this, if_false]
      simp
    rw [hstep]
    refine ⟨[], [u], ⟨rfl, (line_one u).symm, .inl rfl, by simp only; omega, ?_, ?_, skip_idem _,
      by simp, ?_⟩⟩
    · rw [hw]; simp [words_skip, cutFirst, hc]
    · simp
    · intro i a b w h1 h2
      rcases i with _ | i <;> simp at h2
  · have hstep : splitStep width ⟨[], [], 0, r⟩ =
        ⟨[], r.take width, u.length, skipSpaces (r.drop width)⟩ := by
      have : 0 + (u.length + 0) > width := by omega
      unfold splitStep place
      simp only [hu, decide_true, if_true, this]
      simp
    have htake : r.take width = u.take width := by
      rw [← hall, List.take_append_of_le_length (by omega)]
    have hdrop : r.drop width = u.drop width ++ d := by
      rw [← hall, List.drop_append_of_le_length (by omega)]
    rw [hstep, htake, hdrop]
    have hlen : (u.take width).length = width := by rw [List.length_take]; omega
    refine ⟨[], [u.take width], ⟨rfl, (line_one _).symm, .inr ⟨hlen, by simp only; omega⟩,
      by simp only; omega, ?_, by simp, skip_idem _, by simp, ?_⟩⟩
    · rw [hw]
      have hdne : u.drop width ≠ [] := by
        intro e
        have := congrArg List.length e
        rw [List.length_drop] at this
        simp at this
        omega
      have hdsp : ∀ c ∈ u.drop width, c ≠ ' ' := fun c hc => hnosp c (List.mem_of_mem_drop hc)
      have hhead : ∀ c t, d = c :: t → c = ' ' := by
        intro c t e
        have := List.head?_dropWhile_not (fun x : Char => decide (x ≠ ' ')) r
        rw [hd, e] at this
        simpa using this
      have : words (u.drop width ++ d) = u.drop width :: words d := by
        have h1 : skipSpaces (u.drop width ++ d) = u.drop width ++ d := by
          cases e : u.drop width with
          | nil => exact absurd e hdne
          | cons c t =>
            have := hdsp c (by rw [e]; simp)
            simp [skipSpaces, this]
        obtain ⟨h2, -⟩ := words_cons (s := u.drop width ++ d) (by simp [hdne]) h1
        have hsp : ∀ c ∈ u.drop width, (decide (c ≠ ' ')) = true := fun c hc => by
          simpa using hdsp c hc
        have ht : (u.drop width ++ d).takeWhile (· ≠ ' ') = u.drop width := by
          rw [List.takeWhile_append_of_pos hsp]
          cases d with
          | nil => simp
          | cons c t => simp [hhead c t rfl]
        have hd' : (u.drop width ++ d).dropWhile (· ≠ ' ') = d := by
          rw [List.dropWhile_append_of_pos hsp]
          cases d with
          | nil => simp
          | cons c t => simp [hhead c t rfl]
        rw [h2, ht, hd']
      simp [words_skip, cutFirst, hc, this]
    · intro i a b w h1 h2
      rcases i with _ | i <;> simp at h2

/-- What `split_lines` computes, for every text and width. -/
theorem split_spec (fuel : ℕ) (input : List Char) (width : ℕ) (hf : input.length < fuel) :
    ∃ lines, splitLines fuel input width = some lines ∧
      (words input = [] → lines = [[]]) ∧
      (words input ≠ [] → Typeset width (cutFirst width (words input)) lines) := by
  unfold splitLines
  obtain ⟨n, rfl⟩ : ∃ n, fuel = n + 1 := ⟨fuel - 1, by omega⟩
  have hlen : (skipSpaces input).length ≤ input.length := (List.dropWhile_sublist _).length_le
  by_cases hs : skipSpaces input = []
  · have : words input = [] := by rw [← words_skip, hs]; rfl
    exact ⟨[[]], by simp [splitLoop, hs], fun _ => rfl, fun h => absurd this h⟩
  · obtain ⟨h1, h2, h3, h4⟩ := step_length width ⟨[], [], 0, skipSpaces input⟩ hs (skip_idem _)
    obtain ⟨r, hr⟩ := loop_ends width n _ h4 h3 (by simp only at h2; omega)
    refine ⟨r, by rw [splitLoop, if_neg hs, hr], fun h => ?_, fun _ => ?_⟩
    · obtain ⟨hw, -⟩ := words_cons hs (skip_idem _)
      rw [words_skip, h] at hw
      simp at hw
    · have hfirst := fits_first width _ hs (skip_idem _)
      obtain ⟨s', ⟨G, g, hF⟩, hrest, rfl⟩ := loop_invariant width
        (fun s => ∃ G g, Fits width (cutFirst width (words (skipSpaces input))) s G g)
        (fun s h hs => fits_step width _ s h hs) n _ r hfirst hr
      rw [words_skip] at hF
      refine ⟨G ++ [g], ?_, ?_, hF.fit, fun _ => hF.start, hF.greedy⟩
      · have := hF.all
        rw [hrest] at this
        simpa [words] using this
      · simp [hF.prev, hF.cur]

end Sidis.Lemmas.Terminal

namespace Sidis.Lemmas.Terminal
open Sidis.Terminal Sidis.Spec

theorem split_ink (fuel : ℕ) (input : List Char) (width : ℕ) (lines : List (List Char))
    (h : splitLines fuel input width = some lines) : ink lines.flatten = ink input := by
  obtain ⟨s', hs, hrest, rfl⟩ := loop_invariant width (fun s => total s = ink input)
    (fun s h _ => by rw [step_total, h]) fuel _ lines
    (by simp [total, ink_skip, show ink [] = [] from rfl]) h
  rw [total, hrest] at hs
  simpa [show ink [] = [] from rfl, ink_append] using hs

theorem cutFirst_id {width : ℕ} {ws : List (List Char)} (h : ∀ w ∈ ws, w.length ≤ width) :
    cutFirst width ws = ws := by
  cases ws with
  | nil => rfl
  | cons w ws => simp [cutFirst, h w (by simp)]

theorem setw3_length : ∀ n, n ≤ 100 → (setw3 n).length = 3 := by decide +kernel

theorem foldl_max (l : List ℕ) : l.foldl (fun m n => if n > m then n else m) 0 = l.foldr max 0 := by
  have : ∀ a, l.foldl (fun m n => if n > m then n else m) a = max a (l.foldr max 0) := by
    induction l with
    | nil => simp
    | cons x l ih =>
      intro a
      rw [List.foldl_cons, ih, List.foldr_cons]
      split_ifs <;> omega
  rw [this]; simp

theorem chunks_eq (n : ℕ) : ∀ (rows : ℕ) (l : List (List Char)), 
    chunks n rows l = (List.range rows).map fun r => (l.drop (r * n)).take n := by
  intro rows
  induction rows with
  | zero => intro l; rfl
  | succ k ih =>
    intro l
    rw [chunks, ih, List.range_succ_eq_map]
    simp [List.drop_drop, Nat.succ_mul, Function.comp_def, Nat.add_comm]

theorem mapM_some {α β : Type} (f : α → Option β) (g : α → β) : ∀ l : List α,
    (∀ a ∈ l, f a = some (g a)) → l.mapM f = some (l.map g) := by
  intro l
  induction l with
  | nil => intro _; rfl
  | cons a l ih =>
    intro h
    rw [List.mapM_cons, h a (by simp), ih fun b hb => h b (by simp [hb])]
    rfl

theorem excess_fits {width len spacing : ℕ} {last : Bool} (h : len ≤ width)
    (hw : width + spacing < 2 ^ 32) :
    excess width len spacing last = width + (if last then 0 else spacing) - len := by
  unfold excess
  have : (width + 2 ^ 64 - len) % 2 ^ 64 = width - len := by
    rw [show width + 2 ^ 64 - len = (width - len) + 2 ^ 64 by omega, Nat.add_mod_right,
      Nat.mod_eq_of_lt (by omega)]
  rw [this]
  split_ifs
  · rw [Nat.mod_eq_of_lt, Nat.mod_eq_of_lt] <;> omega
  · rw [Nat.mod_eq_of_lt, Nat.mod_eq_of_lt] <;> omega

end Sidis.Lemmas.Terminal
