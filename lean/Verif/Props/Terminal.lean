import Verif.Lemmas.Terminal
import Mathlib.Data.List.GetD
import Mathlib.Tactic.NormNum
import Mathlib.Algebra.BigOperators.Group.List.Basic

/-!
# C50, C51: terminal output

`words`, `line`, `Typeset`, `cutFirst` and `padTo` are in `Verif.Spec.Terminal`.
-/

namespace Sidis.Props

open Sidis.Terminal Sidis.Spec Sidis.Lemmas.Terminal

/-- C50: `split_lines` ends on every text and for every width, also width 0, and the characters
other than spaces come out unchanged and in order. -/
theorem c50_chars (input : List Char) (width : ℕ) : ∃ lines, ∀ fuel, input.length < fuel →
    splitLines fuel input width = some lines ∧
      lines.flatten.filter (· ≠ ' ') = input.filter (· ≠ ' ') := by
  obtain ⟨lines, hl, -, -⟩ := split_spec (input.length + 1) input width (by omega)
  have mono : ∀ n m s r, splitLoop width n s = some r → splitLoop width (n + m) s = some r := by
    intro n m
    induction n with
    | zero =>
      intro s r h
      rw [splitLoop] at h
      split_ifs at h with h0
      cases m <;> simpa [splitLoop, h0] using h
    | succ n ih =>
      intro s r h
      rw [splitLoop] at h
      rw [Nat.succ_add, splitLoop]
      split_ifs at h ⊢ with h0
      · exact h
      · exact ih _ _ h
  refine ⟨lines, fun fuel hf => ?_⟩
  obtain ⟨m, rfl⟩ := Nat.exists_eq_add_of_le (show input.length + 1 ≤ fuel from hf)
  have := mono _ m _ _ hl
  exact ⟨this, split_ink _ _ _ _ this⟩

/-- C50: when every word fits the width, the lines are a greedy typesetting of the words: all words
in order, unbroken, one space between the words of a line, no line longer than the width, a new
line only where the next word does not fit. A text without words gives one empty line. -/
theorem c50_words (input : List Char) (width fuel : ℕ) (hf : input.length < fuel)
    (hw : ∀ w ∈ words input, w.length ≤ width) :
    ∃ lines, splitLines fuel input width = some lines ∧
      (words input = [] → lines = [[]]) ∧ Typeset width (words input) lines ∧
      ∀ l ∈ lines, l.length ≤ width := by
  obtain ⟨lines, hl, h0, h1⟩ := split_spec fuel input width hf
  rw [cutFirst_id hw] at h1
  refine ⟨lines, hl, h0, ?_, ?_⟩
  · by_cases h : words input = []
    · rw [h, h0 h]
      exact ⟨[[]], rfl, rfl, by simp [line, List.intercalate, List.intersperse],
        fun h => absurd rfl h, fun i g h w _ h2 => by cases i <;> simp at h2⟩
    · exact h1 h
  · by_cases h : words input = []
    · rw [h0 h]; simp
    · obtain ⟨G, e1, e2, e3, -, -⟩ := h1 h
      intro l hl
      rw [e2] at hl
      obtain ⟨g, hg, rfl⟩ := List.mem_map.mp hl
      rcases e3 g hg with h' | ⟨w, rfl⟩
      · exact h'
      · rw [line_one]
        refine hw w ?_
        rw [← e1]
        exact List.mem_flatten.mpr ⟨[w], hg, by simp⟩

/-- C50: without any assumption on the words, the lines are a greedy typesetting of the words after
the first word was cut at the width; a line longer than the width holds a single word. -/
theorem c50_general (input : List Char) (width fuel : ℕ) (hf : input.length < fuel)
    (hw : words input ≠ []) :
    ∃ lines, splitLines fuel input width = some lines ∧
      Typeset width (cutFirst width (words input)) lines := by
  obtain ⟨lines, hl, -, h1⟩ := split_spec fuel input width hf
  exact ⟨lines, hl, h1 hw⟩

example : splitLines 20 "  the cut of  x".toList 7 =
    some ["the cut".toList, "of x".toList] := by decide +kernel
example : words "  the cut of  x".toList =
    ["the".toList, "cut".toList, "of".toList, "x".toList] := by decide +kernel

/-- C50: a progress bar for `percent` in a terminal of more than 7 columns takes exactly `width`
characters, of which the share `percent` of `width - 7` is filled from the left; with 7 columns or
less nothing is written. -/
theorem c50_progress (percent width : ℕ) (hw : (width - 7) * 100 < 2 ^ 32) :
    (progressBar percent width = none ↔ width ≤ 7) ∧
    ∀ text, progressBar percent width = some text → text.length = width ∧
      ∃ number, number.length = 3 ∧
        number.dropWhile (· = ' ') = Nat.toDigits 10 (min percent 100) ∧
        text = ['['] ++ List.replicate ((width - 7) * min percent 100 / 100) '=' ++
          List.replicate (width - 7 - (width - 7) * min percent 100 / 100) ' ' ++ [']', ' '] ++
          number ++ ['%'] := by
  have hp : (if percent > 100 then 100 else percent) = min percent 100 := by
    split_ifs <;> omega
  have hp' : min percent 100 ≤ 100 := by omega
  generalize hq : min percent 100 = q at *
  have h3 := setw3_length q hp'
  have hlen : (setw3 q ++ ['%']).length = 4 := by simp [h3]
  unfold progressBar
  simp only [hp, hlen]
  have hbar : ∀ n k : ℕ, k ≤ n → (List.range n).map (fun idx => if idx < k then '=' else ' ') =
      List.replicate k '=' ++ List.replicate (n - k) ' ' := by
    intro n k hk
    refine List.ext_getElem (by simp; omega) fun i h1 h2 => ?_
    simp only [List.getElem_map, List.getElem_range, List.getElem_append, List.length_replicate,
      List.getElem_replicate]
    split_ifs <;> rfl
  have hdig : ∀ n, n ≤ 100 → (setw3 n).dropWhile (· = ' ') = Nat.toDigits 10 n := by decide +kernel
  simp only [List.length_singleton]
  constructor
  · split_ifs with h
    · simp; omega
    · simp; omega
  · intro text ht
    split_ifs at ht with h
    simp only [Option.some.injEq] at ht
    have e : width - 4 - (1 + 1) - 1 = width - 7 := by omega
    simp only [e] at ht
    have hle : (width - 7) * q ≤ (width - 7) * 100 := Nat.mul_le_mul_left _ hp'
    have hmod : (width - 7) * q % 2 ^ 32 = (width - 7) * q := Nat.mod_eq_of_lt (by omega)
    simp only [hmod] at ht
    have hk : (width - 7) * q / 100 ≤ width - 7 := by omega
    subst ht
    refine ⟨?_, setw3 q, h3, hdig q hp', ?_⟩
    · simp [h3]; omega
    · rw [hbar _ _ hk]; simp

example : progressBar 50 11 = some "[==  ]  50%".toList := by decide +kernel

/-- C50: a bar at 100 percent is completely filled. -/
theorem c50_progress_full (percent width : ℕ) (hp : 100 ≤ percent) (h7 : 7 < width)
    (hw : (width - 7) * 100 < 2 ^ 32) :
    progressBar percent width =
      some (['['] ++ List.replicate (width - 7) '=' ++ "] 100%".toList) := by
  obtain ⟨h1, h2⟩ := c50_progress percent width hw
  cases hb : progressBar percent width with
  | none => exact absurd (h1.mp hb) (by omega)
  | some text =>
    obtain ⟨-, number, hn, hd, rfl⟩ := h2 text hb
    rw [show min percent 100 = 100 by omega] at hd ⊢
    have h3 : number = ['1', '0', '0'] := by
      have hd' : number.dropWhile (· = ' ') = ['1', '0', '0'] := by rw [hd]; decide +kernel
      have hs : (number.dropWhile (· = ' ')).length = number.length := by rw [hd', hn]; rfl
      rw [← hd']
      exact ((List.dropWhile_sublist _).eq_of_length hs).symm
    rw [h3, Nat.mul_div_cancel _ (by norm_num), Nat.sub_self]
    simp

/-- C50: `write_table` refuses a table without columns and one whose last row is incomplete, and no
other. -/
theorem c50_table_refused (fuel : ℕ) (entries : List (List Char)) (widths : List ℕ) (spacing : ℕ) :
    writeTable fuel entries widths spacing = .refused ↔
      widths = [] ∨ ∀ rows, entries.length ≠ rows * widths.length := by
  have : (widths.length = 0 ∨ entries.length % widths.length ≠ 0) ↔
      (widths = [] ∨ ∀ rows, entries.length ≠ rows * widths.length) := by
    rw [List.length_eq_zero_iff]
    refine or_congr Iff.rfl ?_
    constructor
    · intro h rows e
      rw [e] at h
      simp at h
    · intro h h0
      refine h (entries.length / widths.length) ?_
      rw [Nat.div_mul_cancel (Nat.dvd_of_mod_eq_zero h0)]
  unfold writeTable
  rw [← this]
  split_ifs with h
  · exact iff_of_true rfl h
  · simp only [h, iff_false]
    split <;> simp

/-- C50: a table whose words all fit their columns. Row by row, every cell is typeset in its column
and the lines are the lines of the cells side by side, extended with spaces to the width of the
column plus the spacing (no spacing after the last column), so all lines of the table have the
same length. -/
theorem c50_table (fuel : ℕ) (entries : List (List Char)) (widths : List ℕ) (spacing rows : ℕ)
    (hn : widths ≠ []) (hm : entries.length = rows * widths.length)
    (hfuel : ∀ e ∈ entries, e.length < fuel)
    (hfit : ∀ r c e w, entries[r * widths.length + c]? = some e → widths[c]? = some w →
      ∀ x ∈ words e, x.length ≤ w)
    (hsz : ∀ w ∈ widths, w + spacing < 2 ^ 32) :
    ∃ rs : List (List (List Char)), writeTable fuel entries widths spacing = .lines rs.flatten ∧
      rs.length = rows ∧
      ∀ (r : ℕ) row, rs[r]? = some row → ∃ cells : List (List (List Char)),
        cells.length = widths.length ∧
        (∀ c e w cell, entries[r * widths.length + c]? = some e → widths[c]? = some w →
          cells[c]? = some cell → Typeset w (words e) cell) ∧
        row.length = (cells.map List.length).foldr max 0 ∧
        ∀ (k : ℕ) l, row[k]? = some l →
          l = ((List.range widths.length).map fun c =>
            padTo (widths.getD c 0 + if c = widths.length - 1 then 0 else spacing)
              ((cells.getD c []).getD k [])).flatten ∧
          l.length = widths.sum + spacing * (widths.length - 1) := by
  have hpos : 0 < widths.length := List.length_pos_iff.mpr hn
  have hrow : ∀ r < rows, ∃ row, tableRow fuel ((entries.drop (r * widths.length)).take
      widths.length) widths spacing = some row ∧ ∃ cells : List (List (List Char)),
        cells.length = widths.length ∧
        (∀ (c : ℕ) e w cell, entries[r * widths.length + c]? = some e → widths[c]? = some w →
          cells[c]? = some cell → Typeset w (words e) cell) ∧
        row.length = (cells.map List.length).foldr max 0 ∧
        ∀ (k : ℕ) l, row[k]? = some l →
          l = ((List.range widths.length).map fun c =>
            padTo (widths.getD c 0 + if c = widths.length - 1 then 0 else spacing)
              ((cells.getD c []).getD k [])).flatten ∧
          l.length = widths.sum + spacing * (widths.length - 1) := by
    intro r hr
    set es := (entries.drop (r * widths.length)).take widths.length with hes
    have hle : r * widths.length + widths.length ≤ entries.length := by
      rw [hm, ← Nat.succ_mul]
      exact Nat.mul_le_mul_right _ hr
    have heslen : es.length = widths.length := by
      rw [hes, List.length_take, List.length_drop]
      omega
    have hesget : ∀ c < widths.length, es[c]? = entries[r * widths.length + c]? := by
      intro c hc
      rw [hes, List.getElem?_take_of_lt hc, List.getElem?_drop]
    have hzget : ∀ (c : ℕ) p, (es.zip widths)[c]? = some p →
        entries[r * widths.length + c]? = some p.1 ∧ widths[c]? = some p.2 := by
      intro c p hp
      rw [List.getElem?_zip_eq_some] at hp
      have hc : c < widths.length := (List.getElem?_eq_some_iff.mp hp.2).1
      exact ⟨by rw [← hesget c hc]; exact hp.1, hp.2⟩
    have hcell : ∀ p ∈ es.zip widths, ∃ ls, splitLines fuel p.1 p.2 = some ls ∧
        Typeset p.2 (words p.1) ls ∧ ∀ l ∈ ls, l.length ≤ p.2 := by
      intro p hp
      obtain ⟨c, hc⟩ := List.mem_iff_getElem?.mp hp
      obtain ⟨h1, h2⟩ := hzget c p hc
      obtain ⟨ls, a, -, b, d⟩ := c50_words p.1 p.2 fuel
        (hfuel _ (List.mem_iff_getElem?.mpr ⟨_, h1⟩)) (hfit r c p.1 p.2 h1 h2)
      exact ⟨ls, a, b, d⟩
    let f : List Char × ℕ → List (List Char) := fun p => (splitLines fuel p.1 p.2).getD []
    have hf : ∀ p ∈ es.zip widths, splitLines fuel p.1 p.2 = some (f p) := by
      intro p hp
      obtain ⟨ls, a, -⟩ := hcell p hp
      simp only [f, a, Option.getD_some]
    set cells := (es.zip widths).map f with hcells
    have hclen : cells.length = widths.length := by simp [hcells, heslen]
    have hcget : ∀ (c : ℕ) cell, cells[c]? = some cell → ∃ p, (es.zip widths)[c]? = some p ∧
        f p = cell := by
      intro c cell h
      rw [hcells, List.getElem?_map, Option.map_eq_some_iff] at h
      exact h
    have htext : ∀ k c, c < widths.length → cellText cells widths spacing k c =
        padTo (widths.getD c 0 + if c = widths.length - 1 then 0 else spacing)
          ((cells.getD c []).getD k []) ∧
        ((cells.getD c []).getD k []).length ≤ widths.getD c 0 := by
      intro k c hc
      obtain ⟨cell, hcell'⟩ : ∃ cell, cells[c]? = some cell :=
        ⟨_, List.getElem?_eq_getElem (by omega)⟩
      obtain ⟨w, hw⟩ : ∃ w, widths[c]? = some w := ⟨_, List.getElem?_eq_getElem hc⟩
      obtain ⟨p, hp, rfl⟩ := hcget c cell hcell'
      have hp2 : p.2 = w := by
        have := (hzget c p hp).2
        rw [hw] at this
        simpa using this.symm
      have hmem : p ∈ es.zip widths := List.mem_iff_getElem?.mpr ⟨_, hp⟩
      obtain ⟨ls, a, -, d⟩ := hcell p hmem
      have hfp : f p = ls := by simp only [f, a, Option.getD_some]
      rw [hfp] at hcell'
      have e1 : cells.getD c [] = ls := by simp [List.getD_eq_getElem?_getD, hcell']
      have e2 : widths.getD c 0 = w := by simp [List.getD_eq_getElem?_getD, hw]
      have hwmem : w ∈ widths := List.mem_iff_getElem?.mpr ⟨_, hw⟩
      have hlen : (ls.getD k []).length ≤ w := by
        rw [List.getD_eq_getElem?_getD]
        cases hk : ls[k]? with
        | none => simp
        | some l =>
          simp only [Option.getD_some]
          rw [← hp2]
          exact d l (List.mem_iff_getElem?.mpr ⟨_, hk⟩)
      refine ⟨?_, by rw [e1, e2]; exact hlen⟩
      rw [e1, e2]
      unfold cellText padTo
      simp only [hcell', hw, Option.getD_some, Option.bind_some]
      rw [← List.getD_eq_getElem?_getD, excess_fits hlen (hsz w hwmem)]
      simp
    have hres : tableRow fuel es widths spacing = some
        ((List.range ((cells.map List.length).foldl (fun m n => if n > m then n else m) 0)).map
          fun subrow => ((List.range widths.length).map
            (cellText cells widths spacing subrow)).flatten) := by
      unfold tableRow
      rw [mapM_some _ f _ hf]
      rfl
    refine ⟨_, hres, cells, hclen, ?_, ?_, ?_⟩
    · intro c e w cell h1 h2 h3
      obtain ⟨p, hp, rfl⟩ := hcget c cell h3
      have hmem : p ∈ es.zip widths := List.mem_iff_getElem?.mpr ⟨_, hp⟩
      obtain ⟨a1, a2⟩ := hzget c p hp
      rw [h1] at a1
      rw [h2] at a2
      simp only [Option.some.injEq] at a1 a2
      obtain ⟨ls, a, b, -⟩ := hcell p hmem
      have hfp : f p = ls := by simp only [f, a, Option.getD_some]
      rw [hfp, a1, a2]
      exact b
    · rw [List.length_map, List.length_range, foldl_max]
    · intro k l hl
      rw [List.getElem?_map, Option.map_eq_some_iff] at hl
      obtain ⟨k', hk', rfl⟩ := hl
      have : k' = k := by
        have := List.getElem?_eq_some_iff.mp hk'
        obtain ⟨_, h⟩ := this
        simpa using h.symm
      subst this
      have hmap : (List.range widths.length).map (cellText cells widths spacing k') =
          (List.range widths.length).map fun c =>
            padTo (widths.getD c 0 + if c = widths.length - 1 then 0 else spacing)
              ((cells.getD c []).getD k' []) :=
        List.map_congr_left fun c hc => (htext k' c (List.mem_range.mp hc)).1
      rw [hmap]
      refine ⟨rfl, ?_⟩
      rw [List.length_flatten, List.map_map]
      have hmap2 : (List.range widths.length).map (List.length ∘ fun c =>
            padTo (widths.getD c 0 + if c = widths.length - 1 then 0 else spacing)
              ((cells.getD c []).getD k' [])) = (List.range widths.length).map fun c =>
            widths.getD c 0 + if c = widths.length - 1 then 0 else spacing := by
        refine List.map_congr_left fun c hc => ?_
        have h1 := (htext k' c (List.mem_range.mp hc)).2
        simp only [Function.comp_apply, padTo, List.length_append, List.length_replicate]
        split_ifs <;> omega
      rw [hmap2]
      have hsum : ∀ (n m : ℕ), n ≤ m → ((List.range n).map fun c =>
          if c = m then 0 else spacing).sum = spacing * n := by
        intro n m hnm
        induction n with
        | zero => simp
        | succ n ih =>
          rw [List.range_succ, List.map_append, List.sum_append, ih (by omega)]
          simp only [List.map_cons, List.map_nil, List.sum_singleton]
          rw [if_neg (by omega), Nat.mul_succ]
      have hsplit : ∀ (l : List ℕ) (f g : ℕ → ℕ), (l.map fun c => f c + g c).sum =
          (l.map f).sum + (l.map g).sum := by
        intro l f g
        induction l with
        | nil => rfl
        | cons a l ih => simp only [List.map_cons, List.sum_cons, ih]; omega
      rw [hsplit]
      congr 1
      · congr 1
        refine List.ext_getElem (by simp) fun i h1 h2 => ?_
        simp [List.getD_eq_getElem?_getD, List.getElem?_eq_getElem h2]
      · obtain ⟨m, hm'⟩ : ∃ m, widths.length = m + 1 := ⟨widths.length - 1, by omega⟩
        rw [hm', List.range_succ, List.map_append, List.sum_append, Nat.add_sub_cancel,
          hsum m m le_rfl]
        simp
  choose! row hrow1 hrow2 using hrow
  have hdiv : entries.length / widths.length = rows := by
    rw [hm, Nat.mul_div_cancel _ hpos]
  refine ⟨(List.range rows).map row, ?_, by simp, ?_⟩
  · unfold writeTable
    rw [if_neg (by rw [hm]; simp [hn]), hdiv, chunks_eq,
      mapM_some _ (fun es => (tableRow fuel es widths spacing).getD [])]
    · simp only [List.map_map]
      congr 2
      refine List.map_congr_left fun r hr => ?_
      simp only [Function.comp_apply]
      rw [hrow1 r (List.mem_range.mp hr)]
      rfl
    · intro es hes
      obtain ⟨r, hr, rfl⟩ := List.mem_map.mp hes
      rw [hrow1 r (List.mem_range.mp hr)]
      rfl
  · intro r rw' hr
    rw [List.getElem?_map, Option.map_eq_some_iff] at hr
    obtain ⟨r', hr', rfl⟩ := hr
    obtain ⟨hlt, h⟩ := List.getElem?_eq_some_iff.mp hr'
    simp at h hlt
    subst h
    exact hrow2 r hlt

example : writeTable 20 ["-h".toList, "show this help".toList, "-i".toList, "inspect".toList] [3, 9] 2
    = .lines ["-h   show this".toList, "     help     ".toList, "-i   inspect  ".toList] := by
  decide +kernel

/-- C51: every word longer than the width stands unbroken on a line of its own, except for the first
word of the text. -/
theorem c51_long_words (input : List Char) (width fuel : ℕ) (hf : input.length < fuel)
    (w : List Char) (hw : w ∈ (words input).tail) (hl : width < w.length) :
    ∃ lines, splitLines fuel input width = some lines ∧ w ∈ lines := by
  have hne : words input ≠ [] := by rintro h; simp [h] at hw
  obtain ⟨lines, hs, G, e1, e2, e3, -, -⟩ := c50_general input width fuel hf hne
  refine ⟨lines, hs, ?_⟩
  have hmem : w ∈ cutFirst width (words input) := by
    cases h : words input with
    | nil => exact absurd h hne
    | cons a l =>
      rw [h] at hw
      simp only [List.tail_cons] at hw
      rw [cutFirst]
      split_ifs <;> simp [hw]
  rw [← e1] at hmem
  obtain ⟨g, hg, hwg⟩ := List.mem_flatten.mp hmem
  have : g = [w] := by
    rcases e3 g hg with h | ⟨v, rfl⟩
    · exfalso
      obtain ⟨a, b, rfl⟩ := List.append_of_mem hwg
      have hlen : w.length ≤ (line (a ++ w :: b)).length := by
        have key : ∀ l : List (List Char), w ∈ l → w.length ≤ (line l).length := by
          intro l
          induction l with
          | nil => intro h; simp at h
          | cons x l ih =>
            intro h
            cases l with
            | nil => simp at h; subst h; rw [line_one]
            | cons y l =>
              have e : line (x :: y :: l) = x ++ ([' '] ++ line (y :: l)) := by
                simp [line, List.intercalate, List.intersperse_cons₂]
              rw [e, List.length_append, List.length_append]
              rcases List.mem_cons.mp h with rfl | h
              · omega
              · have := ih h; omega
        exact key _ hwg
      omega
    · simp at hwg; rw [hwg]
  rw [e2]
  exact List.mem_map.mpr ⟨g, hg, by rw [this, line_one]⟩

/-- C51: so for every width there is a text of two words with a line longer than the width. -/
theorem c51_width_refuted (width : ℕ) : ∃ input : List Char, ∃ lines,
    splitLines (input.length + 1) input width = some lines ∧ ∃ l ∈ lines, width < l.length := by
  let w := List.replicate (width + 1) 'b'
  have h0 : words w = [w] := by
    have hs : skipSpaces w = w := by simp [skipSpaces, w, List.replicate_succ]
    have hn : w ≠ [] := by simp [w]
    obtain ⟨h, -⟩ := words_cons hn hs
    have ht : w.takeWhile (· ≠ ' ') = w := by
      rw [List.takeWhile_eq_self_iff]
      intro c hc
      simp [List.eq_of_mem_replicate hc]
    have hd : w.dropWhile (· ≠ ' ') = [] := by
      rw [List.dropWhile_eq_nil_iff]
      intro c hc
      simp [List.eq_of_mem_replicate hc]
    rw [h, ht, hd]
    rfl
  have h1 : words ('a' :: ' ' :: w) = [['a'], w] := by
    obtain ⟨h, -⟩ := words_cons (s := 'a' :: ' ' :: w) (by simp) (by simp [skipSpaces])
    rw [h]
    have ht : ('a' :: ' ' :: w).takeWhile (· ≠ ' ') = ['a'] := by simp
    have hd : ('a' :: ' ' :: w).dropWhile (· ≠ ' ') = ' ' :: w := by simp
    rw [ht, hd, words_space, h0]
  obtain ⟨lines, hl, hw⟩ := c51_long_words ('a' :: ' ' :: w) width _ (Nat.lt_succ_self _) w
    (by rw [h1]; simp) (by simp [w])
  exact ⟨_, lines, hl, w, hw, by simp [w]⟩

/-- C51: the rest of a first word that was cut is not cut again, however long it is. -/
theorem c51_rest_refuted (w : List Char) (width : ℕ) (hw : words w = [w])
    (hl : 2 * width < w.length) :
    splitLines (w.length + 1) w width = some [w.take width, w.drop width] ∧
      width < (w.drop width).length := by
  obtain ⟨lines, hs, G, e1, e2, e3, e4, e5⟩ := c50_general w width (w.length + 1) (by omega)
    (by rw [hw]; simp)
  have hlong : width < (w.drop width).length := by rw [List.length_drop]; omega
  refine ⟨?_, hlong⟩
  rw [hs, e2]
  have hc : cutFirst width (words w) = [w.take width, w.drop width] := by
    rw [hw, cutFirst, if_neg (by omega)]
  rw [hc] at e1 e4
  have hG : G = [[w.take width], [w.drop width]] := by
    have hne := e4 (by simp)
    match G, e1, hne with
    | [], e, _ => simp at e
    | g :: G, e, hne =>
      match g, hne g (by simp), e with
      | [a], _, e =>
        simp only [List.flatten_cons, List.cons_append, List.nil_append, List.cons.injEq] at e
        obtain ⟨rfl, e⟩ := e
        match G, e, hne with
        | [], e, _ => simp at e
        | g2 :: G2, e, hne =>
          match g2, hne g2 (by simp), e with
          | [b], _, e =>
            simp only [List.flatten_cons, List.cons_append, List.nil_append,
              List.cons.injEq] at e
            obtain ⟨rfl, e⟩ := e
            match G2, e, hne with
            | [], _, _ => rfl
            | g3 :: G3, e, hne =>
              have := hne g3 (by simp)
              simp only [List.flatten_cons] at e
              simp at e
              exact absurd e.1 this
          | b :: c :: l, _, e =>
            have := congrArg List.length e
            simp at this
      | a :: b :: l, _, e =>
        exfalso
        have hl0 : l = [] := by
          simp only [List.flatten_cons, List.cons_append, List.cons.injEq] at e
          exact (List.append_eq_nil_iff.mp e.2.2).1
        subst hl0
        simp only [List.flatten_cons, List.cons_append, List.nil_append, List.cons.injEq] at e
        obtain ⟨rfl, rfl, -⟩ := e
        rcases e3 [w.take width, w.drop width] (by simp) with h | ⟨v, h⟩
        · have : (line [w.take width, w.drop width]).length = (w.take width).length + 1 +
              (w.drop width).length := by
            simp [line, List.intercalate, List.intersperse_cons₂, List.intersperse]
            omega
          omega
        · simp at h
  rw [hG]
  simp [line_one]

example : words "abcdefg".toList = ["abcdefg".toList] := by decide +kernel
example : splitLines 8 "abcdefg".toList 3 = some ["abc".toList, "defg".toList] := by decide +kernel

/-- C51: and in the last column of a table the padding of such a line wraps around: a line longer
than its column by `k` is followed by `2 ^ 32 - k` spaces. -/
theorem c51_padding_refuted (text : List Char) (width spacing fuel : ℕ) (hf : text.length < fuel)
    (w : List Char) (hw : w ∈ (words text).tail) (hl : width < w.length)
    (h32 : w.length < 2 ^ 32) :
    ∃ lines, writeTable fuel [text] [width] spacing = .lines lines ∧
      w ++ List.replicate (2 ^ 32 - (w.length - width)) ' ' ∈ lines := by
  obtain ⟨ls, hs, hm⟩ := c51_long_words text width fuel hf w hw hl
  have hlong : ∀ k, cellText [ls] [width] spacing k 0 =
      (ls.getD k []) ++ List.replicate (excess width (ls.getD k []).length spacing true) ' ' := by
    intro k
    simp [cellText, List.getD_eq_getElem?_getD]
  have hrow : tableRow fuel [text] [width] spacing = some ((List.range ls.length).map fun k =>
      (ls.getD k []) ++ List.replicate (excess width (ls.getD k []).length spacing true) ' ') := by
    unfold tableRow
    have : ([text].zip [width]).mapM (fun x : List Char × ℕ => splitLines fuel x.1 x.2) =
        some [ls] := by
      simp [hs]
    rw [this]
    simp only [Option.bind_eq_bind, Option.bind_some, foldl_max]
    simp [hlong]
  refine ⟨(List.range ls.length).map fun k =>
      (ls.getD k []) ++ List.replicate (excess width (ls.getD k []).length spacing true) ' ',
      ?_, ?_⟩
  · simp [writeTable, chunks, hrow]
  · obtain ⟨k, hk, rfl⟩ := List.mem_iff_getElem.mp hm
    refine List.mem_map.mpr ⟨k, List.mem_range.mpr hk, ?_⟩
    have e : ls.getD k [] = ls[k] := by
      simp [List.getD_eq_getElem?_getD, List.getElem?_eq_getElem hk]
    rw [e]
    congr 2
    unfold excess
    rw [if_pos rfl, Nat.add_zero, Nat.mod_mod]
    generalize ls[k].length = n at *
    rw [Nat.mod_eq_of_lt (show width + 2 ^ 64 - n < 2 ^ 64 by omega),
      show width + 2 ^ 64 - n = (2 ^ 32 - (n - width)) + 2 ^ 32 * (2 ^ 32 - 1) by omega,
      Nat.add_mul_mod_self_left, Nat.mod_eq_of_lt (by omega)]

example : (words "of abcdefg".toList).tail = ["abcdefg".toList] := by decide +kernel

end Sidis.Props
