import Verif.Spec.Help
import Verif.Props.Terminal

/-! # Tables of labels and texts -/

namespace Sidis.Lemmas.Help

open Sidis.Terminal Lemmas.Terminal Spec ParamStream

theorem words_label {s : Text} (h0 : s ≠ []) (h : ' ' ∉ s) : words s = [s] := by
  unfold words
  rw [List.splitOn_eq_singleton h]
  simp [h0]

theorem typeset_one {w : ℕ} {x : Text} {ls : List Text} (h : Typeset w [x] ls) : ls = [x] := by
  obtain ⟨groups, hf, hl, -, hne, -⟩ := h
  have hne := hne (by simp)
  match groups, hf, hne, hl with
  | [], hf, _, _ => simp at hf
  | g :: gs, hf, hne, hl =>
    match g, hne with
    | [], hne => exact absurd rfl (hne [] (by simp))
    | a :: as, hne =>
      simp only [List.flatten_cons, List.cons_append, List.cons.injEq, List.append_eq_nil_iff] at hf
      obtain ⟨rfl, rfl, hgs⟩ := hf
      have : gs = [] := by
        cases gs with
        | nil => rfl
        | cons g' gs' =>
          simp only [List.flatten_cons, List.append_eq_nil_iff] at hgs
          exact absurd hgs.1 (hne g' (by simp))
      subst this
      rw [hl]
      simp [line, List.intercalate, List.intersperse]

theorem row_lines (fuel wl w sp : ℕ) (label text : Text) (h0 : label ≠ []) (hs : ' ' ∉ label)
    (hl : label.length ≤ wl) (hw : ∀ x ∈ words text, x.length ≤ w) (hf1 : label.length < fuel)
    (hf2 : text.length < fuel) (h1 : wl + sp < 2 ^ 32) (h2 : w + sp < 2 ^ 32) :
    ∃ ls, tableRow fuel [label, text] [wl, w] sp = some ls ∧ EntryLines (wl + sp) w label text ls := by
  obtain ⟨c1, e1, -, t1, -⟩ := Props.c50_words label wl fuel hf1 (by rw [words_label h0 hs]; simpa using hl)
  rw [words_label h0 hs] at t1
  obtain rfl := typeset_one t1
  obtain ⟨cell, e2, n2, t2, l2⟩ := Props.c50_words text w fuel hf2 hw
  refine ⟨_, by simp only [tableRow, List.zip_cons_cons, List.zip_nil_right, List.mapM_cons, e1, e2,
    List.mapM_nil, Option.pure_def, Option.bind_eq_bind, Option.bind_some]; rfl, cell, t2, n2, l2, ?_, ?_⟩
  · simp only [List.length_map, List.length_range, List.map_cons, List.map_nil, List.foldl_cons,
      List.foldl_nil, List.length_singleton]
    split_ifs <;> omega
  · intro k l hk
    simp only [List.getElem?_map, Option.map_eq_some_iff] at hk
    obtain ⟨k', hk', rfl⟩ := hk
    obtain rfl : k' = k := by
      rw [List.getElem?_range] at hk'
      · simpa using hk'.symm
      · by_contra hcon
        rw [List.getElem?_eq_none (by simpa using hcon)] at hk'
        simp at hk'
    have hlk : (cell.getD k' []).length ≤ w := by
      rw [List.getD_eq_getElem?_getD]
      cases h : cell[k']? with
      | none => simp
      | some l => exact l2 l (List.mem_iff_getElem?.mpr ⟨_, h⟩)
    have hr : List.range 2 = [0, 1] := rfl
    have hlab : ([label].getD k' []) = if k' = 0 then label else [] := by
      cases k' <;> simp
    have hlen : ([label].getD k' []).length ≤ wl := by
      rw [hlab]; split_ifs <;> simp [hl]
    simp only [List.length_cons, List.length_nil, Nat.reduceAdd, hr, List.map_cons, List.map_nil, cellText,
      List.getElem?_cons_zero, List.getElem?_cons_succ, Option.bind_some, Option.getD_some,
      List.flatten_cons, List.flatten_nil, List.append_nil]
    rw [← List.getD_eq_getElem?_getD, ← List.getD_eq_getElem?_getD, excess_fits hlen h1, excess_fits hlk h2, hlab]
    unfold padTo
    rw [hlab] at hlen
    congr 3

theorem chunks_pairs (ps : List (Text × Text)) :
    chunks 2 ps.length (ps.flatMap fun p => [p.1, p.2]) = ps.map fun p => [p.1, p.2] := by
  induction ps with
  | nil => rfl
  | cons p ps ih => simp [chunks, ih]

theorem table_lines (fuel wl w sp : ℕ) (ps : List (Text × Text))
    (h : ∀ p ∈ ps, p.1 ≠ [] ∧ ' ' ∉ p.1 ∧ p.1.length ≤ wl ∧ (∀ x ∈ words p.2, x.length ≤ w) ∧
      p.1.length < fuel ∧ p.2.length < fuel) (h1 : wl + sp < 2 ^ 32) (h2 : w + sp < 2 ^ 32) :
    ∃ rs : List (List Text), writeTable fuel (ps.flatMap fun p => [p.1, p.2]) [wl, w] sp =
        .lines rs.flatten ∧
      List.Forall₂ (fun p ls => EntryLines (wl + sp) w p.1 p.2 ls) ps rs := by
  have hlen : (ps.flatMap fun p => [p.1, p.2]).length = 2 * ps.length := by
    induction ps with
    | nil => rfl
    | cons p ps ih =>
      simp only [List.flatMap_cons, List.length_append, List.length_cons, List.length_nil]
      rw [ih fun q hq => h q (by simp [hq])]
      omega
  have hrows : ∃ rs : List (List Text), (ps.map fun p => [p.1, p.2]).mapM
      (tableRow fuel · [wl, w] sp) = some rs ∧
      List.Forall₂ (fun p ls => EntryLines (wl + sp) w p.1 p.2 ls) ps rs := by
    clear hlen
    induction ps with
    | nil => exact ⟨[], rfl, .nil⟩
    | cons p ps ih =>
      obtain ⟨rs, e, hrs⟩ := ih fun q hq => h q (by simp [hq])
      obtain ⟨a, b, c, d, f, g⟩ := h p (by simp)
      obtain ⟨ls, e', hls⟩ := row_lines fuel wl w sp p.1 p.2 a b c d f g h1 h2
      exact ⟨ls :: rs, by rw [List.map_cons, List.mapM_cons, e', e]; rfl, .cons hls hrs⟩
  obtain ⟨rs, e, hrs⟩ := hrows
  refine ⟨rs, ?_, hrs⟩
  unfold writeTable
  rw [if_neg (by simp only [hlen, List.length_cons, List.length_nil]; omega), hlen]
  simp only [List.length_cons, List.length_nil, Nat.reduceAdd]
  rw [Nat.mul_div_cancel_left _ two_pos, chunks_pairs, e]

end Sidis.Lemmas.Help
