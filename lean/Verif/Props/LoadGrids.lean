import Verif.Lemmas.LoadGrids
import Verif.Props.ReadGrids
import Verif.Model.Prokudin

/-!
# C120: loading the tables of the Prokudin sets

`Numeral`, `Row`, `Begins`, `RowOf`, `tableOf`, `FileOf`, `places` and `Found` are in `Verif.Spec.LoadGrids`.
-/

namespace Sidis.Props

open Sidis.ParamStream Sidis.Codec Sidis.Spec Sidis.LoadGrids Sidis.Interp

variable {rnd : ℚ → Option ℚ} {fl : ℝ → ℝ} {disk : Disk}

private theorem openFirst_iff {t : Text} : ∀ ps : List Text, openFirst disk ps = some t ↔
    ∃ before p after, ps = before ++ p :: after ∧ (∀ q ∈ before, disk q = none) ∧ disk p = some t
  | [] => by simp [openFirst]
  | a :: ps => by
    have ih := openFirst_iff (t := t) ps
    simp only [openFirst]
    cases h : disk a with
    | some u =>
      simp only [Option.some.injEq]
      constructor
      · rintro rfl
        exact ⟨[], a, ps, rfl, by simp, h⟩
      · rintro ⟨before, p, after, e, hb, hp⟩
        cases before with
        | nil => simp only [List.nil_append, List.cons.injEq] at e; rw [← e.1, h] at hp; exact Option.some.inj hp
        | cons b bs =>
          simp only [List.cons_append, List.cons.injEq] at e
          have := hb b (by simp)
          rw [← e.1, h] at this
          cases this
    | none =>
      simp only [ih]
      constructor
      · rintro ⟨before, p, after, e, hb, hp⟩
        exact ⟨a :: before, p, after, by rw [e]; rfl, by simpa [h] using hb, hp⟩
      · rintro ⟨before, p, after, e, hb, hp⟩
        cases before with
        | nil => simp only [List.nil_append, List.cons.injEq] at e; rw [← e.1, h] at hp; cases hp
        | cons b bs =>
          simp only [List.cons_append, List.cons.injEq] at e
          exact ⟨bs, p, after, e.2, fun q hq => hb q (by simp [hq]), hp⟩

private theorem candidates_eq (datadir name : String) :
    candidates datadir.toList name.toList = (places datadir name).map String.toList := by
  simp [candidates, places, String.toList_append]

/-- C120: a data file is taken from the first of the five places where it can be opened; `DataFileNotFound`
with its name is thrown exactly when it can be opened nowhere. -/
theorem c120_search (datadir name : String) (t : Text) :
    (findFile disk datadir.toList name.toList = .ok t ↔ Found disk datadir name t) ∧
    (findFile disk datadir.toList name.toList = .notFound name.toList ↔
      ∀ p ∈ places datadir name, disk p.toList = none) ∧
    ((∃ u, findFile disk datadir.toList name.toList = .ok u) ∨
      findFile disk datadir.toList name.toList = .notFound name.toList) := by
  have h1 := openFirst_iff (disk := disk) (t := t) (candidates datadir.toList name.toList)
  have h2 : openFirst disk (candidates datadir.toList name.toList) = none ↔
      ∀ p ∈ places datadir name, disk p.toList = none := by
    rw [candidates_eq]
    induction places datadir name with
    | nil => simp [openFirst]
    | cons a as ih =>
      simp only [List.map_cons, openFirst]
      cases h : disk a.toList <;> simp [h, ih]
  have h3 : (∃ before p after, candidates datadir.toList name.toList = before ++ p :: after ∧
      (∀ q ∈ before, disk q = none) ∧ disk p = some t) ↔ Found disk datadir name t := by
    rw [candidates_eq]
    constructor
    · rintro ⟨before, p, after, e, hb, hp⟩
      obtain ⟨b', r, e1, rfl, e2⟩ := List.map_eq_append_iff.1 e
      obtain ⟨p', a', rfl, rfl, rfl⟩ := List.map_eq_cons_iff.1 e2
      exact ⟨b', p', a', e1, fun q hq => hb _ (List.mem_map_of_mem hq), hp⟩
    · rintro ⟨before, p, after, e, hb, hp⟩
      refine ⟨before.map String.toList, p.toList, after.map String.toList, by rw [e]; simp, ?_, hp⟩
      intro q hq
      obtain ⟨x, hx, rfl⟩ := List.mem_map.1 hq
      exact hb x hx
  rw [h3] at h1
  unfold findFile
  cases h : openFirst disk (candidates datadir.toList name.toList) with
  | none =>
    rw [h] at h1 h2
    refine ⟨by simpa using h1, by simpa using h2, by simp⟩
  | some u =>
    rw [h] at h1 h2
    refine ⟨by simpa using h1, by simpa using h2, .inl ⟨u, rfl⟩⟩

private theorem readRow_row : ∀ {s : Text} {ns : List Numeral} {xs : List ℚ}, Spec.Row s ns →
    RowOf rnd ns xs → readRow rnd ns.length s = some (xs.map .fin)
  | _, _, xs, .nil _, hx => by
    simp only [RowOf, List.forall₂_nil_left_iff] at hx
    subst hx
    rfl
  | _, _, xs, .cons w n s ns hw hn hs h, hx => by
    cases hx with
    | @cons _ x _ xs hx1 hx =>
      have ih := readRow_row h hx
      rw [List.length_cons, readRow, read_numeral rnd hw hn (stop_of hs) hx1]
      simp only [ih]
      rfl

private theorem begins_of_readRow : ∀ (k : ℕ) {s : Text} {ds : List Dbl}, readRow rnd k s = some ds →
    ∃ ns xs, Begins s ns ∧ ns.length = k ∧ RowOf rnd ns xs ∧ ds = xs.map .fin
  | 0, s, ds, h => by
    cases h
    exact ⟨[], [], .nil s, rfl, .nil, rfl⟩
  | k + 1, s, ds, h => by
    rw [readRow] at h
    cases hd : readDouble rnd s with
    | mk d o =>
      rw [hd] at h
      cases o with
      | none => simp at h
      | some rest =>
        simp only [Option.map_eq_some_iff] at h
        obtain ⟨ds', h1, rfl⟩ := h
        obtain ⟨w, n, x, rfl, hw, hn, rfl, hx⟩ := numeral_of_read hd
        obtain ⟨ns, xs, b, hl, hr, rfl⟩ := begins_of_readRow k h1
        exact ⟨n :: ns, x :: xs, .cons w n rest ns hw hn b, by simp [hl], .cons hx hr, rfl⟩

private theorem readRows_some (k : ℕ) : ∀ {ls : List Text} {rows : List (List Dbl)},
    readRows rnd k ls = some rows ↔ List.Forall₂ (fun l r => readRow rnd k l = some r) ls rows
  | [], rows => by simp [readRows, eq_comm]
  | l :: ls, rows => by
    rw [readRows]
    cases h : readRow rnd k l with
    | none => simp [h, List.forall₂_cons_left_iff]
    | some r =>
      simp only [Option.map_eq_some_iff, readRows_some k, List.forall₂_cons_left_iff, h, Option.some.injEq]
      constructor
      · rintro ⟨a, ha, rfl⟩; exact ⟨r, a, rfl, ha, rfl⟩
      · rintro ⟨b, a, rfl, ha, rfl⟩; exact ⟨a, ha, rfl⟩

private theorem toTable_eq (xss : List (List ℚ)) : toTable (xss.map fun xs => xs.map .fin) = tableOf xss := by
  unfold toTable tableOf
  rw [List.map_map]
  refine List.map_congr_left fun xs _ => funext fun i => ?_
  simp only [Function.comp, List.getD_eq_getElem?_getD, List.getElem?_map]
  cases xs[i]? <;> rfl

/-- C120: a file each of whose lines begins with `N + K` numbers in the range of `Real`, separated by white
space, gives the grids that `read_grids` makes from their values. -/
theorem c120_file {N K : ℕ} {datadir name : String} {t : Text} {ls : List Text} {rows : List (List Numeral)}
    {xss : List (List ℚ)} (hf : Found disk datadir name t) (hl : FileOf t ls)
    (hr : List.Forall₂ (fun l ns => Spec.Row l ns ∧ ns.length = N + K) ls rows)
    (hx : List.Forall₂ (RowOf rnd) rows xss) :
    loadGrids rnd fl disk datadir.toList N K name.toList =
      .ofRes (readGrids fl (.fin 0.000001) N K (tableOf xss)) := by
  have h1 := (c120_search datadir name t).1.2 hf
  have h2 : readRows rnd (N + K) (getlines t) = some (xss.map fun xs => xs.map .fin) := by
    rw [getlines_of_file hl, readRows_some]
    clear hl
    induction hr generalizing xss with
    | nil => cases hx; exact .nil
    | cons h _ ih =>
      cases hx with
      | cons hx1 hx =>
        refine .cons ?_ (ih hx)
        rw [← h.2]
        exact readRow_row h.1 hx1
  unfold loadGrids
  rw [h1]
  simp only [Load.bind, h2, toTable_eq]

/-- C120: and conversely, a file is refused by `DataFileParseError` with its name unless each of its lines
begins with `N + K` numbers in the range of `Real`, and the grids come from these numbers. -/
theorem c120_lines {N K : ℕ} {datadir name : String} {t : Text} (hf : Found disk datadir name t) :
    loadGrids rnd fl disk datadir.toList N K name.toList = .parseError name.toList ∨
    ∃ ls xss, FileOf t ls ∧
      List.Forall₂ (fun l xs => ∃ ns, Begins l ns ∧ ns.length = N + K ∧ RowOf rnd ns xs) ls xss ∧
      loadGrids rnd fl disk datadir.toList N K name.toList = 
        .ofRes (readGrids fl (.fin 0.000001) N K (tableOf xss)) := by
  have h1 := (c120_search datadir name t).1.2 hf
  cases h2 : readRows rnd (N + K) (getlines t) with
  | none =>
    left
    unfold loadGrids
    rw [h1]
    simp only [Load.bind, h2]
  | some rows =>
    right
    have h3 := (readRows_some _).1 h2
    have h4 : ∀ {ls : List Text} {rows : List (List Dbl)},
        List.Forall₂ (fun l r => readRow rnd (N + K) l = some r) ls rows → ∃ xss : List (List ℚ),
        List.Forall₂ (fun l xs => ∃ ns, Begins l ns ∧ ns.length = N + K ∧ RowOf rnd ns xs) ls xss ∧
          rows = xss.map fun xs => xs.map .fin := by
      intro ls rows h
      induction h with
      | nil => exact ⟨[], .nil, rfl⟩
      | cons h _ ih =>
        obtain ⟨xss, a, rfl⟩ := ih
        obtain ⟨ns, xs, b, hl, hr, rfl⟩ := begins_of_readRow _ h
        exact ⟨xs :: xss, .cons ⟨ns, b, hl, hr⟩ a, rfl⟩
    obtain ⟨xss, h5, h6⟩ := h4 h3
    refine ⟨getlines t, xss, file_of_getlines t, h5, ?_⟩
    unfold loadGrids
    rw [h1]
    simp only [Load.bind, h2, h6, toTable_eq]

/-- C120, from the file to the grids: a file whose lines list a full grid with ascending, evenly spaced
coordinates (up to one part in a million of the spacing), in row-major order of any permutation of the axes,
is accepted, and each of the `K` grids has the counts and bounds of the table and stores, at every
multi-index, the number written on the line with those coordinates. -/
theorem c120_grid {N K : ℕ} {datadir name : String} {t : Text} {ls : List Text} {rows : List (List Numeral)}
    {xss : List (List ℚ)} (hf : Found disk datadir name t) (hl : FileOf t ls)
    (hr : List.Forall₂ (fun l ns => Spec.Row l ns ∧ ns.length = N + K) ls rows)
    (hx : List.Forall₂ (RowOf rnd) rows xss)
    {ord : List ℕ} {cnt : ℕ → ℕ} {plane : ℕ → ℕ → ℝ} (hp : ord.Perm (List.range N))
    (h : Lists (tableOf xss) ord cnt fun k j => .fin (plane k j))
    (he : ∀ k < N, Even 0.000001 (cnt k) (plane k)) (hs : ls.length = (ord.map cnt).prod) :
    ∃ gs, loadGrids rnd id disk datadir.toList N K name.toList = .ok gs ∧ gs.length = K ∧ ∀ col < K, ∃ g,
      gs[col]? = some g ∧
      g.dims = (List.range N).map (fun k => ⟨cnt k, .fin (plane k 0), .fin (plane k (cnt k - 1))⟩) ∧
      ∀ i : ℕ → ℕ, (∀ k < N, i k < cnt k) → ∀ ns,
        rows[flat (ord.map cnt) (ord.map i)]? = some ns → ∃ n x, ns[N + col]? = some n ∧
        rnd n.value = some x ∧
        g.data[flat ((List.range N).map cnt) ((List.range N).map i)]? = some (.fin x) := by
  have hlen : (tableOf xss).length = ls.length := by
    rw [tableOf, List.length_map, ← hx.length_eq, ← hr.length_eq]
  obtain ⟨gs, h1, h2, h3⟩ := c32_read_grids K hp h he (by rw [hlen, hs])
  refine ⟨gs, ?_, h2, fun col hcol => ?_⟩
  · rw [c120_file hf hl hr hx, h1]
    rfl
  · obtain ⟨g, g1, g2, -, g3⟩ := h3 col hcol
    refine ⟨g, g1, g2, fun i hi ns hns => ?_⟩
    set r := flat (ord.map cnt) (ord.map i) with hrr
    have hr0 : r < rows.length := (List.getElem?_eq_some_iff.1 hns).1
    have hr1 : r < xss.length := hx.length_eq ▸ hr0
    have hr2 : r < ls.length := hr.length_eq ▸ hr0
    have a1 := List.Forall₂.get hx hr0 hr1
    have a2 := List.Forall₂.get hr hr2 hr0
    have e0 : rows[r] = ns := (List.getElem?_eq_some_iff.1 hns).2
    simp only [List.get_eq_getElem, e0] at a1 a2
    have hk : N + col < ns.length := by rw [a2.2]; omega
    have hk' : N + col < xss[r].length := by rw [← List.Forall₂.length_eq a1]; exact hk
    refine ⟨ns[N + col], xss[r][N + col], List.getElem?_eq_getElem hk, List.Forall₂.get a1 hk hk', ?_⟩
    have := g3 i hi (fun j => match xss[r][j]? with | some x => .fin x | none => .nan) (by
      rw [tableOf, List.getElem?_map, List.getElem?_eq_getElem hr1]
      rfl)
    rw [this]
    simp only [List.getElem?_eq_getElem hk']

private theorem begins_blank {s : Text} {ns : List Numeral} (h : Begins s ns) (hb : Blank s) : ns = [] := by
  cases h with
  | nil => rfl
  | cons w n s ns hw hn h =>
    exfalso
    have hd : ∃ c ∈ n.text, isDigit c = true := by
      rw [text_eq]
      rcases hn.some_digit with h | ⟨f, hf, h⟩
      · obtain ⟨c, hc⟩ := List.exists_mem_of_ne_nil _ h
        exact ⟨c, by simp [hc], digits_iff.1 hn.int c hc⟩
      · obtain ⟨c, hc⟩ := List.exists_mem_of_ne_nil _ h
        exact ⟨c, by simp [hf, fracPart, hc], digits_iff.1 (hn.frac f hf) c hc⟩
    obtain ⟨c, hc, hcd⟩ := hd
    have := hb c (by simp [hc])
    rw [(isDigit_facts hcd).1] at this
    cases this

/-- C120: a line of white space only, for instance at the end of the file, is an error. -/
theorem c120_blank {N K : ℕ} {datadir name : String} {t : Text} {ls : List Text} (hNK : 0 < N + K)
    (hf : Found disk datadir name t) (hl : FileOf t ls) (hb : ∃ l ∈ ls, Blank l) :
    loadGrids rnd fl disk datadir.toList N K name.toList = .parseError name.toList := by
  obtain h | ⟨ls', xss, h1, h2, -⟩ := c120_lines (rnd := rnd) (fl := fl) (N := N) (K := K) hf
  · exact h
  · exfalso
    have : ls' = ls := (getlines_of_file h1).symm.trans (getlines_of_file hl)
    subst this
    obtain ⟨l, hl', hbl⟩ := hb
    obtain ⟨i, hi, rfl⟩ := List.mem_iff_getElem.1 hl'
    obtain ⟨ns, hbg, hlen, -⟩ := List.Forall₂.get h2 hi (h2.length_eq ▸ hi)
    rw [begins_blank hbg hbl] at hlen
    simp at hlen
    omega

/-- C120, refuted: that a line with something else than `N + K` numbers on it is an error. More numbers, or
any text, after the numbers of each line are ignored without a message. -/
theorem c120_junk_refuted {N K : ℕ} {datadir name : String} {t t' : Text} {ls : List Text}
    {rows : List (List Numeral)} {xss : List (List ℚ)} {disk' : Disk} (hf : Found disk datadir name t)
    (hl : FileOf t ls) (hr : List.Forall₂ (fun l ns => Spec.Row l ns ∧ ns.length = N + K) ls rows)
    (hx : List.Forall₂ (RowOf rnd) rows xss) (junk : Text) (hf' : Found disk' datadir name t')
    (hl' : FileOf t' (ls.map (· ++ ' ' :: junk))) :
    loadGrids rnd fl disk' datadir.toList N K name.toList =
      loadGrids rnd fl disk datadir.toList N K name.toList := by
  have key : ∀ {s : Text} {ns : List Numeral}, Spec.Row s ns → Spec.Row (s ++ ' ' :: junk) ns := by
    intro s ns h
    induction h with
    | nil s => exact .nil _
    | cons w n s ns hw hn hs h ih =>
      rw [List.append_assoc]
      refine .cons w n _ ns hw hn ?_ ih
      right
      rcases hs with rfl | ⟨c, t, rfl, hc⟩
      · exact ⟨' ', junk, rfl, rfl⟩
      · exact ⟨c, _, rfl, hc⟩
  rw [c120_file hf hl hr hx]
  refine c120_file hf' hl' ?_ hx
  clear hl hl' hx
  induction hr with
  | nil => exact .nil
  | cons h _ ih => exact .cons ⟨key h.1, h.2⟩ ih

private theorem bind_ok {α β : Type} {l : Load α} {f : α → Load β} {b : β} :
    l.bind f = .ok b ↔ ∃ a, l = .ok a ∧ f a = .ok b := by
  cases l <;> simp [Load.bind]

private theorem bind_ok_left {α β : Type} {a : α} {f : α → Load β} : (Load.ok a).bind f = f a := rfl

private theorem load_length {N K : ℕ} {datadir name : Text} {gs : List Grid}
    (h : loadGrids rnd fl disk datadir N K name = .ok gs) : gs.length = K := by
  unfold loadGrids at h
  rw [bind_ok] at h
  obtain ⟨t, -, h⟩ := h
  split at h
  · cases h
  · rename_i rows _
    cases h2 : readGrids fl (.fin 0.000001) N K (toTable rows) with
    | val gs' =>
      rw [h2] at h
      cases h
      obtain ⟨_, _, _, _, _, _, h3⟩ := c33_accepted h2
      simpa using h3.length_eq.symm
    | throw e => rw [h2] at h; cases h
    | ub => rw [h2] at h; cases h

private theorem pick_six {gs : List Grid} (h : gs.length = 6) : pick gs [0, 1, 2, 3, 4, 5] = .ok gs := by
  match gs, h with
  | [a, b, c, d, e, f], _ => rfl

private theorem pick_two {gs : List Grid} (h : gs.length = 2) : pick gs [0, 1] = .ok gs := by
  match gs, h with
  | [a, b], _ => rfl

variable {P : Type} (mstw : Text → P)

/-- C120: when all the files load, the sets have the tables of the files, with the columns of gT sorted by
the flavours. -/
theorem c120_tables {datadir : String} {t : Text} {gs : String → List Grid}
    (ht : Found disk datadir "mstw2008lo.00.dat" t)
    (h : ∀ f ∈ tableFiles, loadGrids rnd fl disk datadir.toList 2 f.1 f.2.toList = .ok (gs f.2)) :
    ∃ T, prokudinImpl mstw rnd fl disk datadir.toList = .ok T ∧ T.pdf = mstw t ∧
      T.D1_pi_plus = gs "fragmentationpiplus.dat" ∧ T.D1_pi_minus = gs "fragmentationpiminus.dat" ∧
      T.g1 = gs "g1.dat" ∧ T.xh1LperpM1 = gs "xh1Lperp_u_d.dat" ∧ T.sb = gs "SofferBound.dat" ∧
      T.xgT.length = 6 ∧ ∀ (q : QuarkFlavor) (i j : ℕ), flavors[i]? = some q → gTColumns[j]? = some q →
        T.xgT[i]? = (gs "gT_u_d_ubar_dbar_s_sbar.dat")[j]? := by
  have h0 := (c120_search datadir "mstw2008lo.00.dat" t).1.2 ht
  have h1 := h (6, "fragmentationpiplus.dat") (by simp [tableFiles])
  have h2 := h (6, "fragmentationpiminus.dat") (by simp [tableFiles])
  have h3 := h (6, "g1.dat") (by simp [tableFiles])
  have h4 := h (6, "gT_u_d_ubar_dbar_s_sbar.dat") (by simp [tableFiles])
  have h5 := h (2, "xh1Lperp_u_d.dat") (by simp [tableFiles])
  have h6 := h (6, "SofferBound.dat") (by simp [tableFiles])
  simp only at h1 h2 h3 h4 h5 h6
  have l4 := load_length h4
  unfold prokudinImpl
  simp only [h0, h1, h2, h3, h4, h5, h6, Load.bind, pick_six (load_length h1), pick_six (load_length h2),
    pick_six (load_length h3), pick_two (load_length h5), pick_six (load_length h6)]
  generalize gs "gT_u_d_ubar_dbar_s_sbar.dat" = g at l4
  match g, l4 with
  | [a, b, c, d, e, f], _ =>
    refine ⟨_, rfl, rfl, rfl, rfl, rfl, rfl, rfl, rfl, ?_⟩
    intro q i j hi hj
    have hi6 : i < 6 := by simpa [flavors] using (List.getElem?_eq_some_iff.1 hi).1
    have hj6 : j < 6 := by simpa [gTColumns] using (List.getElem?_eq_some_iff.1 hj).1
    subst_vars
    interval_cases i <;> interval_cases j <;>
      first
        | rfl
        | (simp only [flavors, gTColumns] at hi hj; rw [← hj] at hi; exact absurd hi (by decide))

/-- C120: the constructor succeeds exactly when all seven files load; otherwise it fails like the first of
them that does not. -/
theorem c120_first_failure (datadir : String) :
    ((∃ T, prokudinImpl mstw rnd fl disk datadir.toList = .ok T) ∧
      (∃ t, Found disk datadir "mstw2008lo.00.dat" t) ∧
      ∀ f ∈ tableFiles, ∃ gs, loadGrids rnd fl disk datadir.toList 2 f.1 f.2.toList = .ok gs) ∨
    (prokudinImpl mstw rnd fl disk datadir.toList = .notFound "mstw2008lo.00.dat".toList ∧
      ∀ p ∈ places datadir "mstw2008lo.00.dat", disk p.toList = none) ∨
    ∃ before f after, tableFiles = before ++ f :: after ∧
      (∀ g ∈ before, ∃ gs, loadGrids rnd fl disk datadir.toList 2 g.1 g.2.toList = .ok gs) ∧
      SameFailure (prokudinImpl mstw rnd fl disk datadir.toList)
        (loadGrids rnd fl disk datadir.toList 2 f.1 f.2.toList) := by
  obtain ⟨t, h0⟩ | h0 := (c120_search (disk := disk) datadir "mstw2008lo.00.dat" []).2.2
  swap
  · refine .inr (.inl ⟨?_, (c120_search datadir _ []).2.1.1 h0⟩)
    unfold prokudinImpl
    rw [h0]
    rfl
  have h0' := (c120_search datadir "mstw2008lo.00.dat" t).1.1 h0
  have step : ∀ {β : Type} (l : Load (List Grid)) (f : List Grid → Load β), (∃ gs, l = .ok gs) ∨
      SameFailure (l.bind f) l := by
    intro β l f
    cases l <;> simp [SameFailure, Load.bind]
  unfold prokudinImpl
  rw [h0]
  simp only [bind_ok_left]
  obtain ⟨g0, h1⟩ | h1 := step (loadGrids rnd fl disk datadir.toList 2 6 "fragmentationpiplus.dat".toList) _
  swap
  · refine .inr (.inr ⟨[], (6, "fragmentationpiplus.dat"), [(6, "fragmentationpiminus.dat"), (6, "g1.dat"), (6, "gT_u_d_ubar_dbar_s_sbar.dat"), (2, "xh1Lperp_u_d.dat"), (6, "SofferBound.dat")], rfl, ?_, h1⟩)
    simp
  rw [h1]
  simp only [bind_ok_left]
  obtain ⟨g1, h2⟩ | h2 := step (loadGrids rnd fl disk datadir.toList 2 6 "fragmentationpiminus.dat".toList) _
  swap
  · refine .inr (.inr ⟨[(6, "fragmentationpiplus.dat")], (6, "fragmentationpiminus.dat"), [(6, "g1.dat"), (6, "gT_u_d_ubar_dbar_s_sbar.dat"), (2, "xh1Lperp_u_d.dat"), (6, "SofferBound.dat")], rfl, ?_, h2⟩)
    intro g hg
    simp only [List.mem_cons, List.not_mem_nil, or_false] at hg
    rcases hg with rfl
    · exact ⟨_, h1⟩
  rw [h2]
  simp only [bind_ok_left]
  obtain ⟨g2, h3⟩ | h3 := step (loadGrids rnd fl disk datadir.toList 2 6 "g1.dat".toList) _
  swap
  · refine .inr (.inr ⟨[(6, "fragmentationpiplus.dat"), (6, "fragmentationpiminus.dat")], (6, "g1.dat"), [(6, "gT_u_d_ubar_dbar_s_sbar.dat"), (2, "xh1Lperp_u_d.dat"), (6, "SofferBound.dat")], rfl, ?_, h3⟩)
    intro g hg
    simp only [List.mem_cons, List.not_mem_nil, or_false] at hg
    rcases hg with rfl | rfl
    · exact ⟨_, h1⟩
    · exact ⟨_, h2⟩
  rw [h3]
  simp only [bind_ok_left]
  obtain ⟨g3, h4⟩ | h4 := step (loadGrids rnd fl disk datadir.toList 2 6 "gT_u_d_ubar_dbar_s_sbar.dat".toList) _
  swap
  · refine .inr (.inr ⟨[(6, "fragmentationpiplus.dat"), (6, "fragmentationpiminus.dat"), (6, "g1.dat")], (6, "gT_u_d_ubar_dbar_s_sbar.dat"), [(2, "xh1Lperp_u_d.dat"), (6, "SofferBound.dat")], rfl, ?_, h4⟩)
    intro g hg
    simp only [List.mem_cons, List.not_mem_nil, or_false] at hg
    rcases hg with rfl | rfl | rfl
    · exact ⟨_, h1⟩
    · exact ⟨_, h2⟩
    · exact ⟨_, h3⟩
  rw [h4]
  simp only [bind_ok_left]
  obtain ⟨g4, h5⟩ | h5 := step (loadGrids rnd fl disk datadir.toList 2 2 "xh1Lperp_u_d.dat".toList) _
  swap
  · refine .inr (.inr ⟨[(6, "fragmentationpiplus.dat"), (6, "fragmentationpiminus.dat"), (6, "g1.dat"), (6, "gT_u_d_ubar_dbar_s_sbar.dat")], (2, "xh1Lperp_u_d.dat"), [(6, "SofferBound.dat")], rfl, ?_, h5⟩)
    intro g hg
    simp only [List.mem_cons, List.not_mem_nil, or_false] at hg
    rcases hg with rfl | rfl | rfl | rfl
    · exact ⟨_, h1⟩
    · exact ⟨_, h2⟩
    · exact ⟨_, h3⟩
    · exact ⟨_, h4⟩
  rw [h5]
  simp only [bind_ok_left]
  obtain ⟨g5, h6⟩ | h6 := step (loadGrids rnd fl disk datadir.toList 2 6 "SofferBound.dat".toList) _
  swap
  · refine .inr (.inr ⟨[(6, "fragmentationpiplus.dat"), (6, "fragmentationpiminus.dat"), (6, "g1.dat"), (6, "gT_u_d_ubar_dbar_s_sbar.dat"), (2, "xh1Lperp_u_d.dat")], (6, "SofferBound.dat"), [], rfl, ?_, h6⟩)
    intro g hg
    simp only [List.mem_cons, List.not_mem_nil, or_false] at hg
    rcases hg with rfl | rfl | rfl | rfl | rfl
    · exact ⟨_, h1⟩
    · exact ⟨_, h2⟩
    · exact ⟨_, h3⟩
    · exact ⟨_, h4⟩
    · exact ⟨_, h5⟩
  rw [h6]
  simp only [bind_ok_left]
  have hall : ∀ f ∈ tableFiles, ∃ gs, loadGrids rnd fl disk datadir.toList 2 f.1 f.2.toList = .ok gs := by
    intro g hg
    simp only [tableFiles, List.mem_cons, List.not_mem_nil, or_false] at hg
    rcases hg with rfl | rfl | rfl | rfl | rfl | rfl
    exacts [⟨_, h1⟩, ⟨_, h2⟩, ⟨_, h3⟩, ⟨_, h4⟩, ⟨_, h5⟩, ⟨_, h6⟩]
  refine .inl ⟨?_, ⟨t, h0'⟩, hall⟩
  rw [pick_six (load_length h1), pick_six (load_length h2), pick_six (load_length h3),
    pick_two (load_length h5), pick_six (load_length h6)]
  have l4 := load_length h4
  match g3, l4 with
  | [a, b, c, d, e, f], _ => exact ⟨_, rfl⟩

/-- C120: the flavours by index have the charges of the quarks. -/
theorem c120_charges (q : QuarkFlavor) (i : ℕ) (h : flavors[i]? = some q) :
    Prokudin.charge i = q.charge := by
  have hi6 : i < 6 := by simpa [flavors] using (List.getElem?_eq_some_iff.1 h).1
  interval_cases i <;> cases h <;> norm_num [Prokudin.charge, QuarkFlavor.charge]

/-! ### A file with a grid of two by two points -/

private def dig (c : Char) : Numeral := ⟨none, [c], none, none⟩

private def exLine (a b : Char) : Text :=
  [a, ' ', b, ' ', '-', '1', '.', '5', 'e', '+', '1', ' ', '2', '\t', '3', ' ', '4', ' ', '5', ' ', '.', '5']

private def exRow (a b : Char) : List Numeral :=
  [dig a, dig b, ⟨some '-', ['1'], some ['5'], some ('e', some '+', ['1'])⟩, dig '2', dig '3', dig '4', dig '5',
    ⟨none, [], some ['5'], none⟩]

def exLines : List Text := [exLine '0' '0', exLine '0' '1', exLine '1' '0', exLine '1' '1']

private def exRows : List (List Numeral) := [exRow '0' '0', exRow '0' '1', exRow '1' '0', exRow '1' '1']

def exFile : Text := exLines.flatMap (· ++ ['\n'])

private def exVals (a b : ℚ) : List ℚ := [a, b, -15, 2, 3, 4, 5, 1 / 2]

private def exXss : List (List ℚ) := [exVals 0 0, exVals 0 1, exVals 1 0, exVals 1 1]

private theorem dig_ok {c : Char} (h : '0' ≤ c ∧ c ≤ '9') : (dig c).Ok :=
  ⟨.inl rfl, by simpa [dig, Digits] using h, by simp [dig], by simp [dig], by simp [dig]⟩

private theorem exRow_row {a b : Char} (ha : '0' ≤ a ∧ a ≤ '9') (hb : '0' ≤ b ∧ b ≤ '9') (k : ℕ) :
    Spec.Row (exLine a b) ((exRow a b).take k) := by
  have sp : ∀ (c : Char) (t : Text), isSpace c = true → c :: t = [] ∨ ∃ d u, c :: t = d :: u ∧ isSpace d = true :=
    fun c t h => .inr ⟨c, t, rfl, h⟩
  have bl : ∀ c, isSpace c = true → Blank [c] := fun c h => by simpa [Blank] using h
  have full : Spec.Row (exLine a b) (exRow a b) := by
    refine .cons [] (dig a) _ _ (by simp [Blank]) (dig_ok ha) (sp _ _ rfl) ?_
    refine .cons [' '] (dig b) _ _ (bl _ rfl) (dig_ok hb) (sp _ _ rfl) ?_
    refine .cons [' '] ⟨some '-', ['1'], some ['5'], some ('e', some '+', ['1'])⟩ _ _ (bl _ rfl)
      ⟨.inr (.inr rfl), by simp [Digits], by simp [Digits], by simp, ?_⟩ (sp _ _ rfl) ?_
    · intro m s d h
      cases h
      exact ⟨.inl rfl, .inr (.inl rfl), by simp [Digits], by simp⟩
    refine .cons [' '] (dig '2') _ _ (bl _ rfl) (dig_ok (by decide)) (sp _ _ rfl) ?_
    refine .cons ['\t'] (dig '3') _ _ (bl _ rfl) (dig_ok (by decide)) (sp _ _ rfl) ?_
    refine .cons [' '] (dig '4') _ _ (bl _ rfl) (dig_ok (by decide)) (sp _ _ rfl) ?_
    refine .cons [' '] (dig '5') _ _ (bl _ rfl) (dig_ok (by decide)) (sp _ _ rfl) ?_
    exact .cons [' '] ⟨none, [], some ['5'], none⟩ [] _ (bl _ rfl)
      ⟨.inl rfl, by simp [Digits], by simp [Digits], by simp, by simp⟩ (.inl rfl) (.nil _)
  have take : ∀ {s : Text} {ns : List Numeral} (k : ℕ), Spec.Row s ns → Spec.Row s (ns.take k) := by
    intro s ns k h
    induction h generalizing k with
    | nil => simpa using Spec.Row.nil _
    | cons w n s ns hw hn hs h ih =>
      cases k with
      | zero => exact .nil _
      | succ k => exact .cons w n s _ hw hn hs (ih k)
  exact take k full

private theorem exFile_of : FileOf exFile exLines := by
  refine ⟨?_, .inl rfl⟩
  intro l hl
  simp only [exLines, List.mem_cons, List.not_mem_nil, or_false] at hl
  rcases hl with rfl | rfl | rfl | rfl <;> decide

private theorem exVals_of {a b : Char} {x y : ℚ} (ha : (digitsNat [a] : ℚ) = x) (hb : (digitsNat [b] : ℚ) = y) (k : ℕ) :
    RowOf some ((exRow a b).take k) ((exVals x y).take k) := by
  refine List.forall₂_take k ?_
  subst ha hb
  simp only [exRow, exVals, List.forall₂_cons, List.forall₂_nil_left_iff]
  have c1 : '1'.toNat = 49 := rfl
  have c2 : '2'.toNat = 50 := rfl
  have c3 : '3'.toNat = 51 := rfl
  have c4 : '4'.toNat = 52 := rfl
  have c5 : '5'.toNat = 53 := rfl
  norm_num [Numeral.value, dig, digitsNat, fracValue, scale, c1, c2, c3, c4, c5, show '+' ≠ '-' by decide]
  simp

private theorem exGrid (datadir name : String) {K : ℕ} (hK : K ≤ 6) :
    ∃ gs, loadGrids some id (fun _ => some exFile) datadir.toList 2 K name.toList = .ok gs ∧ gs.length = K ∧
      (∀ g ∈ gs, g.dims = [⟨2, .fin 0, .fin 1⟩, ⟨2, .fin 0, .fin 1⟩]) ∧
      ∀ g, gs[0]? = some g → g.data[3]? = some (.fin (-15)) := by
  have hf : Found (fun _ => some exFile) datadir name exFile := ⟨[], _, _, rfl, by simp, rfl⟩
  obtain ⟨gs, h1, h2, h3⟩ := c120_grid (K := K) (rows := exRows.map (·.take (2 + K))) (xss := exXss.map (·.take (2 + K)))
    (N := 2) (ord := [0, 1]) (cnt := fun _ => 2) (plane := fun _ j => j) hf exFile_of
    (by
      have hl : ∀ a b, ((exRow a b).take (2 + K)).length = 2 + K := by
        intro a b
        rw [List.length_take]
        simp [exRow]
        omega
      exact .cons ⟨exRow_row (by decide) (by decide) _, hl _ _⟩ (.cons ⟨exRow_row (by decide) (by decide) _, hl _ _⟩
        (.cons ⟨exRow_row (by decide) (by decide) _, hl _ _⟩
          (.cons ⟨exRow_row (by decide) (by decide) _, hl _ _⟩ .nil))))
    (.cons (exVals_of (by decide) (by decide) _) (.cons (exVals_of (by decide) (by decide) _)
      (.cons (exVals_of (by decide) (by decide) _) (.cons (exVals_of (by decide) (by decide) _) .nil))))
    (by simp [List.range_succ])
    (by
      refine ⟨by simp, by simp, ?_⟩
      intro i hi r row hrow hr k hk
      have h0 := hi 0 (by simp)
      have h1 := hi 1 (by simp)
      simp [flat] at hr
      have hr4 : r < 4 := by
        by_contra hc
        rw [List.getElem?_eq_none (by simpa [tableOf, exXss] using hc)] at hrow
        cases hrow
      have hk' : k = 0 ∨ k = 1 := by simpa using hk
      interval_cases r <;> rcases hk' with rfl | rfl <;>
        simp [tableOf, exXss, exVals, Nat.add_comm 2 K, List.take_succ_cons] at hrow <;> rw [← hrow] <;>
        simp [Fl.eq] <;> norm_cast <;> omega)
    (by
      intro k _
      refine ⟨?_, ?_⟩
      · intro j h1 _
        simpa using h1
      · intro j hj
        norm_num)
    (by simp [exLines])
  refine ⟨gs, h1, h2, fun g hg => ?_, fun g hg => ?_⟩
  · obtain ⟨i, hi, rfl⟩ := List.mem_iff_getElem.1 hg
    obtain ⟨g', g1, g2, -⟩ := h3 i (h2 ▸ hi)
    rw [List.getElem?_eq_getElem hi] at g1
    cases g1
    rw [g2]
    simp [List.range_succ]
  obtain ⟨g', g1, -, g2⟩ := h3 0 (by
    rw [← h2]
    exact (List.getElem?_eq_some_iff.1 hg).1)
  rw [hg] at g1
  cases g1
  obtain ⟨n, x, hn, hx, hd⟩ := g2 (fun _ => 1) (by simp) ((exRow '1' '1').take (2 + K)) rfl
  rw [List.getElem?_take] at hn
  split_ifs at hn
  cases hn
  cases hx
  rw [show flat ((List.range 2).map fun _ => 2) ((List.range 2).map fun _ => 1) = 3 from rfl] at hd
  rw [hd]
  have c1 : '1'.toNat = 49 := rfl
  have c5 : '5'.toNat = 53 := rfl
  norm_num [Numeral.value, digitsNat, fracValue, scale, c1, c5, show '+' ≠ '-' by decide]

/-- When every path is this file, all loads, with the ranges in the file, and the value written as `-1.5e+1` is
stored. -/
theorem c120_example (mstw : Text → P) : ∃ T,
    prokudinImpl mstw some id (fun _ => some exFile) "/usr/share".toList = .ok T ∧
    T.pdf = mstw exFile ∧ T.D1_pi_plus.length = 6 ∧ T.g1.length = 6 ∧
    (∀ g ∈ T.D1_pi_plus ++ T.g1, g.dims = [⟨2, .fin 0, .fin 1⟩, ⟨2, .fin 0, .fin 1⟩]) ∧
    ∀ g, T.g1[0]? = some g → g.data[3]? = some (.fin (-15)) := by
  obtain ⟨gs6, h6, l6, d6, v6⟩ : ∃ gs : String → List Grid, (∀ name, loadGrids some id (fun _ => some exFile)
      "/usr/share".toList 2 6 name.toList = .ok (gs name)) ∧ (∀ name, (gs name).length = 6) ∧
      (∀ name, ∀ g ∈ gs name, g.dims = [⟨2, .fin 0, .fin 1⟩, ⟨2, .fin 0, .fin 1⟩]) ∧
      ∀ name g, (gs name)[0]? = some g → g.data[3]? = some (.fin (-15)) := by
    choose gs h using fun name => exGrid "/usr/share" name (le_refl 6)
    exact ⟨gs, fun n => (h n).1, fun n => (h n).2.1, fun n => (h n).2.2.1, fun n => (h n).2.2.2⟩
  obtain ⟨gs2, h2, l2, v2⟩ := exGrid "/usr/share" "xh1Lperp_u_d.dat" (K := 2) (by norm_num)
  obtain ⟨T, hT, hp, hD, -, hg, -⟩ := c120_tables mstw (disk := fun _ => some exFile) (rnd := some) (fl := id)
    (gs := fun n => if n = "xh1Lperp_u_d.dat" then gs2 else gs6 n) (t := exFile) (datadir := "/usr/share")
    ⟨[], _, _, rfl, by simp, rfl⟩ (by
      intro f hf
      simp only [tableFiles, List.mem_cons, List.not_mem_nil, or_false] at hf
      rcases hf with rfl | rfl | rfl | rfl | rfl | rfl
      · exact h6 _
      · exact h6 _
      · exact h6 _
      · exact h6 _
      · exact h2
      · exact h6 _)
  have eD : T.D1_pi_plus = gs6 "fragmentationpiplus.dat" := hD
  have eg : T.g1 = gs6 "g1.dat" := hg
  refine ⟨T, hT, hp, by rw [eD, l6], by rw [eg, l6], ?_, ?_⟩
  · intro g hm
    rw [eD, eg, List.mem_append] at hm
    rcases hm with hm | hm <;> exact d6 _ g hm
  · rw [eg]
    exact v6 "g1.dat"

/-- Without files, the first one is reported. -/
example (mstw : Text → P) : prokudinImpl mstw some id (fun _ => none) "/usr/share".toList =
    .notFound "mstw2008lo.00.dat".toList := by
  obtain ⟨-, ⟨t, _, p, _, -, -, h⟩, -⟩ | ⟨h, -⟩ | ⟨_, _, _, -, -, h⟩ :=
    c120_first_failure (rnd := some) (fl := id) (disk := fun _ => none) mstw "/usr/share"
  · cases h
  · exact h
  · rfl

/-- With an empty line at the end, the file is not read. -/
example : loadGrids some id (fun _ => some (exFile ++ ['\n'])) "/usr/share".toList 2 6 "g1.dat".toList =
    .parseError "g1.dat".toList :=
  c120_blank (by norm_num) (t := exFile ++ ['\n']) (ls := exLines ++ [[]]) (datadir := "/usr/share")
    ⟨[], _, _, rfl, by simp, rfl⟩
    ⟨by
      intro l hl
      rw [List.mem_append] at hl
      rcases hl with hl | hl
      · exact exFile_of.1 l hl
      · simp at hl; simp [hl], .inl (by rw [List.flatMap_append]; rfl)⟩
    ⟨[], by simp, by simp [Blank]⟩

/-- With two more columns, it is read as without. -/
example : loadGrids some id (fun _ => some ((exLines.map (· ++ " 7 x".toList)).flatMap (· ++ ['\n'])))
      "/usr/share".toList 2 6 "g1.dat".toList =
    loadGrids some id (fun _ => some exFile) "/usr/share".toList 2 6 "g1.dat".toList := by
  refine c120_junk_refuted (disk' := fun _ => some ((exLines.map (· ++ " 7 x".toList)).flatMap (· ++ ['\n'])))
    (datadir := "/usr/share") (name := "g1.dat") ⟨[], _, _, rfl, by simp, rfl⟩ exFile_of (rows := exRows)
    (xss := exXss) ?_ ?_ "7 x".toList ⟨[], _, _, rfl, by simp, rfl⟩ ⟨?_, .inl rfl⟩
  · exact .cons ⟨exRow_row (by decide) (by decide) 8, rfl⟩ (.cons ⟨exRow_row (by decide) (by decide) 8, rfl⟩
      (.cons ⟨exRow_row (by decide) (by decide) 8, rfl⟩ (.cons ⟨exRow_row (by decide) (by decide) 8, rfl⟩ .nil)))
  · exact .cons (exVals_of (by decide) (by decide) 8) (.cons (exVals_of (by decide) (by decide) 8)
      (.cons (exVals_of (by decide) (by decide) 8) (.cons (exVals_of (by decide) (by decide) 8) .nil)))
  · decide

end Sidis.Props
