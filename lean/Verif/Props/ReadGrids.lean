import Verif.Lemmas.ReadGrids
import Mathlib.Tactic.IntervalCases

/-!
# Properties of `read_grids` (C32, C33)

A table has `N` coordinate columns and `K` data columns.  `Lists`, `Stores` and `Even` are defined in
`Spec.ReadGrids`.
-/

namespace Sidis.Props

open Interp Spec

/-- Acceptance of a grid that is listed `m` times. -/
theorem readGrids_accepts {raw : Table} {N : ℕ} (K : ℕ) {ord : List ℕ} {cnt : ℕ → ℕ}
    {plane : ℕ → ℕ → ℝ} {m : ℕ} {tol : ℝ} (hp : ord.Perm (List.range N))
    (h : Lists raw ord cnt fun k j => .fin (plane k j)) (he : ∀ k < N, Even tol (cnt k) (plane k))
    (hs : raw.length = (ord.map cnt).prod * m) (hm : 0 < m) :
    ∃ gs, readGrids id (.fin tol) N K raw = .val gs ∧
      List.Forall₂ (fun col g =>
        g.dims = (List.range N).map
          (fun k => ⟨cnt k, .fin (plane k 0), .fin (plane k (cnt k - 1))⟩) ∧
        Stores raw N col ord cnt g) (List.range K) gs := by
  have hmem : ∀ k ∈ ord, k < N := fun k hk => List.mem_range.1 (hp.mem_iff.1 hk)
  have hf := full_of_lists h hp (fun k hk => he k (hmem k hk)) hs hm
  have hcov := hf.covers
  have hbig : ¬ raw.length < 2 ^ N := by
    have h1 := two_pow_le h.count
    rw [hp.length_eq, List.length_range] at h1
    have := Nat.le_mul_of_pos_right (ord.map cnt).prod hm
    omega
  have hloop := hf.loop [] ord.reverse rfl
  rw [List.length_reverse, hp.length_eq, List.length_range] at hloop
  have hpr : (ord.reverse.map cnt).prod = ((ord.reverse.map (axis cnt plane)).map Axis.count).prod := by
    rw [List.map_map]; rfl
  have hcols : (ord.reverse.map (axis cnt plane)).map Axis.col = ord.reverse := by
    rw [List.map_map]
    exact List.map_id'' (fun _ => rfl) _
  have hcnt : ∀ k < N, countOf (ord.reverse.map (axis cnt plane)) k = cnt k := fun k hk =>
    hcov.countOf_axis (List.mem_reverse.2 (hp.mem_iff.2 (List.mem_range.2 hk)))
  have hdims := dimsOf_axis hcov (List.range N)
    (fun k hk => List.mem_reverse.2 (hp.mem_iff.2 hk))
  have hroom : ((ord.reverse.map (axis cnt plane)).map Axis.count).prod ≤ raw.length := by
    rw [← hpr, hf.size]
    exact Nat.le_mul_of_pos_right _ hm
  obtain ⟨gs, h1, h2⟩ := makeGrids_spec hcov (by
    intro a ha
    obtain ⟨k, hk, rfl⟩ := List.mem_map.1 ha
    refine ⟨_, _, rfl, rfl, (hf.even k hk).ascend _ ?_ ?_⟩ <;> have := hf.count k hk <;> omega)
    raw hroom _ hdims (List.range K)
  refine ⟨gs, ?_, ?_⟩
  · rw [readGrids, if_neg hbig]
    have : gridLoop id (.fin tol) N raw N 1 []
        = .val ((ord.reverse.map cnt).prod, ord.reverse.map (axis cnt plane)) := hloop
    rw [this, Res.bind_val]
    simp only [hdims, hpr, h1]
  · refine h2.imp fun col g hg => ⟨hg.1, ?_⟩
    have e1 : (List.range N).map (countOf (ord.reverse.map (axis cnt plane))) = (List.range N).map cnt :=
      List.map_congr_left fun k hk => hcnt k (List.mem_range.1 hk)
    have e2 : ord.map (countOf (ord.reverse.map (axis cnt plane))) = ord.map cnt :=
      List.map_congr_left fun k hk => hcnt k (hmem k hk)
    obtain ⟨s1, s2⟩ := hg.2
    rw [hcols, List.reverse_reverse] at s2
    rw [e1] at s1 s2
    rw [e2] at s2
    exact ⟨s1, fun i hi => s2 i fun k hk => by rw [hcnt k hk]; exact hi k hk⟩

/-- C32.  A table that enumerates a full grid with ascending, evenly spaced coordinates in row-major
order of any permutation `ord` of the axes is accepted, and each of the `K` grids has the counts and
bounds of the table and stores, at every multi-index, the value given for those coordinates. -/
theorem c32_read_grids {raw : Table} {N : ℕ} (K : ℕ) {ord : List ℕ} {cnt : ℕ → ℕ}
    {plane : ℕ → ℕ → ℝ} {tol : ℝ} (hp : ord.Perm (List.range N))
    (h : Lists raw ord cnt fun k j => .fin (plane k j)) (he : ∀ k < N, Even tol (cnt k) (plane k))
    (hs : raw.length = (ord.map cnt).prod) :
    ∃ gs, readGrids id (.fin tol) N K raw = .val gs ∧ gs.length = K ∧ ∀ col < K, ∃ g,
      gs[col]? = some g ∧
      g.dims = (List.range N).map (fun k => ⟨cnt k, .fin (plane k 0), .fin (plane k (cnt k - 1))⟩) ∧
      g.data.length = ((List.range N).map cnt).prod ∧
      ∀ i : ℕ → ℕ, (∀ k < N, i k < cnt k) → ∀ row,
        raw[flat (ord.map cnt) (ord.map i)]? = some row →
        g.data[flat ((List.range N).map cnt) ((List.range N).map i)]? = some (row (N + col)) := by
  obtain ⟨gs, h1, h2⟩ := readGrids_accepts K hp h he (m := 1) (by rw [hs, Nat.mul_one]) one_pos
  have hlen : gs.length = K := by simpa using h2.length_eq.symm
  refine ⟨gs, h1, hlen, fun col hcol => ?_⟩
  have hcol' : col < gs.length := by omega
  obtain ⟨g1, g2, g3⟩ := List.Forall₂.get h2 (i := col) (by simpa using hcol) hcol'
  refine ⟨gs[col], List.getElem?_eq_getElem hcol', g1, g2, ?_⟩
  intro i hi row hrow
  have hlt := flat_lt (inRange_map (cnt := cnt) (i := i) (l := ord) fun k hk =>
    hi k (List.mem_range.1 (hp.mem_iff.1 hk)))
  have := g3 i hi _ row hrow (Nat.mod_eq_of_lt hlt) (by omega)
  simpa using this

/-- C33 (what is accepted).  Whatever the table, the rounding and the tolerance: if `read_grids`
returns, the table lists a full grid in row-major order of some permutation of the axes, at least
once, and every grid stores the values of the last row for each multi-index.  The table may list the
grid more than once (`c33_repeated_refuted`), so this is the most that acceptance can mean. -/
theorem c33_accepted {rnd : ℝ → ℝ} {tol : Fl} {N K : ℕ} {raw : Table} {gs : List Grid}
    (h : readGrids rnd tol N K raw = .val gs) :
    ∃ (ord : List ℕ) (cnt : ℕ → ℕ) (plane : ℕ → ℕ → Fl), ord.Perm (List.range N) ∧
      Lists raw ord cnt plane ∧ (ord.map cnt).prod ≤ raw.length ∧
      List.Forall₂ (fun col g => g.dims.map Dim.count = (List.range N).map cnt ∧
        check 0 g.dims = none ∧ Stores raw N col ord cnt g) (List.range K) gs := by
  rw [readGrids] at h
  split_ifs at h with h1
  rw [Res.bind_eq_val] at h
  obtain ⟨s, hs, h⟩ := h
  have hpos : 0 < raw.length := by
    have : 0 < 2 ^ N := by positivity
    omega
  obtain ⟨i1, i2⟩ := gridLoop_inv N (inv_start hpos) hs
  have hcov := i1.covers (by simpa using i2)
  obtain ⟨plane, hl⟩ := i1.lists
  obtain ⟨ds, e1, e2, e3⟩ := dimsOf_eq hcov (List.range N) (by simp)
  have hroom := i1.room
  rw [i1.ct_eq] at hroom
  rw [e1] at h
  simp only [i1.ct_eq] at h
  obtain ⟨gs', g1, g2⟩ := makeGrids_spec hcov i1.bounded raw hroom ds e1 (List.range K)
  rw [g1] at h
  cases h
  refine ⟨_, countOf s.2, plane, (List.reverse_perm _).trans hcov.perm, hl, ?_, ?_⟩
  · rw [List.map_reverse, List.prod_reverse, ← hcov.count_map]
    exact hroom
  · refine g2.imp fun col g hg => ⟨by rw [hg.1, e2], ?_, hg.2⟩
    rw [hg.1, check_iff]
    intro d hd
    obtain ⟨a, ha, rfl⟩ := e3 d hd
    obtain ⟨lo, hi, b1, b2, b3⟩ := i1.bounded a ha
    exact ⟨by have := hcov.count a ha; simp only; omega, lo, hi, b1, b2, b3.le⟩

/-- C33 (when the behaviour is undefined).  `read_grids` reads past the end of the point list only
when the points are already a full grid in fewer than `N` of the columns. -/
theorem c33_ub_only {rnd : ℝ → ℝ} {tol : Fl} {N K : ℕ} {raw : Table}
    (h : readGrids rnd tol N K raw = .ub) :
    ∃ (ord : List ℕ) (cnt : ℕ → ℕ) (plane : ℕ → ℕ → Fl), ord.length < N ∧ (∀ k ∈ ord, k < N) ∧
      Lists raw ord cnt plane ∧ (ord.map cnt).prod = raw.length := by
  rw [readGrids] at h
  split_ifs at h with h1
  have hpos : 0 < raw.length := by
    have : 0 < 2 ^ N := by positivity
    omega
  rw [Res.bind_eq_ub] at h
  rcases h with h | ⟨s, hs, h⟩
  · obtain ⟨axes, hi, hl⟩ := gridLoop_ub N (inv_start hpos) h
    obtain ⟨plane, hlist⟩ := hi.lists
    refine ⟨_, _, plane, by simpa using hl, ?_, hlist, ?_⟩
    · intro k hk
      obtain ⟨a, ha, rfl⟩ := List.mem_map.1 (List.mem_reverse.1 hk)
      exact hi.col_lt a ha
    · rw [List.map_reverse, List.prod_reverse, hi.ct_eq, List.map_map]
      congr 1
      apply List.map_congr_left
      intro a ha
      simp [countOf, Covers.find (N := N) hi.nodup ha]
  · obtain ⟨i1, i2⟩ := gridLoop_inv N (inv_start hpos) hs
    have hcov := i1.covers (by simpa using i2)
    obtain ⟨ds, e1, -, -⟩ := dimsOf_eq hcov (List.range N) (by simp)
    have hroom := i1.room
    rw [i1.ct_eq] at hroom
    rw [e1] at h
    simp only [i1.ct_eq] at h
    obtain ⟨gs', g1, -⟩ := makeGrids_spec hcov i1.bounded raw hroom ds e1 (List.range K)
    rw [g1] at h
    cases h

/-- C33 (undefined behaviour).  Every table of at least `2^N` points, `N ≥ 2`, whose first coordinate
ascends evenly from row to row makes `read_grids` read past the end of the point list, whatever the
other columns hold. -/
theorem c33_ub_refuted {raw : Table} {N : ℕ} (K : ℕ) (hN : 2 ≤ N) {p : ℕ → ℝ} {tol : ℝ}
    (hsize : 2 ^ N ≤ raw.length)
    (hcol : ∀ (r : ℕ) (row : ℕ → Fl), raw[r]? = some row → row 0 = .fin (p r)) (he : Even tol raw.length p) :
    readGrids id (.fin tol) N K raw = .ub := by
  have hlen : 4 ≤ raw.length := by
    have : 2 ^ 2 ≤ 2 ^ N := Nat.pow_le_pow_right (by norm_num) hN
    omega
  have hget : ∀ r < raw.length, raw.get r 0 = .val (.fin (p r)) := fun r hr => by
    have hrow : raw[r]? = some raw[r] := List.getElem?_eq_getElem hr
    rw [get_val hrow, hcol r _ hrow]
  have hf : Full raw 1 [0] (fun _ => raw.length) (fun _ => p) 1 tol := by
    refine ⟨by simp, by simp; omega, by simpa using he, by simp, one_pos, ?_⟩
    intro pre k post e r hr
    obtain ⟨rfl, rfl, rfl⟩ : pre = [] ∧ k = 0 ∧ post = [] := by
      rcases pre with _ | ⟨a, pre⟩ <;> simp_all
    simpa [Nat.mod_eq_of_lt hr] using hget r hr
  obtain ⟨n, rfl⟩ : ∃ n, N = n + 2 := ⟨N - 2, by omega⟩
  have hfind : findStep raw 1 [] (List.range (n + 2)) = .val 0 := by
    rw [List.range_succ_eq_map, findStep, if_neg (by simp), hget 0 (by omega), hget 1 (by omega)]
    simp only [Res.bind_val]
    rw [if_neg (by rw [fl_eq_fin]; exact (he.ascend 1 one_pos (by omega)).ne),
      sameLoop_true (by simpa using hget 0 (by omega))]
    simp
  have hfind1 : findStep raw 1 [] (List.range 1) = .val 0 :=
    hf.findStep (pre := []) (post := []) (k := 0) rfl _ (by simp) (by simp)
  have hstep : gridStep id (.fin tol) (n + 2) raw 1 []
      = .val (raw.length, [axis (fun _ => raw.length) (fun _ => p) 0]) := by
    have := hf.step (pre := []) (post := []) (k := 0) rfl
    simp only [List.map_nil, List.prod_nil, List.nil_append, List.map_cons, List.prod_cons,
      Nat.mul_one] at this
    rw [← this, gridStep, gridStep]
    simp only [List.map_nil, hfind, hfind1]
  have hstep2 : gridStep id (.fin tol) (n + 2) raw raw.length
      [axis (fun _ => raw.length) (fun _ => p) 0] = .ub := by
    rw [gridStep]
    simp only
    rw [if_neg (by rw [Nat.div_self (by omega)]; simp), Res.bind_eq_ub]
    left
    have hr : List.range (n + 2) = 0 :: 1 :: ((List.range n).map Nat.succ).map Nat.succ := by
      rw [List.range_succ_eq_map, List.range_succ_eq_map]
      rfl
    rw [hr]
    have h0 : raw.get 0 1 = .val (raw[0] 1) := get_ok (by omega) 1
    have hend : raw.get raw.length 1 = .ub := by simp [Table.get]
    rw [findStep, if_pos (by simp [axis]), findStep, if_neg (by simp [axis])]
    simp only [h0, hend, Res.bind_val]
    rfl
  rw [readGrids, if_neg (by omega)]
  have : gridLoop id (.fin tol) (n + 2) raw (n + 2) 1 [] = .ub := by
    rw [gridLoop, hstep, Res.bind_val, gridLoop, hstep2]
    rfl
  rw [this]
  rfl

/-- C33 (repetitions).  A table that lists a grid any number of times is accepted without an error,
and each grid keeps only the values of the last repetition. -/
theorem c33_repeated_refuted {raw : Table} {N : ℕ} (K : ℕ) {ord : List ℕ} {cnt : ℕ → ℕ}
    {plane : ℕ → ℕ → ℝ} {m : ℕ} {tol : ℝ} (hp : ord.Perm (List.range N))
    (h : Lists raw ord cnt fun k j => .fin (plane k j)) (he : ∀ k < N, Even tol (cnt k) (plane k))
    (hs : raw.length = (ord.map cnt).prod * m) (hm : 1 < m) :
    ∃ gs, readGrids id (.fin tol) N K raw = .val gs ∧
      List.Forall₂ (fun col g => Stores raw N col ord cnt g) (List.range K) gs := by
  obtain ⟨gs, h1, h2⟩ := readGrids_accepts K hp h he hs (by omega)
  exact ⟨gs, h1, h2.imp fun _ _ h => h.2⟩

/-! ## Examples -/

/-- Column 1 has planes 0, 1, 2, column 0 has planes 5, 7; the first column is the fastest.  The data
column is the row number. -/
def exTable : Table := (List.range 6).map fun r col =>
  if col = 0 then .fin (5 + 2 * (r % 2 : ℕ)) else if col = 1 then .fin (r / 2 : ℕ) else .fin r

/-- Its counts. -/
def exCnt (k : ℕ) : ℕ := if k = 0 then 2 else 3

/-- Its planes. -/
noncomputable def exPlane (k j : ℕ) : ℝ := if k = 0 then 5 + 2 * j else j

theorem exTable_lists : Lists exTable [1, 0] exCnt fun k j => .fin (exPlane k j) := by
  refine ⟨by simp, by simp [exCnt], ?_⟩
  intro i hi r row hrow hr k hk
  have h0 := hi 0 (by simp)
  have h1 := hi 1 (by simp)
  simp only [exCnt, if_true, one_ne_zero, if_false] at h0 h1
  simp only [List.map_cons, List.map_nil, exCnt, if_true, one_ne_zero, if_false, flat,
    List.prod_cons, List.prod_nil, Nat.mul_one, Nat.add_zero] at hr
  have hrl : r < 6 := by
    by_contra hc
    rw [List.getElem?_eq_none (by simp [exTable]; omega)] at hrow
    cases hrow
  rw [Nat.mod_eq_of_lt hrl] at hr
  have hrow' : row = fun col => if col = 0 then .fin (5 + 2 * (r % 2 : ℕ))
      else if col = 1 then .fin (r / 2 : ℕ) else .fin r := by
    simp only [exTable, List.getElem?_map, List.getElem?_range hrl, Option.map_some,
      Option.some.injEq] at hrow
    exact hrow.symm
  have e0 : r % 2 = i 0 := by omega
  have e1 : r / 2 = i 1 := by omega
  simp only [List.mem_cons, List.not_mem_nil, or_false] at hk
  rcases hk with rfl | rfl
  · simp [hrow', e1, exPlane, Fl.eq]
  · simp [hrow', e0, exPlane, Fl.eq]

theorem exTable_even : ∀ k < 2, Even 0 (exCnt k) (exPlane k) := by
  intro k hk
  interval_cases k
  · refine ⟨?_, ?_⟩
    · intro j h1 h2
      simp only [exCnt, if_true] at h2
      interval_cases j
      norm_num [exPlane]
    · intro j hj
      simp only [exCnt, if_true] at hj
      interval_cases j <;> norm_num [exPlane, exCnt]
  · refine ⟨?_, ?_⟩
    · intro j h1 h2
      simp only [exCnt, one_ne_zero, if_false] at h2
      interval_cases j <;> norm_num [exPlane]
    · intro j hj
      simp only [exCnt, one_ne_zero, if_false] at hj
      interval_cases j <;> norm_num [exPlane, exCnt]

/-- The table is accepted and the value at multi-index (1, 2), given in row 5, is stored. -/
example : ∃ gs, readGrids id (.fin 0) 2 1 exTable = .val gs ∧ ∃ g, gs[0]? = some g ∧
    g.data[5]? = some (.fin 5) := by
  obtain ⟨gs, h1, -, h2⟩ := c32_read_grids 1 (List.Perm.swap 0 1 []) exTable_lists exTable_even
    (by simp [exTable, exCnt])
  obtain ⟨g, h3, -, -, h4⟩ := h2 0 (by norm_num)
  refine ⟨gs, h1, g, h3, ?_⟩
  have := h4 (fun k => if k = 0 then 1 else 2)
    (by intro k hk; interval_cases k <;> simp [exCnt])
    (fun col => if col = 0 then .fin (5 + 2 * (5 % 2 : ℕ)) else if col = 1 then .fin (5 / 2 : ℕ)
      else .fin (5 : ℕ))
    (by simp [flat, exCnt, exTable])
  simpa [flat, exCnt, List.range_succ] using this

/-- Four points on a line, as a table for a two-dimensional grid. -/
example : readGrids id (.fin 0) 2 1 ((List.range 4).map fun (r : ℕ) _ => .fin r) = .ub := by
  apply c33_ub_refuted 1 le_rfl (p := fun r => r) (by simp)
  · intro r row hrow
    have hr : r < 4 := by
      by_contra hc
      rw [List.getElem?_eq_none (by simpa using hc)] at hrow
      cases hrow
    simp only [List.getElem?_map, List.getElem?_range hr, Option.map_some, Option.some.injEq] at hrow
    rw [← hrow]
  · refine ⟨?_, ?_⟩
    · intro j h1 _
      simpa using h1
    · intro j hj
      simp

/-- Planes 0, 1, 0, 1: accepted; the second pair of values wins. -/
example : ∃ g, readGrids id (.fin 0) 1 1
    ((List.range 4).map fun r col => if col = 0 then .fin (r % 2 : ℕ) else .fin r) = .val [g] ∧
    g.data[0]? = some (.fin 2) := by
  obtain ⟨gs, h1, h2⟩ := c33_repeated_refuted (ord := [0]) (cnt := fun _ => 2)
    (plane := fun _ j => j) (m := 2) (tol := 0) (N := 1) 1 (by simp) (raw :=
      (List.range 4).map fun r col => if col = 0 then .fin (r % 2 : ℕ) else .fin r)
    (by
      refine ⟨by simp, by simp, ?_⟩
      intro i hi r row hrow hr k hk
      obtain rfl : k = 0 := by simpa using hk
      have hr4 : r < 4 := by
        by_contra hc
        rw [List.getElem?_eq_none (by simpa using hc)] at hrow
        cases hrow
      simp only [List.getElem?_map, List.getElem?_range hr4, Option.map_some,
        Option.some.injEq] at hrow
      simp [flat] at hr
      rw [← hrow]
      simp [hr, Fl.eq])
    (by
      intro k _
      refine ⟨?_, ?_⟩
      · intro j h1 _
        simpa using h1
      · intro j hj
        simp)
    (by simp) (by norm_num)
  obtain ⟨g, gs', hg, hgs, rfl⟩ := List.forall₂_cons_left_iff.1 h2
  cases hgs
  refine ⟨g, h1, ?_⟩
  have := hg.2 (fun _ => 0) (by simp) 2 (fun col => if col = 0 then .fin (2 % 2 : ℕ) else .fin (2 : ℕ))
    (by simp) (by simp [flat]) (by simp)
  simpa [flat] using this

end Sidis.Props
