import Verif.Lemmas.Interp
import Mathlib.Tactic.IntervalCases

/-!
# Properties of grid interpolation (C29, C30, C31)

`rnd` is the rounding of every arithmetic operation.  Results that need exact arithmetic take
`rnd = id`.  A grid is a list of dimensions and the array of its values in row-major order.
-/

namespace Sidis.Props

open Interp Spec

/-! ## C29 -/

/-- C29 (safety).  On every grid that its constructor accepts, with any coordinates (NaN and
infinities included) and rounded or exact arithmetic, linear and cubic interpolation return a value:
no read outside the array, no undefined conversion, no exception. -/
theorem c29_safe {rnd : ℝ → ℝ} (h : Arithmetic rnd) (data : List Fl) (dims : List Dim)
    (hc : check 0 dims = none) (hn : ∀ d ∈ dims, d.count < 2 ^ 53)
    (hl : (dims.map Dim.count).prod ≤ data.length) (x : List Fl) (hx : x.length = dims.length) :
    (∃ v, linearView rnd data dims 0 x = .val v) ∧ ∃ v, cubicView rnd data dims 0 x = .val v := by
  have hd : ∀ d ∈ dims, DimOk d := fun d hd =>
    ⟨((check_iff 0 dims).1 hc d hd).1, hn d hd, ((check_iff 0 dims).1 hc d hd).2⟩
  rw [← total_eq] at hl
  exact ⟨linearView_ok h dims hd 0 (by omega) x hx, cubicView_ok h dims hd 0 (by omega) x hx⟩

/-- C29 (outside).  If any coordinate is NaN or outside its half-open range, the result is NaN. -/
theorem c29_outside {rnd : ℝ → ℝ} (h : Arithmetic rnd) (data : List Fl) (dims : List Dim)
    (hc : check 0 dims = none) (hn : ∀ d ∈ dims, d.count < 2 ^ 53)
    (hl : (dims.map Dim.count).prod ≤ data.length) (x : List Fl) (hx : x.length = dims.length)
    (ho : ¬ List.Forall₂ Inside dims x) :
    linearView rnd data dims 0 x = .val .nan ∧ cubicView rnd data dims 0 x = .val .nan := by
  have hd : ∀ d ∈ dims, DimOk d := fun d hd =>
    ⟨((check_iff 0 dims).1 hc d hd).1, hn d hd, ((check_iff 0 dims).1 hc d hd).2⟩
  rw [← total_eq] at hl
  exact ⟨linearView_outside h dims hd 0 (by omega) x hx ho,
    cubicView_outside h dims hd 0 (by omega) x hx ho⟩

/-- C29 (inside).  On finite data and inside the grid, exact interpolation gives a number. -/
theorem c29_inside (data : List Fl) (ds : List RDim) (f : List ℕ → ℝ) (x : List ℝ)
    (hd : ∀ d ∈ ds, d.Proper ∧ d.count < 2 ^ 53) (hf : Holds data 0 ds f) (hx : InsideAll ds x) :
    (∃ r, linearView id data (ds.map RDim.dim) 0 (x.map .fin) = .val (.fin r)) ∧
      ∃ r, cubicView id data (ds.map RDim.dim) 0 (x.map .fin) = .val (.fin r) :=
  ⟨⟨_, linearView_exact ds hd 0 f hf x hx⟩, ⟨_, cubicView_exact ds hd 0 f hf x hx⟩⟩

/-- C29 (indexing).  `grid[i]` is the value at the row-major position of the multi-index. -/
theorem c29_cell (data : List Fl) (dims : List Dim) (hc : check 0 dims = none)
    (hn : ∀ d ∈ dims, d.count < 2 ^ 53) (hl : (dims.map Dim.count).prod ≤ data.length)
    (i : List ℕ) (hi : InRange (dims.map Dim.count) i) :
    ∃ v, cell data dims 0 i = .val v ∧ data[flat (dims.map Dim.count) i]? = some v := by
  have hd : ∀ d ∈ dims, DimOk d := fun d hd =>
    ⟨((check_iff 0 dims).1 hc d hd).1, hn d hd, ((check_iff 0 dims).1 hc d hd).2⟩
  clear hc hn
  suffices ∀ base, base + (dims.map Dim.count).prod ≤ data.length →
      ∃ v, cell data dims base i = .val v ∧ data[base + flat (dims.map Dim.count) i]? = some v by
    simpa using this 0 (by omega)
  clear hl
  induction dims generalizing i with
  | nil =>
    intro base hb
    cases hi
    simp only [List.map_nil, List.prod_nil] at hb
    obtain ⟨v, hv⟩ := read_ok (data := data) (base := base) (by omega)
    refine ⟨v, hv, ?_⟩
    simp only [Interp.read, List.getElem?_eq_getElem (by omega : base < data.length), Res.val.injEq] at hv
    simp [flat, hv, List.getElem?_eq_getElem (by omega : base < data.length)]
  | cons d ds ih =>
    intro base hb
    obtain _ | ⟨hi1, hi2⟩ := hi
    rename_i j i
    have hd1 := hd d (by simp)
    have hd2 : ∀ d ∈ ds, DimOk d := fun e he => hd e (by simp [he])
    simp only [List.map_cons, List.prod_cons] at hb
    obtain ⟨v, h1, h2⟩ := ih i hi2 hd2 (base + j * (ds.map Dim.count).prod) (slice_room hi1 hb)
    refine ⟨v, ?_, ?_⟩
    · rw [cell, slice_eq hd1 hd2, total_eq, h1]
    · rw [← h2, List.map_cons, flat, Nat.add_assoc]

/-- C29 (nodes).  At a grid point (not the last one of any dimension, which is outside the half-open
range) both interpolations return the stored value. -/
theorem c29_nodes (data : List Fl) (ds : List RDim) (f : List ℕ → ℝ) (i : List ℕ)
    (hd : ∀ d ∈ ds, d.Proper ∧ d.count < 2 ^ 53) (hf : Holds data 0 ds f)
    (hi : List.Forall₂ (fun d j => j + 1 < d.count) ds i) :
    linearView id data (ds.map RDim.dim) 0 ((nodes ds i).map .fin) = .val (.fin (f i)) ∧
      cubicView id data (ds.map RDim.dim) 0 ((nodes ds i).map .fin) = .val (.fin (f i)) := by
  have hx : InsideAll ds (nodes ds i) := by
    clear hf
    induction hi with
    | nil => exact .nil
    | cons h _ ih =>
      rw [nodes_cons]
      exact .cons (node_inside (hd _ (by simp)).1 h) (ih fun e he => hd e (by simp [he]))
  have hp : ∀ d ∈ ds, d.Proper := fun d h => (hd d h).1
  rw [linearView_exact ds hd 0 f hf _ hx, cubicView_exact ds hd 0 f hf _ hx,
    linEval_node ds hp f i hi.length_eq.symm, cubEval_node ds hp f i hi.length_eq.symm]
  exact ⟨rfl, rfl⟩

/-- The upper end is not part of the grid: at the last point of a dimension the result is NaN. -/
theorem c29_last_node_nan (data : List Fl) (d : RDim) (hd : d.Proper) (hn : d.count < 2 ^ 53)
    (hl : d.count ≤ data.length) :
    linearView id data [d.dim] 0 [.fin (d.node (d.count - 1))] = .val .nan ∧
      cubicView id data [d.dim] 0 [.fin (d.node (d.count - 1))] = .val .nan := by
  have h1 := hd.1
  have hm : ((d.count - 1 : ℕ) : ℝ) ≠ 0 := by exact_mod_cast (by omega : d.count - 1 ≠ 0)
  have e : d.node (d.count - 1) = d.hi := by
    unfold RDim.node
    field_simp
    ring
  have hok : ∀ e ∈ [d.dim], DimOk e := by simpa using proper_ok hd hn
  have ho : ¬ List.Forall₂ Inside [d.dim] [.fin d.hi] := by simp [Inside, RDim.dim]
  rw [e]
  have hl' : 0 + total [d.dim] ≤ data.length := by simpa [total, RDim.dim] using hl
  exact ⟨linearView_outside (.inl rfl) _ hok 0 hl' _ rfl ho,
    cubicView_outside (.inl rfl) _ hok 0 hl' _ rfl ho⟩

/-! ## C30 -/

/-- C30 (exactness).  Linear interpolation reproduces every function that is affine in each variable,
in particular every affine function. -/
theorem c30_affine (data : List Fl) (ds : List RDim) (g : List ℝ → ℝ) (x : List ℝ)
    (hd : ∀ d ∈ ds, d.Proper ∧ d.count < 2 ^ 53) (hg : MultiAffine ds.length g)
    (hf : Holds data 0 ds fun i => g (nodes ds i)) (hx : InsideAll ds x) :
    linearView id data (ds.map RDim.dim) 0 (x.map .fin) = .val (.fin (g x)) := by
  rw [linearView_exact ds hd 0 _ hf x hx,
    linEval_affine hg ds rfl (fun d h => (hd d h).1) x hx.length_eq.symm]

/-- C30 (no overshoot).  The result lies between the smallest and the largest of the values stored at
the corners of the cell of the point. -/
theorem c30_bounds (data : List Fl) (ds : List RDim) (f : List ℕ → ℝ) (x : List ℝ) (lo hi : ℝ)
    (hd : ∀ d ∈ ds, d.Proper ∧ d.count < 2 ^ 53) (hf : Holds data 0 ds f) (hx : InsideAll ds x)
    (hc : ∀ i, Corner ds x i → lo ≤ f i ∧ f i ≤ hi) :
    ∃ r, linearView id data (ds.map RDim.dim) 0 (x.map .fin) = .val (.fin r) ∧ lo ≤ r ∧ r ≤ hi :=
  ⟨_, linearView_exact ds hd 0 f hf x hx,
    linEval_bounds ds (fun d h => (hd d h).1) f x hx lo hi hc⟩

/-- The affine functions `c + Σ aₖ xₖ` are covered by `c30_affine`. -/
theorem affine_multiAffine (n : ℕ) (c : ℝ) (a : List ℝ) :
    MultiAffine n (fun x => c + (List.zipWith (· * ·) a x).sum) := by
  induction n generalizing c a with
  | zero => exact .const _
  | succ n ih =>
    obtain _ | ⟨b, a⟩ := a
    · refine .step n _ (fun x => c + (List.zipWith (· * ·) ([] : List ℝ) x).sum)
        (fun x => 0 + (List.zipWith (· * ·) ([] : List ℝ) x).sum) (ih c []) (ih 0 []) ?_
      intro x xs
      simp
    · refine .step n _ (fun x => c + (List.zipWith (· * ·) a x).sum)
        (fun x => b + (List.zipWith (· * ·) ([] : List ℝ) x).sum) (ih c a) (ih b []) ?_
      intro x xs
      simp
      ring

/-! ## C31 -/

/-- C31 (exactness).  In interior cells cubic interpolation reproduces every function that is
quadratic in each variable, in particular every polynomial of degree at most two. -/
theorem c31_quadratic (data : List Fl) (ds : List RDim) (g : List ℝ → ℝ) (x : List ℝ)
    (hd : ∀ d ∈ ds, d.Proper ∧ d.count < 2 ^ 53) (hg : MultiQuadratic ds.length g)
    (hf : Holds data 0 ds fun i => g (nodes ds i)) (hx : InsideAll ds x) (hi : Interior ds x) :
    cubicView id data (ds.map RDim.dim) 0 (x.map .fin) = .val (.fin (g x)) := by
  rw [cubicView_exact ds hd 0 _ hf x hx,
    cubEval_quadratic hg ds rfl (fun d h => (hd d h).1) x hx.length_eq.symm hi]

/-- C31 (edges).  On a one-dimensional table with the same value `c ≠ 0` everywhere, at every point
of the first or last cell that is not a grid point, cubic interpolation returns a number different
from `c` (larger in absolute value, by at most a quarter). -/
theorem c31_edge_refuted (data : List Fl) (d : RDim) (c x : ℝ) (hd : d.Proper)
    (hn : d.count < 2 ^ 53) (hf : Holds data 0 [d] fun _ => c) (hc : c ≠ 0)
    (hx : d.lo ≤ x ∧ x < d.hi) (hedge : d.cell x = 0 ∨ d.cell x + 2 = d.count)
    (hnode : ∀ i, x ≠ d.node i) :
    ∃ r, cubicView id data [d.dim] 0 [.fin x] = .val (.fin (r * c)) ∧ 1 < r ∧ r ≤ 5 / 4 := by
  have h := cubicView_exact [d] (by simpa using ⟨hd, hn⟩) 0 _ hf [x] (.cons hx .nil)
  have t0 : 0 < frac d x := by
    rcases (frac_nonneg hd hx).lt_or_eq with h | h
    · exact h
    · exact absurd (by simpa [← h] using coord_eq hd x) (hnode (d.cell x))
  have t1 := frac_lt_one d x
  simp only [List.map_cons, List.map_nil] at h
  rw [h]
  simp only [cubEval]
  set t := frac d x
  have p1 : 0 < (1 - t) * (1 - t) * t := by have := sub_pos.2 t1; positivity
  have p2 : 0 < t * t * (1 - t) := by have := sub_pos.2 t1; positivity
  have p3 : t * (1 - t) ≤ 1 / 4 := by nlinarith [sq_nonneg (t - 1 / 2)]
  have p4 : 0 < t * (1 - t) := by have := sub_pos.2 t1; positivity
  have hcount := cell_lt hd hx
  split_ifs with ha hb hb
  · exact ⟨1 + 1 / 2 * ((1 - t) * (1 - t) * t) + 1 / 2 * (t * t * (1 - t)),
      by unfold cub; ring_nf, by linarith, by nlinarith⟩
  · exact ⟨1 + 1 / 2 * ((1 - t) * (1 - t) * t),
      by unfold cub; ring_nf, by linarith, by nlinarith⟩
  · exact ⟨1 + 1 / 2 * (t * t * (1 - t)), by unfold cub; ring_nf, by linarith, by nlinarith⟩
  · omega

/-! ## Examples -/

/-- A grid of 5 by 2 points. -/
def exGrid : List RDim := [⟨5, 0, 8⟩, ⟨2, -1, 1⟩]

/-- Values of `x * y + 3` on it. -/
noncomputable def exData : List Fl :=
  [.fin 3, .fin 3, .fin 1, .fin 5, .fin (-1), .fin 7, .fin (-3), .fin 9, .fin (-5), .fin 11]

/-- The function. -/
noncomputable def exFun (x : List ℝ) : ℝ := x.headD 0 * (x.drop 1).headD 0 + 3

theorem exFun_affine : MultiAffine 2 exFun :=
  .step 1 _ (fun _ => 3) (fun x => x.headD 0)
    (.step 0 _ (fun _ => 3) (fun _ => 0) (.const _) (.const _) (by simp))
    (.step 0 _ (fun _ => 0) (fun _ => 1) (.const _) (.const _) (by simp))
    (by intro x xs; cases xs <;> simp [exFun] <;> ring)

theorem exGrid_proper : ∀ d ∈ exGrid, d.Proper ∧ d.count < 2 ^ 53 := by
  simp [exGrid, RDim.Proper]

theorem exData_holds : Holds exData 0 exGrid fun i => exFun (nodes exGrid i) := by
  intro i hi
  obtain _ | ⟨h1, h2⟩ := hi
  obtain _ | ⟨h2, h3⟩ := h2
  cases h3
  rename_i a b
  simp only at h1 h2
  interval_cases a <;> interval_cases b <;>
    simp [exGrid, exData, flat, nodes, RDim.node, exFun] <;> norm_num

/-- Inside, the linear rule gives the function; outside, NaN.  The hypotheses of `c29_inside`,
`c29_nodes`, `c30_affine` and `c30_bounds` hold. -/
example : linearView id exData (exGrid.map RDim.dim) 0 [.fin 3, .fin (1 / 2)]
    = .val (.fin (9 / 2)) := by
  have := c30_affine exData exGrid exFun [3, 1 / 2] exGrid_proper exFun_affine exData_holds
    (.cons (by norm_num) (.cons (by norm_num) .nil))
  have e : exFun [3, 1 / 2] = 9 / 2 := by norm_num [exFun]
  rwa [e] at this

example : linearView id exData (exGrid.map RDim.dim) 0 [.nan, .fin 0] = .val .nan :=
  (c29_outside (.inl rfl) exData _ (by simp [check, exGrid, RDim.dim]; norm_num)
    (by simp [exGrid, RDim.dim]) (by simp [exGrid, RDim.dim, exData]) _ (by simp [exGrid])
    (by simp [exGrid, Inside])).1

/-- `c29_safe` and `c29_outside` are not only about exact arithmetic. -/
example : ∃ rnd, Nearest rnd := exists_nearest

example : check 0 (exGrid.map RDim.dim) = none ∧ (∀ d ∈ exGrid.map RDim.dim, d.count < 2 ^ 53) ∧
    ((exGrid.map RDim.dim).map Dim.count).prod ≤ exData.length := by
  refine ⟨?_, ?_, ?_⟩ <;> simp [check, exGrid, RDim.dim, exData]
  norm_num

example : cell exData (exGrid.map RDim.dim) 0 [3, 1] = .val (.fin 9) := by
  obtain ⟨v, h1, h2⟩ := c29_cell exData (exGrid.map RDim.dim)
    (by simp [check, exGrid, RDim.dim]; norm_num) (by simp [exGrid, RDim.dim])
    (by simp [exGrid, RDim.dim, exData]) [3, 1]
    (by simp [InRange, exGrid, RDim.dim])
  rw [h1]
  simpa [exGrid, RDim.dim, flat, exData] using h2.symm

/-- Hypotheses of `c31_quadratic`: a table of squares. -/
example : cubicView id [.fin 0, .fin 1, .fin 4, .fin 9] [⟨4, .fin 0, .fin 3⟩] 0 [.fin (3 / 2)]
    = .val (.fin (9 / 4)) := by
  have hc : (⟨4, 0, 3⟩ : RDim).cell (3 / 2) = 1 := by
    simp only [RDim.cell, RDim.pos]
    norm_num [Nat.floor_eq_iff]
  have := c31_quadratic [.fin 0, .fin 1, .fin 4, .fin 9] [⟨4, 0, 3⟩] (fun x => (x.headD 0) ^ 2)
    [3 / 2] (by simp [RDim.Proper])
    (.step 0 _ (fun _ => 0) (fun _ => 0) (fun _ => 1) (.const _) (.const _) (.const _) (by simp))
    (by
      intro i hi
      obtain _ | ⟨h1, h2⟩ := hi
      cases h2
      rename_i a
      simp only at h1
      interval_cases a <;> simp [flat, nodes, RDim.node] <;> norm_num)
    (.cons (by norm_num) .nil) (.cons (by rw [hc]; norm_num) .nil)
  norm_num [RDim.dim] at this
  simpa using this

/-- Hypotheses of `c31_edge_refuted`: a constant table. -/
example : ∃ r, cubicView id [.fin 1, .fin 1, .fin 1] [⟨3, .fin 0, .fin 2⟩] 0 [.fin (1 / 2)]
    = .val (.fin r) ∧ r ≠ 1 := by
  have hc : (⟨3, 0, 2⟩ : RDim).cell (1 / 2) = 0 := by
    simp only [RDim.cell, RDim.pos]
    norm_num [Nat.floor_eq_zero]
  obtain ⟨r, h1, h2, -⟩ := c31_edge_refuted [.fin 1, .fin 1, .fin 1] ⟨3, 0, 2⟩ 1 (1 / 2)
    (by simp [RDim.Proper]) (by norm_num)
    (by
      intro i hi
      obtain _ | ⟨h1, h2⟩ := hi
      cases h2
      rename_i a
      simp only at h1
      interval_cases a <;> simp [flat])
    one_ne_zero (by norm_num) (.inl hc)
    (by
      intro i h
      have h' : (1 / 2 : ℝ) = i := by
        simp only [RDim.node] at h
        norm_num at h
        linarith
      have : (1 : ℝ) = ((2 * i : ℕ) : ℝ) := by push_cast; linarith
      have : 1 = 2 * i := by exact_mod_cast this
      omega)
  exact ⟨r * 1, h1, by linarith⟩

end Sidis.Props
