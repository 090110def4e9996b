import Verif.Model.Interp

/-!
# Model of `read_grids` (include/sidis/extra/interpolate.ipp 136-287)

A table is a list of rows; a row is a function from column number to value (the first `N` columns are
the coordinates, the next `K` the data).  Reading a row past the end of the table, writing past the
end of the output, and reading an array element that was never assigned are the outcome `ub`.
`std::size_t` is a natural number: apart from the `expected` counts put into exceptions, every
product that is formed is at most the number of rows.
-/

namespace Sidis.Interp

/-- The table handed to `read_grids`. -/
abbrev Table := List (ℕ → Fl)

/-- `grid_points[row][col]` (interpolate.ipp 140-149: the copy of the coordinates). -/
def Table.get (raw : Table) (row col : ℕ) : Res Fl :=
  match raw[row]? with
  | some r => .val (r col)
  | none => .ub

/-- What is known about a coordinate once its column has been identified: `dim_permute_map`, `counts`,
`lower`, `upper` (interpolate.ipp 156-161). -/
structure Axis where
  col : ℕ
  count : ℕ
  lower : Fl
  upper : Fl

open Classical in
/-- The test that a column is constant on the first `count_total` rows (interpolate.ipp 188-194),
from row `rows.head` on. -/
noncomputable def sameLoop (raw : Table) (col : ℕ) (initial : Fl) : List ℕ → Res Bool
  | [] => .val true
  | row :: rows => (raw.get row col).bind fun v =>
      if ¬ Fl.eq v initial then .val false else sameLoop raw col initial rows

open Classical in
/-- The search for the column that steps by `count_total` (interpolate.ipp 170-202); the list holds
the candidate columns that remain. -/
noncomputable def findStep (raw : Table) (count_total : ℕ) (filled : List ℕ) : List ℕ → Res ℕ
  | [] => .throw (.notEnoughPoints raw.length (2 * raw.length))
  | col :: cols =>
    if col ∈ filled then findStep raw count_total filled cols
    else
      (raw.get 0 col).bind fun initial =>
      (raw.get count_total col).bind fun final =>
      if Fl.eq initial final then findStep raw count_total filled cols
      else (sameLoop raw col initial (List.range count_total)).bind fun same =>
        if same then .val col else findStep raw count_total filled cols

open Classical in
/-- The list of grid planes (interpolate.ipp 205-213); the last argument holds the group numbers that
remain. -/
noncomputable def planesLoop (raw : Table) (count_total col : ℕ) : List Fl → List ℕ → Res (List Fl)
  | planes, [] => .val planes
  | planes, group :: groups => (raw.get (group * count_total) col).bind fun next =>
      match planes with
      | [] => planesLoop raw count_total col [next] groups
      | p :: ps =>
        if ¬ Fl.eq next p then planesLoop raw count_total col ((p :: ps) ++ [next]) groups
        else .val (p :: ps)

open Classical in
/-- The validation of a column (interpolate.ipp 221-227). -/
noncomputable def validateLoop (raw : Table) (count_total col : ℕ) (planes : List Fl) :
    List ℕ → Res Unit
  | [] => .val ()
  | row :: rows => (raw.get row col).bind fun next =>
      match planes[row / count_total % planes.length]? with
      | none => .ub
      | some plane =>
        if ¬ Fl.eq next plane then .throw (.unexpectedGridPoint row)
        else validateLoop raw count_total col planes rows

/-- `std::abs`. -/
noncomputable def flAbs : Fl → Fl
  | .fin r => .fin |r|
  | .ninf => .pinf
  | x => x

open Classical in
/-- The test of the spacing (interpolate.ipp 241-250), from plane number `idx` on. -/
noncomputable def spacingLoop (rnd : ℝ → ℝ) (tol lower spacing : Fl) : ℕ → List Fl → Res Unit
  | _, [] => .val ()
  | idx, plane :: planes =>
    let uniform := rd rnd (lower + rd rnd (.fin (idx : ℕ) * spacing))
    if flAbs (rd rnd (tol * spacing)) < flAbs (rd rnd (plane - uniform)) then
      .throw .invalidSpacing
    else spacingLoop rnd tol lower spacing (idx + 1) planes

open Classical in
/-- One pass of the main loop (interpolate.ipp 162-254): identifies one more axis.  The state is
`count_total` and the axes found so far. -/
noncomputable def gridStep (rnd : ℝ → ℝ) (tol : Fl) (N : ℕ) (raw : Table) (count_total : ℕ)
    (axes : List Axis) : Res (ℕ × List Axis) :=
  let sub_count := raw.length / count_total
  if sub_count * count_total ≠ raw.length then
    .throw (.notEnoughPoints raw.length ((sub_count + 1) * count_total))
  else
    (findStep raw count_total (axes.map Axis.col) (List.range N)).bind fun col =>
    (planesLoop raw count_total col [] (List.range sub_count)).bind fun planes =>
    if planes.length ≤ 1 then .throw (.singularDimension col)
    else
      (validateLoop raw count_total col planes (List.range raw.length)).bind fun _ =>
      match planes.head?, planes.getLast? with
      | some lower, some upper =>
        if ¬ lower.isFinite ∨ ¬ upper.isFinite then .throw .invalidBounds
        else if upper ≤ lower then .throw .invalidBounds
        else
          let spacing := rd rnd (rd rnd (upper - lower) / .fin (planes.length - 1 : ℕ))
          (spacingLoop rnd tol lower spacing 0 planes).bind fun _ =>
          .val (count_total * planes.length, axes ++ [⟨col, planes.length, lower, upper⟩])
      | _, _ => .ub

/-- The main loop (interpolate.ipp 162), with the number of passes that remain. -/
noncomputable def gridLoop (rnd : ℝ → ℝ) (tol : Fl) (N : ℕ) (raw : Table) :
    ℕ → ℕ → List Axis → Res (ℕ × List Axis)
  | 0, count_total, axes => .val (count_total, axes)
  | n + 1, count_total, axes =>
    (gridStep rnd tol N raw count_total axes).bind fun s => gridLoop rnd tol N raw n s.1 s.2

/-- The axis of a column. -/
def axisOf (axes : List Axis) (col : ℕ) : Option Axis := axes.find? (fun a => a.col = col)

/-- `counts[col]`, 0 if it was not assigned. -/
def countOf (axes : List Axis) (col : ℕ) : ℕ :=
  match axisOf axes col with
  | some a => a.count
  | none => 0

/-- `count_totals[col]` (interpolate.ipp 258-261): successive divisions. -/
def countTotals (axes : List Axis) (count_total : ℕ) : ℕ → ℕ
  | 0 => count_total / countOf axes 0
  | col + 1 => countTotals axes count_total col / countOf axes (col + 1)

/-- The new position of a row (interpolate.ipp 266-273): the loop over the axes with the running
`new_count` and `new_row_idx`. -/
def newRow (all : List Axis) (count_total row : ℕ) : List Axis → ℕ → ℕ → ℕ
  | [], _, new_row => new_row
  | a :: axes, new_count, new_row =>
    newRow all count_total row axes (new_count * a.count)
      (new_row + row / new_count % a.count * countTotals all count_total a.col)

/-- The reordering of one data column (interpolate.ipp 262-277), for the rows that remain. -/
def transposeLoop (raw : Table) (col : ℕ) (axes : List Axis) (count_total : ℕ) :
    List ℕ → List Fl → Res (List Fl)
  | [], out => .val out
  | row :: rows, out => (raw.get row col).bind fun v =>
    let p := newRow axes count_total row axes 1 0
    if p < out.length then transposeLoop raw col axes count_total rows (out.set p v) else .ub

/-- A grid that owns its data (interpolate.hpp 150-190). -/
structure Grid where
  dims : List Dim
  data : List Fl

/-- The constructor of `Grid` (interpolate.ipp 68-87): copies the first `Π counts` values. -/
noncomputable def mkGrid (dims : List Dim) (data : List Fl) : Res Grid :=
  match check 0 dims with
  | some e => .throw e
  | none => if total dims ≤ data.length then .val ⟨dims, data.take (total dims)⟩ else .ub

/-- `counts`, `lower`, `upper` as arrays; `none` if an element was not assigned. -/
def dimsOf (axes : List Axis) : List ℕ → Option (List Dim)
  | [] => some []
  | col :: cols => match axisOf axes col, dimsOf axes cols with
    | some a, some ds => some (⟨a.count, a.lower, a.upper⟩ :: ds)
    | _, _ => none

/-- The grids of the data columns `cols` (interpolate.ipp 262-284). -/
noncomputable def makeGrids (N : ℕ) (raw : Table) (axes : List Axis) (count_total : ℕ)
    (dims : List Dim) : List ℕ → Res (List Grid)
  | [] => .val []
  | col :: cols =>
    (transposeLoop raw (N + col) axes count_total (List.range raw.length)
      (List.replicate raw.length (.fin 0))).bind fun data =>
    (mkGrid dims data).bind fun g =>
    (makeGrids N raw axes count_total dims cols).bind fun gs => .val (g :: gs)

/-- `read_grids<T, N, K>` (interpolate.ipp 136-287), `N > 0`. -/
noncomputable def readGrids (rnd : ℝ → ℝ) (tol : Fl) (N K : ℕ) (raw : Table) : Res (List Grid) :=
  if raw.length < 2 ^ N then .throw (.notEnoughPoints raw.length (2 ^ N))
  else
    (gridLoop rnd tol N raw N 1 []).bind fun s =>
    match dimsOf s.2 (List.range N) with
    | none => .ub
    | some dims => makeGrids N raw s.2 s.1 dims (List.range K)

end Sidis.Interp
