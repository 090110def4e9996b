import Verif.Model.Fl
import Mathlib.Algebra.Order.Floor.Ring

/-!
# Model of grid interpolation (include/sidis/extra/interpolate.hpp, interpolate.ipp)

`T = double`.  Arithmetic is `Fl` arithmetic followed by a rounding of finite results; the rounding
`rnd : ℝ → ℝ` is a parameter of the model (the identity gives exact arithmetic, a nearest rounding
gives IEEE arithmetic without overflow and underflow).  A read outside the data array, and the
conversion of a value that is not a small non-negative integer to `std::size_t`, are the outcome
`ub`.  Element counts are unbounded naturals: the product of the counts is the size of an array that
exists in memory, so `std::size_t` does not wrap.
-/

namespace Sidis.Interp

/-- The exceptions thrown by grids and by `read_grids` (include/sidis/extra/interpolate.hpp
294-323). -/
inductive GridError where
  | invalidBounds
  | singularDimension (dim : ℕ)
  | notEnoughPoints (points expected : ℕ)
  | invalidSpacing
  | unexpectedGridPoint (line : ℕ)

/-- Outcome of an evaluation: a value, an exception, or undefined behaviour. -/
inductive Res (α : Type) where
  | val (a : α)
  | throw (e : GridError)
  | ub

namespace Res
/-- Sequencing. -/
def bind {α β : Type} : Res α → (α → Res β) → Res β
  | val a, f => f a
  | throw e, _ => throw e
  | ub, _ => ub
end Res

/-- One dimension of a grid: the members `_count[i]`, `_lower[i]`, `_upper[i]` of `GridView`
(interpolate.hpp 51-55). -/
structure Dim where
  count : ℕ
  lower : Fl
  upper : Fl

/-- `_count_total`: the product of the counts (interpolate.ipp 26-28). -/
def total : List Dim → ℕ
  | [] => 1
  | d :: ds => d.count * total ds

open Classical in
/-- The checks of the constructors of `GridView` and `Grid` (interpolate.ipp 26-38, 73-85), starting
with dimension number `idx`. -/
noncomputable def check (idx : ℕ) : List Dim → Option GridError
  | [] => none
  | d :: ds =>
    if ¬ d.lower.isFinite ∨ ¬ d.upper.isFinite then some .invalidBounds
    else if d.upper < d.lower then some .invalidBounds
    else if d.count ≤ 1 then some (.singularDimension idx)
    else check (idx + 1) ds

/-- `GridView::operator[](idx)` (interpolate.ipp 41-57), continuing with the new data pointer; the
constructor of the slice repeats the checks. -/
noncomputable def slice {α : Type} (base idx : ℕ) (d : Dim) (ds : List Dim) (k : ℕ → Res α) :
    Res α :=
  let width := total (d :: ds) / d.count
  match check 0 ds with
  | some e => .throw e
  | none => k (base + idx * width)

/-- Dereferencing the data pointer (interpolate.hpp 137-143). -/
def read (data : List Fl) (base : ℕ) : Res Fl :=
  match data[base]? with
  | some v => .val v
  | none => .ub

/-- `GridView::operator[](cell_idx)` (interpolate.ipp 59-66). -/
noncomputable def cell (data : List Fl) : List Dim → ℕ → List ℕ → Res Fl
  | d :: ds, base, i :: is => slice base i d ds fun b => cell data ds b is
  | _, base, _ => read data base

/-- Rounding of a result. -/
noncomputable def rd (rnd : ℝ → ℝ) : Fl → Fl
  | .fin r => .fin (rnd r)
  | x => x

/-- `linear` (interpolate.hpp 19-23). -/
noncomputable def linear (rnd : ℝ → ℝ) (f1 f2 x : Fl) : Fl :=
  let r := rd rnd
  r (r (r (.fin 1 - x) * f1) + r (x * f2))

/-- `cubic` (interpolate.hpp 25-34). -/
noncomputable def cubic (rnd : ℝ → ℝ) (f1 f2 f3 f4 x : Fl) : Fl :=
  let r := rd rnd
  let a := r (r (r (r (.fin 2 * r (.fin 1 - x)) * r (.fin 1 - x)) * r (.fin (1 / 2) + x)) * f2)
  let b := r (r (r (r (.fin (1 / 2) * r (.fin 1 - x)) * r (.fin 1 - x)) * x) * r (f3 - f1))
  let c := r (r (r (r (.fin 2 * x) * x) * r (.fin (3 / 2) - x)) * f3)
  let d := r (r (r (r (.fin (1 / 2) * x) * x) * r (.fin 1 - x)) * r (f4 - f2))
  r (r (r (a + b) + c) - d)

/-- `std::modf` (integer part towards zero, and the rest) followed by the conversion of the integer
part to `std::size_t`; `none` when that conversion is undefined. -/
noncomputable def modfSize : Fl → Option (ℕ × Fl)
  | .fin v => if 0 ≤ v then some (⌊v⌋₊, .fin (v - ⌊v⌋₊)) else none
  | _ => none

open Classical in
/-- The part shared by `LinearView::operator()` and `CubicView::operator()` (interpolate.ipp 91-105,
112-126): the value NaN, or the cell number and the relative position in the cell. -/
noncomputable def locate (rnd : ℝ → ℝ) (d : Dim) (x0 : Fl) (k : ℕ → Fl → Res Fl) : Res Fl :=
  let x_diff := rd rnd (x0 - d.lower)
  let width := rd rnd (d.upper - d.lower)
  if x_diff.isNaN then .val x_diff
  else if x_diff < .fin 0 ∨ width ≤ x_diff then .val .nan
  else
    match modfSize (rd rnd (.fin (d.count - 1 : ℕ) * rd rnd (x_diff / width))) with
    | none => .ub
    | some (idx, x_rel) => k idx x_rel

/-- `LinearView::operator()` (interpolate.ipp 89-108; dimension zero: interpolate.hpp 244-247). The
list `x` has as many entries as `dims`. -/
noncomputable def linearView (rnd : ℝ → ℝ) (data : List Fl) : List Dim → ℕ → List Fl → Res Fl
  | d :: ds, base, x0 :: xs =>
    locate rnd d x0 fun idx x_rel =>
      (slice base idx d ds fun b => linearView rnd data ds b xs).bind fun linear_1 =>
      (slice base (idx + 1) d ds fun b => linearView rnd data ds b xs).bind fun linear_2 =>
      .val (linear rnd linear_1 linear_2 x_rel)
  | _, base, _ => read data base

/-- `CubicView::operator()` (interpolate.ipp 110-133; dimension zero: interpolate.hpp 279-282). -/
noncomputable def cubicView (rnd : ℝ → ℝ) (data : List Fl) : List Dim → ℕ → List Fl → Res Fl
  | d :: ds, base, x0 :: xs =>
    locate rnd d x0 fun idx x_rel =>
      (if idx = 0 then .val (.fin 0)
        else slice base (idx - 1) d ds fun b => cubicView rnd data ds b xs).bind fun cubic_0 =>
      (slice base idx d ds fun b => cubicView rnd data ds b xs).bind fun cubic_1 =>
      (slice base (idx + 1) d ds fun b => cubicView rnd data ds b xs).bind fun cubic_2 =>
      (if d.count - 2 ≤ idx then .val (.fin 0)
        else slice base (idx + 2) d ds fun b => cubicView rnd data ds b xs).bind fun cubic_3 =>
      .val (cubic rnd cubic_0 cubic_1 cubic_2 cubic_3 x_rel)
  | _, base, _ => read data base

end Sidis.Interp
