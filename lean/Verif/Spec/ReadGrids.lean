import Verif.Model.ReadGrids
import Verif.Spec.Interp

/-! # Specification vocabulary for reading grids from tables -/

namespace Sidis.Spec

open Interp

/-- The table lists a grid in row-major order of the axes `ord` (slowest first, fastest last),
starting over when the end of the grid is reached: axis `k` has `cnt k` planes with coordinates
`plane k 0, plane k 1, …`, and a row in the place of multi-index `i` has the coordinates of the planes
`i k`. -/
structure Lists (raw : Table) (ord : List ℕ) (cnt : ℕ → ℕ) (plane : ℕ → ℕ → Fl) : Prop where
  nodup : ord.Nodup
  count : ∀ k ∈ ord, 2 ≤ cnt k
  coord : ∀ (i : ℕ → ℕ), (∀ k ∈ ord, i k < cnt k) → ∀ r row, raw[r]? = some row →
    r % (ord.map cnt).prod = flat (ord.map cnt) (ord.map i) →
    ∀ k ∈ ord, Fl.eq (row k) (plane k (i k))

/-- The grid stores, at every multi-index, the entry `col` of the last row of the table in the place
of that multi-index. -/
def Stores (raw : Table) (N col : ℕ) (ord : List ℕ) (cnt : ℕ → ℕ) (g : Grid) : Prop :=
  g.data.length = ((List.range N).map cnt).prod ∧
  ∀ (i : ℕ → ℕ), (∀ k < N, i k < cnt k) → ∀ r row, raw[r]? = some row →
    r % (ord.map cnt).prod = flat (ord.map cnt) (ord.map i) →
    raw.length ≤ r + (ord.map cnt).prod →
    g.data[flat ((List.range N).map cnt) ((List.range N).map i)]? = some (row (N + col))

/-- Coordinates of planes that ascend and deviate from even spacing by at most the tolerance (relative
to the spacing). -/
structure Even (tol : ℝ) (cnt : ℕ) (plane : ℕ → ℝ) : Prop where
  ascend : ∀ j, 0 < j → j < cnt → plane 0 < plane j
  even : ∀ j < cnt, |plane j - (plane 0 + j * ((plane (cnt - 1) - plane 0) / (cnt - 1 : ℕ)))|
    ≤ |tol * ((plane (cnt - 1) - plane 0) / (cnt - 1 : ℕ))|

end Sidis.Spec
