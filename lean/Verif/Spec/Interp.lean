import Verif.Model.Interp

/-! # Specification vocabulary for grid interpolation -/

namespace Sidis.Spec

open Interp

/-- Numbers with a significand of 53 bits and any exponent. -/
def Flt : Set ℝ := {x | ∃ m e : ℤ, |m| < 2 ^ 53 ∧ x = m * (2 : ℝ) ^ e}

/-- A rounding to nearest, with any rule for ties. -/
def Nearest (rnd : ℝ → ℝ) : Prop := ∀ y, rnd y ∈ Flt ∧ ∀ z ∈ Flt, |rnd y - y| ≤ |z - y|

/-- The arithmetics covered: exact, and double precision rounded to nearest. -/
def Arithmetic (rnd : ℝ → ℝ) : Prop := rnd = id ∨ Nearest rnd

/-- A well-formed dimension: at least two points, and fewer than `2^53`; finite ordered ends. -/
def DimOk (d : Dim) : Prop :=
  1 < d.count ∧ d.count < 2 ^ 53 ∧ ∃ lo hi : ℝ, d.lower = .fin lo ∧ d.upper = .fin hi ∧ lo ≤ hi

/-- The coordinate is a number inside the half-open range of the dimension. -/
def Inside (d : Dim) (x : Fl) : Prop := d.lower ≤ x ∧ x < d.upper

/-- Position of a multi-index in the data: row-major order. -/
def flat : List ℕ → List ℕ → ℕ
  | _ :: cs, i :: is => i * cs.prod + flat cs is
  | _, _ => 0

/-- Multi-indices of a grid. -/
def InRange : List ℕ → List ℕ → Prop := List.Forall₂ (fun c i => i < c)

/-- A dimension with real ends. -/
structure RDim where
  count : ℕ
  lo : ℝ
  hi : ℝ

namespace RDim
/-- As the library sees it. -/
def dim (d : RDim) : Dim := ⟨d.count, .fin d.lo, .fin d.hi⟩
/-- At least two points and a positive width. -/
def Proper (d : RDim) : Prop := 1 < d.count ∧ d.lo < d.hi
/-- The coordinate of the `i`-th point. -/
noncomputable def node (d : RDim) (i : ℕ) : ℝ := d.lo + i * ((d.hi - d.lo) / (d.count - 1 : ℕ))
/-- Distance from the lower end in units of the spacing. -/
noncomputable def pos (d : RDim) (x : ℝ) : ℝ := (d.count - 1 : ℕ) * ((x - d.lo) / (d.hi - d.lo))
/-- The cell a coordinate lies in: the number of its lower point. -/
noncomputable def cell (d : RDim) (x : ℝ) : ℕ := ⌊d.pos x⌋₊
end RDim

/-- Coordinates inside a grid. -/
def InsideAll : List RDim → List ℝ → Prop := List.Forall₂ (fun d x => d.lo ≤ x ∧ x < d.hi)

/-- The array `data`, from position `base`, holds the grid with value `f i` at multi-index `i`. -/
def Holds (data : List Fl) (base : ℕ) (ds : List RDim) (f : List ℕ → ℝ) : Prop :=
  ∀ i, InRange (ds.map RDim.count) i → data[base + flat (ds.map RDim.count) i]? = some (.fin (f i))

/-- The corners of the cell a point lies in. -/
def Corner : List RDim → List ℝ → List ℕ → Prop
  | d :: ds, x :: xs, i :: is => (i = d.cell x ∨ i = d.cell x + 1) ∧ Corner ds xs is
  | [], [], [] => True
  | _, _, _ => False

/-- The cell of the point is not the first or last one in any direction. -/
def Interior : List RDim → List ℝ → Prop :=
  List.Forall₂ (fun d x => 0 < d.cell x ∧ d.cell x + 2 < d.count)

/-- Functions of `n` variables that are affine in each of them. -/
inductive MultiAffine : ℕ → (List ℝ → ℝ) → Prop
  | const (f : List ℝ → ℝ) : MultiAffine 0 f
  | step (n : ℕ) (f a b : List ℝ → ℝ) : MultiAffine n a → MultiAffine n b →
      (∀ x xs, f (x :: xs) = a xs + b xs * x) → MultiAffine (n + 1) f

/-- Functions of `n` variables that are quadratic in each of them. -/
inductive MultiQuadratic : ℕ → (List ℝ → ℝ) → Prop
  | const (f : List ℝ → ℝ) : MultiQuadratic 0 f
  | step (n : ℕ) (f a b c : List ℝ → ℝ) : MultiQuadratic n a → MultiQuadratic n b →
      MultiQuadratic n c → (∀ x xs, f (x :: xs) = a xs + b xs * x + c xs * x ^ 2) →
      MultiQuadratic (n + 1) f

/-- The coordinates of a grid point. -/
noncomputable def nodes (ds : List RDim) (i : List ℕ) : List ℝ := List.zipWith RDim.node ds i

end Sidis.Spec
