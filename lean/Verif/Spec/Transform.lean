import Verif.Model.Transform
import Mathlib.LinearAlgebra.Matrix.NonsingularInverse

/-! # Specification vocabulary for vectors and transformations -/

namespace Sidis.Spec

/-- Components. -/
def coords3 (v : Vec3) : Fin 3 → ℝ := ![v.x, v.y, v.z]
@[inherit_doc coords3] def coords4 (v : Vec4) : Fin 4 → ℝ := ![v.t, v.x, v.y, v.z]

/-- The unit vectors along the axes. -/
def axis3 : Fin 3 → Vec3 := ![⟨1, 0, 0⟩, ⟨0, 1, 0⟩, ⟨0, 0, 1⟩]
@[inherit_doc axis3] def axis4 : Fin 4 → Vec4 :=
  ![⟨1, 0, 0, 0⟩, ⟨0, 1, 0, 0⟩, ⟨0, 0, 1, 0⟩, ⟨0, 0, 0, 1⟩]

/-- The matrix of the linear map `v ↦ t * v`: its columns are the images of the axes. -/
def mat3 (a : Transform3) : Matrix (Fin 3) (Fin 3) ℝ := fun i j => coords3 (a.apply (axis3 j)) i
@[inherit_doc mat3] def mat4 (a : Transform4) : Matrix (Fin 4) (Fin 4) ℝ :=
  fun i j => coords4 (a.apply (axis4 j)) i

/-- Euclidean length. -/
noncomputable def length (v : Vec3) : ℝ := √(v.x ^ 2 + v.y ^ 2 + v.z ^ 2)

/-- Minkowski product, signature (+,-,-,-). -/
def mink (a b : Vec4) : ℝ := a.t * b.t - (a.x * b.x + a.y * b.y + a.z * b.z)

/-- Euclidean product. -/
def eucl (a b : Vec3) : ℝ := a.x * b.x + a.y * b.y + a.z * b.z

/-- A proper rotation: preserves the Euclidean product and the orientation. -/
def IsRotation (a : Transform3) : Prop :=
  (∀ v w, eucl (a.apply v) (a.apply w) = eucl v w) ∧ (mat3 a).det = 1

/-- A Lorentz transformation: preserves the Minkowski product. -/
def IsLorentz (a : Transform4) : Prop := ∀ v w, mink (a.apply v) (a.apply w) = mink v w

/-- A proper, orthochronous Lorentz transformation. -/
def IsProperLorentz (a : Transform4) : Prop :=
  IsLorentz a ∧ (mat4 a).det = 1 ∧ 0 < (mat4 a) 0 0

end Sidis.Spec
