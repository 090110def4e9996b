import Verif.Lemmas.Vector
import Mathlib.LinearAlgebra.Matrix.Determinant.Basic
import Mathlib.Analysis.SpecialFunctions.Trigonometric.Basic
import Mathlib.Tactic.FinCases

/-! # Lemmas about transformations -/

namespace Sidis

open Spec

namespace Transform3

@[simp] theorem add_x' (a b : Transform3) : (a + b).x = a.x + b.x := rfl
@[simp] theorem add_y' (a b : Transform3) : (a + b).y = a.y + b.y := rfl
@[simp] theorem add_z' (a b : Transform3) : (a + b).z = a.z + b.z := rfl
@[simp] theorem sub_x' (a b : Transform3) : (a - b).x = a.x - b.x := rfl
@[simp] theorem sub_y' (a b : Transform3) : (a - b).y = a.y - b.y := rfl
@[simp] theorem sub_z' (a b : Transform3) : (a - b).z = a.z - b.z := rfl
@[simp] theorem smul_x' (s : ℝ) (a : Transform3) : (s • a).x = s • a.x := rfl
@[simp] theorem smul_y' (s : ℝ) (a : Transform3) : (s • a).y = s • a.y := rfl
@[simp] theorem smul_z' (s : ℝ) (a : Transform3) : (s • a).z = s • a.z := rfl
@[simp] theorem div_x' (a : Transform3) (s : ℝ) : (a / s).x = a.x / s := rfl
@[simp] theorem div_y' (a : Transform3) (s : ℝ) : (a / s).y = a.y / s := rfl
@[simp] theorem div_z' (a : Transform3) (s : ℝ) : (a / s).z = a.z / s := rfl

theorem mat3_eq (a : Transform3) : mat3 a =
    !![a.x.x, a.x.y, a.x.z; a.y.x, a.y.y, a.y.z; a.z.x, a.z.y, a.z.z] := by
  ext i j
  fin_cases i <;> fin_cases j <;> simp [mat3, coords3, axis3, apply, Vec3.dot]

theorem mat3_mul (a b : Transform3) : mat3 (a.mul b) = mat3 a * mat3 b := by
  rw [mat3_eq, mat3_eq, mat3_eq]
  ext i j
  fin_cases i <;> fin_cases j <;>
    simp [mul, transpose, Vec3.dot, Matrix.mul_apply, Fin.sum_univ_three]

theorem mat3_one : mat3 one = 1 := by
  rw [mat3_eq]
  ext i j
  fin_cases i <;> fin_cases j <;> simp [one, mk9]

theorem mat3_transpose (a : Transform3) : mat3 a.transpose = (mat3 a).transpose := by
  rw [mat3_eq, mat3_eq]
  ext i j
  fin_cases i <;> fin_cases j <;> simp [transpose]

theorem mat3_inj {a b : Transform3} (h : mat3 a = mat3 b) : a = b := by
  rw [mat3_eq, mat3_eq] at h
  have e := fun i j => congrFun (congrFun h i) j
  ext
  · simpa using e 0 0
  · simpa using e 0 1
  · simpa using e 0 2
  · simpa using e 1 0
  · simpa using e 1 1
  · simpa using e 1 2
  · simpa using e 2 0
  · simpa using e 2 1
  · simpa using e 2 2

theorem det_eq (a : Transform3) : a.det = (mat3 a).det := by
  rw [mat3_eq, Matrix.det_fin_three]
  simp [det]; ring

theorem apply_mul (a b : Transform3) (v : Vec3) : (a.mul b).apply v = a.apply (b.apply v) := by
  ext <;> simp [mul, apply, transpose, Vec3.dot] <;> ring

theorem apply_one (v : Vec3) : one.apply v = v := by
  ext <;> simp [one, mk9, apply, Vec3.dot]

/-- Moving a transformation to the other side of the product. -/
theorem dot_apply (a : Transform3) (v w : Vec3) : eucl (a.apply v) w = eucl v (a.transpose.apply w) := by
  simp [eucl, apply, transpose, Vec3.dot]; ring

theorem orthogonal_of {a : Transform3} (h : a.transpose.mul a = one) (v w : Vec3) :
    eucl (a.apply v) (a.apply w) = eucl v w := by
  rw [dot_apply, ← apply_mul, h, apply_one]

/-- `c + s u× + (1 - c) u u` -/
noncomputable def rod (c s : ℝ) (u : Vec3) : Transform3 :=
  c • one + s • crossOp u + (1 - c) • outer u u

theorem rod_mul {u : Vec3} (hu : u.x ^ 2 + u.y ^ 2 + u.z ^ 2 = 1) (c s c' s' : ℝ) :
    (rod c s u).mul (rod c' s' u) = rod (c * c' - s * s') (s * c' + c * s') u := by
  ext <;> simp [rod, mul, transpose, Vec3.dot, one, mk9, crossOp, outer]
  · linear_combination ((1 - c) * (1 - c') * u.x * u.x - s * s') * hu
  · linear_combination ((1 - c) * (1 - c') * u.x * u.y) * hu
  · linear_combination ((1 - c) * (1 - c') * u.x * u.z) * hu
  · linear_combination ((1 - c) * (1 - c') * u.y * u.x) * hu
  · linear_combination ((1 - c) * (1 - c') * u.y * u.y - s * s') * hu
  · linear_combination ((1 - c) * (1 - c') * u.y * u.z) * hu
  · linear_combination ((1 - c) * (1 - c') * u.z * u.x) * hu
  · linear_combination ((1 - c) * (1 - c') * u.z * u.y) * hu
  · linear_combination ((1 - c) * (1 - c') * u.z * u.z - s * s') * hu

theorem rod_transpose (u : Vec3) (c s : ℝ) : (rod c s u).transpose = rod c (-s) u := by
  ext <;> simp [rod, transpose, one, mk9, crossOp, outer, -mul_eq_mul_right_iff] <;> ring

theorem rod_one (u : Vec3) : rod 1 0 u = one := by
  ext <;> simp [rod, one, mk9, crossOp, outer]

theorem rod_orth {u : Vec3} (hu : u.x ^ 2 + u.y ^ 2 + u.z ^ 2 = 1) {c s : ℝ}
    (h : c ^ 2 + s ^ 2 = 1) : (rod c s u).transpose.mul (rod c s u) = one := by
  rw [rod_transpose, rod_mul hu, ← rod_one u]
  congr 1
  · linarith
  · ring

theorem rod_orth' {u : Vec3} (hu : u.x ^ 2 + u.y ^ 2 + u.z ^ 2 = 1) {c s : ℝ}
    (h : c ^ 2 + s ^ 2 = 1) : (rod c s u).mul (rod c s u).transpose = one := by
  rw [rod_transpose, rod_mul hu, ← rod_one u]
  congr 1
  · linarith
  · ring

theorem rod_det {u : Vec3} (hu : u.x ^ 2 + u.y ^ 2 + u.z ^ 2 = 1) {c s : ℝ}
    (h : c ^ 2 + s ^ 2 = 1) : (rod c s u).det = 1 := by
  simp [rod, det, one, mk9, crossOp, outer]
  linear_combination ((1 - c) * (c ^ 2 + s ^ 2 * (u.x ^ 2 + u.y ^ 2 + u.z ^ 2)) + s ^ 2) * hu + h

theorem rod_rotation {u : Vec3} (hu : u.x ^ 2 + u.y ^ 2 + u.z ^ 2 = 1) {c s : ℝ}
    (h : c ^ 2 + s ^ 2 = 1) : IsRotation (rod c s u) :=
  ⟨orthogonal_of (rod_orth hu h), by rw [← det_eq, rod_det hu h]⟩

theorem rod_trace {u : Vec3} (hu : u.x ^ 2 + u.y ^ 2 + u.z ^ 2 = 1) (c s : ℝ) :
    (rod c s u).trace = 1 + 2 * c := by
  simp [rod, trace, one, mk9, crossOp, outer]
  linear_combination (1 - c) * hu

theorem rod_axis {u : Vec3} (hu : u.x ^ 2 + u.y ^ 2 + u.z ^ 2 = 1) (c s : ℝ) :
    (rod c s u).apply u = u := by
  ext <;> simp [rod, apply, one, mk9, crossOp, outer, Vec3.dot]
  · linear_combination (1 - c) * u.x * hu
  · linear_combination (1 - c) * u.y * hu
  · linear_combination (1 - c) * u.z * hu

theorem rod_perp {u v : Vec3} (h : eucl u v = 0) (c s : ℝ) :
    (rod c s u).apply v = c • v + s • u.cross v := by
  unfold eucl at h
  ext <;> simp [rod, apply, one, mk9, crossOp, outer, Vec3.dot, Vec3.cross]
  · linear_combination (1 - c) * u.x * h
  · linear_combination (1 - c) * u.y * h
  · linear_combination (1 - c) * u.z * h

theorem apply_smul (a : Transform3) (s : ℝ) (v : Vec3) : a.apply (s • v) = s • a.apply v := by
  ext <;> simp [apply, Vec3.dot] <;> ring

theorem apply_add (a : Transform3) (v w : Vec3) : a.apply (v + w) = a.apply v + a.apply w := by
  ext <;> simp [apply, Vec3.dot] <;> ring

end Transform3

namespace Transform4

@[simp] theorem add_t' (a b : Transform4) : (a + b).t = a.t + b.t := rfl
@[simp] theorem add_x' (a b : Transform4) : (a + b).x = a.x + b.x := rfl
@[simp] theorem add_y' (a b : Transform4) : (a + b).y = a.y + b.y := rfl
@[simp] theorem add_z' (a b : Transform4) : (a + b).z = a.z + b.z := rfl
@[simp] theorem sub_t' (a b : Transform4) : (a - b).t = a.t - b.t := rfl
@[simp] theorem sub_x' (a b : Transform4) : (a - b).x = a.x - b.x := rfl
@[simp] theorem sub_y' (a b : Transform4) : (a - b).y = a.y - b.y := rfl
@[simp] theorem sub_z' (a b : Transform4) : (a - b).z = a.z - b.z := rfl
@[simp] theorem smul_t' (s : ℝ) (a : Transform4) : (s • a).t = s • a.t := rfl
@[simp] theorem smul_x' (s : ℝ) (a : Transform4) : (s • a).x = s • a.x := rfl
@[simp] theorem smul_y' (s : ℝ) (a : Transform4) : (s • a).y = s • a.y := rfl
@[simp] theorem smul_z' (s : ℝ) (a : Transform4) : (s • a).z = s • a.z := rfl
@[simp] theorem div_t' (a : Transform4) (s : ℝ) : (a / s).t = a.t / s := rfl
@[simp] theorem div_x' (a : Transform4) (s : ℝ) : (a / s).x = a.x / s := rfl
@[simp] theorem div_y' (a : Transform4) (s : ℝ) : (a / s).y = a.y / s := rfl
@[simp] theorem div_z' (a : Transform4) (s : ℝ) : (a / s).z = a.z / s := rfl

theorem mat4_eq (a : Transform4) : mat4 a =
    !![a.t.t, -a.t.x, -a.t.y, -a.t.z; a.x.t, -a.x.x, -a.x.y, -a.x.z;
       a.y.t, -a.y.x, -a.y.y, -a.y.z; a.z.t, -a.z.x, -a.z.y, -a.z.z] := by
  ext i j
  fin_cases i <;> fin_cases j <;> simp [mat4, coords4, axis4, apply, Vec4.dot]

theorem mat4_mul (a b : Transform4) : mat4 (a.mul b) = mat4 a * mat4 b := by
  rw [mat4_eq, mat4_eq, mat4_eq]
  ext i j
  fin_cases i <;> fin_cases j <;>
    simp [mul, transpose, Vec4.dot, Matrix.mul_apply, Fin.sum_univ_four] <;> ring

theorem mat4_one : mat4 one = 1 := by
  rw [mat4_eq]
  ext i j
  fin_cases i <;> fin_cases j <;> simp [one, mk16]

theorem mat4_inj {a b : Transform4} (h : mat4 a = mat4 b) : a = b := by
  rw [mat4_eq, mat4_eq] at h
  have e := fun i j => congrFun (congrFun h i) j
  ext
  · simpa using e 0 0
  · simpa using e 0 1
  · simpa using e 0 2
  · simpa using e 0 3
  · simpa using e 1 0
  · simpa using e 1 1
  · simpa using e 1 2
  · simpa using e 1 3
  · simpa using e 2 0
  · simpa using e 2 1
  · simpa using e 2 2
  · simpa using e 2 3
  · simpa using e 3 0
  · simpa using e 3 1
  · simpa using e 3 2
  · simpa using e 3 3

theorem det_eq (a : Transform4) : a.det = (mat4 a).det := by
  rw [mat4_eq, Matrix.det_succ_row_zero]
  simp [Fin.sum_univ_four, Matrix.det_fin_three, Matrix.submatrix, Fin.succAbove, det]
  ring

theorem apply_mul (a b : Transform4) (v : Vec4) : (a.mul b).apply v = a.apply (b.apply v) := by
  ext <;> simp [mul, apply, transpose, Vec4.dot] <;> ring

theorem apply_one (v : Vec4) : one.apply v = v := by
  ext <;> simp [one, mk16, apply, Vec4.dot]

theorem mink_eq (a b : Vec4) : mink a b = a.dot b := by unfold mink Vec4.dot; ring

theorem dot_apply (a : Transform4) (v w : Vec4) :
    mink (a.apply v) w = mink v (a.transpose.apply w) := by
  simp [mink, apply, transpose, Vec4.dot]; ring

theorem lorentz_of {a : Transform4} (h : a.transpose.mul a = one) : IsLorentz a := by
  intro v w
  rw [dot_apply, ← apply_mul, h, apply_one]

theorem apply_add (a : Transform4) (v w : Vec4) : a.apply (v + w) = a.apply v + a.apply w := by
  ext <;> simp [apply, Vec4.dot] <;> ring

theorem apply_sub (a : Transform4) (v w : Vec4) : a.apply (v - w) = a.apply v - a.apply w := by
  ext <;> simp [apply, Vec4.dot] <;> ring

theorem apply_smul (a : Transform4) (s : ℝ) (v : Vec4) : a.apply (s • v) = s • a.apply v := by
  ext <;> simp [apply, Vec4.dot] <;> ring

/-- A Lorentz transformation is inverted by its transpose. -/
theorem lorentz_transpose_mul {a : Transform4} (h : IsLorentz a) : a.transpose.mul a = one := by
  have key : ∀ v w, mink v ((a.transpose.mul a).apply w) = mink v w := by
    intro v w; rw [apply_mul, ← dot_apply, h]
  have key2 : ∀ w, (a.transpose.mul a).apply w = w := by
    intro w
    have h0 := key ⟨1, 0, 0, 0⟩ w
    have h1 := key ⟨0, 1, 0, 0⟩ w
    have h2 := key ⟨0, 0, 1, 0⟩ w
    have h3 := key ⟨0, 0, 0, 1⟩ w
    simp only [mink] at h0 h1 h2 h3
    ext <;> linarith
  apply mat4_inj
  rw [mat4_one]
  ext i j
  unfold mat4
  rw [key2]
  fin_cases i <;> fin_cases j <;> simp [coords4, axis4]

theorem lorentz_mul_transpose {a : Transform4} (h : IsLorentz a) : a.mul a.transpose = one := by
  have h1 := congrArg mat4 (lorentz_transpose_mul h)
  rw [mat4_mul, mat4_one] at h1
  apply mat4_inj
  rw [mat4_mul, mat4_one]
  exact mul_eq_one_comm.1 h1

theorem lorentz_mul {a b : Transform4} (ha : IsLorentz a) (hb : IsLorentz b) :
    IsLorentz (a.mul b) := by
  intro v w; rw [apply_mul, apply_mul, ha, hb]

theorem transpose_transpose (a : Transform4) : a.transpose.transpose = a := rfl

theorem lorentz_transpose {a : Transform4} (h : IsLorentz a) : IsLorentz a.transpose :=
  lorentz_of (by rw [transpose_transpose]; exact lorentz_mul_transpose h)

theorem transpose_mul (a b : Transform4) : (a.mul b).transpose = b.transpose.mul a.transpose := by
  ext <;> simp [mul, transpose, Vec4.dot] <;> ring

/-- A transformation is determined by its action. -/
theorem ext_apply {a b : Transform4} (h : ∀ v, a.apply v = b.apply v) : a = b := by
  apply mat4_inj
  ext i j
  unfold mat4
  rw [h]

/-! ### boosts -/

/-- `1 + s (d T - T d) + (1 - c) (d d - T T)` -/
noncomputable def bst (c s : ℝ) (u : Vec3) : Transform4 :=
  one + s • (outer (.ofVec3 0 u) .et - outer .et (.ofVec3 0 u))
    + (1 - c) • (outer (.ofVec3 0 u) (.ofVec3 0 u) - outer .et .et)

theorem bst_mul {u : Vec3} (hu : u.x ^ 2 + u.y ^ 2 + u.z ^ 2 = 1) (c s c' s' : ℝ) :
    (bst c s u).mul (bst c' s' u) = bst (c * c' + s * s') (s * c' + c * s') u := by
  ext <;> simp [bst, mul, transpose, Vec4.dot, one, mk16, outer, Vec4.ofVec3, Vec4.et]
  · linear_combination (s * s') * hu
  · linear_combination (s * (1 - c') * u.x) * hu
  · linear_combination (s * (1 - c') * u.y) * hu
  · linear_combination (s * (1 - c') * u.z) * hu
  · linear_combination (-(1 - c) * s' * u.x) * hu
  · linear_combination (-(1 - c) * (1 - c') * u.x * u.x) * hu
  · linear_combination (-(1 - c) * (1 - c') * u.x * u.y) * hu
  · linear_combination (-(1 - c) * (1 - c') * u.x * u.z) * hu
  · linear_combination (-(1 - c) * s' * u.y) * hu
  · linear_combination (-(1 - c) * (1 - c') * u.y * u.x) * hu
  · linear_combination (-(1 - c) * (1 - c') * u.y * u.y) * hu
  · linear_combination (-(1 - c) * (1 - c') * u.y * u.z) * hu
  · linear_combination (-(1 - c) * s' * u.z) * hu
  · linear_combination (-(1 - c) * (1 - c') * u.z * u.x) * hu
  · linear_combination (-(1 - c) * (1 - c') * u.z * u.y) * hu
  · linear_combination (-(1 - c) * (1 - c') * u.z * u.z) * hu

theorem bst_transpose (u : Vec3) (c s : ℝ) : (bst c s u).transpose = bst c (-s) u := by
  ext <;> simp [bst, transpose, one, mk16, outer, Vec4.ofVec3, Vec4.et, -mul_eq_mul_right_iff] <;> ring

theorem bst_one (u : Vec3) : bst 1 0 u = one := by
  ext <;> simp [bst, one, mk16, outer, Vec4.ofVec3, Vec4.et]

theorem bst_lorentz {u : Vec3} (hu : u.x ^ 2 + u.y ^ 2 + u.z ^ 2 = 1) {c s : ℝ}
    (h : c ^ 2 - s ^ 2 = 1) : IsLorentz (bst c s u) := by
  apply lorentz_of
  rw [bst_transpose, bst_mul hu, ← bst_one u]
  congr 1
  · linarith
  · ring

theorem lorentz_det {a : Transform4} (h : IsLorentz a) : (mat4 a).det ^ 2 = 1 := by
  have h1 := congrArg (fun t => (mat4 t).det) (lorentz_transpose_mul h)
  simp only [mat4_mul, Matrix.det_mul, mat4_one, Matrix.det_one] at h1
  have h2 : (mat4 a.transpose).det = (mat4 a).det := by
    rw [← det_eq, ← det_eq]; simp [det, transpose]; ring
  rw [h2] at h1
  linarith [sq ((mat4 a).det)]

/-! ### reflections -/

/-- `v ↦ v - k a (a·v)` -/
noncomputable def refl (k : ℝ) (a : Vec4) : Transform4 := one - k • outer a a

theorem refl_det (k : ℝ) (a : Vec4) : (refl k a).det = 1 - k * mink a a := by
  simp [refl, det, one, mk16, outer, mink]; ring

theorem refl_apply (k : ℝ) (a v : Vec4) : (refl k a).apply v = v - (k * a.dot v) • a := by
  ext <;> simp [refl, apply, one, mk16, outer, Vec4.dot] <;> ring

/-- Action of the transformation built by `transform_to`. -/
theorem trans_apply (o n : Vec4) (s c k : ℝ) (v : Vec4) :
    (one - (outer o o + outer n n + (outer o n - outer n o) - (2 * s * c) • outer n o) / k).apply v =
    v - ((o.dot v + n.dot v) / k) • o - ((n.dot v - o.dot v - 2 * s * c * o.dot v) / k) • n := by
  ext <;> simp [apply, one, mk16, outer, Vec4.dot] <;> ring

theorem dot_sub_smul (a v o n : Vec4) (p q : ℝ) :
    a.dot (v - p • o - q • n) = a.dot v - p * a.dot o - q * a.dot n := by
  simp [Vec4.dot]; ring

theorem dot_comm (a b : Vec4) : a.dot b = b.dot a := by simp [Vec4.dot]; ring

/-! ### adjugate -/

/-- The adjugate. -/
def adj (a : Transform4) : Transform4 :=
  let t := a.t
  let x := a.x
  let y := a.y
  let z := a.z
  mk16
    (-(x.x * y.y * z.z + x.y * y.z * z.x + x.z * y.x * z.y - x.x * y.z * z.y - x.z * y.y * z.x - x.y * y.x * z.z))
    (-(t.x * y.z * z.y + t.z * y.y * z.x + t.y * y.x * z.z - t.x * y.y * z.z - t.y * y.z * z.x - t.z * y.x * z.y))
    (-(x.x * t.z * z.y + x.z * t.y * z.x + x.y * t.x * z.z - x.x * t.y * z.z - x.y * t.z * z.x - x.z * t.x * z.y))
    (-(x.x * y.z * t.y + x.z * y.y * t.x + x.y * y.x * t.z - x.x * y.y * t.z - x.y * y.z * t.x - x.z * y.x * t.y))
    (x.t * y.z * z.y + x.z * y.y * z.t + x.y * y.t * z.z - x.t * y.y * z.z - x.y * y.z * z.t - x.z * y.t * z.y)
    (t.t * y.y * z.z + t.y * y.z * z.t + t.z * y.t * z.y - t.t * y.z * z.y - t.z * y.y * z.t - t.y * y.t * z.z)
    (t.t * x.z * z.y + t.z * x.y * z.t + t.y * x.t * z.z - t.t * x.y * z.z - t.y * x.z * z.t - t.z * x.t * z.y)
    (t.t * y.z * x.y + t.z * y.y * x.t + t.y * y.t * x.z - t.t * y.y * x.z - t.y * y.z * x.t - t.z * y.t * x.y)
    (x.x * y.z * z.t + x.z * y.t * z.x + x.t * y.x * z.z - x.x * y.t * z.z - x.t * y.z * z.x - x.z * y.x * z.t)
    (y.x * t.z * z.t + y.z * t.t * z.x + y.t * t.x * z.z - y.x * t.t * z.z - y.t * t.z * z.x - y.z * t.x * z.t)
    (x.x * t.t * z.z + x.t * t.z * z.x + x.z * t.x * z.t - x.x * t.z * z.t - x.z * t.t * z.x - x.t * t.x * z.z)
    (x.x * t.z * y.t + x.z * t.t * y.x + x.t * t.x * y.z - x.x * t.t * y.z - x.t * t.z * y.x - x.z * t.x * y.t)
    (x.x * y.t * z.y + x.t * y.y * z.x + x.y * y.x * z.t - x.x * y.y * z.t - x.y * y.t * z.x - x.t * y.x * z.y)
    (z.x * y.t * t.y + z.t * y.y * t.x + z.y * y.x * t.t - z.x * y.y * t.t - z.y * y.t * t.x - z.t * y.x * t.y)
    (x.x * z.t * t.y + x.t * z.y * t.x + x.y * z.x * t.t - x.x * z.y * t.t - x.y * z.t * t.x - x.t * z.x * t.y)
    (x.x * y.y * t.t + x.y * y.t * t.x + x.t * y.x * t.y - x.x * y.t * t.y - x.t * y.y * t.x - x.y * y.x * t.t)

theorem inv_eq (a : Transform4) : a.inv = (1 / a.det) • a.adj := rfl

theorem mul_adj (a : Transform4) : a.mul a.adj = a.det • one := by
  obtain ⟨⟨tt, tx, ty, tz⟩, ⟨xt, xx, xy, xz⟩, ⟨yt, yx, yy, yz⟩, ⟨zt, zx, zy, zz⟩⟩ := a
  ext <;> simp only [mul, transpose, one, mk16, Vec4.dot, adj, det, smul_t', smul_x', smul_y', smul_z',
    Vec4.smul_t, Vec4.smul_x, Vec4.smul_y, Vec4.smul_z] <;> ring

theorem adj_mul (a : Transform4) : a.adj.mul a = a.det • one := by
  obtain ⟨⟨tt, tx, ty, tz⟩, ⟨xt, xx, xy, xz⟩, ⟨yt, yx, yy, yz⟩, ⟨zt, zx, zy, zz⟩⟩ := a
  ext <;> simp only [mul, transpose, one, mk16, Vec4.dot, adj, det, smul_t', smul_x', smul_y', smul_z',
    Vec4.smul_t, Vec4.smul_x, Vec4.smul_y, Vec4.smul_z] <;> ring

theorem mul_smul (a b : Transform4) (s : ℝ) : a.mul (s • b) = s • a.mul b := by
  ext <;> simp [mul, transpose, Vec4.dot] <;> ring

theorem smul_mul (a b : Transform4) (s : ℝ) : (s • a).mul b = s • a.mul b := by
  ext <;> simp [mul, transpose, Vec4.dot] <;> ring

theorem smul_smul_one {s : ℝ} (h : s ≠ 0) : (1 / s) • s • one = one := by
  ext <;> simp [h]

/-! ### embedding of rotations -/

theorem ofT3_apply (a : Transform3) (v : Vec4) :
    (ofT3 a).apply v = .ofVec3 v.t (a.apply v.r) := by
  ext <;> simp [ofT3, apply, Transform3.apply, Vec4.dot, Vec3.dot, Vec4.ofVec3, Vec4.et, Vec4.r]

theorem ofT3_lorentz {a : Transform3} (h : ∀ v w, eucl (a.apply v) (a.apply w) = eucl v w) :
    IsLorentz (ofT3 a) := by
  intro v w
  rw [ofT3_apply, ofT3_apply]
  have := h v.r w.r
  simp only [eucl, mink, Vec4.ofVec3, Vec4.r] at *
  linarith

theorem ofT3_det (a : Transform3) : (ofT3 a).det = a.det := by
  simp [ofT3, det, Transform3.det, Vec4.ofVec3, Vec4.et]; ring

theorem ofT3_proper {a : Transform3} (h : IsRotation a) : IsProperLorentz (ofT3 a) :=
  ⟨ofT3_lorentz h.1, by rw [← det_eq, ofT3_det, Transform3.det_eq, h.2], by
    rw [mat4_eq]; simp [ofT3, Vec4.et]⟩

end Transform4
end Sidis
