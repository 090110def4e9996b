import Verif.Spec.Frame
import Verif.Lemmas.RadGeom

/-! # Lemmas about reference frames -/

namespace Sidis

open Spec

namespace Transform3

theorem transpose_transpose (a : Transform3) : a.transpose.transpose = a := rfl

theorem transpose_mul_of {a : Transform3} (h : IsRotation a) : a.transpose.mul a = one := by
  have key : ∀ v w, eucl v ((a.transpose.mul a).apply w) = eucl v w := by
    intro v w; rw [apply_mul, ← dot_apply, h.1]
  have key2 : ∀ w, (a.transpose.mul a).apply w = w := by
    intro w
    have e1 := key ⟨1, 0, 0⟩ w
    have e2 := key ⟨0, 1, 0⟩ w
    have e3 := key ⟨0, 0, 1⟩ w
    simp only [eucl, one_mul, zero_mul, add_zero, zero_add] at e1 e2 e3
    exact Vec3.ext e1 e2 e3
  apply mat3_inj
  ext i j
  unfold mat3
  rw [key2, apply_one]

theorem mul_transpose_of {a : Transform3} (h : IsRotation a) : a.mul a.transpose = one := by
  have h1 := congrArg mat3 (transpose_mul_of h)
  rw [mat3_mul, mat3_one] at h1
  apply mat3_inj
  rw [mat3_mul, mat3_one]
  exact mul_eq_one_comm.1 h1

theorem rotation_inverse {a : Transform3} (h : IsRotation a) : Inverse3 a a.transpose :=
  ⟨fun v => by rw [← apply_mul, mul_transpose_of h, apply_one],
   fun v => by rw [← apply_mul, transpose_mul_of h, apply_one]⟩

theorem rotation_transpose {a : Transform3} (h : IsRotation a) : IsRotation a.transpose :=
  ⟨orthogonal_of (by rw [transpose_transpose]; exact mul_transpose_of h), by
    rw [mat3_transpose, Matrix.det_transpose, h.2]⟩

theorem rotation_mul {a b : Transform3} (ha : IsRotation a) (hb : IsRotation b) :
    IsRotation (a.mul b) :=
  ⟨fun v w => by rw [apply_mul, apply_mul, ha.1, hb.1], by
    rw [mat3_mul, Matrix.det_mul, ha.2, hb.2, one_mul]⟩

/-- Rotation about the third axis. -/
theorem rotZ {c s : ℝ} (h : s ^ 2 + c ^ 2 = 1) : IsRotation (mk9 c (-s) 0 s c 0 0 0 1) := by
  refine ⟨orthogonal_of ?_, ?_⟩
  · ext <;> simp [mul, transpose, Vec3.dot, one, mk9]
    · linear_combination h
    · ring
    · ring
    · linear_combination h
  · rw [← det_eq]; simp [det, mk9]; linear_combination h

theorem apply_eq_of_inverse {a : Transform3} (h : IsRotation a) {v w : Vec3}
    (e : a.apply v = w) : a.transpose.apply w = v := by
  rw [← e]; exact (rotation_inverse h).2 v

theorem orthogonal_of' {t : Transform3} (ht : t.mul t.transpose = one) (v w : Vec3) :
    eucl (t.apply v) (t.apply w) = eucl v w := by
  apply orthogonal_of
  have h1 := congrArg mat3 ht
  rw [mat3_mul, mat3_one] at h1
  apply mat3_inj
  rw [mat3_mul, mat3_one]
  exact mul_eq_one_comm.1 h1

theorem eucl_smul_left (s : ℝ) (a b : Vec3) : eucl (s • a) b = s * eucl a b := by
  simp [eucl]; ring
theorem eucl_smul_right (s : ℝ) (a b : Vec3) : eucl a (s • b) = s * eucl a b := by
  simp [eucl]; ring
theorem eucl_sub_left (a b c : Vec3) : eucl (a - b) c = eucl a c - eucl b c := by
  simp [eucl]; ring
theorem eucl_sub_right (a b c : Vec3) : eucl a (b - c) = eucl a b - eucl a c := by
  simp [eucl]; ring
theorem eucl_comm (a b : Vec3) : eucl a b = eucl b a := by simp [eucl]; ring
theorem eucl_cross_self (a b : Vec3) : eucl (a.cross b) a = 0 := by simp [eucl, Vec3.cross]; ring
theorem eucl_cross_self' (a b : Vec3) : eucl (a.cross b) b = 0 := by simp [eucl, Vec3.cross]; ring
theorem eucl_cross_cross (a b : Vec3) : eucl (a.cross b) (a.cross b) =
    eucl a a * eucl b b - eucl a b ^ 2 := by
  simp [eucl, Vec3.cross]; ring

/-- The frame with third axis along `a` and `b` in the half plane of the first axis. -/
theorem frame_of {a b : Vec3} {l w : ℝ} (hl : 0 < l) (hw : 0 < w) (hl2 : l ^ 2 = eucl a a)
    (hw2 : l ^ 2 * w ^ 2 = eucl b b * l ^ 2 - eucl a b ^ 2) {t : Transform3}
    (hx : t.x = (1 / (l ^ 2 * w)) • (l ^ 2 • b - eucl a b • a))
    (hy : t.y = (1 / (l * w)) • a.cross b) (hz : t.z = (1 / l) • a) :
    IsRotation t ∧ t.apply a = ⟨0, 0, l⟩ ∧ t.apply b = ⟨w, 0, eucl a b / l⟩ := by
  have hl0 := hl.ne'
  have hw0 := hw.ne'
  have hcc := eucl_cross_cross a b
  rw [← hl2] at hcc
  have hca := eucl_cross_self a b
  have hcb := eucl_cross_self' a b
  have xx : eucl t.x t.x = 1 := by
    simp only [hx, eucl_smul_left, eucl_smul_right, eucl_sub_left, eucl_sub_right, eucl_comm b a,
      ← hl2]
    field_simp
    linear_combination -hw2
  have yy : eucl t.y t.y = 1 := by
    simp only [hy, eucl_smul_left, eucl_smul_right, hcc]
    field_simp
    linear_combination -hw2
  have zz : eucl t.z t.z = 1 := by
    simp only [hz, eucl_smul_left, eucl_smul_right, ← hl2]
    field_simp
  have xy : eucl t.x t.y = 0 := by
    simp only [hx, hy, eucl_smul_left, eucl_smul_right, eucl_sub_left, eucl_comm b (a.cross b),
      eucl_comm a (a.cross b), hca, hcb]
    ring
  have xz : eucl t.x t.z = 0 := by
    simp only [hx, hz, eucl_smul_left, eucl_smul_right, eucl_sub_left, eucl_comm b a, ← hl2]
    ring
  have yz : eucl t.y t.z = 0 := by
    simp only [hy, hz, eucl_smul_left, eucl_smul_right, hca]
    ring
  have orth : t.mul t.transpose = one := by
    ext
    · exact xx
    · exact xy
    · exact xz
    · exact (eucl_comm _ _).trans xy
    · exact yy
    · exact yz
    · exact (eucl_comm _ _).trans xz
    · exact (eucl_comm _ _).trans yz
    · exact zz
  refine ⟨⟨orthogonal_of' orth, ?_⟩, ?_, ?_⟩
  · have e : t.det = eucl (t.z.cross t.x) t.y := by simp [det, eucl, Vec3.cross]; ring
    have e2 : t.z.cross t.x = t.y := by
      rw [hz, hx, hy]
      ext <;> simp [Vec3.cross, -mul_eq_mul_left_iff] <;> field_simp <;> ring
    rw [← det_eq, e, e2, yy]
  · ext
    · change eucl t.x a = 0
      simp only [hx, eucl_smul_left, eucl_sub_left, eucl_comm b a, ← hl2]
      ring
    · change eucl t.y a = 0
      simp only [hy, eucl_smul_left, hca]
      ring
    · change eucl t.z a = l
      simp only [hz, eucl_smul_left, ← hl2]
      field_simp
  · ext
    · change eucl t.x b = w
      simp only [hx, eucl_smul_left, eucl_sub_left]
      field_simp
      linear_combination -hw2
    · change eucl t.y b = 0
      simp only [hy, eucl_smul_left, hcb]
      ring
    · change eucl t.z b = _
      simp only [hz, eucl_smul_left]
      ring

end Transform3
end Sidis
