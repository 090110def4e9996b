import Verif.Spec.Transform
import Mathlib.Tactic.LinearCombination
import Mathlib.Tactic.FieldSimp

/-! # Lemmas about vectors -/

namespace Sidis

namespace Vec3

@[simp] theorem add_x (a b : Vec3) : (a + b).x = a.x + b.x := rfl
@[simp] theorem add_y (a b : Vec3) : (a + b).y = a.y + b.y := rfl
@[simp] theorem add_z (a b : Vec3) : (a + b).z = a.z + b.z := rfl
@[simp] theorem sub_x (a b : Vec3) : (a - b).x = a.x - b.x := rfl
@[simp] theorem sub_y (a b : Vec3) : (a - b).y = a.y - b.y := rfl
@[simp] theorem sub_z (a b : Vec3) : (a - b).z = a.z - b.z := rfl
@[simp] theorem neg_x (a : Vec3) : (-a).x = -a.x := rfl
@[simp] theorem neg_y (a : Vec3) : (-a).y = -a.y := rfl
@[simp] theorem neg_z (a : Vec3) : (-a).z = -a.z := rfl
@[simp] theorem smul_x (s : ℝ) (a : Vec3) : (s • a).x = a.x * s := rfl
@[simp] theorem smul_y (s : ℝ) (a : Vec3) : (s • a).y = a.y * s := rfl
@[simp] theorem smul_z (s : ℝ) (a : Vec3) : (s • a).z = a.z * s := rfl
@[simp] theorem div_x (a : Vec3) (s : ℝ) : (a / s).x = a.x / s := rfl
@[simp] theorem div_y (a : Vec3) (s : ℝ) : (a / s).y = a.y / s := rfl
@[simp] theorem div_z (a : Vec3) (s : ℝ) : (a / s).z = a.z / s := rfl

/-- The scaled computation of the norm is the Euclidean length. -/
theorem norm_eq (a : Vec3) : a.norm = √(a.x ^ 2 + a.y ^ 2 + a.z ^ 2) := by
  unfold norm
  simp only
  split_ifs with h
  · have hx : |a.x| ≤ 0 := by rw [← h]; exact le_trans (le_max_left _ _) (le_max_left _ _)
    have hy : |a.y| ≤ 0 := by rw [← h]; exact le_trans (le_max_right _ _) (le_max_left _ _)
    have hz : |a.z| ≤ 0 := by rw [← h]; exact le_max_right _ _
    have hx' := abs_nonpos_iff.1 hx
    have hy' := abs_nonpos_iff.1 hy
    have hz' := abs_nonpos_iff.1 hz
    simp [hx', hy', hz']
  · have hm : 0 < max (max |a.x| |a.y|) |a.z| :=
      lt_of_le_of_ne (le_trans (abs_nonneg a.z) (le_max_right _ _)) (Ne.symm h)
    generalize max (max |a.x| |a.y|) |a.z| = m at *
    rw [show a.x ^ 2 + a.y ^ 2 + a.z ^ 2 =
        m ^ 2 * (a.x / m * (a.x / m) + a.y / m * (a.y / m) + a.z / m * (a.z / m)) by field_simp,
      Real.sqrt_mul (sq_nonneg m), Real.sqrt_sq hm.le]

theorem normSq_eq (a : Vec3) : a.normSq = a.x ^ 2 + a.y ^ 2 + a.z ^ 2 := by
  simp only [normSq, dot]; ring

theorem norm_sq (a : Vec3) : a.norm ^ 2 = a.x ^ 2 + a.y ^ 2 + a.z ^ 2 := by
  rw [norm_eq, Real.sq_sqrt (by positivity)]

theorem norm_nonneg (a : Vec3) : 0 ≤ a.norm := by rw [norm_eq]; exact Real.sqrt_nonneg _

theorem normSq_eq_zero {a : Vec3} : a.normSq = 0 ↔ a = zero := by
  rw [normSq_eq]
  constructor
  · intro h
    have hx : a.x = 0 := by nlinarith [sq_nonneg a.x, sq_nonneg a.y, sq_nonneg a.z]
    have hy : a.y = 0 := by nlinarith [sq_nonneg a.x, sq_nonneg a.y, sq_nonneg a.z]
    have hz : a.z = 0 := by nlinarith [sq_nonneg a.x, sq_nonneg a.y, sq_nonneg a.z]
    ext <;> assumption
  · rintro rfl; simp [zero]

theorem norm_eq_zero {a : Vec3} : a.norm = 0 ↔ a = zero := by
  rw [← normSq_eq_zero, normSq_eq, ← norm_sq]
  exact (pow_eq_zero_iff two_ne_zero).symm

theorem norm_pos {a : Vec3} (h : a ≠ zero) : 0 < a.norm :=
  lt_of_le_of_ne (norm_nonneg a) fun h' => h (norm_eq_zero.1 h'.symm)

theorem unit_zero : zero.unit = zero := by
  unfold unit; rw [if_pos (norm_eq_zero.2 rfl)]

theorem unit_eq {a : Vec3} (h : a ≠ zero) : a.unit = a / a.norm := by
  unfold unit; rw [if_neg (fun h' => h (norm_eq_zero.1 h'))]

theorem unit_sq {a : Vec3} (h : a ≠ zero) : a.unit.x ^ 2 + a.unit.y ^ 2 + a.unit.z ^ 2 = 1 := by
  rw [unit_eq h]
  have := norm_pos h
  have h2 := norm_sq a
  simp only [div_x, div_y, div_z]
  field_simp
  linarith

/-- A vector of length one is its own unit vector. -/
theorem unit_of_sq {a : Vec3} (h : a.x ^ 2 + a.y ^ 2 + a.z ^ 2 = 1) : a.unit = a := by
  have h1 : a.norm = 1 := by rw [norm_eq, h, Real.sqrt_one]
  unfold unit
  rw [if_neg (by rw [h1]; norm_num), h1]
  ext <;> simp

theorem smul_unit (a : Vec3) : a.norm • a.unit = a := by
  by_cases h : a = zero
  · subst h
    rw [unit_zero]; ext <;> simp [zero]
  · rw [unit_eq h]
    have := (norm_pos h).ne'
    ext <;> simp <;> field_simp

end Vec3

namespace Vec4

@[simp] theorem add_t (a b : Vec4) : (a + b).t = a.t + b.t := rfl
@[simp] theorem add_x (a b : Vec4) : (a + b).x = a.x + b.x := rfl
@[simp] theorem add_y (a b : Vec4) : (a + b).y = a.y + b.y := rfl
@[simp] theorem add_z (a b : Vec4) : (a + b).z = a.z + b.z := rfl
@[simp] theorem sub_t (a b : Vec4) : (a - b).t = a.t - b.t := rfl
@[simp] theorem sub_x (a b : Vec4) : (a - b).x = a.x - b.x := rfl
@[simp] theorem sub_y (a b : Vec4) : (a - b).y = a.y - b.y := rfl
@[simp] theorem sub_z (a b : Vec4) : (a - b).z = a.z - b.z := rfl
@[simp] theorem neg_t (a : Vec4) : (-a).t = -a.t := rfl
@[simp] theorem neg_x (a : Vec4) : (-a).x = -a.x := rfl
@[simp] theorem neg_y (a : Vec4) : (-a).y = -a.y := rfl
@[simp] theorem neg_z (a : Vec4) : (-a).z = -a.z := rfl
@[simp] theorem smul_t (s : ℝ) (a : Vec4) : (s • a).t = a.t * s := rfl
@[simp] theorem smul_x (s : ℝ) (a : Vec4) : (s • a).x = a.x * s := rfl
@[simp] theorem smul_y (s : ℝ) (a : Vec4) : (s • a).y = a.y * s := rfl
@[simp] theorem smul_z (s : ℝ) (a : Vec4) : (s • a).z = a.z * s := rfl
@[simp] theorem div_t (a : Vec4) (s : ℝ) : (a / s).t = a.t / s := rfl
@[simp] theorem div_x (a : Vec4) (s : ℝ) : (a / s).x = a.x / s := rfl
@[simp] theorem div_y (a : Vec4) (s : ℝ) : (a / s).y = a.y / s := rfl
@[simp] theorem div_z (a : Vec4) (s : ℝ) : (a / s).z = a.z / s := rfl

/-- The scaled computation of the norm. -/
theorem norm_eq (a : Vec4) : a.norm = √|a.normSq| := by
  unfold norm
  simp only
  split_ifs with h
  · have ht : |a.t| ≤ 0 := by
      rw [← h]; exact le_trans (le_max_left _ _) (le_trans (le_max_left _ _) (le_max_left _ _))
    have hx : |a.x| ≤ 0 := by
      rw [← h]; exact le_trans (le_max_right _ _) (le_trans (le_max_left _ _) (le_max_left _ _))
    have hy : |a.y| ≤ 0 := by rw [← h]; exact le_trans (le_max_right _ _) (le_max_left _ _)
    have hz : |a.z| ≤ 0 := by rw [← h]; exact le_max_right _ _
    simp [normSq, dot, abs_nonpos_iff.1 ht, abs_nonpos_iff.1 hx, abs_nonpos_iff.1 hy,
      abs_nonpos_iff.1 hz]
  · have hm : 0 < max (max (max |a.t| |a.x|) |a.y|) |a.z| :=
      lt_of_le_of_ne (le_trans (abs_nonneg a.z) (le_max_right _ _)) (Ne.symm h)
    generalize max (max (max |a.t| |a.x|) |a.y|) |a.z| = m at *
    rw [show a.normSq = m ^ 2 * (a.t / m * (a.t / m) - (a.x / m * (a.x / m) + a.y / m * (a.y / m)
        + a.z / m * (a.z / m))) by simp only [normSq, dot]; field_simp; ring,
      abs_mul, abs_of_nonneg (sq_nonneg m), Real.sqrt_mul (sq_nonneg m), Real.sqrt_sq hm.le]

theorem norm_sq (a : Vec4) : a.norm ^ 2 = |a.normSq| := by
  rw [norm_eq, Real.sq_sqrt (abs_nonneg _)]

theorem norm_eq_zero {a : Vec4} : a.norm = 0 ↔ a.normSq = 0 := by
  rw [norm_eq, Real.sqrt_eq_zero (abs_nonneg _), abs_eq_zero]

theorem norm_pos {a : Vec4} (h : a.normSq ≠ 0) : 0 < a.norm := by
  rw [norm_eq]; exact Real.sqrt_pos.2 (abs_pos.2 h)

theorem unit_eq {a : Vec4} (h : a.normSq ≠ 0) : a.unit = a / a.norm := by
  unfold unit; rw [if_neg (fun h' => h (norm_eq_zero.1 h'))]

theorem smul_unit {a : Vec4} (h : a.normSq ≠ 0) : a.norm • a.unit = a := by
  rw [unit_eq h]
  have := (norm_pos h).ne'
  ext <;> simp <;> field_simp

theorem unit_normSq_pos {a : Vec4} (h : 0 < a.normSq) : a.unit.normSq = 1 := by
  have h1 := norm_pos h.ne'
  have h2 := norm_sq a
  rw [abs_of_pos h] at h2
  rw [unit_eq h.ne']
  simp only [normSq, dot, div_t, div_x, div_y, div_z] at *
  field_simp
  linarith

theorem unit_normSq_neg {a : Vec4} (h : a.normSq < 0) : a.unit.normSq = -1 := by
  have h1 := norm_pos h.ne
  have h2 := norm_sq a
  rw [abs_of_neg h] at h2
  rw [unit_eq h.ne]
  simp only [normSq, dot, div_t, div_x, div_y, div_z] at *
  field_simp
  linarith

theorem sign_pos {a : Vec4} (h : 0 < a.normSq) : a.sign = 1 := by
  unfold sign; rw [if_pos h, if_neg h.not_gt]; norm_num

theorem sign_neg {a : Vec4} (h : a.normSq < 0) : a.sign = -1 := by
  unfold sign; rw [if_pos h, if_neg h.not_gt]; norm_num

theorem sign_zero {a : Vec4} (h : a.normSq = 0) : a.sign = 0 := by
  unfold sign; simp [h]

end Vec4
end Sidis
