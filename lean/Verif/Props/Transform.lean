import Verif.Lemmas.Transform

/-!
# C09-C14: vectors and transformations
-/

namespace Sidis.Props

open Sidis.Spec

/-! ### C09 -/

/-- **C09.** `norm()` is the Euclidean length and `norm_sq()` its square. -/
theorem c09_norm (v : Vec3) : v.norm = length v ∧ v.normSq = length v ^ 2 := by
  refine ⟨Vec3.norm_eq v, ?_⟩
  rw [Vec3.normSq_eq, length, Real.sq_sqrt (by positivity)]

/-- **C09.** `unit()` of a non-zero vector has length one and the same direction. -/
theorem c09_unit (v : Vec3) (hv : v ≠ ⟨0, 0, 0⟩) :
    length v.unit = 1 ∧ length v • v.unit = v ∧ 0 < length v := by
  refine ⟨?_, ?_, ?_⟩
  · unfold length; rw [Vec3.unit_sq hv, Real.sqrt_one]
  · rw [← (c09_norm v).1]; exact Vec3.smul_unit v
  · rw [← (c09_norm v).1]; exact Vec3.norm_pos hv

/-- **C09.** `unit()` of the zero vector is the zero vector. -/
theorem c09_unit_zero : (⟨0, 0, 0⟩ : Vec3).unit = ⟨0, 0, 0⟩ := Vec3.unit_zero

/-- **C09.** `par` and `perp` decompose every vector along a non-zero direction. -/
theorem c09_par_perp (a v : Vec3) (hv : v ≠ ⟨0, 0, 0⟩) :
    a.par v + a.perp v = a ∧ (∃ c : ℝ, a.par v = c • v) ∧ eucl (a.perp v) v = 0 := by
  have hn : v.normSq ≠ 0 := fun h => hv (Vec3.normSq_eq_zero.1 h)
  unfold Vec3.par Vec3.perp
  rw [if_neg hn, if_neg hn]
  refine ⟨?_, ⟨a.dot v / v.normSq, ?_⟩, ?_⟩
  · have h := Vec3.normSq_eq v
    ext <;> simp only [Vec3.add_x, Vec3.add_y, Vec3.add_z, Vec3.div_x, Vec3.div_y, Vec3.div_z,
      Vec3.smul_x, Vec3.smul_y, Vec3.smul_z, Vec3.dot, Vec3.cross] <;> field_simp <;> rw [h] <;> ring
  · ext <;> simp <;> ring
  · simp only [eucl, Vec3.cross, Vec3.div_x, Vec3.div_y, Vec3.div_z]
    field_simp
    ring

/-- **C09.** Along the zero direction `par` keeps everything. -/
theorem c09_par_perp_zero (a : Vec3) :
    a.par ⟨0, 0, 0⟩ = a ∧ a.perp ⟨0, 0, 0⟩ = ⟨0, 0, 0⟩ := by
  constructor
  · exact if_pos (Vec3.normSq_eq_zero.2 rfl)
  · exact if_pos (Vec3.normSq_eq_zero.2 rfl)

/-- **C09.** The cross product is orthogonal to both factors and has the length of the area they
span. -/
theorem c09_cross (a b : Vec3) : eucl (a.cross b) a = 0 ∧ eucl (a.cross b) b = 0 ∧
    length (a.cross b) ^ 2 = length a ^ 2 * length b ^ 2 - eucl a b ^ 2 := by
  refine ⟨?_, ?_, ?_⟩
  · simp only [eucl, Vec3.cross]; ring
  · simp only [eucl, Vec3.cross]; ring
  · unfold length
    rw [Real.sq_sqrt (by positivity), Real.sq_sqrt (by positivity), Real.sq_sqrt (by positivity)]
    simp only [eucl, Vec3.cross]; ring

/-- **C09.** The angle between non-zero vectors is in [0, π] and has the right cosine. -/
theorem c09_angle (a b : Vec3) (ha : a ≠ ⟨0, 0, 0⟩) (hb : b ≠ ⟨0, 0, 0⟩) :
    0 ≤ a.angleBetween b ∧ a.angleBetween b ≤ Real.pi ∧
    length a * length b * Real.cos (a.angleBetween b) = eucl a b := by
  refine ⟨Real.arccos_nonneg _, Real.arccos_le_pi _, ?_⟩
  have ua := Vec3.unit_sq ha
  have ub := Vec3.unit_sq hb
  have hs : (a.unit.dot b.unit) ^ 2 ≤ 1 := by
    have : 0 ≤ length (a.unit.cross b.unit) ^ 2 := sq_nonneg _
    rw [(c09_cross _ _).2.2, (c09_unit a ha).1, (c09_unit b hb).1] at this
    have e : eucl a.unit b.unit = a.unit.dot b.unit := rfl
    rw [e] at this; linarith
  have h1 := abs_le.1 ((sq_le_one_iff_abs_le_one _).1 hs)
  unfold Vec3.angleBetween
  rw [Real.cos_arccos h1.1 h1.2]
  have e1 := Vec3.smul_unit a
  have e2 := Vec3.smul_unit b
  rw [← (c09_norm a).1, ← (c09_norm b).1]
  conv_rhs => rw [← e1, ← e2]
  simp only [eucl, Vec3.dot, Vec3.smul_x, Vec3.smul_y, Vec3.smul_z]
  ring

/-- **C09.** For 4-vectors the square of `norm()` is the absolute value of the Minkowski square, and
`sign()` its sign. -/
theorem c09_norm4 (v : Vec4) : 0 ≤ v.norm ∧ v.norm ^ 2 = |mink v v| ∧
    (v.sign : ℝ) * v.norm ^ 2 = mink v v := by
  have e : v.normSq = mink v v := (Transform4.mink_eq v v).symm
  refine ⟨by rw [Vec4.norm_eq]; exact Real.sqrt_nonneg _, by rw [Vec4.norm_sq, e], ?_⟩
  rw [Vec4.norm_sq]
  rcases lt_trichotomy v.normSq 0 with h | h | h
  · rw [Vec4.sign_neg h, abs_of_neg h]; push_cast; linarith
  · rw [Vec4.sign_zero h, h, ← e, h]; simp
  · rw [Vec4.sign_pos h, abs_of_pos h]; push_cast; linarith

/-- **C09.** The unit of a 4-vector that is not light-like. -/
theorem c09_unit4 (v : Vec4) (hv : mink v v ≠ 0) :
    v.norm • v.unit = v ∧ 0 < v.norm ∧ mink v.unit v.unit = v.sign := by
  rw [Transform4.mink_eq] at hv
  refine ⟨Vec4.smul_unit hv, Vec4.norm_pos hv, ?_⟩
  rw [Transform4.mink_eq]
  rcases lt_or_gt_of_ne hv with h | h
  · rw [Vec4.sign_neg h]; push_cast; exact Vec4.unit_normSq_neg h
  · rw [Vec4.sign_pos h]; push_cast; exact Vec4.unit_normSq_pos h

/-- **C09.** `par` and `perp` of 4-vectors, for a direction that is not light-like. -/
theorem c09_par_perp4 (a v : Vec4) (hv : mink v v ≠ 0) :
    a.par v + a.perp v = a ∧ (∃ c : ℝ, a.par v = c • v) ∧ mink (a.perp v) v = 0 := by
  have hn : v.normSq ≠ 0 := by rwa [Transform4.mink_eq] at hv
  refine ⟨?_, ⟨a.dot v / v.normSq, ?_⟩, ?_⟩
  · unfold Vec4.perp; ext <;> simp
  · unfold Vec4.par; rw [if_neg hn]
    ext <;> simp <;> ring
  · rw [Transform4.mink_eq]
    unfold Vec4.perp Vec4.par
    rw [if_neg hn]
    have h : v.normSq = v.t * v.t - v.x * v.x - v.y * v.y - v.z * v.z := rfl
    simp only [Vec4.dot, Vec4.sub_t, Vec4.sub_x, Vec4.sub_y, Vec4.sub_z, Vec4.div_t, Vec4.div_x,
      Vec4.div_y, Vec4.div_z, Vec4.smul_t, Vec4.smul_x, Vec4.smul_y, Vec4.smul_z]
    field_simp
    rw [h]; ring

/-- **C64, what the code does.** The components of the triple product are those of a form that
vanishes on the three factors (lower index), and `cross(a, b) * c` agrees with `cross(a, b, c)`. -/
theorem c64_cross_form (a b c v : Vec4) (hv : v = a ∨ v = b ∨ v = c) :
    (Vec4.cross a b c).t * v.t + (Vec4.cross a b c).x * v.x + (Vec4.cross a b c).y * v.y +
      (Vec4.cross a b c).z * v.z = 0 ∧
    (Transform4.crossOp a b).apply c = Vec4.cross a b c := by
  constructor
  · rcases hv with rfl | rfl | rfl <;> simp only [Vec4.cross] <;> ring
  · ext <;> simp [Transform4.crossOp, Transform4.mk16, Transform4.apply, Vec4.dot, Vec4.cross] <;>
      ring

/-- **C64, not guaranteed.** As a 4-vector the triple product is not orthogonal to its factors. -/
theorem c64_cross_orthogonal_refuted : ∃ a b c : Vec4, mink (Vec4.cross a b c) a ≠ 0 ∧
    (Vec4.cross a b c).dot a ≠ 0 := by
  refine ⟨⟨1, 1, 0, 0⟩, ⟨0, 0, 1, 0⟩, ⟨0, 0, 0, 1⟩, ?_, ?_⟩ <;>
    simp [mink, Vec4.cross, Vec4.dot] <;> norm_num

/-- **C09.** `from_length_and_r`: the momentum is kept, the energy is positive and the mass is `m`
(unless everything is zero, where the code divides by zero). -/
theorem c09_from_r (m : ℝ) (p : Vec3) (h : ¬ (m = 0 ∧ p = ⟨0, 0, 0⟩)) :
    (Vec4.fromLengthAndR m p).r = p ∧ 0 < (Vec4.fromLengthAndR m p).t ∧
    mink (Vec4.fromLengthAndR m p) (Vec4.fromLengthAndR m p) = m ^ 2 := by
  have hm0 : 0 ≤ max (max (max |m| |p.x|) |p.y|) |p.z| :=
    le_trans (abs_nonneg p.z) (le_max_right _ _)
  have hm : 0 < max (max (max |m| |p.x|) |p.y|) |p.z| := by
    refine lt_of_le_of_ne hm0 fun h0 => h ?_
    have a1 : |m| ≤ 0 := by
      rw [h0]; exact le_trans (le_max_left _ _) (le_trans (le_max_left _ _) (le_max_left _ _))
    have a2 : |p.x| ≤ 0 := by
      rw [h0]; exact le_trans (le_max_right _ _) (le_trans (le_max_left _ _) (le_max_left _ _))
    have a3 : |p.y| ≤ 0 := by rw [h0]; exact le_trans (le_max_right _ _) (le_max_left _ _)
    have a4 : |p.z| ≤ 0 := by rw [h0]; exact le_max_right _ _
    exact ⟨abs_nonpos_iff.1 a1, by
      ext
      · exact abs_nonpos_iff.1 a2
      · exact abs_nonpos_iff.1 a3
      · exact abs_nonpos_iff.1 a4⟩
  have key : (Vec4.fromLengthAndR m p).t = √(m ^ 2 + p.x ^ 2 + p.y ^ 2 + p.z ^ 2) := by
    unfold Vec4.fromLengthAndR Vec4.ofVec3
    simp only
    generalize max (max (max |m| |p.x|) |p.y|) |p.z| = k at *
    rw [show m ^ 2 + p.x ^ 2 + p.y ^ 2 + p.z ^ 2 = k ^ 2 * (m / k * (m / k) + p.x / k * (p.x / k)
        + p.y / k * (p.y / k) + p.z / k * (p.z / k)) by field_simp,
      Real.sqrt_mul (sq_nonneg k), Real.sqrt_sq hm.le]
  have hr : (Vec4.fromLengthAndR m p).r = p := rfl
  refine ⟨hr, ?_, ?_⟩
  · rw [key]
    apply Real.sqrt_pos.2
    by_contra hc
    push Not at hc
    apply h
    refine ⟨?_, ?_⟩
    · nlinarith [sq_nonneg m, sq_nonneg p.x, sq_nonneg p.y, sq_nonneg p.z]
    · ext <;> nlinarith [sq_nonneg m, sq_nonneg p.x, sq_nonneg p.y, sq_nonneg p.z]
  · have hx : (Vec4.fromLengthAndR m p).x = p.x := rfl
    have hy : (Vec4.fromLengthAndR m p).y = p.y := rfl
    have hz : (Vec4.fromLengthAndR m p).z = p.z := rfl
    unfold mink
    rw [key, hx, hy, hz, Real.mul_self_sqrt (by positivity)]
    ring

/-- **C09.** `from_length_and_t`: with `|m| ≤ |t|`, `t ≠ 0` and a non-zero direction, the energy is
kept, the momentum points along the direction and the mass is `m`. -/
theorem c09_from_t (m t : ℝ) (d : Vec3) (hmt : |m| ≤ |t|) (ht : t ≠ 0) (hd : d ≠ ⟨0, 0, 0⟩) :
    (Vec4.fromLengthAndT m t d).t = t ∧
    (∃ c : ℝ, 0 ≤ c ∧ (Vec4.fromLengthAndT m t d).r = c • d) ∧
    mink (Vec4.fromLengthAndT m t d) (Vec4.fromLengthAndT m t d) = m ^ 2 := by
  have hmx : max |m| |t| = |t| := max_eq_right hmt
  have htp : 0 < |t| := abs_pos.2 ht
  have h2 : m ^ 2 ≤ t ^ 2 := sq_le_sq.2 hmt
  have hp : |t| * √(t / |t| * (t / |t|) - m / |t| * (m / |t|)) = √(t ^ 2 - m ^ 2) := by
    rw [show t ^ 2 - m ^ 2 = |t| ^ 2 * (t / |t| * (t / |t|) - m / |t| * (m / |t|)) by field_simp,
      Real.sqrt_mul (sq_nonneg _), Real.sqrt_sq htp.le]
  have hv : Vec4.fromLengthAndT m t d = .ofVec3 t (√(t ^ 2 - m ^ 2) • d.unit) := by
    unfold Vec4.fromLengthAndT; simp only [hmx, hp]
  rw [hv]
  refine ⟨rfl, ⟨√(t ^ 2 - m ^ 2) / d.norm, ?_, ?_⟩, ?_⟩
  · exact div_nonneg (Real.sqrt_nonneg _) (Vec3.norm_nonneg d)
  · rw [Vec3.unit_eq hd]
    ext <;> simp [Vec4.ofVec3, Vec4.r] <;> ring
  · have hu := Vec3.unit_sq hd
    have hs : √(t ^ 2 - m ^ 2) ^ 2 = t ^ 2 - m ^ 2 := Real.sq_sqrt (by linarith)
    simp only [mink, Vec4.ofVec3, Vec3.smul_x, Vec3.smul_y, Vec3.smul_z]
    linear_combination (-√(t ^ 2 - m ^ 2) ^ 2) * hu - hs

-- the hypotheses of C09 are met by ordinary vectors
example : (⟨3, 0, -4⟩ : Vec3) ≠ ⟨0, 0, 0⟩ ∧ length ⟨3, 0, -4⟩ = 5 := by
  refine ⟨by intro h; simpa using congrArg Vec3.x h, ?_⟩
  unfold length
  rw [show ((3 : ℝ) ^ 2 + 0 ^ 2 + (-4) ^ 2) = 5 ^ 2 by norm_num]
  exact Real.sqrt_sq (by norm_num)

example : mink ⟨5, 3, 0, 0⟩ ⟨5, 3, 0, 0⟩ ≠ 0 := by simp [mink]; norm_num

/-! ### C10 -/

/-- **C10.** A rotation about a non-zero axis is a proper rotation, fixes the axis, and has the
trace of a rotation by the angle; its transpose is its inverse. -/
theorem c10_rotate (d : Vec3) (θ : ℝ) (hd : d ≠ ⟨0, 0, 0⟩) :
    IsRotation (.rotate d θ) ∧ (Transform3.rotate d θ).apply d = d ∧
    (Transform3.rotate d θ).trace = 1 + 2 * Real.cos θ ∧
    (Transform3.rotate d θ).transpose.mul (.rotate d θ) = .one ∧
    (Transform3.rotate d θ).mul (Transform3.rotate d θ).transpose = .one := by
  have hu := Vec3.unit_sq hd
  have hcs : Real.cos θ ^ 2 + Real.sin θ ^ 2 = 1 := by
    have := Real.sin_sq_add_cos_sq θ; linarith
  have e : Transform3.rotate d θ = .rod (Real.cos θ) (Real.sin θ) d.unit := rfl
  rw [e]
  refine ⟨Transform3.rod_rotation hu hcs, ?_, Transform3.rod_trace hu _ _,
    Transform3.rod_orth hu hcs, Transform3.rod_orth' hu hcs⟩
  have h1 := Transform3.apply_smul (.rod (Real.cos θ) (Real.sin θ) d.unit) d.norm d.unit
  rw [Transform3.rod_axis hu, Vec3.smul_unit] at h1
  exact h1

/-- **C10.** A vector orthogonal to the axis is turned by the angle, in the right-handed sense. -/
theorem c10_rotate_angle (d v : Vec3) (θ : ℝ) (hd : d ≠ ⟨0, 0, 0⟩) (h : eucl d v = 0) :
    length d • (Transform3.rotate d θ).apply v =
      (length d * Real.cos θ) • v + Real.sin θ • d.cross v := by
  have e : Transform3.rotate d θ = .rod (Real.cos θ) (Real.sin θ) d.unit := rfl
  have hn := Vec3.norm_pos hd
  have h' : eucl d.unit v = 0 := by
    rw [Vec3.unit_eq hd]
    have : eucl (d / d.norm) v = eucl d v / d.norm := by simp [eucl]; ring
    rw [this, h, zero_div]
  rw [e, Transform3.rod_perp h', ← (c09_norm d).1, Vec3.unit_eq hd]
  ext <;> simp [Vec3.cross] <;> field_simp

/-- **C10.** Rotations about one axis compose by adding the angles. -/
theorem c10_rotate_add (d : Vec3) (θ φ : ℝ) (hd : d ≠ ⟨0, 0, 0⟩) :
    (Transform3.rotate d θ).mul (.rotate d φ) = .rotate d (θ + φ) := by
  have e : ∀ θ, Transform3.rotate d θ = .rod (Real.cos θ) (Real.sin θ) d.unit := fun _ => rfl
  rw [e, e, e, Transform3.rod_mul (Vec3.unit_sq hd), Real.cos_add, Real.sin_add]

/-- **C10.** The frame built from a z axis and an upward direction is a rotation that takes the z
axis to the third axis and keeps the upward direction in the second-third plane. -/
theorem c10_rotate_basis (z y : Vec3) (h : y.cross z ≠ ⟨0, 0, 0⟩) :
    IsRotation (.rotateBasis z y) ∧ (Transform3.rotateBasis z y).apply z = ⟨0, 0, length z⟩ ∧
    ((Transform3.rotateBasis z y).apply y).x = 0 ∧ 0 < ((Transform3.rotateBasis z y).apply y).y := by
  have hz : z ≠ ⟨0, 0, 0⟩ := by
    rintro rfl; apply h; ext <;> simp [Vec3.cross]
  have uz := Vec3.unit_sq hz
  have ux := Vec3.unit_sq h
  have nz := Vec3.norm_pos hz
  have nx := Vec3.norm_pos h
  set a := z.unit with ha
  set b := (y.cross z).unit with hb
  have hab : eucl b a = 0 := by
    rw [hb, ha, Vec3.unit_eq h, Vec3.unit_eq hz]
    simp only [eucl, Vec3.cross, Vec3.div_x, Vec3.div_y, Vec3.div_z]
    field_simp; ring
  have hlen : (a.cross b).x ^ 2 + (a.cross b).y ^ 2 + (a.cross b).z ^ 2 = 1 := by
    simp only [eucl] at hab
    simp only [Vec3.cross]
    linear_combination (b.x ^ 2 + b.y ^ 2 + b.z ^ 2) * uz + ux -
      (b.x * a.x + b.y * a.y + b.z * a.z) * hab
  have hunit : (a.cross b).unit = a.cross b := Vec3.unit_of_sq hlen
  have e : Transform3.rotateBasis z y = ⟨b, a.cross b, a⟩ := by
    unfold Transform3.rotateBasis; simp only [← ha, ← hb, hunit]
  rw [e]
  have ez : z = z.norm • a := (Vec3.smul_unit z).symm
  have ey : y.cross z = (y.cross z).norm • b := (Vec3.smul_unit _).symm
  refine ⟨⟨?_, ?_⟩, ?_, ?_, ?_⟩
  · apply Transform3.orthogonal_of
    have key : (⟨b, a.cross b, a⟩ : Transform3).mul (⟨b, a.cross b, a⟩ : Transform3).transpose =
        .one := by
      simp only [eucl] at hab
      ext <;> simp only [Transform3.mul, Transform3.transpose, Transform3.one, Transform3.mk9, Vec3.dot]
      · linarith
      · simp only [Vec3.cross]; ring
      · linarith
      · simp only [Vec3.cross]; ring
      · linarith
      · simp only [Vec3.cross]; ring
      · linarith
      · simp only [Vec3.cross]; ring
      · linarith
    have k2 := congrArg mat3 key
    rw [Transform3.mat3_mul, Transform3.mat3_one] at k2
    apply Transform3.mat3_inj
    rw [Transform3.mat3_mul, Transform3.mat3_one]
    exact mul_eq_one_comm.1 k2
  · rw [← Transform3.det_eq]
    simp only [eucl] at hab
    simp only [Transform3.det, Vec3.cross]
    linear_combination (b.x ^ 2 + b.y ^ 2 + b.z ^ 2) * uz + ux -
      (b.x * a.x + b.y * a.y + b.z * a.z) * hab
  · rw [← (c09_norm z).1]
    simp only [eucl] at hab
    ext
    · simp only [Transform3.apply, Vec3.dot]
      rw [ez]; simp only [Vec3.smul_x, Vec3.smul_y, Vec3.smul_z]
      linear_combination z.norm * hab
    · simp only [Transform3.apply, Vec3.dot]
      rw [ez]; simp only [Vec3.smul_x, Vec3.smul_y, Vec3.smul_z, Vec3.cross]
      ring
    · simp only [Transform3.apply, Vec3.dot]
      conv_lhs => rw [ez]
      simp only [Vec3.smul_x, Vec3.smul_y, Vec3.smul_z]
      linear_combination z.norm * uz
  · simp only [Transform3.apply, Vec3.dot]
    have : b.x * y.x + b.y * y.y + b.z * y.z = 0 := by
      rw [hb, Vec3.unit_eq h]
      simp only [Vec3.cross, Vec3.div_x, Vec3.div_y, Vec3.div_z]
      field_simp; ring
    exact this
  · simp only [Transform3.apply, Vec3.dot]
    -- (a × b)·y = (y × a)·b = |y × z| / |z|
    have e1 : (a.cross b).x * y.x + (a.cross b).y * y.y + (a.cross b).z * y.z =
        (y.cross z).norm / z.norm := by
      have hbx := congrArg Vec3.x ey
      have hby := congrArg Vec3.y ey
      have hbz := congrArg Vec3.z ey
      simp only [Vec3.smul_x, Vec3.smul_y, Vec3.smul_z] at hbx hby hbz
      have hza : a = z / z.norm := Vec3.unit_eq hz
      have : (a.cross b).x * y.x + (a.cross b).y * y.y + (a.cross b).z * y.z =
          ((y.cross z).x * b.x + (y.cross z).y * b.y + (y.cross z).z * b.z) / z.norm := by
        rw [hza]; simp only [Vec3.cross, Vec3.div_x, Vec3.div_y, Vec3.div_z]; field_simp; ring
      rw [this, hbx, hby, hbz]
      congr 1
      linear_combination (y.cross z).norm * ux
    rw [e1]; positivity

/-- **C10.** `project` and `scale` along a non-zero direction. -/
theorem c10_project_scale (d v : Vec3) (s : ℝ) (hd : d ≠ ⟨0, 0, 0⟩) :
    (Transform3.project d).apply v = v.par d ∧
    (Transform3.scale d s).apply v = v.perp d + s • v.par d := by
  have hn : d.normSq ≠ 0 := fun h => hd (Vec3.normSq_eq_zero.1 h)
  have hpp := (c09_par_perp v d hd).1
  have h1 : (Transform3.project d).apply v = v.par d := by
    unfold Transform3.project Vec3.par
    rw [if_neg hn]
    ext <;> simp [Transform3.apply, Transform3.outer, Vec3.dot] <;> ring
  refine ⟨h1, ?_⟩
  have h2 : (Transform3.scale d s).apply v = v + (s - 1) • v.par d := by
    rw [← h1]
    have hnn : d.normSq = d.norm ^ 2 := by rw [Vec3.normSq_eq, Vec3.norm_sq]
    have := (Vec3.norm_pos hd).ne'
    unfold Transform3.scale Transform3.project
    rw [Vec3.unit_eq hd, hnn]
    ext <;> simp [Transform3.apply, Transform3.outer, Transform3.one, Transform3.mk9, Vec3.dot] <;>
      field_simp <;> ring
  rw [h2]
  conv_lhs => rw [← hpp]
  have hx := congrArg Vec3.x hpp
  have hy := congrArg Vec3.y hpp
  have hz := congrArg Vec3.z hpp
  simp only [Vec3.add_x, Vec3.add_y, Vec3.add_z] at hx hy hz
  rw [hpp]
  ext
  · simp only [Vec3.add_x, Vec3.smul_x]; linear_combination -hx
  · simp only [Vec3.add_y, Vec3.smul_y]; linear_combination -hy
  · simp only [Vec3.add_z, Vec3.smul_z]; linear_combination -hz

/-- **C10.** Transforming a tensor transforms its factors; a rotated cross-product operator is the
operator of the rotated vector. -/
theorem c10_conj (a : Transform3) (v w : Vec3) :
    a.conj (.outer v w) = .outer (a.apply v) (a.apply w) ∧
    (Transform3.crossOp v).apply w = v.cross w := by
  constructor
  · ext <;> simp [Transform3.conj, Transform3.mul, Transform3.transpose, Transform3.outer,
      Transform3.apply, Vec3.dot] <;> ring
  · ext <;> simp [Transform3.crossOp, Transform3.mk9, Transform3.apply, Vec3.dot, Vec3.cross] <;> ring

/-- **C10.** A boost along a non-zero direction is a proper orthochronous Lorentz transformation,
takes the rest frame to the given rapidity along the direction, and is inverted by its transpose. -/
theorem c10_boost (d : Vec3) (η : ℝ) (hd : d ≠ ⟨0, 0, 0⟩) :
    IsProperLorentz (.boost d η) ∧
    length d • (Transform4.boost d η).apply ⟨1, 0, 0, 0⟩ =
      .ofVec3 (length d * Real.cosh η) (Real.sinh η • d) ∧
    (Transform4.boost d η).transpose.mul (.boost d η) = .one ∧
    (Transform4.boost d η).mul (Transform4.boost d η).transpose = .one := by
  have hu := Vec3.unit_sq hd
  have e : ∀ η, Transform4.boost d η = .bst (Real.cosh η) (Real.sinh η) d.unit := fun _ => rfl
  have hl : ∀ η, IsLorentz (.boost d η) := by
    intro η
    rw [e]; exact Transform4.bst_lorentz hu (Real.cosh_sq_sub_sinh_sq η)
  refine ⟨⟨hl η, ?_, ?_⟩, ?_, Transform4.lorentz_transpose_mul (hl η),
    Transform4.lorentz_mul_transpose (hl η)⟩
  · have h2 : Transform4.boost d η = (Transform4.boost d (η / 2)).mul (.boost d (η / 2)) := by
      rw [e, e, Transform4.bst_mul hu]
      congr 1
      · rw [← Real.cosh_add]; congr 1; ring
      · rw [← Real.sinh_add]; congr 1; ring
    rw [h2, Transform4.mat4_mul, Matrix.det_mul, ← sq]
    exact Transform4.lorentz_det (hl _)
  · rw [Transform4.mat4_eq, e]
    simp [Transform4.bst, Transform4.one, Transform4.mk16, Transform4.outer, Vec4.ofVec3, Vec4.et]
    exact Real.cosh_pos η
  · rw [e, ← (c09_norm d).1]
    have hs := Vec3.smul_unit d
    have hx := congrArg Vec3.x hs
    have hy := congrArg Vec3.y hs
    have hz := congrArg Vec3.z hs
    simp only [Vec3.smul_x, Vec3.smul_y, Vec3.smul_z] at hx hy hz
    ext <;> simp [Transform4.bst, Transform4.one, Transform4.mk16, Transform4.outer, Vec4.ofVec3,
      Vec4.et, Transform4.apply, Vec4.dot]
    · ring
    · linear_combination Real.sinh η * hx
    · linear_combination Real.sinh η * hy
    · linear_combination Real.sinh η * hz

/-- **C10.** Boosts along one direction compose by adding the rapidities. -/
theorem c10_boost_add (d : Vec3) (η ζ : ℝ) (hd : d ≠ ⟨0, 0, 0⟩) :
    (Transform4.boost d η).mul (.boost d ζ) = .boost d (η + ζ) := by
  have e : ∀ η, Transform4.boost d η = .bst (Real.cosh η) (Real.sinh η) d.unit := fun _ => rfl
  rw [e, e, e, Transform4.bst_mul (Vec3.unit_sq hd), Real.cosh_add, Real.sinh_add]

/-- **C10.** Rotations act on 4-vectors as proper orthochronous Lorentz transformations that leave
the time component alone. -/
theorem c10_rotate4 (d : Vec3) (θ : ℝ) (hd : d ≠ ⟨0, 0, 0⟩) (v : Vec4) :
    IsProperLorentz (.rotate d θ) ∧ ((Transform4.rotate d θ).apply v).t = v.t ∧
    ((Transform4.rotate d θ).apply v).r = (Transform3.rotate d θ).apply v.r := by
  have e : Transform4.rotate d θ = .ofT3 (.rotate d θ) := rfl
  refine ⟨e ▸ Transform4.ofT3_proper (c10_rotate d θ hd).1, ?_, ?_⟩ <;>
    (rw [e, Transform4.ofT3_apply]; rfl)

/-! ### C11, C12 -/

/-- **C11.** `transform_to` between two time-like or two space-like vectors the sum of whose
units is not light-like (in particular they are not opposite) is a Lorentz transformation of determinant one taking the direction of the first to the
direction of the second. -/
theorem c11_transform_to (a b : Vec4) (h : 0 < mink a a * mink b b)
    (hopp' : mink (a.unit + b.unit) (a.unit + b.unit) ≠ 0) :
    ∃ L, Transform4.transformTo a b = some L ∧ L.apply a.unit = b.unit ∧ IsLorentz L ∧
      (mat4 L).det = 1 := by
  have ha : mink a a ≠ 0 := by rintro h'; rw [h', zero_mul] at h; exact lt_irrefl _ h
  have hb : mink b b ≠ 0 := by rintro h'; rw [h', mul_zero] at h; exact lt_irrefl _ h
  have hua := (c09_unit4 a ha).2.2
  have hub := (c09_unit4 b hb).2.2
  have hss : a.sign = b.sign ∧ (a.sign = 1 ∨ a.sign = -1) := by
    rw [Transform4.mink_eq, Transform4.mink_eq] at h
    change 0 < a.normSq * b.normSq at h
    rcases pos_and_pos_or_neg_and_neg_of_mul_pos h with ⟨h1, h2⟩ | ⟨h1, h2⟩
    · rw [Vec4.sign_pos h1, Vec4.sign_pos h2]; simp
    · rw [Vec4.sign_neg h1, Vec4.sign_neg h2]; simp
  have hsa : a.unit.sign = a.sign := by
    rw [Transform4.mink_eq] at hua
    change a.unit.normSq = _ at hua
    rcases hss.2 with h1 | h1
    · rw [h1] at hua ⊢; exact Vec4.sign_pos (by rw [hua]; norm_num)
    · rw [h1] at hua ⊢; exact Vec4.sign_neg (by rw [hua]; norm_num)
  have hsb : b.unit.sign = a.sign := by
    rw [Transform4.mink_eq, ← hss.1] at hub
    change b.unit.normSq = _ at hub
    rcases hss.2 with h1 | h1
    · rw [h1] at hub ⊢; exact Vec4.sign_pos (by rw [hub]; norm_num)
    · rw [h1] at hub ⊢; exact Vec4.sign_neg (by rw [hub]; norm_num)
  rw [← hss.1] at hub
  have hs2 : (a.sign : ℝ) ^ 2 = 1 := by rcases hss.2 with h1 | h1 <;> rw [h1] <;> norm_num
  unfold Transform4.transformTo
  simp only [hsa, hsb]
  rw [if_neg (by rcases hss.2 with h1 | h1 <;> rw [h1] <;> norm_num)]
  have hopp : (a.sign : ℝ) + mink a.unit b.unit ≠ 0 := by
    intro h0; apply hopp'
    have : mink (a.unit + b.unit) (a.unit + b.unit) =
        mink a.unit a.unit + 2 * mink a.unit b.unit + mink b.unit b.unit := by
      simp [mink]; ring
    rw [this, hua, hub]; linarith
  clear hopp'
  rw [Transform4.mink_eq] at hua hub hopp
  generalize (a.sign : ℝ) = s at *
  generalize a.unit = o at *
  generalize b.unit = n at *
  set c := o.dot n with hc
  set k := s + c with hk
  have hno : n.dot o = c := by rw [hc]; exact Transform4.dot_comm n o
  refine ⟨_, rfl, ?_, ?_, ?_⟩
  · rw [Transform4.trans_apply, hua, hno]
    have e1 : (s + c) / k = 1 := div_self hopp
    have e2 : (c - s - 2 * s * c * s) / k = -1 := by
      rw [div_eq_iff hopp, hk]; linear_combination (-2 * c) * hs2
    rw [e1, e2]
    ext <;> simp
  · intro v w
    rw [Transform4.mink_eq, Transform4.mink_eq, Transform4.trans_apply, Transform4.trans_apply,
      Transform4.dot_sub_smul, Transform4.dot_comm _ w, Transform4.dot_comm _ o,
      Transform4.dot_comm _ n, Transform4.dot_sub_smul, Transform4.dot_sub_smul,
      Transform4.dot_sub_smul, hua, hub, hno, ← hc, Transform4.dot_comm w v,
      Transform4.dot_comm w o, Transform4.dot_comm w n]
    generalize o.dot v = α
    generalize n.dot v = β
    generalize o.dot w = α'
    generalize n.dot w = β'
    field_simp
    rw [hk]
    linear_combination (4 * α * α' * c * (s * c + 1)) * hs2
  · have e : Transform4.one - (Transform4.outer o o + Transform4.outer n n +
        (Transform4.outer o n - Transform4.outer n o) - (2 * s * c) • Transform4.outer n o) / k =
        (Transform4.refl (1 / k) (n + o)).mul (Transform4.refl (2 * s) o) := by
      apply Transform4.ext_apply
      intro v
      rw [Transform4.trans_apply, Transform4.apply_mul, Transform4.refl_apply,
        Transform4.refl_apply]
      have hd : (n + o).dot (v - (2 * s * o.dot v) • o) =
          n.dot v + o.dot v - 2 * s * o.dot v * k := by
        have : (n + o).dot (v - (2 * s * o.dot v) • o) =
            n.dot v + o.dot v - 2 * s * o.dot v * (n.dot o + o.dot o) := by
          simp [Vec4.dot]; ring
        rw [this, hno, hua, hk]; ring
      rw [hd]
      generalize o.dot v = α
      generalize n.dot v = β
      have h1 : (β - α - 2 * s * c * α) / k = (α + β) / k - 2 * s * α := by
        field_simp; rw [hk]; linear_combination (2 * α) * hs2
      have h2 : 1 / k * (β + α - 2 * s * α * k) = (α + β) / k - 2 * s * α := by
        field_simp; ring
      rw [h1, h2]
      ext <;> simp <;> ring
    rw [e, Transform4.mat4_mul, Matrix.det_mul, ← Transform4.det_eq, ← Transform4.det_eq,
      Transform4.refl_det, Transform4.refl_det, Transform4.mink_eq, Transform4.mink_eq, hua]
    have hd : (n + o).dot (n + o) = 2 * k := by
      have : (n + o).dot (n + o) = n.dot n + 2 * o.dot n + o.dot o := by simp [Vec4.dot]; ring
      rw [this, hua, hub, ← hc, hk]; ring
    rw [hd]
    field_simp
    linear_combination 2 * hs2

/-- **C11.** There is no Lorentz transformation between a time-like and a space-like vector, and
`transform_to` does not pretend otherwise. -/
theorem c11_transform_to_none (a b : Vec4) (h : mink a a * mink b b < 0) :
    Transform4.transformTo a b = none := by
  have ha : mink a a ≠ 0 := by rintro h'; rw [h', zero_mul] at h; exact lt_irrefl _ h
  have hb : mink b b ≠ 0 := by rintro h'; rw [h', mul_zero] at h; exact lt_irrefl _ h
  have hua := (c09_unit4 a ha).2.2
  have hub := (c09_unit4 b hb).2.2
  have e : ∀ u : Vec4, mink u u = u.normSq := fun u => Transform4.mink_eq u u
  rw [e] at hua hub
  have hne : a.unit.sign ≠ b.unit.sign := by
    rw [e, e] at h
    rcases mul_neg_iff.1 h with ⟨h1, h2⟩ | ⟨h1, h2⟩
    · rw [Vec4.sign_pos h1] at hua
      rw [Vec4.sign_neg h2] at hub
      rw [Vec4.sign_pos (by rw [hua]; norm_num), Vec4.sign_neg (by rw [hub]; norm_num)]
      decide
    · rw [Vec4.sign_neg h1] at hua
      rw [Vec4.sign_pos h2] at hub
      rw [Vec4.sign_neg (by rw [hua]; norm_num), Vec4.sign_pos (by rw [hub]; norm_num)]
      decide
  unfold Transform4.transformTo
  exact if_pos (Or.inl hne)

example : mink ⟨2, 1, 0, 0⟩ ⟨2, 1, 0, 0⟩ * mink ⟨0, 0, 1, 0⟩ ⟨0, 0, 1, 0⟩ < 0 := by norm_num [mink]

/-- **C11.** Between two future-pointing time-like vectors `transform_to` is always defined, and is a
proper orthochronous Lorentz transformation taking the direction of one to that of the other. -/
theorem c11_transform_to_future (a b : Vec4) (ha : 0 < mink a a) (hb : 0 < mink b b)
    (hat : 0 < a.t) (hbt : 0 < b.t) :
    ∃ L, Transform4.transformTo a b = some L ∧ L.apply a.unit = b.unit ∧ IsProperLorentz L := by
  obtain ⟨hpa, hea, hqa⟩ := c09_unit4 a ha.ne'
  obtain ⟨hpb, heb, hqb⟩ := c09_unit4 b hb.ne'
  have hso : a.unit.sign = 1 := by
    rw [Transform4.mink_eq, Vec4.sign_pos (by rw [Transform4.mink_eq] at ha; exact ha)] at hqa
    exact Vec4.sign_pos (by unfold Vec4.normSq; rw [hqa]; norm_num)
  have hsn : b.unit.sign = 1 := by
    rw [Transform4.mink_eq, Vec4.sign_pos (by rw [Transform4.mink_eq] at hb; exact hb)] at hqb
    exact Vec4.sign_pos (by unfold Vec4.normSq; rw [hqb]; norm_num)
  rw [Vec4.sign_pos (by rw [Transform4.mink_eq] at ha; exact ha)] at hqa
  rw [Vec4.sign_pos (by rw [Transform4.mink_eq] at hb; exact hb)] at hqb
  have hot : 0 < a.unit.t := by
    have : a.unit.t * a.norm = a.t := congrArg Vec4.t hpa
    by_contra h; push Not at h; nlinarith
  have hnt : 0 < b.unit.t := by
    have : b.unit.t * b.norm = b.t := congrArg Vec4.t hpb
    by_contra h; push Not at h; nlinarith
  have key := c11_transform_to a b (mul_pos ha hb)
  have hform : ∀ L, Transform4.transformTo a b = some L → L = Transform4.one -
      (Transform4.outer a.unit a.unit + Transform4.outer b.unit b.unit +
        (Transform4.outer a.unit b.unit - Transform4.outer b.unit a.unit) -
        (2 * 1 * a.unit.dot b.unit) • Transform4.outer b.unit a.unit) / (1 + a.unit.dot b.unit) := by
    intro L hL
    unfold Transform4.transformTo at hL
    simp only [hso, hsn] at hL
    rw [if_neg (by norm_num)] at hL
    have h' := (Option.some.inj hL).symm
    push_cast at h'
    exact h'
  generalize a.unit = o at *
  generalize b.unit = n at *
  have ho2 : o.t ^ 2 = 1 + (o.x ^ 2 + o.y ^ 2 + o.z ^ 2) := by
    simp only [mink] at hqa; push_cast at hqa; linarith
  have hn2 : n.t ^ 2 = 1 + (n.x ^ 2 + n.y ^ 2 + n.z ^ 2) := by
    simp only [mink] at hqb; push_cast at hqb; linarith
  have hcs : o.x * n.x + o.y * n.y + o.z * n.z ≤
      √(o.x ^ 2 + o.y ^ 2 + o.z ^ 2) * √(n.x ^ 2 + n.y ^ 2 + n.z ^ 2) := by
    rw [← Real.sqrt_mul (by positivity)]
    apply Real.le_sqrt_of_sq_le
    nlinarith [sq_nonneg (o.x * n.y - o.y * n.x), sq_nonneg (o.x * n.z - o.z * n.x),
      sq_nonneg (o.y * n.z - o.z * n.y)]
  have hp2 := Real.sq_sqrt (show 0 ≤ o.x ^ 2 + o.y ^ 2 + o.z ^ 2 by positivity)
  have hq2 := Real.sq_sqrt (show 0 ≤ n.x ^ 2 + n.y ^ 2 + n.z ^ 2 by positivity)
  have hp := Real.sqrt_nonneg (o.x ^ 2 + o.y ^ 2 + o.z ^ 2)
  have hq := Real.sqrt_nonneg (n.x ^ 2 + n.y ^ 2 + n.z ^ 2)
  rw [← hp2] at ho2
  rw [← hq2] at hn2
  have hcd : o.dot n = o.t * n.t - (o.x * n.x + o.y * n.y + o.z * n.z) := by simp [Vec4.dot]; ring
  generalize √(o.x ^ 2 + o.y ^ 2 + o.z ^ 2) = p at *
  generalize √(n.x ^ 2 + n.y ^ 2 + n.z ^ 2) = q at *
  have hpo : p < o.t := by nlinarith
  have hqn : q < n.t := by nlinarith
  have hd : 0 < o.t * n.t - p * q := by nlinarith
  have hc : o.t * n.t - p * q ≤ o.dot n := by rw [hcd]; linarith
  obtain ⟨L, hL, hLo, hLL, hLd⟩ := key (by
    have : mink (o + n) (o + n) = mink o o + mink n n + 2 * o.dot n := by
      simp [mink, Vec4.dot]; ring
    rw [this, hqa, hqb]; push_cast; linarith)
  refine ⟨L, hL, hLo, hLL, hLd, ?_⟩
  have e : mat4 L 0 0 = (L.apply ⟨1, 0, 0, 0⟩).t := rfl
  rw [e, hform L hL, Transform4.trans_apply]
  have hk : 0 < 1 + o.dot n := by linarith
  generalize o.dot n = c at *
  have : (⟨1, 0, 0, 0⟩ - ((o.dot ⟨1, 0, 0, 0⟩ + n.dot ⟨1, 0, 0, 0⟩) / (1 + c)) • o -
      ((n.dot ⟨1, 0, 0, 0⟩ - o.dot ⟨1, 0, 0, 0⟩ - 2 * 1 * c * o.dot ⟨1, 0, 0, 0⟩) / (1 + c)) • n
      : Vec4).t = (1 + c - o.t ^ 2 - n.t ^ 2 + 2 * c * n.t * o.t) / (1 + c) := by
    simp [Vec4.dot]; field_simp; ring
  rw [this]
  apply div_pos _ hk
  have h3 : 0 ≤ (c - (o.t * n.t - p * q)) * (2 * (n.t * o.t)) :=
    mul_nonneg (by linarith) (by positivity)
  have h4 : 0 < (o.t * n.t - p * q) ^ 2 := by positivity
  have h5 : 2 * (o.t * n.t - p * q) * (n.t * o.t) - o.t ^ 2 - n.t ^ 2 + 1 =
      (o.t * n.t - p * q) ^ 2 := by
    linear_combination (-1 : ℝ) * ho2 - hn2 + (n.t ^ 2) * ho2 + (1 + p ^ 2) * hn2
  nlinarith

/-- **C11.** `rotate_to` between two directions that are not opposite is a rotation taking the
first direction to the second. -/
theorem c11_rotate_to (a b : Vec3) (ha : a ≠ ⟨0, 0, 0⟩) (hb : b ≠ ⟨0, 0, 0⟩)
    (hopp : ∀ k : ℝ, k < 0 → b ≠ k • a) :
    IsRotation (.rotateTo a b) ∧ (Transform3.rotateTo a b).apply a.unit = b.unit := by
  have hua := Vec3.unit_sq ha
  have hub := Vec3.unit_sq hb
  have hsa := Vec3.smul_unit a
  have hsb := Vec3.smul_unit b
  have hna := Vec3.norm_pos ha
  have hnb := Vec3.norm_pos hb
  have hc : a.unit.dot b.unit ≠ -1 := by
    intro h
    simp only [Vec3.dot] at h
    have hx : a.unit.x + b.unit.x = 0 := by
      nlinarith [sq_nonneg (a.unit.x + b.unit.x), sq_nonneg (a.unit.y + b.unit.y),
        sq_nonneg (a.unit.z + b.unit.z)]
    have hy : a.unit.y + b.unit.y = 0 := by
      nlinarith [sq_nonneg (a.unit.x + b.unit.x), sq_nonneg (a.unit.y + b.unit.y),
        sq_nonneg (a.unit.z + b.unit.z)]
    have hz : a.unit.z + b.unit.z = 0 := by
      nlinarith [sq_nonneg (a.unit.x + b.unit.x), sq_nonneg (a.unit.y + b.unit.y),
        sq_nonneg (a.unit.z + b.unit.z)]
    apply hopp (-(b.norm / a.norm)) (by have := div_pos hnb hna; linarith)
    have e : b.unit = (-1 : ℝ) • a.unit := by ext <;> simp <;> linarith
    have hb' : b = b.norm • (-1 : ℝ) • a.unit := by rw [← e, hsb]
    have ha' : ∀ r : ℝ, r • a = r • a.norm • a.unit := by intro r; rw [hsa]
    rw [ha']
    refine hb'.trans ?_
    ext <;> simp <;> field_simp
  unfold Transform3.rotateTo
  simp only
  generalize a.unit = o at *
  generalize b.unit = n at *
  have hlag : (o.dot n) ^ 2 + (o.cross n).norm ^ 2 = 1 := by
    rw [Vec3.norm_sq]
    simp only [Vec3.dot, Vec3.cross]
    linear_combination (n.x ^ 2 + n.y ^ 2 + n.z ^ 2) * hua + hub
  by_cases hw : o.cross n = Vec3.zero
  · have h0 := Vec3.norm_eq_zero.2 hw
    rw [h0] at hlag ⊢
    have hc1 : o.dot n = 1 := by
      have : (o.dot n - 1) * (o.dot n + 1) = 0 := by linear_combination hlag
      rcases mul_eq_zero.1 this with h | h
      · linarith
      · exact absurd (by linarith) hc
    have hon : o = n := by
      simp only [Vec3.dot] at hc1
      ext
      · nlinarith [sq_nonneg (o.x - n.x), sq_nonneg (o.y - n.y), sq_nonneg (o.z - n.z)]
      · nlinarith [sq_nonneg (o.x - n.x), sq_nonneg (o.y - n.y), sq_nonneg (o.z - n.z)]
      · nlinarith [sq_nonneg (o.x - n.x), sq_nonneg (o.y - n.y), sq_nonneg (o.z - n.z)]
    rw [hc1, sub_self]
    have e : ∀ u : Vec3, (1 : ℝ) • Transform3.one + (0 : ℝ) • Transform3.crossOp u +
        (0 : ℝ) • Transform3.outer u u = Transform3.one := by
      intro u; ext <;> simp
    rw [e, ← hon]
    refine ⟨⟨fun v w => by rw [Transform3.apply_one, Transform3.apply_one], ?_⟩,
      Transform3.apply_one _⟩
    rw [Transform3.mat3_one, Matrix.det_one]
  · have hu := Vec3.unit_sq hw
    have hwn := Vec3.smul_unit (o.cross n)
    refine ⟨Transform3.rod_rotation hu hlag, ?_⟩
    have hp : eucl (o.cross n).unit o = 0 := by
      have h0 : eucl (o.cross n) o = 0 := by simp only [eucl, Vec3.cross]; ring
      rw [← hwn] at h0
      have h1 : (o.cross n).norm * eucl (o.cross n).unit o = 0 := by
        rw [← h0]; simp only [eucl, Vec3.smul_x, Vec3.smul_y, Vec3.smul_z]; ring
      exact (mul_eq_zero.1 h1).resolve_left (Vec3.norm_pos hw).ne'
    have h1 := Transform3.rod_perp hp (o.dot n) (o.cross n).norm
    unfold Transform3.rod at h1
    rw [h1]
    have h2 : (o.cross n).norm • (o.cross n).unit.cross o = (o.cross n).cross o := by
      conv_rhs => rw [← hwn]
      ext <;> simp [Vec3.cross] <;> ring
    rw [h2]
    ext <;> simp [Vec3.cross, Vec3.dot]
    · linear_combination n.x * hua
    · linear_combination n.y * hua
    · linear_combination n.z * hua

/-- The hypotheses of C11 hold for two moving particles, two crossing directions, and two
perpendicular space-like vectors. -/
example : (0 < mink ⟨2, 1, 0, 0⟩ ⟨2, 1, 0, 0⟩ ∧ 0 < mink ⟨3, 0, 1, 1⟩ ⟨3, 0, 1, 1⟩) ∧
    (∀ k : ℝ, k < 0 → (⟨0, 1, 2⟩ : Vec3) ≠ k • (⟨1, 1, 0⟩ : Vec3)) ∧
    mink (Vec4.ex.unit + Vec4.ey.unit) (Vec4.ex.unit + Vec4.ey.unit) ≠ 0 := by
  refine ⟨by norm_num [mink], fun k _ h => ?_, ?_⟩
  · have h1 := congrArg Vec3.z h
    simp at h1
  · have h1 : Vec4.ex.norm = 1 := by rw [Vec4.norm_eq]; simp [Vec4.ex, Vec4.normSq, Vec4.dot]
    have h2 : Vec4.ey.norm = 1 := by rw [Vec4.norm_eq]; simp [Vec4.ey, Vec4.normSq, Vec4.dot]
    rw [Vec4.unit_eq (by simp [Vec4.ex, Vec4.normSq, Vec4.dot]),
      Vec4.unit_eq (by simp [Vec4.ey, Vec4.normSq, Vec4.dot]), h1, h2]
    norm_num [mink, Vec4.ex, Vec4.ey]

/-- **C12, not guaranteed.** For opposite directions `rotate_to` returns minus the identity, which is
not a rotation, although a rotation taking one to the other exists. -/
theorem c12_rotate_to_refuted (a : Vec3) (k : ℝ) (ha : a ≠ ⟨0, 0, 0⟩) (hk : k < 0) :
    (∀ v, (Transform3.rotateTo a (k • a)).apply v = -v) ∧
    (mat3 (.rotateTo a (k • a))).det = -1 ∧ ¬ IsRotation (.rotateTo a (k • a)) := by
  have hua := Vec3.unit_sq ha
  have hna := Vec3.norm_pos ha
  have hn : (k • a).norm = -k * a.norm := by
    rw [Vec3.norm_eq, Vec3.norm_eq, show (k • a).x ^ 2 + (k • a).y ^ 2 + (k • a).z ^ 2 =
      (-k) ^ 2 * (a.x ^ 2 + a.y ^ 2 + a.z ^ 2) by simp; ring, Real.sqrt_mul (sq_nonneg _),
      Real.sqrt_sq (by linarith)]
  have hka : k • a ≠ Vec3.zero := by
    intro h
    rw [← Vec3.norm_eq_zero, hn] at h
    nlinarith
  have hub : (k • a).unit = -a.unit := by
    have hk0 := hk.ne
    rw [Vec3.unit_eq hka, Vec3.unit_eq ha, hn]
    ext <;> simp <;> field_simp
  have e : Transform3.rotateTo a (k • a) = (-1 : ℝ) • Transform3.one := by
    unfold Transform3.rotateTo
    simp only [hub]
    generalize a.unit = o at *
    have hw : o.cross (-o) = Vec3.zero := by
      ext <;> simp [Vec3.cross, Vec3.zero] <;> ring
    have hc : o.dot (-o) = -1 := by simp [Vec3.dot]; linarith
    rw [hw, hc, Vec3.unit_zero, Vec3.norm_eq_zero.2 rfl]
    ext <;> simp [Transform3.one, Transform3.mk9, Transform3.outer, Vec3.zero]
  have hd : (mat3 (.rotateTo a (k • a))).det = -1 := by
    rw [e, ← Transform3.det_eq]
    simp [Transform3.det, Transform3.one, Transform3.mk9]
  refine ⟨fun v => ?_, hd, fun h => ?_⟩
  · rw [e]; ext <;> simp [Transform3.apply, Transform3.one, Transform3.mk9, Vec3.dot]
  · have := h.2; rw [hd] at this; norm_num at this

/-! ### C13 -/

/-- **C13.** `det` is the determinant of the transformation's matrix; products of transformations are
matrix products; `det` is multiplicative and invariant under `transpose`, and `inv` is a two-sided
inverse whenever `det` is not zero. -/
theorem c13_transform3 (a b : Transform3) :
    a.det = (mat3 a).det ∧ mat3 (a.mul b) = mat3 a * mat3 b ∧ (a.mul b).det = a.det * b.det ∧
    a.transpose.det = a.det ∧ a.trace = (mat3 a).trace ∧
    (a.det ≠ 0 → a.mul a.inv = .one ∧ a.inv.mul a = .one ∧
      (∀ v, a.apply (a.inv.apply v) = v ∧ a.inv.apply (a.apply v) = v)) := by
  refine ⟨Transform3.det_eq a, Transform3.mat3_mul a b, ?_, ?_, ?_, fun h => ?_⟩
  · rw [Transform3.det_eq, Transform3.det_eq, Transform3.det_eq, Transform3.mat3_mul,
      Matrix.det_mul]
  · rw [Transform3.det_eq, Transform3.det_eq, Transform3.mat3_transpose, Matrix.det_transpose]
  · rw [Transform3.mat3_eq, Matrix.trace_fin_three]; simp [Transform3.trace]
  · have h1 : a.mul a.inv = .one := by
      unfold Transform3.inv
      have hd : a.det = a.det := rfl
      conv_rhs at hd => unfold Transform3.det
      generalize a.det = d at *
      ext <;> simp [Transform3.mul, Transform3.transpose, Transform3.one, Transform3.mk9, Vec3.dot] <;>
        field_simp <;> first | (rw [hd]; ring) | ring
    have h2 : a.inv.mul a = .one := by
      unfold Transform3.inv
      have hd : a.det = a.det := rfl
      conv_rhs at hd => unfold Transform3.det
      generalize a.det = d at *
      ext <;> simp [Transform3.mul, Transform3.transpose, Transform3.one, Transform3.mk9, Vec3.dot] <;>
        field_simp <;> first | (rw [hd]; ring) | ring
    exact ⟨h1, h2, fun v => ⟨by rw [← Transform3.apply_mul, h1, Transform3.apply_one],
      by rw [← Transform3.apply_mul, h2, Transform3.apply_one]⟩⟩

@[inherit_doc c13_transform3]
theorem c13_transform4 (a b : Transform4) :
    a.det = (mat4 a).det ∧ mat4 (a.mul b) = mat4 a * mat4 b ∧ (a.mul b).det = a.det * b.det ∧
    a.transpose.det = a.det ∧ a.trace = (mat4 a).trace ∧
    (a.det ≠ 0 → a.mul a.inv = .one ∧ a.inv.mul a = .one ∧
      (∀ v, a.apply (a.inv.apply v) = v ∧ a.inv.apply (a.apply v) = v)) := by
  refine ⟨Transform4.det_eq a, Transform4.mat4_mul a b, ?_, ?_, ?_, fun h => ?_⟩
  · rw [Transform4.det_eq, Transform4.det_eq, Transform4.det_eq, Transform4.mat4_mul,
      Matrix.det_mul]
  · simp only [Transform4.det, Transform4.transpose]; ring
  · rw [Transform4.mat4_eq, Matrix.trace]; simp [Transform4.trace, Fin.sum_univ_four]; ring
  · have h1 : a.mul a.inv = .one := by
      rw [Transform4.inv_eq, Transform4.mul_smul, Transform4.mul_adj, Transform4.smul_smul_one h]
    have h2 : a.inv.mul a = .one := by
      rw [Transform4.inv_eq, Transform4.smul_mul, Transform4.adj_mul, Transform4.smul_smul_one h]
    exact ⟨h1, h2, fun v => ⟨by rw [← Transform4.apply_mul, h1, Transform4.apply_one],
      by rw [← Transform4.apply_mul, h2, Transform4.apply_one]⟩⟩

/-- An invertible transformation that is neither a rotation nor diagonal. -/
example : (Transform3.mk9 1 2 0 0 1 3 4 0 1).det ≠ 0 ∧
    (Transform4.mk16 1 2 0 0 0 1 3 0 0 0 1 4 5 0 0 1).det ≠ 0 := by
  constructor <;> norm_num [Transform3.det, Transform3.mk9, Transform4.det, Transform4.mk16]

/-! ### C14 -/

/-- **C14, not guaranteed.** `sym_prod(v1, v2)` is twice the outer product; it is neither
`v1 v2 + v2 v1` nor symmetric in its arguments unless the two vectors are parallel. -/
theorem c14_sym_prod_refuted (a b : Vec3) :
    (∀ v, (Transform3.symProd a b).apply v = (2 * eucl b v) • a) ∧
    (a.cross b ≠ ⟨0, 0, 0⟩ → Transform3.symProd a b ≠ Transform3.symProd b a ∧
      Transform3.symProd a b ≠ Transform3.outer a b + Transform3.outer b a) := by
  refine ⟨fun v => ?_, fun h => ⟨fun e => h ?_, fun e => h ?_⟩⟩
  · ext <;> simp [Transform3.symProd, Transform3.apply, Transform3.outer, eucl, Vec3.dot] <;> ring
  all_goals
    have e1 := congrArg (fun t : Transform3 => t.x.y) e
    have e2 := congrArg (fun t : Transform3 => t.x.z) e
    have e3 := congrArg (fun t : Transform3 => t.y.z) e
    simp [Transform3.symProd, Transform3.outer] at e1 e2 e3
    ext <;> simp [Vec3.cross] <;> linarith

example : (⟨1, 2, 0⟩ : Vec3).cross ⟨0, 1, 1⟩ ≠ ⟨0, 0, 0⟩ := by
  intro h; have := congrArg Vec3.x h; norm_num [Vec3.cross] at this

@[inherit_doc c14_sym_prod_refuted]
theorem c14_sym_prod4_refuted : ∃ a b : Vec4, Transform4.symProd a b ≠ Transform4.symProd b a ∧
    Transform4.symProd a b ≠ Transform4.outer a b + Transform4.outer b a := by
  refine ⟨⟨1, 0, 0, 0⟩, ⟨0, 1, 0, 0⟩, fun e => ?_, fun e => ?_⟩ <;>
  · have e1 := congrArg (fun t : Transform4 => t.t.x) e
    simp [Transform4.symProd, Transform4.outer] at e1

/-- The antisymmetric product is what it says. -/
theorem c14_asym_prod (a b v : Vec3) (u w x : Vec4) :
    (Transform3.asymProd a b).apply v = eucl b v • a - eucl a v • b ∧
    (Transform4.asymProd u w).apply x = mink w x • u - mink u x • w := by
  constructor
  · ext <;> simp [Transform3.asymProd, Transform3.apply, Transform3.outer, eucl, Vec3.dot] <;> ring
  · ext <;> simp [Transform4.asymProd, Transform4.apply, Transform4.outer, mink, Vec4.dot] <;> ring

end Sidis.Props
