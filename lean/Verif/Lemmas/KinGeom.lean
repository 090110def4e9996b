import Verif.Lemmas.Kinematics
import Verif.Model.Frame

/-! # Momenta in the lepton frame -/

namespace Sidis

open Spec

/-- From lepton frame coordinates to the target frame. -/
noncomputable def lepT (K : Kinematics ℝ) : Transform4 := .ofT3 (Frame.targetFromLepton K)

/-- Longitudinal component of the beam in the lepton frame. -/
noncomputable def k1l (K : Kinematics ℝ) : ℝ :=
  (K.S * K.S_x + 2 * K.M ^ 2 * K.Q_sq) / (2 * K.M * K.lambda_Y_sqrt)

theorem eps_eq (a b c d : Vec4) : eps a b c d =
    -(Matrix.det (Matrix.of ![coords4 a, coords4 b, coords4 c, coords4 d])) := by
  unfold eps coords4
  simp [Matrix.det_succ_row_zero, Fin.sum_univ_succ, Fin.succAbove]
  ring

theorem eps_apply (L : Transform4) (a b c d : Vec4) :
    eps (L.apply a) (L.apply b) (L.apply c) (L.apply d) = (mat4 L).det * eps a b c d := by
  have e : (Matrix.of ![coords4 (L.apply a), coords4 (L.apply b), coords4 (L.apply c),
      coords4 (L.apply d)]) = (Matrix.of ![coords4 a, coords4 b, coords4 c, coords4 d]) *
      (mat4 L).transpose := by
    rw [Transform4.mat4_eq]
    ext i j
    fin_cases i <;> fin_cases j <;>
      simp [coords4, Transform4.apply, Vec4.dot, Matrix.mul_apply, Fin.sum_univ_four] <;> ring
  rw [eps_eq, eps_eq, e, Matrix.det_mul, Matrix.det_transpose]
  ring

/-- Triple product when the second momentum is at rest. -/
theorem eps_rest (a c d : Vec4) (M : ℝ) : eps a ⟨M, 0, 0, 0⟩ c d =
    M * (a.x * (c.y * d.z - c.z * d.y) + a.y * (c.z * d.x - c.x * d.z) +
      a.z * (c.x * d.y - c.y * d.x)) := by
  unfold eps
  simp [Matrix.det_succ_row_zero, Fin.sum_univ_succ, Fin.succAbove]
  ring

namespace KinRel

variable {K : Kinematics ℝ} (h : KinRel K)
include h

theorem lYlS : 4 * K.M ^ 2 * K.lambda_1 + (K.S * K.S_x + 2 * K.M ^ 2 * K.Q_sq) ^ 2 =
    K.lambda_Y * K.lambda_S := by
  rw [h.l1_eq, h.lY_eq, h.lS_eq, h.X_eq]; ring

theorem qn_pos : 0 < K.lambda_Y_sqrt / (2 * K.M) := by
  have := h.lY_pos; have := h.M_pos; positivity

theorem q_len : K.q_t ^ 2 + K.q_l ^ 2 = (K.lambda_Y_sqrt / (2 * K.M)) ^ 2 := by
  have hM := h.M_pos.ne'
  have hS := h.lS_pos.ne'
  have e1 := h.lYlS
  rw [← h.lS_sq, ← h.lY_sq, ← h.l1_sq] at e1
  rw [h.q_t_eq, h.q_l_eq]
  field_simp
  linear_combination e1

theorem q_t_sin : K.sin_phi_q ^ 2 + K.cos_phi_q ^ 2 = 1 := by
  rw [h.cos_q, h.sin_q]; exact Real.sin_sq_add_cos_sq _

theorem len_q : length (momQ K).r = K.lambda_Y_sqrt / (2 * K.M) := by
  have e : (momQ K).r.x ^ 2 + (momQ K).r.y ^ 2 + (momQ K).r.z ^ 2 =
      (K.lambda_Y_sqrt / (2 * K.M)) ^ 2 := by
    simp only [momQ, Vec4.r]
    linear_combination h.q_len + K.q_t ^ 2 * Real.sin_sq_add_cos_sq K.phi_q
  rw [length, e, Real.sqrt_sq h.qn_pos.le]

theorem axisZ_eq : axisZ K = (Frame.leptonFromTarget K).z := by
  unfold axisZ
  rw [h.len_q]
  simp only [Frame.leptonFromTarget, momQ, Vec4.r, h.sin_q, h.cos_q]

theorem axisY_eq : axisY K = (Frame.leptonFromTarget K).y := by
  simp only [Frame.leptonFromTarget, axisY, h.sin_q, h.cos_q]

theorem axisX_eq : axisX K = (Frame.leptonFromTarget K).x := by
  unfold axisX
  rw [h.axisZ_eq, h.axisY_eq]
  have e := h.q_t_sin
  ext <;> simp [Frame.leptonFromTarget, Vec3.cross]
  · ring
  · ring
  · linear_combination (K.q_t * (2 * K.M / K.lambda_Y_sqrt)) * e

theorem lep_orth : (Frame.leptonFromTarget K).mul (Frame.leptonFromTarget K).transpose = .one := by
  have e := h.q_t_sin
  have e2 := h.q_len
  have hn := h.qn_pos.ne'
  have en : (1 / (K.lambda_Y_sqrt / (2 * K.M))) * (K.lambda_Y_sqrt / (2 * K.M)) = 1 :=
    one_div_mul_cancel hn
  have key : (1 / (K.lambda_Y_sqrt / (2 * K.M))) ^ 2 * (K.q_t ^ 2 + K.q_l ^ 2) = 1 := by
    rw [e2, ← mul_pow, en, one_pow]
  ext <;> simp only [Frame.leptonFromTarget, Transform3.mul, Transform3.transpose, Vec3.dot,
    Transform3.one, Transform3.mk9, Vec3.smul_x, Vec3.smul_y, Vec3.smul_z] <;>
    generalize 1 / (K.lambda_Y_sqrt / (2 * K.M)) = w at *
  · linear_combination key + w ^ 2 * K.q_l ^ 2 * e
  · ring
  · linear_combination (-w ^ 2 * K.q_l * K.q_t) * e
  · ring
  · linear_combination e
  · ring
  · linear_combination (-w ^ 2 * K.q_l * K.q_t) * e
  · ring
  · linear_combination key + w ^ 2 * K.q_t ^ 2 * e

theorem lep_det : (Frame.leptonFromTarget K).det = 1 := by
  have e := h.q_t_sin
  have e2 := h.q_len
  have hn := h.qn_pos.ne'
  have en : (1 / (K.lambda_Y_sqrt / (2 * K.M))) * (K.lambda_Y_sqrt / (2 * K.M)) = 1 :=
    one_div_mul_cancel hn
  have key : (1 / (K.lambda_Y_sqrt / (2 * K.M))) ^ 2 * (K.q_t ^ 2 + K.q_l ^ 2) = 1 := by
    rw [e2, ← mul_pow, en, one_pow]
  simp only [Frame.leptonFromTarget, Transform3.det, Vec3.smul_x, Vec3.smul_y, Vec3.smul_z]
  generalize 1 / (K.lambda_Y_sqrt / (2 * K.M)) = w at *
  linear_combination (K.sin_phi_q ^ 2 + K.cos_phi_q ^ 2) * key + e

theorem lep_rotation : IsRotation (Frame.targetFromLepton K) := by
  refine ⟨Transform3.orthogonal_of ?_, ?_⟩
  · exact h.lep_orth
  · rw [Frame.targetFromLepton, Transform3.mat3_transpose, Matrix.det_transpose,
      ← Transform3.det_eq, h.lep_det]

theorem lepT_proper : IsProperLorentz (lepT K) := Transform4.ofT3_proper h.lep_rotation

theorem mink_lep (a b : Vec4) : mink ((lepT K).apply a) ((lepT K).apply b) = mink a b :=
  h.lepT_proper.1 a b

theorem eps_lep (a b c d : Vec4) : eps ((lepT K).apply a) ((lepT K).apply b) ((lepT K).apply c)
    ((lepT K).apply d) = eps a b c d := by
  rw [eps_apply, h.lepT_proper.2.1, one_mul]

theorem momLepton_eq (e pt pl phi : ℝ) : momLepton K e pt pl phi =
    (lepT K).apply ⟨e, pt * Real.cos phi, pt * Real.sin phi, pl⟩ := by
  unfold momLepton lepT
  rw [Transform4.ofT3_apply, h.axisX_eq, h.axisY_eq, h.axisZ_eq, Frame.targetFromLepton]
  ext <;> simp [Transform3.apply, Transform3.transpose, Vec3.dot, Vec4.r, Vec4.ofVec3] <;> ring

theorem momP_eq : momP K = (lepT K).apply ⟨K.M, 0, 0, 0⟩ := by
  unfold momP lepT
  rw [Transform4.ofT3_apply]
  simp [Transform3.apply, Vec3.dot, Vec4.r, Vec4.ofVec3]

theorem momQ_eq : momQ K = (lepT K).apply ⟨K.q_0, 0, 0, K.lambda_Y_sqrt / (2 * K.M)⟩ := by
  have hn := h.qn_pos.ne'
  unfold momQ lepT
  rw [Transform4.ofT3_apply]
  simp only [Transform3.apply, Vec3.dot, Vec4.r, Vec4.ofVec3, Frame.targetFromLepton,
    Transform3.transpose, Frame.leptonFromTarget, h.sin_q, h.cos_q, Vec3.smul_x, Vec3.smul_y,
    Vec3.smul_z]
  ext <;> simp only [mul_zero, zero_add] <;>
    generalize K.lambda_Y_sqrt / (2 * K.M) = n at * <;> field_simp

theorem k1_len : √((K.S / (2 * K.M)) ^ 2 - K.m ^ 2) = K.lambda_S_sqrt / (2 * K.M) := by
  have hM := h.M_pos
  have hS := h.lS_pos
  have e : (K.S / (2 * K.M)) ^ 2 - K.m ^ 2 = (K.lambda_S_sqrt / (2 * K.M)) ^ 2 := by
    have := h.lS_sq
    rw [h.lS_eq] at this
    field_simp
    linear_combination -this
  rw [e, Real.sqrt_sq (by positivity)]

theorem momK1_eq : momK1 K = (lepT K).apply ⟨K.S / (2 * K.M), K.k1_t, 0, k1l K⟩ := by
  have hM := h.M_pos.ne'
  have hS := h.lS_pos.ne'
  have hY := h.lY_pos.ne'
  have e1 := h.lYlS
  rw [← h.lS_sq, ← h.lY_sq, ← h.l1_sq] at e1
  unfold momK1 lepT
  rw [Transform4.ofT3_apply, h.k1_len]
  simp only [Transform3.apply, Vec3.dot, Vec4.r, Vec4.ofVec3, Frame.targetFromLepton,
    Transform3.transpose, Frame.leptonFromTarget, Vec3.smul_x, Vec3.smul_y,
    Vec3.smul_z, k1l, h.q_t_eq, h.q_l_eq, h.k1_t_eq]
  ext
  · rfl
  · field_simp; ring
  · field_simp; ring
  · field_simp; linear_combination -e1

theorem momK2_eq : momK2 K = momK1 K - momQ K := by
  have hM := h.M_pos.ne'
  have hS := h.lS_pos.ne'
  have e := h.lS_sq
  rw [h.lS_eq] at e
  unfold momK2 momK1 momQ
  rw [h.k1_len, ← h.sin_q, ← h.cos_q, h.sin_qp, h.cos_qp, h.sin_p, h.cos_p, h.k2_0_eq, h.q_0_eq,
    h.k2_t_eq, h.q_t_eq, h.k2_l_eq, h.q_l_eq, h.X_eq]
  ext
  · simp; ring
  · simp
  · simp
  · simp; field_simp; linear_combination -e

theorem momH_eq : momH K = (lepT K).apply
    ⟨K.ph_0, K.ph_t * K.cos_phi_h, K.ph_t * K.sin_phi_h, K.ph_l⟩ := by
  rw [momH, h.momLepton_eq, h.cos_h, h.sin_h]

theorem V_1' : K.V_1 = 2 * (K.S / (2 * K.M) * K.ph_0 - (K.k1_t * (K.ph_t * K.cos_phi_h) +
    k1l K * K.ph_l)) := by
  have hM := h.M_pos.ne'
  have hY := h.lY_pos.ne'
  rw [h.V_1_eq, k1l]
  field_simp
  ring

theorem V_2' : K.V_2 = K.V_1 - 2 * K.V_m := by
  have hM := h.M_pos.ne'
  have hY := h.lY_pos.ne'
  have e := h.lY_sq
  rw [h.lY_eq] at e
  rw [h.V_1_eq, h.V_2_eq, h.V_m_eq, h.q_0_eq, h.X_eq]
  field_simp
  linear_combination (-K.ph_l) * e

end KinRel
end Sidis
