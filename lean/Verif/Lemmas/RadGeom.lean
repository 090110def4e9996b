import Verif.Lemmas.KinRad

/-! # Invariants of the radiative process -/

namespace Sidis

open Spec

namespace RadRel

variable {k : KinematicsRad ℝ} (h : RadRel k)
include h

theorem M0 : k.M ≠ 0 := h.kin.M_pos.ne'
theorem Y0 : k.lambda_Y_sqrt ≠ 0 := h.kin.lY_pos.ne'
theorem S0 : k.lambda_S_sqrt ≠ 0 := h.kin.lS_pos.ne'
theorem lY_pos : 0 < k.lambda_Y_sqrt := h.kin.lY_pos
theorem lY : k.lambda_Y_sqrt ^ 2 = k.S_x ^ 2 + 4 * k.M ^ 2 * k.Q_sq := by
  have := h.kin.lY_sq; rw [h.kin.lY_eq] at this; exact this
theorem lY' : k.lambda_Y = k.lambda_Y_sqrt ^ 2 := h.kin.lY_sq.symm
theorem X_eq : k.X = k.S - k.S_x := h.kin.X_eq
theorem Sp_eq : k.S_p = 2 * k.S - k.S_x := h.kin.Sp_eq
theorem ph_0_eq : k.ph_0 = k.z * k.S_x / (2 * k.M) := h.kin.ph_0_eq
theorem V_m_eq : k.V_m = k.S_x / (2 * k.M) * k.ph_0 - k.lambda_Y_sqrt / (2 * k.M) * k.ph_l := by
  have := h.kin.V_m_eq
  rw [h.kin.q_0_eq] at this
  exact this

theorem momK_eq : momK k = (lepT k.project).apply
    ⟨k.k_0, k.k_t * k.cos_phi_k, k.k_t * k.sin_phi_k, k.k_l⟩ := by
  rw [momK, h.kin.momLepton_eq, h.cos_k, h.sin_k]

theorem sck : k.sin_phi_k ^ 2 + k.cos_phi_k ^ 2 = 1 := by
  rw [h.cos_k, h.sin_k]; exact Real.sin_sq_add_cos_sq _

theorem sch : k.sin_phi_h ^ 2 + k.cos_phi_h ^ 2 = 1 := by
  have a : k.cos_phi_h = Real.cos k.phi_h := h.kin.cos_h
  have b : k.sin_phi_h = Real.sin k.phi_h := h.kin.sin_h
  rw [a, b]; exact Real.sin_sq_add_cos_sq _

/-- The photon is light-like. -/
theorem kk : mink (momK k) (momK k) = 0 := by
  have hM := h.M0
  have hY := h.Y0
  rw [h.momK_eq, h.kin.mink_lep]
  have : mink ⟨k.k_0, k.k_t * k.cos_phi_k, k.k_t * k.sin_phi_k, k.k_l⟩
      ⟨k.k_0, k.k_t * k.cos_phi_k, k.k_t * k.sin_phi_k, k.k_l⟩ =
      k.k_0 ^ 2 - k.k_t ^ 2 - k.k_l ^ 2 := by
    simp only [mink]
    linear_combination (-k.k_t ^ 2) * h.sck
  rw [this, h.k_0_eq, h.k_t_eq, h.k_l_eq, h.lRY_eq]
  field_simp
  linear_combination (-k.R ^ 2) * h.T_sq

theorem kp : mink (momK k) (momP k.project) = k.R / 2 := by
  have hM := h.M0
  rw [h.momK_eq, h.kin.momP_eq, h.kin.mink_lep]
  have e : k.project.M = k.M := rfl
  simp only [mink, h.k_0_eq, e]
  field_simp
  ring

theorem kq : mink (momK k) (momQ k.project) = k.R * k.tau / 2 := by
  have hM := h.M0
  have hY := h.Y0
  rw [h.momK_eq, h.kin.momQ_eq, h.kin.mink_lep, h.kin.q_0_eq]
  change k.k_0 * (k.S_x / (2 * k.M)) - (k.k_t * k.cos_phi_k * 0 + k.k_t * k.sin_phi_k * 0 +
    k.k_l * (k.lambda_Y_sqrt / (2 * k.M))) = _
  rw [h.k_0_eq, h.k_l_eq, h.lRY_eq]
  field_simp
  ring

theorem kk1 : mink (momK k) (momK1 k.project) = k.R * k.z_1 / 2 := by
  have hM := h.M0
  have hY := h.Y0
  rw [h.momK_eq, h.kin.momK1_eq, h.kin.mink_lep, h.kin.k1_t_eq, k1l]
  change k.k_0 * (k.S / (2 * k.M)) - (k.k_t * k.cos_phi_k * (k.lambda_1_sqrt / k.lambda_Y_sqrt) +
    k.k_t * k.sin_phi_k * 0 + k.k_l * ((k.S * k.S_x + 2 * k.M ^ 2 * k.Q_sq) /
      (2 * k.M * k.lambda_Y_sqrt))) = _
  rw [h.k_0_eq, h.k_l_eq, h.lRY_eq, h.k_t_eq, h.z_1_eq, h.lY', h.Sp_eq]
  field_simp
  linear_combination (k.R * k.S) * h.lY

theorem z_2' : k.z_2 = k.z_1 - k.tau := by
  have hY := h.Y0
  rw [h.z_1_eq, h.z_2_eq, h.lY', h.X_eq]
  field_simp
  linear_combination (k.tau) * h.lY

theorem kk2 : mink (momK k) (momK2 k.project) = k.R * k.z_2 / 2 := by
  rw [h.kin.momK2_eq, mink_sub_right, h.kk1, h.kq, h.z_2']; ring

theorem kh : mink (momK k) (momH k.project) = k.R * k.mu / 2 := by
  have hM := h.M0
  have hY := h.Y0
  rw [h.momK_eq, h.kin.momH_eq, h.kin.mink_lep]
  change k.k_0 * k.ph_0 - (k.k_t * k.cos_phi_k * (k.ph_t * k.cos_phi_h) +
    k.k_t * k.sin_phi_k * (k.ph_t * k.sin_phi_h) + k.k_l * k.ph_l) = _
  rw [h.k_0_eq, h.k_l_eq, h.lRY_eq, h.k_t_eq, h.mu_eq]
  field_simp
  ring

theorem lRV' : k.lambda_RV = k.z * k.R * k.S_x - 2 * k.M ^ 2 * k.R * k.mu := by
  have hM := h.M0
  have hY := h.Y0
  rw [h.lRV_eq, h.lRY_eq, h.mu_eq, h.ph_0_eq]
  field_simp
  ring

theorem lV' : k.lambda_V = 2 * k.M * k.lambda_Y_sqrt * k.ph_l := by
  have hM := h.M0
  rw [h.lV_eq, h.V_m_eq, h.ph_0_eq]
  field_simp
  ring

/-- The energy of each momentum. -/
theorem k_t' : (momK k).t = k.R / (2 * k.M) := by
  rw [momK, momLepton]; exact h.k_0_eq

/-- Bracket of the triple product of the hadron. -/
theorem brA : k.tau * k.lambda_S + 2 * k.m ^ 2 * k.S_x + k.Q_sq * k.S
      - k.z_1 * (k.S * k.S_x + 2 * k.M ^ 2 * k.Q_sq) =
    (k.lambda_1_sqrt ^ 2 * (4 * k.M ^ 2 * k.tau - 2 * k.S_x) + 2 * k.M *
      (k.S * k.S_x + 2 * k.M ^ 2 * k.Q_sq) * tauRoot k * k.lambda_1_sqrt * k.cos_phi_k) /
      k.lambda_Y_sqrt ^ 2 := by
  have hM := h.M0
  have hY := h.Y0
  have e1 : k.lambda_1_sqrt ^ 2 = k.Q_sq * (k.S * k.X - k.M ^ 2 * k.Q_sq) - k.m ^ 2 * k.lambda_Y :=
    h.kin.l1_sq.trans h.kin.l1_eq
  have eS : k.lambda_S = k.S ^ 2 - 4 * k.M ^ 2 * k.m ^ 2 := h.kin.lS_eq
  rw [e1, h.z_1_eq, h.lY', h.Sp_eq, h.X_eq, eS]
  field_simp
  rw [h.lY]
  ring

theorem brC : 2 * k.m ^ 2 * (4 * k.V_m * k.M ^ 2 - k.z * k.S_x ^ 2)
      + k.S * (k.S * k.V_2 - k.X * k.V_1 - k.z * k.Q_sq * k.S_x) + 2 * k.V_1 * k.M ^ 2 * k.Q_sq =
    (4 * k.M * k.lambda_1_sqrt ^ 2 * k.ph_l - 2 * k.ph_t * k.lambda_1_sqrt * k.cos_phi_h *
      (k.S * k.S_x + 2 * k.M ^ 2 * k.Q_sq)) / k.lambda_Y_sqrt := by
  have hM := h.M0
  have hY := h.Y0
  have e1 : k.lambda_1_sqrt ^ 2 = k.Q_sq * (k.S * k.X - k.M ^ 2 * k.Q_sq) - k.m ^ 2 * k.lambda_Y :=
    h.kin.l1_sq.trans h.kin.l1_eq
  have ev : k.V_2 = k.V_1 - 2 * k.V_m := h.kin.V_2'
  have e2 : k.V_1 = k.ph_0 * k.S / k.M
    - (k.ph_l * (k.S * k.S_x + 2 * k.M ^ 2 * k.Q_sq)) / (k.M * k.lambda_Y_sqrt)
    - 2 * k.ph_t * (k.lambda_1_sqrt / k.lambda_Y_sqrt) * k.cos_phi_h := by
    have := h.kin.V_1_eq
    rw [h.kin.k1_t_eq] at this
    exact this
  rw [ev, e2, h.V_m_eq, h.ph_0_eq, e1, h.lY', h.X_eq]
  field_simp
  linear_combination (2 * k.M * k.ph_l * k.S ^ 2) * h.lY

theorem brD : k.S_x * (k.z * k.Q_sq * k.S_p - k.S * k.V_2 + k.X * k.V_1)
      - 4 * k.V_p * k.M ^ 2 * k.Q_sq =
    2 * k.ph_t * k.lambda_1_sqrt * k.cos_phi_h * k.lambda_Y_sqrt := by
  have hM := h.M0
  have hY := h.Y0
  have ev : k.V_2 = k.V_1 - 2 * k.V_m := h.kin.V_2'
  have ep : k.V_p = 1 / 2 * (k.V_1 + k.V_2) := h.kin.V_p_eq
  have e2 : k.V_1 = k.ph_0 * k.S / k.M
    - (k.ph_l * (k.S * k.S_x + 2 * k.M ^ 2 * k.Q_sq)) / (k.M * k.lambda_Y_sqrt)
    - 2 * k.ph_t * (k.lambda_1_sqrt / k.lambda_Y_sqrt) * k.cos_phi_h := by
    have := h.kin.V_1_eq
    rw [h.kin.k1_t_eq] at this
    exact this
  rw [ep, ev, e2, h.V_m_eq, h.ph_0_eq, h.X_eq, h.Sp_eq]
  field_simp
  linear_combination (-4 * k.S_x * k.S * k.M * k.ph_l - 8 * k.Q_sq * k.M ^ 3 * k.ph_l
    - 8 * k.M ^ 2 * k.ph_t * k.lambda_1_sqrt * k.cos_phi_h) * h.lY

theorem volk : k.R * k.vol_phi_k_R = eps (momK k) (momP k.project) (momK1 k.project)
    (momQ k.project) := by
  have hM := h.M0
  have hY := h.Y0
  rw [h.momK_eq, h.kin.momP_eq, h.kin.momK1_eq, h.kin.momQ_eq, h.kin.eps_lep, eps_rest,
    h.kin.k1_t_eq, h.volk_eq, h.k_t_eq]
  change _ = k.M * (k.M * k.R * tauRoot k / k.lambda_Y_sqrt * k.cos_phi_k *
    (0 * (k.lambda_Y_sqrt / (2 * k.M)) - _ * 0) + k.M * k.R * tauRoot k / k.lambda_Y_sqrt *
      k.sin_phi_k * (_ * 0 - k.lambda_1_sqrt / k.lambda_Y_sqrt * (k.lambda_Y_sqrt / (2 * k.M))) +
      _ * (k.lambda_1_sqrt / k.lambda_Y_sqrt * 0 - 0 * 0))
  field_simp
  ring

theorem vol : k.vol_phi_h = -(1 / 2) * k.ph_t * k.lambda_1_sqrt * k.sin_phi_h := h.kin.vol_eq

theorem volhk : k.vol_phi_hk = eps (momK k) (momP k.project) (momH k.project)
    (momQ k.project) := by
  have hM := h.M0
  have hY := h.Y0
  have h1 := h.l1_pos.ne'
  have e1 : k.lambda_1 = k.lambda_1_sqrt ^ 2 := h.kin.l1_sq.symm
  have ez : k.z_1 * k.lambda_Y - k.Q_sq * k.S_p - k.tau * (k.S * k.S_x + 2 * k.M ^ 2 * k.Q_sq) =
      -2 * k.M * (tauRoot k * k.lambda_1_sqrt) * k.cos_phi_k := by
    rw [h.z_1_eq, h.lY']; field_simp; ring
  rw [h.momK_eq, h.kin.momP_eq, h.kin.momH_eq, h.kin.momQ_eq, h.kin.eps_lep, eps_rest,
    h.volhk_eq, ez, h.brD, h.vol, h.volk_eq, h.k_t_eq, e1]
  change _ = k.M * (k.M * k.R * tauRoot k / k.lambda_Y_sqrt * k.cos_phi_k *
    (k.ph_t * k.sin_phi_h * (k.lambda_Y_sqrt / (2 * k.M)) - k.ph_l * 0) +
      k.M * k.R * tauRoot k / k.lambda_Y_sqrt * k.sin_phi_k * (k.ph_l * 0 -
      k.ph_t * k.cos_phi_h * (k.lambda_Y_sqrt / (2 * k.M))) +
      _ * (k.ph_t * k.cos_phi_h * 0 - k.ph_t * k.sin_phi_h * 0))
  field_simp
  ring

theorem svol : k.shift_vol_phi_h = eps (momH k.project) (momP k.project) (momK1 k.project)
    (momQ k.project - momK k) := by
  have hM := h.M0
  have hY := h.Y0
  have h1 := h.l1_pos.ne'
  have e1 : k.lambda_1 = k.lambda_1_sqrt ^ 2 := h.kin.l1_sq.symm
  rw [h.momK_eq, h.kin.momP_eq, h.kin.momH_eq, h.kin.momQ_eq, h.kin.momK1_eq,
    ← Transform4.apply_sub, h.kin.eps_lep, eps_rest, h.svol_eq, h.brA, h.brC, h.vol, h.volk_eq,
    h.kin.k1_t_eq, k1l, h.k_t_eq, h.k_l_eq, h.lRY_eq, e1]
  simp only [Vec4.sub_x, Vec4.sub_y, Vec4.sub_z]
  change _ = k.M * (k.ph_t * k.cos_phi_h *
      (0 * (k.lambda_Y_sqrt / (2 * k.M) - k.R * (k.S_x - 2 * k.M ^ 2 * k.tau) /
        (2 * k.M * k.lambda_Y_sqrt)) -
      (k.S * k.S_x + 2 * k.M ^ 2 * k.Q_sq) / (2 * k.M * k.lambda_Y_sqrt) *
        (0 - k.M * k.R * tauRoot k / k.lambda_Y_sqrt * k.sin_phi_k)) +
    k.ph_t * k.sin_phi_h *
      ((k.S * k.S_x + 2 * k.M ^ 2 * k.Q_sq) / (2 * k.M * k.lambda_Y_sqrt) *
        (0 - k.M * k.R * tauRoot k / k.lambda_Y_sqrt * k.cos_phi_k) -
      k.lambda_1_sqrt / k.lambda_Y_sqrt * (k.lambda_Y_sqrt / (2 * k.M) -
        k.R * (k.S_x - 2 * k.M ^ 2 * k.tau) / (2 * k.M * k.lambda_Y_sqrt))) +
    k.ph_l * (k.lambda_1_sqrt / k.lambda_Y_sqrt *
        (0 - k.M * k.R * tauRoot k / k.lambda_Y_sqrt * k.sin_phi_k) -
      0 * (0 - k.M * k.R * tauRoot k / k.lambda_Y_sqrt * k.cos_phi_k)))
  field_simp
  ring

end RadRel
end Sidis
