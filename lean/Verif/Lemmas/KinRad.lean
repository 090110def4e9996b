import Verif.Lemmas.KinGeom

/-! # The radiated photon in the lepton frame -/

namespace Sidis

open Spec

/-- `√((τ - τ_min)(τ_max - τ))` -/
noncomputable def tauRoot (k : KinematicsRad ℝ) : ℝ :=
  √((k.tau - k.tau_min) * (k.tau_max - k.tau))

theorem eucl_eq (a b : Vec4) : eucl a.r b.r = a.t * b.t - mink a b := by
  simp [eucl, mink, Vec4.r]

theorem mink_sub_left (a b c : Vec4) : mink (a - b) c = mink a c - mink b c := by
  simp [mink]; ring
theorem mink_sub_right (a b c : Vec4) : mink c (a - b) = mink c a - mink c b := by
  simp [mink]; ring
theorem mink_add_left (a b c : Vec4) : mink (a + b) c = mink a c + mink b c := by
  simp [mink]; ring
theorem mink_add_right (a b c : Vec4) : mink c (a + b) = mink c a + mink c b := by
  simp [mink]; ring
theorem mink_comm (a b : Vec4) : mink a b = mink b a := by simp [mink]; ring

/-- Relations between the cached quantities of a radiative point. -/
structure RadRel (k : KinematicsRad ℝ) : Prop where
  kin : KinRel k.project
  l1_pos : 0 < k.lambda_1_sqrt
  T_nonneg : 0 ≤ tauRoot k
  T_sq : 4 * k.M ^ 4 * tauRoot k ^ 2 = k.lambda_Y_sqrt ^ 2 - (k.S_x - 2 * k.M ^ 2 * k.tau) ^ 2
  lz_eq : k.lambda_z_sqrt = tauRoot k * k.lambda_1_sqrt
  k_0_eq : k.k_0 = k.R / (2 * k.M)
  k_t_eq : k.k_t = k.M * k.R * tauRoot k / k.lambda_Y_sqrt
  k_l_eq : k.k_l = k.lambda_RY / (2 * k.M * k.lambda_Y_sqrt)
  lRY_eq : k.lambda_RY = k.R * (k.S_x - 2 * k.M ^ 2 * k.tau)
  lRV_eq : k.lambda_RV = (2 * k.M) / k.lambda_Y_sqrt * (2 * k.M ^ 2 * k.R * k.ph_t * tauRoot k *
    (k.cos_phi_h * k.cos_phi_k + k.sin_phi_h * k.sin_phi_k) + k.lambda_RY * k.ph_l)
  lV_eq : k.lambda_V = k.z * k.S_x ^ 2 - 4 * k.M ^ 2 * k.V_m
  lH_eq : k.lambda_H = (k.z * k.S_x) ^ 2 - 4 * k.M ^ 2 * k.mh ^ 2
  mu_eq : k.mu = k.ph_0 / k.M + 1 / k.lambda_Y_sqrt * (
    (2 * k.tau * k.M ^ 2 - k.S_x) * k.ph_l / k.M
    - 2 * k.M * k.ph_t * (k.cos_phi_h * k.cos_phi_k + k.sin_phi_h * k.sin_phi_k) * tauRoot k)
  z_1_eq : k.z_1 = 1 / k.lambda_Y * (k.Q_sq * k.S_p + k.tau * (k.S * k.S_x + 2 * k.M ^ 2 * k.Q_sq)
    - 2 * k.M * (tauRoot k * k.lambda_1_sqrt) * k.cos_phi_k)
  z_2_eq : k.z_2 = 1 / k.lambda_Y * (k.Q_sq * k.S_p + k.tau * (k.X * k.S_x - 2 * k.M ^ 2 * k.Q_sq)
    - 2 * k.M * (tauRoot k * k.lambda_1_sqrt) * k.cos_phi_k)
  k_0_bar_eq : k.k_0_bar = ((1 + k.tau - k.mu) * k.R) / (2 * k.mx)
  F_22_eq : k.F_22 = 1 / k.z_2 ^ 2
  F_21_eq : k.F_21 = 1 / k.z_1 ^ 2
  F_d_eq : k.F_d = 1 / (k.z_1 * k.z_2)
  F_1p_eq : k.F_1p = 1 / k.z_1 + 1 / k.z_2
  F_2p_eq : k.F_2p = k.F_22 + k.F_21
  F_2m_eq : k.F_2m = k.F_22 - k.F_21
  F_IR_eq : k.F_IR = k.m ^ 2 * k.F_2p - (k.Q_sq + 2 * k.m ^ 2) * k.F_d
  volk_eq : k.vol_phi_k_R = -(1 / 2) * k.sin_phi_k * k.M * (tauRoot k * k.lambda_1_sqrt) /
    k.lambda_Y_sqrt
  volhk_eq : k.vol_phi_hk = 1 / (2 * k.lambda_1) * (
    k.R * k.vol_phi_h * (k.z_1 * k.lambda_Y - k.Q_sq * k.S_p
      - k.tau * (k.S * k.S_x + 2 * k.M ^ 2 * k.Q_sq))
    + k.R * k.vol_phi_k_R * (k.S_x * (k.z * k.Q_sq * k.S_p - k.S * k.V_2 + k.X * k.V_1)
      - 4 * k.V_p * k.M ^ 2 * k.Q_sq))
  cos_k : k.cos_phi_k = Real.cos k.phi_k
  sin_k : k.sin_phi_k = Real.sin k.phi_k
  sQ_eq : k.shift_Q_sq = k.Q_sq + k.R * k.tau
  sSx_eq : k.shift_S_x = k.S_x - k.R
  sVm_eq : k.shift_V_m = k.V_m + (k.lambda_RV - k.z * k.R * k.S_x) / (4 * k.M ^ 2)
  sx_eq : k.shift_x = k.shift_Q_sq / k.shift_S_x
  sy_eq : k.shift_y = k.y - k.R / k.S
  sz_eq : k.shift_z = k.S_x / k.shift_S_x * k.z
  st_eq : k.shift_t = k.t - k.R * k.tau + (k.z * k.R * k.S_x - k.lambda_RV) / (2 * k.M ^ 2)
  sW_eq : k.shift_W_sq = k.W_sq - k.R * (1 + k.tau)
  slY_eq : k.shift_lambda_Y = k.lambda_Y + k.R ^ 2 - 2 * k.lambda_RY
  sl1_eq : k.shift_lambda_1 = k.lambda_1 + 1 / (4 * k.M ^ 2) * (
    (k.R ^ 2 - 2 * k.lambda_RY) * k.lambda_S
    + k.R * (k.S - 2 * k.M ^ 2 * k.z_1) * (2 * k.S * k.S_x + 4 * k.M ^ 2 * k.Q_sq
      - k.R * (k.S - 2 * k.M ^ 2 * k.z_1)))
  sl2_eq : k.shift_lambda_2 = k.shift_V_m ^ 2 + k.mh ^ 2 * k.shift_Q_sq
  sl3_eq : k.shift_lambda_3 = k.shift_V_m + k.shift_z * k.shift_Q_sq
  spt_eq : k.shift_ph_t_sq = k.ph_t_sq + 1 / k.shift_lambda_Y * (
    (k.R ^ 2 - 2 * k.lambda_RY) * k.ph_l ^ 2 + (k.lambda_Y_sqrt * k.lambda_RV * k.ph_l) / k.M
    - k.lambda_RV ^ 2 / (4 * k.M ^ 2))
  spl_eq : k.shift_ph_l = 1 / k.shift_lambda_Y_sqrt * (k.lambda_Y_sqrt * k.ph_l
    - k.lambda_RV / (2 * k.M))
  sq0_eq : k.shift_q_0 = k.shift_S_x / (2 * k.M)
  sqt_eq : k.shift_q_t = k.shift_lambda_1_sqrt / k.lambda_S_sqrt
  sql_eq : k.shift_q_l = k.q_l - k.R / (2 * k.M * k.lambda_S_sqrt) *
    (k.S - 2 * k.M ^ 2 * k.z_1)
  sk1t_eq : k.shift_k1_t = k.shift_lambda_1_sqrt / k.shift_lambda_Y_sqrt
  smx_eq : k.shift_mx_sq = k.mx_sq - k.R * (1 + k.tau) +
    (k.z * k.R * k.S_x - k.lambda_RV) / (2 * k.M ^ 2)
  svol_eq : k.shift_vol_phi_h = k.vol_phi_h + 1 / (2 * k.lambda_1) * (
    k.R * k.vol_phi_h * (k.tau * k.lambda_S + 2 * k.m ^ 2 * k.S_x + k.Q_sq * k.S
      - k.z_1 * (k.S * k.S_x + 2 * k.M ^ 2 * k.Q_sq))
    + k.R * k.vol_phi_k_R * (2 * k.m ^ 2 * (4 * k.V_m * k.M ^ 2 - k.z * k.S_x ^ 2)
      + k.S * (k.S * k.V_2 - k.X * k.V_1 - k.z * k.Q_sq * k.S_x) + 2 * k.V_1 * k.M ^ 2 * k.Q_sq))
  ssh_eq : k.shift_sin_phi_h = -2 * k.shift_vol_phi_h /
    (k.shift_ph_t * k.shift_q_t * k.lambda_S_sqrt)
  sch_eq : k.shift_cos_phi_h =
    1 / (4 * k.M ^ 2 * k.shift_ph_t * k.shift_q_t * k.shift_lambda_Y_sqrt * k.lambda_S_sqrt) * (
      k.shift_lambda_Y * (k.z * k.S * k.S_x - 2 * k.M ^ 2 * k.V_1)
      - (k.lambda_V - k.lambda_RV) *
        (k.S * k.shift_S_x + 2 * k.M ^ 2 * k.Q_sq + 2 * k.M ^ 2 * k.z_1 * k.R))
  ssq_eq : k.shift_sin_phi_q = 1 / k.shift_q_t * (k.q_t * k.sin_phi_q
    - (2 * k.M) / k.lambda_Y_sqrt * (k.k_t * (-k.q_l * k.sin_phi * k.cos_phi_k
      + k.lambda_Y_sqrt / (2 * k.M) * k.cos_phi * k.sin_phi_k) + k.k_l * k.q_t * k.sin_phi))
  scq_eq : k.shift_cos_phi_q = 1 / k.shift_q_t * (k.q_t * k.cos_phi_q
    - (2 * k.M) / k.lambda_Y_sqrt * (k.k_t * (k.q_l * k.cos_phi * k.cos_phi_k
      + k.lambda_Y_sqrt / (2 * k.M) * k.sin_phi * k.sin_phi_k) - k.k_l * k.q_t * k.cos_phi))
  sphi_h_eq : k.shift_phi_h = atan2R k.shift_sin_phi_h k.shift_cos_phi_h
  sphi_q_eq : k.shift_phi_q = atan2R k.shift_sin_phi_q k.shift_cos_phi_q
  slYs_eq : k.shift_lambda_Y_sqrt = √k.shift_lambda_Y
  sl1s_eq : k.shift_lambda_1_sqrt = √k.shift_lambda_1
  spts_eq : k.shift_ph_t = √k.shift_ph_t_sq

theorem radRel_of {kin : Kinematics ℝ} (hk : KinRel kin) (h1 : 0 < kin.lambda_1) {tau phi_k R : ℝ}
    (ht : (KinematicsRad.make kin tau phi_k R).tau_min ≤ tau)
    (ht' : tau ≤ (KinematicsRad.make kin tau phi_k R).tau_max) :
    RadRel (.make kin tau phi_k R) := by
  have hM := hk.M_pos
  have hY := hk.lY_pos
  set k := KinematicsRad.make kin tau phi_k R with hkd
  have h1' : 0 < kin.lambda_1_sqrt := by
    rcases lt_or_eq_of_le hk.l1_nonneg with h | h
    · exact h
    · exfalso
      have := hk.l1_sq
      rw [← h] at this
      norm_num at this
      linarith
  have hprod : 0 ≤ (k.tau - k.tau_min) * (k.tau_max - k.tau) :=
    mul_nonneg (sub_nonneg.2 ht) (sub_nonneg.2 ht')
  have hTsq : tauRoot k ^ 2 = (k.tau - k.tau_min) * (k.tau_max - k.tau) := Real.sq_sqrt hprod
  have emin : k.tau_min = (kin.S_x - kin.lambda_Y_sqrt) / (2 * kin.M ^ 2) := by rw [pow_two]; rfl
  have emax : k.tau_max = (kin.S_x + kin.lambda_Y_sqrt) / (2 * kin.M ^ 2) := by rw [pow_two]; rfl
  have hlz : k.lambda_z_sqrt = tauRoot k * kin.lambda_1_sqrt := by
    have e : k.lambda_z_sqrt = √((k.tau_max - k.tau) * (k.tau - k.tau_min) * kin.lambda_1) := rfl
    rw [e, mul_comm (k.tau_max - k.tau), Real.sqrt_mul hprod, ← hk.l1_sq, Real.sqrt_sq hk.l1_nonneg]
    rfl
  have hcos : Real.cos (kin.phi_h - phi_k) =
      kin.cos_phi_h * Real.cos phi_k + kin.sin_phi_h * Real.sin phi_k := by
    rw [Real.cos_sub, hk.cos_h, hk.sin_h]
  refine
    { kin := hk, l1_pos := h1', T_nonneg := Real.sqrt_nonneg _, T_sq := ?_, lz_eq := hlz
      k_0_eq := rfl, k_t_eq := ?_, k_l_eq := rfl, lRY_eq := ?_, lRV_eq := ?_, lV_eq := ?_
      lH_eq := ?_, mu_eq := ?_, z_1_eq := ?_, z_2_eq := ?_, k_0_bar_eq := rfl, F_22_eq := ?_
      F_21_eq := ?_, F_d_eq := rfl, F_1p_eq := rfl, F_2p_eq := rfl, F_2m_eq := rfl, F_IR_eq := ?_
      volk_eq := ?_, volhk_eq := ?_, cos_k := rfl, sin_k := rfl, sQ_eq := rfl, sSx_eq := rfl
      sVm_eq := ?_, sx_eq := rfl, sy_eq := rfl, sz_eq := rfl, st_eq := ?_, sW_eq := rfl
      slY_eq := ?_, sl1_eq := ?_, sl2_eq := ?_, sl3_eq := rfl, spt_eq := ?_, spl_eq := rfl
      sq0_eq := rfl, sqt_eq := rfl, sql_eq := ?_, sk1t_eq := rfl, smx_eq := ?_, svol_eq := ?_
      ssh_eq := rfl, sch_eq := ?_, ssq_eq := rfl, scq_eq := rfl, sphi_h_eq := rfl
      sphi_q_eq := rfl, slYs_eq := rfl, sl1s_eq := rfl, spts_eq := rfl }
  · rw [hTsq, emin, emax]
    change 4 * kin.M ^ 4 * _ = kin.lambda_Y_sqrt ^ 2 - (kin.S_x - 2 * kin.M ^ 2 * k.tau) ^ 2
    field_simp
    ring
  · have e : k.k_t = kin.M * R * k.lambda_z_sqrt / (kin.lambda_1_sqrt * kin.lambda_Y_sqrt) := rfl
    rw [e, hlz]
    change _ = kin.M * R * tauRoot k / kin.lambda_Y_sqrt
    field_simp
  · rw [pow_two]; rfl
  · rw [pow_two]
    change (2 * kin.M) / kin.lambda_Y_sqrt * (2 * (kin.M * kin.M) * R * kin.ph_t * tauRoot k *
      Real.cos (kin.phi_h - phi_k) + k.lambda_RY * kin.ph_l) = _
    rw [hcos]; rfl
  · rw [pow_two, pow_two]; rfl
  · rw [pow_two, pow_two, pow_two]; rfl
  · rw [pow_two]
    change kin.ph_0 / kin.M + 1 / kin.lambda_Y_sqrt * (
      (2 * tau * (kin.M * kin.M) - kin.S_x) * kin.ph_l / kin.M
      - 2 * kin.M * kin.ph_t * Real.cos (kin.phi_h - phi_k) * tauRoot k) = _
    rw [hcos]; rfl
  · rw [show k.lambda_1_sqrt = kin.lambda_1_sqrt from rfl, ← hlz, pow_two]; rfl
  · rw [show k.lambda_1_sqrt = kin.lambda_1_sqrt from rfl, ← hlz, pow_two]; rfl
  · rw [pow_two]; rfl
  · rw [pow_two]; rfl
  · rw [pow_two]; rfl
  · rw [show k.lambda_1_sqrt = kin.lambda_1_sqrt from rfl, ← hlz]; rfl
  · rw [pow_two]; rfl
  · rw [pow_two]; rfl
  · rw [pow_two]; rfl
  · rw [pow_two]; rfl
  · rw [pow_two, pow_two]; rfl
  · rw [pow_two, pow_two]; rfl
  · rw [pow_two, pow_two, pow_two, pow_two]; rfl
  · rw [pow_two]; rfl
  · rw [pow_two]; rfl
  · rw [pow_two, pow_two, pow_two]; rfl
  · rw [pow_two]; rfl

end Sidis
