import Verif.Model.CrossSection

/-!
# Vocabulary for a change of units

A unit of energy `c` times smaller makes every momentum and mass `c` times larger.  The unit enters
through the masses of `part::Particles`, `S`, `ph_t_sq`, `R` and the structure functions, which have
the dimension of an inverse area; everything else that is given to the library is a pure number.
-/

namespace Sidis.Spec

/-- The particles with masses in a unit `c` times smaller. -/
noncomputable def psInUnit (c : ℝ) (ps : Particles ℝ) : Particles ℝ :=
  { ps with M := c * ps.M, m := c * ps.m, mh := c * ps.mh, Mth := c * ps.Mth }

/-- A point of phase space in a unit `c` times smaller. -/
noncomputable def ptInUnit (c : ℝ) (pt : PhaseSpace ℝ) : PhaseSpace ℝ :=
  { pt with ph_t_sq := c ^ 2 * pt.ph_t_sq }

@[inherit_doc ptInUnit] noncomputable def radInUnit (c : ℝ) (pt : PhaseSpaceRad ℝ) :
    PhaseSpaceRad ℝ :=
  { pt with ph_t_sq := c ^ 2 * pt.ph_t_sq, R := c ^ 2 * pt.R }

/-- A structure function in a unit `c` times smaller: the arguments `Q_sq` and `ph_t_sq` and the value
are converted. -/
noncomputable def fInUnit (c : ℝ) (F : Hadron → ℝ → ℝ → ℝ → ℝ → ℝ) : Hadron → ℝ → ℝ → ℝ → ℝ → ℝ :=
  fun h x z Q_sq ph_t_sq => F h x z (Q_sq / c ^ 2) (ph_t_sq / c ^ 2) / c ^ 2

/-- The structure functions in a unit `c` times smaller. -/
noncomputable def sfInUnit (c : ℝ) (sf : SfFuns) : SfFuns where
  F_UUL := fInUnit c sf.F_UUL
  F_UUT := fInUnit c sf.F_UUT
  F_UU_cos_phih := fInUnit c sf.F_UU_cos_phih
  F_UU_cos_2phih := fInUnit c sf.F_UU_cos_2phih
  F_UL_sin_phih := fInUnit c sf.F_UL_sin_phih
  F_UL_sin_2phih := fInUnit c sf.F_UL_sin_2phih
  F_UTL_sin_phih_m_phis := fInUnit c sf.F_UTL_sin_phih_m_phis
  F_UTT_sin_phih_m_phis := fInUnit c sf.F_UTT_sin_phih_m_phis
  F_UT_sin_2phih_m_phis := fInUnit c sf.F_UT_sin_2phih_m_phis
  F_UT_sin_3phih_m_phis := fInUnit c sf.F_UT_sin_3phih_m_phis
  F_UT_sin_phis := fInUnit c sf.F_UT_sin_phis
  F_UT_sin_phih_p_phis := fInUnit c sf.F_UT_sin_phih_p_phis
  F_LU_sin_phih := fInUnit c sf.F_LU_sin_phih
  F_LL := fInUnit c sf.F_LL
  F_LL_cos_phih := fInUnit c sf.F_LL_cos_phih
  F_LT_cos_phih_m_phis := fInUnit c sf.F_LT_cos_phih_m_phis
  F_LT_cos_2phih_m_phis := fInUnit c sf.F_LT_cos_2phih_m_phis
  F_LT_cos_phis := fInUnit c sf.F_LT_cos_phis

/-- The dimension of every member of `kin::Kinematics`: the same kinematics in a unit `c` times
smaller.  Members that are not listed are pure numbers. -/
noncomputable def kinInUnit (c : ℝ) (k : Kinematics ℝ) : Kinematics ℝ :=
  { k with
    S := c ^ 2 * k.S, M := c * k.M, m := c * k.m, mh := c * k.mh, Mth := c * k.Mth
    ph_t_sq := c ^ 2 * k.ph_t_sq, Q_sq := c ^ 2 * k.Q_sq, Q := c * k.Q, t := c ^ 2 * k.t
    W_sq := c ^ 2 * k.W_sq, X := c ^ 2 * k.X, S_x := c ^ 2 * k.S_x, S_p := c ^ 2 * k.S_p
    V_1 := c ^ 2 * k.V_1, V_2 := c ^ 2 * k.V_2, V_m := c ^ 2 * k.V_m, V_p := c ^ 2 * k.V_p
    lambda_S := c ^ 4 * k.lambda_S, lambda_X := c ^ 4 * k.lambda_X, lambda_Y := c ^ 4 * k.lambda_Y
    lambda_1 := c ^ 6 * k.lambda_1, lambda_2 := c ^ 4 * k.lambda_2, lambda_3 := c ^ 2 * k.lambda_3
    lambda_S_sqrt := c ^ 2 * k.lambda_S_sqrt, lambda_X_sqrt := c ^ 2 * k.lambda_X_sqrt
    lambda_Y_sqrt := c ^ 2 * k.lambda_Y_sqrt, lambda_1_sqrt := c ^ 3 * k.lambda_1_sqrt
    lambda_2_sqrt := c ^ 2 * k.lambda_2_sqrt, lambda_3_sqrt := c * k.lambda_3_sqrt
    mx_sq := c ^ 2 * k.mx_sq, mx := c * k.mx, vol_phi_h := c ^ 4 * k.vol_phi_h
    C_1 := k.C_1 / c ^ 4, ph_0 := c * k.ph_0, ph_t := c * k.ph_t, ph_l := c * k.ph_l
    q_0 := c * k.q_0, q_t := c * k.q_t, q_l := c * k.q_l, k2_0 := c * k.k2_0, k2_t := c * k.k2_t
    k2_l := c * k.k2_l, k1_t := c * k.k1_t }

/-- The dimension of every member of `kin::KinematicsRad`. -/
noncomputable def kinRadInUnit (c : ℝ) (k : KinematicsRad ℝ) : KinematicsRad ℝ :=
  { k with
    S := c ^ 2 * k.S, M := c * k.M, m := c * k.m, mh := c * k.mh, Mth := c * k.Mth
    ph_t_sq := c ^ 2 * k.ph_t_sq, Q_sq := c ^ 2 * k.Q_sq, Q := c * k.Q, t := c ^ 2 * k.t
    W_sq := c ^ 2 * k.W_sq, X := c ^ 2 * k.X, S_x := c ^ 2 * k.S_x, S_p := c ^ 2 * k.S_p
    V_1 := c ^ 2 * k.V_1, V_2 := c ^ 2 * k.V_2, V_m := c ^ 2 * k.V_m, V_p := c ^ 2 * k.V_p
    lambda_S := c ^ 4 * k.lambda_S, lambda_X := c ^ 4 * k.lambda_X, lambda_Y := c ^ 4 * k.lambda_Y
    lambda_1 := c ^ 6 * k.lambda_1, lambda_2 := c ^ 4 * k.lambda_2, lambda_3 := c ^ 2 * k.lambda_3
    lambda_S_sqrt := c ^ 2 * k.lambda_S_sqrt, lambda_X_sqrt := c ^ 2 * k.lambda_X_sqrt
    lambda_Y_sqrt := c ^ 2 * k.lambda_Y_sqrt, lambda_1_sqrt := c ^ 3 * k.lambda_1_sqrt
    lambda_2_sqrt := c ^ 2 * k.lambda_2_sqrt, lambda_3_sqrt := c * k.lambda_3_sqrt
    mx_sq := c ^ 2 * k.mx_sq, mx := c * k.mx, vol_phi_h := c ^ 4 * k.vol_phi_h
    C_1 := k.C_1 / c ^ 4, ph_0 := c * k.ph_0, ph_t := c * k.ph_t, ph_l := c * k.ph_l
    q_0 := c * k.q_0, q_t := c * k.q_t, q_l := c * k.q_l, k2_0 := c * k.k2_0, k2_t := c * k.k2_t
    k2_l := c * k.k2_l, k1_t := c * k.k1_t, R := c ^ 2 * k.R, lambda_V := c ^ 4 * k.lambda_V
    lambda_RV := c ^ 4 * k.lambda_RV, lambda_RY := c ^ 4 * k.lambda_RY
    lambda_H := c ^ 4 * k.lambda_H, lambda_z := c ^ 6 * k.lambda_z
    lambda_z_sqrt := c ^ 3 * k.lambda_z_sqrt, k_0_bar := c * k.k_0_bar
    vol_phi_k_R := c ^ 2 * k.vol_phi_k_R, vol_phi_hk := c ^ 4 * k.vol_phi_hk
    F_IR := c ^ 2 * k.F_IR, k_0 := c * k.k_0, k_t := c * k.k_t, k_l := c * k.k_l
    shift_ph_t_sq := c ^ 2 * k.shift_ph_t_sq, shift_Q_sq := c ^ 2 * k.shift_Q_sq
    shift_Q := c * k.shift_Q, shift_t := c ^ 2 * k.shift_t, shift_W_sq := c ^ 2 * k.shift_W_sq
    shift_S_x := c ^ 2 * k.shift_S_x, shift_V_m := c ^ 2 * k.shift_V_m
    shift_lambda_Y := c ^ 4 * k.shift_lambda_Y, shift_lambda_1 := c ^ 6 * k.shift_lambda_1
    shift_lambda_2 := c ^ 4 * k.shift_lambda_2, shift_lambda_3 := c ^ 2 * k.shift_lambda_3
    shift_lambda_Y_sqrt := c ^ 2 * k.shift_lambda_Y_sqrt
    shift_lambda_1_sqrt := c ^ 3 * k.shift_lambda_1_sqrt
    shift_lambda_2_sqrt := c ^ 2 * k.shift_lambda_2_sqrt
    shift_lambda_3_sqrt := c * k.shift_lambda_3_sqrt, shift_mx_sq := c ^ 2 * k.shift_mx_sq
    shift_mx := c * k.shift_mx, shift_vol_phi_h := c ^ 4 * k.shift_vol_phi_h
    shift_C_1 := k.shift_C_1 / c ^ 4, shift_ph_t := c * k.shift_ph_t
    shift_ph_l := c * k.shift_ph_l, shift_q_0 := c * k.shift_q_0, shift_q_t := c * k.shift_q_t
    shift_q_l := c * k.shift_q_l, shift_k1_t := c * k.shift_k1_t }

end Sidis.Spec
