import Verif.Props.CrossSection
import Verif.Spec.Units
import Mathlib.Tactic.FieldSimp
import Mathlib.Tactic.Ring

/-! # Lemmas for a change of units: the kinematics -/

namespace Sidis.Lemmas.Units

open Sidis.Spec CMath

variable {c : ℝ}

theorem sqrt_c (hc : 0 < c) (n : ℕ) (a : ℝ) : CMath.sqrt (c ^ (2 * n) * a) = c ^ n * CMath.sqrt a :=
    by
  change √(c ^ (2 * n) * a) = c ^ n * √a
  rw [Real.sqrt_mul (by positivity), mul_comm 2 n, pow_mul, Real.sqrt_sq (by positivity)]

set_option maxHeartbeats 1000000 in
theorem make_unit (hc : 0 < c) (ps : Particles ℝ) (S : ℝ) (pt : PhaseSpace ℝ) :
    Kinematics.make (psInUnit c ps) (c ^ 2 * S) (ptInUnit c pt)
      = kinInUnit c (Kinematics.make ps S pt) := by
  have c0 := hc.ne'
  obtain ⟨k, hk⟩ : ∃ k, k = Kinematics.make ps S pt := ⟨_, rfl⟩
  obtain ⟨k', hk'⟩ : ∃ k', k' = Kinematics.make (psInUnit c ps) (c ^ 2 * S) (ptInUnit c pt) := ⟨_,
      rfl⟩
  rw [← hk, ← hk']
  have h_S : k'.S = c ^ 2 * k.S := by rw [hk, hk']; rfl
  have h_M : k'.M = c * k.M := by rw [hk, hk']; rfl
  have h_m : k'.m = c * k.m := by rw [hk, hk']; rfl
  have h_mh : k'.mh = c * k.mh := by rw [hk, hk']; rfl
  have h_Mth : k'.Mth = c * k.Mth := by rw [hk, hk']; rfl
  have h_x : k'.x = k.x := by rw [hk, hk']; rfl
  have h_y : k'.y = k.y := by rw [hk, hk']; rfl
  have h_z : k'.z = k.z := by rw [hk, hk']; rfl
  have h_ph_t_sq : k'.ph_t_sq = c ^ 2 * k.ph_t_sq := by rw [hk, hk']; rfl
  have h_phi_h : k'.phi_h = k.phi_h := by rw [hk, hk']; rfl
  have h_phi : k'.phi = k.phi := by rw [hk, hk']; rfl
  have h_phi_q : k'.phi_q = k.phi_q := by rw [hk, hk']; rfl
  have h_cos_phi_h : k'.cos_phi_h = k.cos_phi_h := by rw [hk, hk']; rfl
  have h_sin_phi_h : k'.sin_phi_h = k.sin_phi_h := by rw [hk, hk']; rfl
  have h_cos_phi : k'.cos_phi = k.cos_phi := by rw [hk, hk']; rfl
  have h_sin_phi : k'.sin_phi = k.sin_phi := by rw [hk, hk']; rfl
  have h_cos_phi_q : k'.cos_phi_q = k.cos_phi_q := by rw [hk, hk']; rfl
  have h_sin_phi_q : k'.sin_phi_q = k.sin_phi_q := by rw [hk, hk']; rfl
  have e_Q_sq : k.Q_sq = k.S * k.x * k.y := by rw [hk]; rfl
  have e'_Q_sq : k'.Q_sq = k'.S * k'.x * k'.y := by rw [hk']; rfl
  have h_Q_sq : k'.Q_sq = c ^ 2 * k.Q_sq := by
    simp only [e'_Q_sq, e_Q_sq, h_S, h_x, h_y, sq]
    first | done | ring1 | (field_simp; done) | (field_simp; ring1)
  have e_Q : k.Q = sqrt k.Q_sq := by rw [hk]; rfl
  have e'_Q : k'.Q = sqrt k'.Q_sq := by rw [hk']; rfl
  have h_Q : k'.Q = c * k.Q := by
    rw [e'_Q, e_Q, h_Q_sq]; simpa using sqrt_c hc 1 k.Q_sq
  have e_X : k.X = (1 - k.y) * k.S := by rw [hk]; rfl
  have e'_X : k'.X = (1 - k'.y) * k'.S := by rw [hk']; rfl
  have h_X : k'.X = c ^ 2 * k.X := by
    simp only [e'_X, e_X, h_y, h_S, sq]
    first | done | ring1 | (field_simp; done) | (field_simp; ring1)
  have e_S_x : k.S_x = k.S * k.y := by rw [hk]; rfl
  have e'_S_x : k'.S_x = k'.S * k'.y := by rw [hk']; rfl
  have h_S_x : k'.S_x = c ^ 2 * k.S_x := by
    simp only [e'_S_x, e_S_x, h_S, h_y, sq]
    first | done | ring1 | (field_simp; done) | (field_simp; ring1)
  have e_S_p : k.S_p = k.S * (2 - k.y) := by rw [hk]; rfl
  have e'_S_p : k'.S_p = k'.S * (2 - k'.y) := by rw [hk']; rfl
  have h_S_p : k'.S_p = c ^ 2 * k.S_p := by
    simp only [e'_S_p, e_S_p, h_S, h_y, sq]
    first | done | ring1 | (field_simp; done) | (field_simp; ring1)
  have e_lambda_S : k.lambda_S = sq k.S - 4 * sq k.M * sq k.m := by rw [hk]; rfl
  have e'_lambda_S : k'.lambda_S = sq k'.S - 4 * sq k'.M * sq k'.m := by rw [hk']; rfl
  have h_lambda_S : k'.lambda_S = c ^ 4 * k.lambda_S := by
    simp only [e'_lambda_S, e_lambda_S, h_S, h_M, h_m, sq]
    first | done | ring1 | (field_simp; done) | (field_simp; ring1)
  have e_lambda_X : k.lambda_X = sq k.X - 4 * sq k.M * sq k.m := by rw [hk]; rfl
  have e'_lambda_X : k'.lambda_X = sq k'.X - 4 * sq k'.M * sq k'.m := by rw [hk']; rfl
  have h_lambda_X : k'.lambda_X = c ^ 4 * k.lambda_X := by
    simp only [e'_lambda_X, e_lambda_X, h_X, h_M, h_m, sq]
    first | done | ring1 | (field_simp; done) | (field_simp; ring1)
  have e_lambda_Y : k.lambda_Y = sq k.S_x + 4 * sq k.M * k.Q_sq := by rw [hk]; rfl
  have e'_lambda_Y : k'.lambda_Y = sq k'.S_x + 4 * sq k'.M * k'.Q_sq := by rw [hk']; rfl
  have h_lambda_Y : k'.lambda_Y = c ^ 4 * k.lambda_Y := by
    simp only [e'_lambda_Y, e_lambda_Y, h_S_x, h_M, h_Q_sq, sq]
    first | done | ring1 | (field_simp; done) | (field_simp; ring1)
  have e_lambda_1 : k.lambda_1 = k.Q_sq * (k.S * k.X - sq k.M * k.Q_sq) - sq k.m * k.lambda_Y :=
      by rw [hk]; rfl
  have e'_lambda_1 : k'.lambda_1 = k'.Q_sq * (k'.S * k'.X - sq k'.M * k'.Q_sq) - sq k'.m *
      k'.lambda_Y := by rw [hk']; rfl
  have h_lambda_1 : k'.lambda_1 = c ^ 6 * k.lambda_1 := by
    simp only [e'_lambda_1, e_lambda_1, h_Q_sq, h_S, h_X, h_M, h_m, h_lambda_Y, sq]
    first | done | ring1 | (field_simp; done) | (field_simp; ring1)
  have e_lambda_S_sqrt : k.lambda_S_sqrt = sqrt k.lambda_S := by rw [hk]; rfl
  have e'_lambda_S_sqrt : k'.lambda_S_sqrt = sqrt k'.lambda_S := by rw [hk']; rfl
  have h_lambda_S_sqrt : k'.lambda_S_sqrt = c ^ 2 * k.lambda_S_sqrt := by
    rw [e'_lambda_S_sqrt, e_lambda_S_sqrt, h_lambda_S]; exact sqrt_c hc 2 _
  have e_lambda_X_sqrt : k.lambda_X_sqrt = sqrt k.lambda_X := by rw [hk]; rfl
  have e'_lambda_X_sqrt : k'.lambda_X_sqrt = sqrt k'.lambda_X := by rw [hk']; rfl
  have h_lambda_X_sqrt : k'.lambda_X_sqrt = c ^ 2 * k.lambda_X_sqrt := by
    rw [e'_lambda_X_sqrt, e_lambda_X_sqrt, h_lambda_X]; exact sqrt_c hc 2 _
  have e_lambda_Y_sqrt : k.lambda_Y_sqrt = sqrt k.lambda_Y := by rw [hk]; rfl
  have e'_lambda_Y_sqrt : k'.lambda_Y_sqrt = sqrt k'.lambda_Y := by rw [hk']; rfl
  have h_lambda_Y_sqrt : k'.lambda_Y_sqrt = c ^ 2 * k.lambda_Y_sqrt := by
    rw [e'_lambda_Y_sqrt, e_lambda_Y_sqrt, h_lambda_Y]; exact sqrt_c hc 2 _
  have e_lambda_1_sqrt : k.lambda_1_sqrt = sqrt k.lambda_1 := by rw [hk]; rfl
  have e'_lambda_1_sqrt : k'.lambda_1_sqrt = sqrt k'.lambda_1 := by rw [hk']; rfl
  have h_lambda_1_sqrt : k'.lambda_1_sqrt = c ^ 3 * k.lambda_1_sqrt := by
    rw [e'_lambda_1_sqrt, e_lambda_1_sqrt, h_lambda_1]; exact sqrt_c hc 3 _
  have e_ph_0 : k.ph_0 = (k.z * k.S_x) / (2 * k.M) := by rw [hk]; rfl
  have e'_ph_0 : k'.ph_0 = (k'.z * k'.S_x) / (2 * k'.M) := by rw [hk']; rfl
  have h_ph_0 : k'.ph_0 = c * k.ph_0 := by
    simp only [e'_ph_0, e_ph_0, h_z, h_S_x, h_M, sq]
    first | done | ring1 | (field_simp; done) | (field_simp; ring1)
  have e_ph_t : k.ph_t = sqrt k.ph_t_sq := by rw [hk]; rfl
  have e'_ph_t : k'.ph_t = sqrt k'.ph_t_sq := by rw [hk']; rfl
  have h_ph_t : k'.ph_t = c * k.ph_t := by
    rw [e'_ph_t, e_ph_t, h_ph_t_sq]; simpa using sqrt_c hc 1 k.ph_t_sq
  have ratio : k'.ph_t_sq / sq k'.ph_0 + sq (k'.mh / k'.ph_0) = k.ph_t_sq / sq k.ph_0 + sq (k.mh /
      k.ph_0) := by
    simp only [h_ph_t_sq, h_ph_0, h_mh, sq]; field_simp
  have e_ph_l : k.ph_l = k.ph_0 * sqrt (1 - (k.ph_t_sq / sq k.ph_0 + sq (k.mh / k.ph_0))) := by
      rw [hk]; rfl
  have e'_ph_l : k'.ph_l = k'.ph_0 * sqrt (1 - (k'.ph_t_sq / sq k'.ph_0 + sq (k'.mh / k'.ph_0)))
      := by rw [hk']; rfl
  have h_ph_l : k'.ph_l = c * k.ph_l := by
    simp only [e'_ph_l, e_ph_l, ratio, h_ph_0, h_ph_t_sq, h_mh, sq]
    first | done | ring1 | (field_simp; done) | (field_simp; ring1)
  have e_q_0 : k.q_0 = k.S_x / (2 * k.M) := by rw [hk]; rfl
  have e'_q_0 : k'.q_0 = k'.S_x / (2 * k'.M) := by rw [hk']; rfl
  have h_q_0 : k'.q_0 = c * k.q_0 := by
    simp only [e'_q_0, e_q_0, h_S_x, h_M, sq]
    first | done | ring1 | (field_simp; done) | (field_simp; ring1)
  have e_q_t : k.q_t = k.lambda_1_sqrt / k.lambda_S_sqrt := by rw [hk]; rfl
  have e'_q_t : k'.q_t = k'.lambda_1_sqrt / k'.lambda_S_sqrt := by rw [hk']; rfl
  have h_q_t : k'.q_t = c * k.q_t := by
    simp only [e'_q_t, e_q_t, h_lambda_1_sqrt, h_lambda_S_sqrt, sq]
    first | done | ring1 | (field_simp; done) | (field_simp; ring1)
  have e_q_l : k.q_l = (2 * sq k.M * k.Q_sq + k.S * k.S_x) / (2 * k.M * k.lambda_S_sqrt) := by
      rw [hk]; rfl
  have e'_q_l : k'.q_l = (2 * sq k'.M * k'.Q_sq + k'.S * k'.S_x) / (2 * k'.M * k'.lambda_S_sqrt)
      := by rw [hk']; rfl
  have h_q_l : k'.q_l = c * k.q_l := by
    simp only [e'_q_l, e_q_l, h_M, h_Q_sq, h_S, h_S_x, h_lambda_S_sqrt, sq]
    first | done | ring1 | (field_simp; done) | (field_simp; ring1)
  have e_k2_0 : k.k2_0 = k.X / (2 * k.M) := by rw [hk]; rfl
  have e'_k2_0 : k'.k2_0 = k'.X / (2 * k'.M) := by rw [hk']; rfl
  have h_k2_0 : k'.k2_0 = c * k.k2_0 := by
    simp only [e'_k2_0, e_k2_0, h_X, h_M, sq]
    first | done | ring1 | (field_simp; done) | (field_simp; ring1)
  have e_k2_l : k.k2_l = (k.S * k.X - 2 * sq k.M * k.Q_sq - 4 * sq k.M * sq k.m) / (2 * k.M *
      k.lambda_S_sqrt) := by rw [hk]; rfl
  have e'_k2_l : k'.k2_l = (k'.S * k'.X - 2 * sq k'.M * k'.Q_sq - 4 * sq k'.M * sq k'.m) / (2 *
      k'.M * k'.lambda_S_sqrt) := by rw [hk']; rfl
  have h_k2_l : k'.k2_l = c * k.k2_l := by
    simp only [e'_k2_l, e_k2_l, h_S, h_X, h_M, h_Q_sq, h_m, h_lambda_S_sqrt, sq]
    first | done | ring1 | (field_simp; done) | (field_simp; ring1)
  have e_k2_t : k.k2_t = k.lambda_1_sqrt / k.lambda_S_sqrt := by rw [hk]; rfl
  have e'_k2_t : k'.k2_t = k'.lambda_1_sqrt / k'.lambda_S_sqrt := by rw [hk']; rfl
  have h_k2_t : k'.k2_t = c * k.k2_t := by
    simp only [e'_k2_t, e_k2_t, h_lambda_1_sqrt, h_lambda_S_sqrt, sq]
    first | done | ring1 | (field_simp; done) | (field_simp; ring1)
  have e_k1_t : k.k1_t = k.lambda_1_sqrt / k.lambda_Y_sqrt := by rw [hk]; rfl
  have e'_k1_t : k'.k1_t = k'.lambda_1_sqrt / k'.lambda_Y_sqrt := by rw [hk']; rfl
  have h_k1_t : k'.k1_t = c * k.k1_t := by
    simp only [e'_k1_t, e_k1_t, h_lambda_1_sqrt, h_lambda_Y_sqrt, sq]
    first | done | ring1 | (field_simp; done) | (field_simp; ring1)
  have e_V_1 : k.V_1 = k.ph_0 * k.S / k.M - (k.ph_l * (k.S * k.S_x + 2 * sq k.M * k.Q_sq)) / (k.M
      * k.lambda_Y_sqrt) - 2 * k.ph_t * k.k1_t * k.cos_phi_h := by rw [hk]; rfl
  have e'_V_1 : k'.V_1 = k'.ph_0 * k'.S / k'.M - (k'.ph_l * (k'.S * k'.S_x + 2 * sq k'.M *
      k'.Q_sq)) / (k'.M * k'.lambda_Y_sqrt) - 2 * k'.ph_t * k'.k1_t * k'.cos_phi_h := by
      rw [hk']; rfl
  have h_V_1 : k'.V_1 = c ^ 2 * k.V_1 := by
    simp only [e'_V_1, e_V_1, h_ph_0, h_S, h_M, h_ph_l, h_S_x, h_Q_sq, h_lambda_Y_sqrt, h_ph_t,
        h_k1_t, h_cos_phi_h, sq]
    first | done | ring1 | (field_simp; done) | (field_simp; ring1)
  have e_V_2 : k.V_2 = k.ph_0 * k.X / k.M - (k.ph_l * (k.X * k.S_x - 2 * sq k.M * k.Q_sq)) / (k.M
      * k.lambda_Y_sqrt) - 2 * k.ph_t * k.k1_t * k.cos_phi_h := by rw [hk]; rfl
  have e'_V_2 : k'.V_2 = k'.ph_0 * k'.X / k'.M - (k'.ph_l * (k'.X * k'.S_x - 2 * sq k'.M *
      k'.Q_sq)) / (k'.M * k'.lambda_Y_sqrt) - 2 * k'.ph_t * k'.k1_t * k'.cos_phi_h := by
      rw [hk']; rfl
  have h_V_2 : k'.V_2 = c ^ 2 * k.V_2 := by
    simp only [e'_V_2, e_V_2, h_ph_0, h_X, h_M, h_ph_l, h_S_x, h_Q_sq, h_lambda_Y_sqrt, h_ph_t,
        h_k1_t, h_cos_phi_h, sq]
    first | done | ring1 | (field_simp; done) | (field_simp; ring1)
  have e_V_p : k.V_p = 1 / 2 * (k.V_1 + k.V_2) := by rw [hk]; rfl
  have e'_V_p : k'.V_p = 1 / 2 * (k'.V_1 + k'.V_2) := by rw [hk']; rfl
  have h_V_p : k'.V_p = c ^ 2 * k.V_p := by
    simp only [e'_V_p, e_V_p, h_V_1, h_V_2, sq]
    first | done | ring1 | (field_simp; done) | (field_simp; ring1)
  have arg : ((4 * sq k'.M * k'.Q_sq) / sq k'.S_x) - (k'.ph_t_sq / sq k'.ph_0 + sq (k'.mh /
      k'.ph_0)) * (1 + ((4 * sq k'.M * k'.Q_sq) / sq k'.S_x)) = ((4 * sq k.M * k.Q_sq) / sq k.S_x)
      - (k.ph_t_sq / sq k.ph_0 + sq (k.mh / k.ph_0)) * (1 + ((4 * sq k.M * k.Q_sq) / sq k.S_x)) :=
      by
    rw [ratio, h_M, h_Q_sq, h_S_x]; simp only [sq]; field_simp
  have e_V_m : k.V_m = -(k.ph_0 * k.S_x) / (2 * k.M) * sqrt1p_1m (((4 * sq k.M * k.Q_sq) / sq
      k.S_x) - (k.ph_t_sq / sq k.ph_0 + sq (k.mh / k.ph_0)) * (1 + ((4 * sq k.M * k.Q_sq) / sq
      k.S_x))) := by rw [hk]; rfl
  have e'_V_m : k'.V_m = -(k'.ph_0 * k'.S_x) / (2 * k'.M) * sqrt1p_1m (((4 * sq k'.M * k'.Q_sq) /
      sq k'.S_x) - (k'.ph_t_sq / sq k'.ph_0 + sq (k'.mh / k'.ph_0)) * (1 + ((4 * sq k'.M *
      k'.Q_sq) / sq k'.S_x))) := by rw [hk']; rfl
  have h_V_m : k'.V_m = c ^ 2 * k.V_m := by
    simp only [e'_V_m, e_V_m, arg, h_ph_0, h_S_x, h_M, h_Q_sq, h_ph_t_sq, h_mh, sq]
    first | done | ring1 | (field_simp; done) | (field_simp; ring1)
  have e_t : k.t = sq k.mh - k.Q_sq - 2 * k.V_m := by rw [hk]; rfl
  have e'_t : k'.t = sq k'.mh - k'.Q_sq - 2 * k'.V_m := by rw [hk']; rfl
  have h_t : k'.t = c ^ 2 * k.t := by
    simp only [e'_t, e_t, h_mh, h_Q_sq, h_V_m, sq]
    first | done | ring1 | (field_simp; done) | (field_simp; ring1)
  have e_W_sq : k.W_sq = sq k.M + k.S_x - k.Q_sq := by rw [hk]; rfl
  have e'_W_sq : k'.W_sq = sq k'.M + k'.S_x - k'.Q_sq := by rw [hk']; rfl
  have h_W_sq : k'.W_sq = c ^ 2 * k.W_sq := by
    simp only [e'_W_sq, e_W_sq, h_M, h_S_x, h_Q_sq, sq]
    first | done | ring1 | (field_simp; done) | (field_simp; ring1)
  have e_mx_sq : k.mx_sq = sq k.M + k.t + (1 - k.z) * k.S_x := by rw [hk]; rfl
  have e'_mx_sq : k'.mx_sq = sq k'.M + k'.t + (1 - k'.z) * k'.S_x := by rw [hk']; rfl
  have h_mx_sq : k'.mx_sq = c ^ 2 * k.mx_sq := by
    simp only [e'_mx_sq, e_mx_sq, h_M, h_t, h_z, h_S_x, sq]
    first | done | ring1 | (field_simp; done) | (field_simp; ring1)
  have e_mx : k.mx = sqrt k.mx_sq := by rw [hk]; rfl
  have e'_mx : k'.mx = sqrt k'.mx_sq := by rw [hk']; rfl
  have h_mx : k'.mx = c * k.mx := by
    rw [e'_mx, e_mx, h_mx_sq]; simpa using sqrt_c hc 1 k.mx_sq
  have e_lambda_2 : k.lambda_2 = sq k.V_m + sq k.mh * k.Q_sq := by rw [hk]; rfl
  have e'_lambda_2 : k'.lambda_2 = sq k'.V_m + sq k'.mh * k'.Q_sq := by rw [hk']; rfl
  have h_lambda_2 : k'.lambda_2 = c ^ 4 * k.lambda_2 := by
    simp only [e'_lambda_2, e_lambda_2, h_V_m, h_mh, h_Q_sq, sq]
    first | done | ring1 | (field_simp; done) | (field_simp; ring1)
  have e_lambda_3 : k.lambda_3 = k.V_m + k.z * k.Q_sq := by rw [hk]; rfl
  have e'_lambda_3 : k'.lambda_3 = k'.V_m + k'.z * k'.Q_sq := by rw [hk']; rfl
  have h_lambda_3 : k'.lambda_3 = c ^ 2 * k.lambda_3 := by
    simp only [e'_lambda_3, e_lambda_3, h_V_m, h_z, h_Q_sq, sq]
    first | done | ring1 | (field_simp; done) | (field_simp; ring1)
  have e_lambda_2_sqrt : k.lambda_2_sqrt = sqrt k.lambda_2 := by rw [hk]; rfl
  have e'_lambda_2_sqrt : k'.lambda_2_sqrt = sqrt k'.lambda_2 := by rw [hk']; rfl
  have h_lambda_2_sqrt : k'.lambda_2_sqrt = c ^ 2 * k.lambda_2_sqrt := by
    rw [e'_lambda_2_sqrt, e_lambda_2_sqrt, h_lambda_2]; exact sqrt_c hc 2 _
  have e_lambda_3_sqrt : k.lambda_3_sqrt = sqrt k.lambda_3 := by rw [hk]; rfl
  have e'_lambda_3_sqrt : k'.lambda_3_sqrt = sqrt k'.lambda_3 := by rw [hk']; rfl
  have h_lambda_3_sqrt : k'.lambda_3_sqrt = c * k.lambda_3_sqrt := by
    rw [e'_lambda_3_sqrt, e_lambda_3_sqrt, h_lambda_3]; simpa using sqrt_c hc 1 k.lambda_3
  have e_vol_phi_h : k.vol_phi_h = -(1 / 2) * k.ph_t * k.lambda_1_sqrt * k.sin_phi_h := by
      rw [hk]; rfl
  have e'_vol_phi_h : k'.vol_phi_h = -(1 / 2) * k'.ph_t * k'.lambda_1_sqrt * k'.sin_phi_h := by
      rw [hk']; rfl
  have h_vol_phi_h : k'.vol_phi_h = c ^ 4 * k.vol_phi_h := by
    simp only [e'_vol_phi_h, e_vol_phi_h, h_ph_t, h_lambda_1_sqrt, h_sin_phi_h, sq]
    first | done | ring1 | (field_simp; done) | (field_simp; ring1)
  have e_C_1 : k.C_1 = (4 * k.M * k.ph_l * (k.Q_sq + 2 * k.x * sq k.M)) / sq (sq k.Q_sq) := by
      rw [hk]; rfl
  have e'_C_1 : k'.C_1 = (4 * k'.M * k'.ph_l * (k'.Q_sq + 2 * k'.x * sq k'.M)) / sq (sq k'.Q_sq)
      := by rw [hk']; rfl
  have h_C_1 : k'.C_1 = k.C_1 / c ^ 4 := by
    simp only [e'_C_1, e_C_1, h_M, h_ph_l, h_Q_sq, h_x, sq]
    first | done | ring1 | (field_simp; done) | (field_simp; ring1)
  have e : k' = Kinematics.mk k'.target k'.beam k'.hadron k'.S k'.M k'.m k'.mh k'.Mth k'.x k'.y
      k'.z k'.ph_t_sq k'.phi_h k'.phi k'.Q_sq k'.Q k'.t k'.W_sq k'.X k'.S_x k'.S_p k'.V_1 k'.V_2
      k'.V_m k'.V_p k'.lambda_S k'.lambda_X k'.lambda_Y k'.lambda_1 k'.lambda_2 k'.lambda_3
      k'.lambda_S_sqrt k'.lambda_X_sqrt k'.lambda_Y_sqrt k'.lambda_1_sqrt k'.lambda_2_sqrt
      k'.lambda_3_sqrt k'.mx_sq k'.mx k'.vol_phi_h k'.C_1 k'.ph_0 k'.ph_t k'.ph_l k'.cos_phi_h
      k'.sin_phi_h k'.q_0 k'.q_t k'.q_l k'.phi_q k'.cos_phi_q k'.sin_phi_q k'.k2_0 k'.k2_t k'.k2_l
      k'.k1_t k'.cos_phi k'.sin_phi := rfl
  rw [e, h_S, h_M, h_m, h_mh, h_Mth, h_x, h_y, h_z, h_ph_t_sq, h_phi_h, h_phi, h_Q_sq, h_Q, h_t,
      h_W_sq, h_X, h_S_x, h_S_p, h_V_1, h_V_2, h_V_m, h_V_p, h_lambda_S, h_lambda_X, h_lambda_Y,
      h_lambda_1, h_lambda_2, h_lambda_3, h_lambda_S_sqrt, h_lambda_X_sqrt, h_lambda_Y_sqrt,
      h_lambda_1_sqrt, h_lambda_2_sqrt, h_lambda_3_sqrt, h_mx_sq, h_mx, h_vol_phi_h, h_C_1,
      h_ph_0, h_ph_t, h_ph_l, h_cos_phi_h, h_sin_phi_h, h_q_0, h_q_t, h_q_l, h_phi_q, h_cos_phi_q,
      h_sin_phi_q, h_k2_0, h_k2_t, h_k2_l, h_k1_t, h_cos_phi, h_sin_phi]
  have t : k'.target = k.target := by rw [hk, hk']; rfl
  have b : k'.beam = k.beam := by rw [hk, hk']; rfl
  have h : k'.hadron = k.hadron := by rw [hk, hk']; rfl
  rw [t, b, h]
  rfl

set_option maxHeartbeats 4000000 in
theorem makeR_unit (hc : 0 < c) (kin : Kinematics ℝ) (tau phi_k R : ℝ) :
    KinematicsRad.make (kinInUnit c kin) tau phi_k (c ^ 2 * R)
      = kinRadInUnit c (KinematicsRad.make kin tau phi_k R) := by
  have c0 := hc.ne'
  obtain ⟨k, hk⟩ : ∃ k, k = KinematicsRad.make kin tau phi_k R := ⟨_, rfl⟩
  obtain ⟨k', hk'⟩ : ∃ k', k' = KinematicsRad.make (kinInUnit c kin) tau phi_k (c ^ 2 * R) := ⟨_,
      rfl⟩
  rw [← hk, ← hk']
  have h_S : k'.S = c ^ 2 * k.S := by rw [hk, hk']; rfl
  have h_M : k'.M = c * k.M := by rw [hk, hk']; rfl
  have h_m : k'.m = c * k.m := by rw [hk, hk']; rfl
  have h_mh : k'.mh = c * k.mh := by rw [hk, hk']; rfl
  have h_Mth : k'.Mth = c * k.Mth := by rw [hk, hk']; rfl
  have h_x : k'.x = k.x := by rw [hk, hk']; rfl
  have h_y : k'.y = k.y := by rw [hk, hk']; rfl
  have h_z : k'.z = k.z := by rw [hk, hk']; rfl
  have h_ph_t_sq : k'.ph_t_sq = c ^ 2 * k.ph_t_sq := by rw [hk, hk']; rfl
  have h_phi_h : k'.phi_h = k.phi_h := by rw [hk, hk']; rfl
  have h_phi : k'.phi = k.phi := by rw [hk, hk']; rfl
  have h_Q_sq : k'.Q_sq = c ^ 2 * k.Q_sq := by rw [hk, hk']; rfl
  have h_Q : k'.Q = c * k.Q := by rw [hk, hk']; rfl
  have h_t : k'.t = c ^ 2 * k.t := by rw [hk, hk']; rfl
  have h_W_sq : k'.W_sq = c ^ 2 * k.W_sq := by rw [hk, hk']; rfl
  have h_X : k'.X = c ^ 2 * k.X := by rw [hk, hk']; rfl
  have h_S_x : k'.S_x = c ^ 2 * k.S_x := by rw [hk, hk']; rfl
  have h_S_p : k'.S_p = c ^ 2 * k.S_p := by rw [hk, hk']; rfl
  have h_V_1 : k'.V_1 = c ^ 2 * k.V_1 := by rw [hk, hk']; rfl
  have h_V_2 : k'.V_2 = c ^ 2 * k.V_2 := by rw [hk, hk']; rfl
  have h_V_m : k'.V_m = c ^ 2 * k.V_m := by rw [hk, hk']; rfl
  have h_V_p : k'.V_p = c ^ 2 * k.V_p := by rw [hk, hk']; rfl
  have h_lambda_S : k'.lambda_S = c ^ 4 * k.lambda_S := by rw [hk, hk']; rfl
  have h_lambda_X : k'.lambda_X = c ^ 4 * k.lambda_X := by rw [hk, hk']; rfl
  have h_lambda_Y : k'.lambda_Y = c ^ 4 * k.lambda_Y := by rw [hk, hk']; rfl
  have h_lambda_1 : k'.lambda_1 = c ^ 6 * k.lambda_1 := by rw [hk, hk']; rfl
  have h_lambda_2 : k'.lambda_2 = c ^ 4 * k.lambda_2 := by rw [hk, hk']; rfl
  have h_lambda_3 : k'.lambda_3 = c ^ 2 * k.lambda_3 := by rw [hk, hk']; rfl
  have h_lambda_S_sqrt : k'.lambda_S_sqrt = c ^ 2 * k.lambda_S_sqrt := by rw [hk, hk']; rfl
  have h_lambda_X_sqrt : k'.lambda_X_sqrt = c ^ 2 * k.lambda_X_sqrt := by rw [hk, hk']; rfl
  have h_lambda_Y_sqrt : k'.lambda_Y_sqrt = c ^ 2 * k.lambda_Y_sqrt := by rw [hk, hk']; rfl
  have h_lambda_1_sqrt : k'.lambda_1_sqrt = c ^ 3 * k.lambda_1_sqrt := by rw [hk, hk']; rfl
  have h_lambda_2_sqrt : k'.lambda_2_sqrt = c ^ 2 * k.lambda_2_sqrt := by rw [hk, hk']; rfl
  have h_lambda_3_sqrt : k'.lambda_3_sqrt = c * k.lambda_3_sqrt := by rw [hk, hk']; rfl
  have h_mx_sq : k'.mx_sq = c ^ 2 * k.mx_sq := by rw [hk, hk']; rfl
  have h_mx : k'.mx = c * k.mx := by rw [hk, hk']; rfl
  have h_vol_phi_h : k'.vol_phi_h = c ^ 4 * k.vol_phi_h := by rw [hk, hk']; rfl
  have h_C_1 : k'.C_1 = k.C_1 / c ^ 4 := by rw [hk, hk']; rfl
  have h_ph_0 : k'.ph_0 = c * k.ph_0 := by rw [hk, hk']; rfl
  have h_ph_t : k'.ph_t = c * k.ph_t := by rw [hk, hk']; rfl
  have h_ph_l : k'.ph_l = c * k.ph_l := by rw [hk, hk']; rfl
  have h_cos_phi_h : k'.cos_phi_h = k.cos_phi_h := by rw [hk, hk']; rfl
  have h_sin_phi_h : k'.sin_phi_h = k.sin_phi_h := by rw [hk, hk']; rfl
  have h_q_0 : k'.q_0 = c * k.q_0 := by rw [hk, hk']; rfl
  have h_q_t : k'.q_t = c * k.q_t := by rw [hk, hk']; rfl
  have h_q_l : k'.q_l = c * k.q_l := by rw [hk, hk']; rfl
  have h_phi_q : k'.phi_q = k.phi_q := by rw [hk, hk']; rfl
  have h_cos_phi_q : k'.cos_phi_q = k.cos_phi_q := by rw [hk, hk']; rfl
  have h_sin_phi_q : k'.sin_phi_q = k.sin_phi_q := by rw [hk, hk']; rfl
  have h_k2_0 : k'.k2_0 = c * k.k2_0 := by rw [hk, hk']; rfl
  have h_k2_t : k'.k2_t = c * k.k2_t := by rw [hk, hk']; rfl
  have h_k2_l : k'.k2_l = c * k.k2_l := by rw [hk, hk']; rfl
  have h_k1_t : k'.k1_t = c * k.k1_t := by rw [hk, hk']; rfl
  have h_cos_phi : k'.cos_phi = k.cos_phi := by rw [hk, hk']; rfl
  have h_sin_phi : k'.sin_phi = k.sin_phi := by rw [hk, hk']; rfl
  have h_tau : k'.tau = k.tau := by rw [hk, hk']; rfl
  have h_phi_k : k'.phi_k = k.phi_k := by rw [hk, hk']; rfl
  have h_R : k'.R = c ^ 2 * k.R := by rw [hk, hk']; rfl
  have h_cos_phi_k : k'.cos_phi_k = k.cos_phi_k := by rw [hk, hk']; rfl
  have h_sin_phi_k : k'.sin_phi_k = k.sin_phi_k := by rw [hk, hk']; rfl
  have e_tau_min : k.tau_min = (k.S_x - k.lambda_Y_sqrt) / (2 * sq k.M) := by rw [hk]; rfl
  have e'_tau_min : k'.tau_min = (k'.S_x - k'.lambda_Y_sqrt) / (2 * sq k'.M) := by rw [hk']; rfl
  have h_tau_min : k'.tau_min = k.tau_min := by
    simp only [e'_tau_min, e_tau_min, h_S_x, h_lambda_Y_sqrt, h_M, sq]
    first | done | ring1 | (field_simp; done) | (field_simp; ring1)
  have e_tau_max : k.tau_max = (k.S_x + k.lambda_Y_sqrt) / (2 * sq k.M) := by rw [hk]; rfl
  have e'_tau_max : k'.tau_max = (k'.S_x + k'.lambda_Y_sqrt) / (2 * sq k'.M) := by rw [hk']; rfl
  have h_tau_max : k'.tau_max = k.tau_max := by
    simp only [e'_tau_max, e_tau_max, h_S_x, h_lambda_Y_sqrt, h_M, sq]
    first | done | ring1 | (field_simp; done) | (field_simp; ring1)
  have e_lambda_H : k.lambda_H = sq (k.z * k.S_x) - 4 * sq k.M * sq k.mh := by rw [hk]; rfl
  have e'_lambda_H : k'.lambda_H = sq (k'.z * k'.S_x) - 4 * sq k'.M * sq k'.mh := by rw [hk']; rfl
  have h_lambda_H : k'.lambda_H = c ^ 4 * k.lambda_H := by
    simp only [e'_lambda_H, e_lambda_H, h_z, h_S_x, h_M, h_mh, sq]
    first | done | ring1 | (field_simp; done) | (field_simp; ring1)
  have e_lambda_V : k.lambda_V = k.z * sq k.S_x - 4 * sq k.M * k.V_m := by rw [hk]; rfl
  have e'_lambda_V : k'.lambda_V = k'.z * sq k'.S_x - 4 * sq k'.M * k'.V_m := by rw [hk']; rfl
  have h_lambda_V : k'.lambda_V = c ^ 4 * k.lambda_V := by
    simp only [e'_lambda_V, e_lambda_V, h_z, h_S_x, h_M, h_V_m, sq]
    first | done | ring1 | (field_simp; done) | (field_simp; ring1)
  have e_lambda_RY : k.lambda_RY = k.R * (k.S_x - 2 * sq k.M * k.tau) := by rw [hk]; rfl
  have e'_lambda_RY : k'.lambda_RY = k'.R * (k'.S_x - 2 * sq k'.M * k'.tau) := by rw [hk']; rfl
  have h_lambda_RY : k'.lambda_RY = c ^ 4 * k.lambda_RY := by
    simp only [e'_lambda_RY, e_lambda_RY, h_R, h_S_x, h_M, h_tau, sq]
    first | done | ring1 | (field_simp; done) | (field_simp; ring1)
  have e_lambda_RV : k.lambda_RV = (2 * k.M) / k.lambda_Y_sqrt * ( 2 * sq k.M * k.R * k.ph_t *
      sqrt ((k.tau - k.tau_min) * (k.tau_max - k.tau)) * cos (k.phi_h - k.phi_k) + k.lambda_RY *
      k.ph_l) := by rw [hk]; rfl
  have e'_lambda_RV : k'.lambda_RV = (2 * k'.M) / k'.lambda_Y_sqrt * ( 2 * sq k'.M * k'.R *
      k'.ph_t * sqrt ((k'.tau - k'.tau_min) * (k'.tau_max - k'.tau)) * cos (k'.phi_h - k'.phi_k) +
      k'.lambda_RY * k'.ph_l) := by rw [hk']; rfl
  have h_lambda_RV : k'.lambda_RV = c ^ 4 * k.lambda_RV := by
    simp only [e'_lambda_RV, e_lambda_RV, h_M, h_lambda_Y_sqrt, h_R, h_ph_t, h_tau, h_tau_min,
        h_tau_max, h_phi_h, h_phi_k, h_lambda_RY, h_ph_l, sq]
    first | done | ring1 | (field_simp; done) | (field_simp; ring1)
  have e_mu : k.mu = k.ph_0 / k.M + 1 / k.lambda_Y_sqrt * ( (2 * k.tau * sq k.M - k.S_x) * k.ph_l
      / k.M - 2 * k.M * k.ph_t * cos (k.phi_h - k.phi_k) * sqrt ((k.tau - k.tau_min) * (k.tau_max
      - k.tau))) := by rw [hk]; rfl
  have e'_mu : k'.mu = k'.ph_0 / k'.M + 1 / k'.lambda_Y_sqrt * ( (2 * k'.tau * sq k'.M - k'.S_x) *
      k'.ph_l / k'.M - 2 * k'.M * k'.ph_t * cos (k'.phi_h - k'.phi_k) * sqrt ((k'.tau -
      k'.tau_min) * (k'.tau_max - k'.tau))) := by rw [hk']; rfl
  have h_mu : k'.mu = k.mu := by
    simp only [e'_mu, e_mu, h_ph_0, h_M, h_lambda_Y_sqrt, h_tau, h_S_x, h_ph_l, h_ph_t, h_phi_h,
        h_phi_k, h_tau_min, h_tau_max, sq]
    first | done | ring1 | (field_simp; done) | (field_simp; ring1)
  have e_lambda_z : k.lambda_z = (k.tau_max - k.tau) * (k.tau - k.tau_min) * k.lambda_1 := by
      rw [hk]; rfl
  have e'_lambda_z : k'.lambda_z = (k'.tau_max - k'.tau) * (k'.tau - k'.tau_min) * k'.lambda_1 :=
      by rw [hk']; rfl
  have h_lambda_z : k'.lambda_z = c ^ 6 * k.lambda_z := by
    simp only [e'_lambda_z, e_lambda_z, h_tau_max, h_tau, h_tau_min, h_lambda_1, sq]
    first | done | ring1 | (field_simp; done) | (field_simp; ring1)
  have e_lambda_z_sqrt : k.lambda_z_sqrt = sqrt k.lambda_z := by rw [hk]; rfl
  have e'_lambda_z_sqrt : k'.lambda_z_sqrt = sqrt k'.lambda_z := by rw [hk']; rfl
  have h_lambda_z_sqrt : k'.lambda_z_sqrt = c ^ 3 * k.lambda_z_sqrt := by
    rw [e'_lambda_z_sqrt, e_lambda_z_sqrt, h_lambda_z]; exact sqrt_c hc 3 _
  have e_z_1 : k.z_1 = 1 / k.lambda_Y * ( k.Q_sq * k.S_p + k.tau * (k.S * k.S_x + 2 * sq k.M *
      k.Q_sq) - 2 * k.M * k.lambda_z_sqrt * k.cos_phi_k) := by rw [hk]; rfl
  have e'_z_1 : k'.z_1 = 1 / k'.lambda_Y * ( k'.Q_sq * k'.S_p + k'.tau * (k'.S * k'.S_x + 2 * sq
      k'.M * k'.Q_sq) - 2 * k'.M * k'.lambda_z_sqrt * k'.cos_phi_k) := by rw [hk']; rfl
  have h_z_1 : k'.z_1 = k.z_1 := by
    simp only [e'_z_1, e_z_1, h_lambda_Y, h_Q_sq, h_S_p, h_tau, h_S, h_S_x, h_M,
        h_lambda_z_sqrt, h_cos_phi_k, sq]
    first | done | ring1 | (field_simp; done) | (field_simp; ring1)
  have e_z_2 : k.z_2 = 1 / k.lambda_Y * ( k.Q_sq * k.S_p + k.tau * (k.X * k.S_x - 2 * sq k.M *
      k.Q_sq) - 2 * k.M * k.lambda_z_sqrt * k.cos_phi_k) := by rw [hk]; rfl
  have e'_z_2 : k'.z_2 = 1 / k'.lambda_Y * ( k'.Q_sq * k'.S_p + k'.tau * (k'.X * k'.S_x - 2 * sq
      k'.M * k'.Q_sq) - 2 * k'.M * k'.lambda_z_sqrt * k'.cos_phi_k) := by rw [hk']; rfl
  have h_z_2 : k'.z_2 = k.z_2 := by
    simp only [e'_z_2, e_z_2, h_lambda_Y, h_Q_sq, h_S_p, h_tau, h_X, h_S_x, h_M,
        h_lambda_z_sqrt, h_cos_phi_k, sq]
    first | done | ring1 | (field_simp; done) | (field_simp; ring1)
  have e_k_0 : k.k_0 = k.R / (2 * k.M) := by rw [hk]; rfl
  have e'_k_0 : k'.k_0 = k'.R / (2 * k'.M) := by rw [hk']; rfl
  have h_k_0 : k'.k_0 = c * k.k_0 := by
    simp only [e'_k_0, e_k_0, h_R, h_M, sq]
    first | done | ring1 | (field_simp; done) | (field_simp; ring1)
  have e_k_t : k.k_t = (k.M * k.R * k.lambda_z_sqrt) / (k.lambda_1_sqrt * k.lambda_Y_sqrt) := by
      rw [hk]; rfl
  have e'_k_t : k'.k_t = (k'.M * k'.R * k'.lambda_z_sqrt) / (k'.lambda_1_sqrt * k'.lambda_Y_sqrt)
      := by rw [hk']; rfl
  have h_k_t : k'.k_t = c * k.k_t := by
    simp only [e'_k_t, e_k_t, h_M, h_R, h_lambda_z_sqrt, h_lambda_1_sqrt, h_lambda_Y_sqrt, sq]
    first | done | ring1 | (field_simp; done) | (field_simp; ring1)
  have e_k_l : k.k_l = k.lambda_RY / (2 * k.M * k.lambda_Y_sqrt) := by rw [hk]; rfl
  have e'_k_l : k'.k_l = k'.lambda_RY / (2 * k'.M * k'.lambda_Y_sqrt) := by rw [hk']; rfl
  have h_k_l : k'.k_l = c * k.k_l := by
    simp only [e'_k_l, e_k_l, h_lambda_RY, h_M, h_lambda_Y_sqrt, sq]
    first | done | ring1 | (field_simp; done) | (field_simp; ring1)
  have e_k_0_bar : k.k_0_bar = ((1 + k.tau - k.mu) * k.R) / (2 * k.mx) := by rw [hk]; rfl
  have e'_k_0_bar : k'.k_0_bar = ((1 + k'.tau - k'.mu) * k'.R) / (2 * k'.mx) := by rw [hk']; rfl
  have h_k_0_bar : k'.k_0_bar = c * k.k_0_bar := by
    simp only [e'_k_0_bar, e_k_0_bar, h_tau, h_mu, h_R, h_mx, sq]
    first | done | ring1 | (field_simp; done) | (field_simp; ring1)
  have e_F_22 : k.F_22 = 1 / sq k.z_2 := by rw [hk]; rfl
  have e'_F_22 : k'.F_22 = 1 / sq k'.z_2 := by rw [hk']; rfl
  have h_F_22 : k'.F_22 = k.F_22 := by
    simp only [e'_F_22, e_F_22, h_z_2, sq]
    first | done | ring1 | (field_simp; done) | (field_simp; ring1)
  have e_F_21 : k.F_21 = 1 / sq k.z_1 := by rw [hk]; rfl
  have e'_F_21 : k'.F_21 = 1 / sq k'.z_1 := by rw [hk']; rfl
  have h_F_21 : k'.F_21 = k.F_21 := by
    simp only [e'_F_21, e_F_21, h_z_1, sq]
    first | done | ring1 | (field_simp; done) | (field_simp; ring1)
  have e_F_2p : k.F_2p = k.F_22 + k.F_21 := by rw [hk]; rfl
  have e'_F_2p : k'.F_2p = k'.F_22 + k'.F_21 := by rw [hk']; rfl
  have h_F_2p : k'.F_2p = k.F_2p := by
    simp only [e'_F_2p, e_F_2p, h_F_22, h_F_21, sq]
    first | done | ring1 | (field_simp; done) | (field_simp; ring1)
  have e_F_2m : k.F_2m = k.F_22 - k.F_21 := by rw [hk]; rfl
  have e'_F_2m : k'.F_2m = k'.F_22 - k'.F_21 := by rw [hk']; rfl
  have h_F_2m : k'.F_2m = k.F_2m := by
    simp only [e'_F_2m, e_F_2m, h_F_22, h_F_21, sq]
    first | done | ring1 | (field_simp; done) | (field_simp; ring1)
  have e_F_d : k.F_d = 1 / (k.z_1 * k.z_2) := by rw [hk]; rfl
  have e'_F_d : k'.F_d = 1 / (k'.z_1 * k'.z_2) := by rw [hk']; rfl
  have h_F_d : k'.F_d = k.F_d := by
    simp only [e'_F_d, e_F_d, h_z_1, h_z_2, sq]
    first | done | ring1 | (field_simp; done) | (field_simp; ring1)
  have e_F_1p : k.F_1p = 1 / k.z_1 + 1 / k.z_2 := by rw [hk]; rfl
  have e'_F_1p : k'.F_1p = 1 / k'.z_1 + 1 / k'.z_2 := by rw [hk']; rfl
  have h_F_1p : k'.F_1p = k.F_1p := by
    simp only [e'_F_1p, e_F_1p, h_z_1, h_z_2, sq]
    first | done | ring1 | (field_simp; done) | (field_simp; ring1)
  have e_F_IR : k.F_IR = sq k.m * k.F_2p - (k.Q_sq + 2 * sq k.m) * k.F_d := by rw [hk]; rfl
  have e'_F_IR : k'.F_IR = sq k'.m * k'.F_2p - (k'.Q_sq + 2 * sq k'.m) * k'.F_d := by rw [hk']; rfl
  have h_F_IR : k'.F_IR = c ^ 2 * k.F_IR := by
    simp only [e'_F_IR, e_F_IR, h_m, h_F_2p, h_Q_sq, h_F_d, sq]
    first | done | ring1 | (field_simp; done) | (field_simp; ring1)
  have e_vol_phi_k_R : k.vol_phi_k_R = -(1 / 2) * k.sin_phi_k * k.M * k.lambda_z_sqrt /
      k.lambda_Y_sqrt := by rw [hk]; rfl
  have e'_vol_phi_k_R : k'.vol_phi_k_R = -(1 / 2) * k'.sin_phi_k * k'.M * k'.lambda_z_sqrt /
      k'.lambda_Y_sqrt := by rw [hk']; rfl
  have h_vol_phi_k_R : k'.vol_phi_k_R = c ^ 2 * k.vol_phi_k_R := by
    simp only [e'_vol_phi_k_R, e_vol_phi_k_R, h_sin_phi_k, h_M, h_lambda_z_sqrt,
        h_lambda_Y_sqrt, sq]
    first | done | ring1 | (field_simp; done) | (field_simp; ring1)
  have e_vol_phi_hk : k.vol_phi_hk = 1 / (2 * k.lambda_1) * ( k.R * k.vol_phi_h * (k.z_1 *
      k.lambda_Y - k.Q_sq * k.S_p - k.tau * (k.S * k.S_x + 2 * sq k.M * k.Q_sq)) + k.R *
      k.vol_phi_k_R * (k.S_x * (k.z * k.Q_sq * k.S_p - k.S * k.V_2 + k.X * k.V_1) - 4 * k.V_p * sq
      k.M * k.Q_sq)) := by rw [hk]; rfl
  have e'_vol_phi_hk : k'.vol_phi_hk = 1 / (2 * k'.lambda_1) * ( k'.R * k'.vol_phi_h * (k'.z_1 *
      k'.lambda_Y - k'.Q_sq * k'.S_p - k'.tau * (k'.S * k'.S_x + 2 * sq k'.M * k'.Q_sq)) + k'.R *
      k'.vol_phi_k_R * (k'.S_x * (k'.z * k'.Q_sq * k'.S_p - k'.S * k'.V_2 + k'.X * k'.V_1) - 4 *
      k'.V_p * sq k'.M * k'.Q_sq)) := by rw [hk']; rfl
  have h_vol_phi_hk : k'.vol_phi_hk = c ^ 4 * k.vol_phi_hk := by
    simp only [e'_vol_phi_hk, e_vol_phi_hk, h_lambda_1, h_R, h_vol_phi_h, h_z_1, h_lambda_Y,
        h_Q_sq, h_S_p, h_tau, h_S, h_S_x, h_M, h_vol_phi_k_R, h_z, h_V_2, h_X, h_V_1, h_V_p, sq]
    first | done | ring1 | (field_simp; done) | (field_simp; ring1)
  have e_shift_Q_sq : k.shift_Q_sq = k.Q_sq + k.R * k.tau := by rw [hk]; rfl
  have e'_shift_Q_sq : k'.shift_Q_sq = k'.Q_sq + k'.R * k'.tau := by rw [hk']; rfl
  have h_shift_Q_sq : k'.shift_Q_sq = c ^ 2 * k.shift_Q_sq := by
    simp only [e'_shift_Q_sq, e_shift_Q_sq, h_Q_sq, h_R, h_tau, sq]
    first | done | ring1 | (field_simp; done) | (field_simp; ring1)
  have e_shift_Q : k.shift_Q = sqrt k.shift_Q_sq := by rw [hk]; rfl
  have e'_shift_Q : k'.shift_Q = sqrt k'.shift_Q_sq := by rw [hk']; rfl
  have h_shift_Q : k'.shift_Q = c * k.shift_Q := by
    rw [e'_shift_Q, e_shift_Q, h_shift_Q_sq]; simpa using sqrt_c hc 1 k.shift_Q_sq
  have e_shift_S_x : k.shift_S_x = k.S_x - k.R := by rw [hk]; rfl
  have e'_shift_S_x : k'.shift_S_x = k'.S_x - k'.R := by rw [hk']; rfl
  have h_shift_S_x : k'.shift_S_x = c ^ 2 * k.shift_S_x := by
    simp only [e'_shift_S_x, e_shift_S_x, h_S_x, h_R, sq]
    first | done | ring1 | (field_simp; done) | (field_simp; ring1)
  have e_shift_V_m : k.shift_V_m = k.V_m + (k.lambda_RV - k.z * k.R * k.S_x) / (4 * sq k.M) := by
      rw [hk]; rfl
  have e'_shift_V_m : k'.shift_V_m = k'.V_m + (k'.lambda_RV - k'.z * k'.R * k'.S_x) / (4 * sq
      k'.M) := by rw [hk']; rfl
  have h_shift_V_m : k'.shift_V_m = c ^ 2 * k.shift_V_m := by
    simp only [e'_shift_V_m, e_shift_V_m, h_V_m, h_lambda_RV, h_z, h_R, h_S_x, h_M, sq]
    first | done | ring1 | (field_simp; done) | (field_simp; ring1)
  have e_shift_x : k.shift_x = k.shift_Q_sq / k.shift_S_x := by rw [hk]; rfl
  have e'_shift_x : k'.shift_x = k'.shift_Q_sq / k'.shift_S_x := by rw [hk']; rfl
  have h_shift_x : k'.shift_x = k.shift_x := by
    simp only [e'_shift_x, e_shift_x, h_shift_Q_sq, h_shift_S_x, sq]
    first | done | ring1 | (field_simp; done) | (field_simp; ring1)
  have e_shift_y : k.shift_y = k.y - k.R / k.S := by rw [hk]; rfl
  have e'_shift_y : k'.shift_y = k'.y - k'.R / k'.S := by rw [hk']; rfl
  have h_shift_y : k'.shift_y = k.shift_y := by
    simp only [e'_shift_y, e_shift_y, h_y, h_R, h_S, sq]
    first | done | ring1 | (field_simp; done) | (field_simp; ring1)
  have e_shift_z : k.shift_z = k.S_x / k.shift_S_x * k.z := by rw [hk]; rfl
  have e'_shift_z : k'.shift_z = k'.S_x / k'.shift_S_x * k'.z := by rw [hk']; rfl
  have h_shift_z : k'.shift_z = k.shift_z := by
    simp only [e'_shift_z, e_shift_z, h_S_x, h_shift_S_x, h_z, sq]
    first | done | ring1 | (field_simp; done) | (field_simp; ring1)
  have e_shift_t : k.shift_t = k.t - k.R * k.tau + (k.z * k.R * k.S_x - k.lambda_RV) / (2 * sq
      k.M) := by rw [hk]; rfl
  have e'_shift_t : k'.shift_t = k'.t - k'.R * k'.tau + (k'.z * k'.R * k'.S_x - k'.lambda_RV) / (2
      * sq k'.M) := by rw [hk']; rfl
  have h_shift_t : k'.shift_t = c ^ 2 * k.shift_t := by
    simp only [e'_shift_t, e_shift_t, h_t, h_R, h_tau, h_z, h_S_x, h_lambda_RV, h_M, sq]
    first | done | ring1 | (field_simp; done) | (field_simp; ring1)
  have e_shift_W_sq : k.shift_W_sq = k.W_sq - k.R * (1 + k.tau) := by rw [hk]; rfl
  have e'_shift_W_sq : k'.shift_W_sq = k'.W_sq - k'.R * (1 + k'.tau) := by rw [hk']; rfl
  have h_shift_W_sq : k'.shift_W_sq = c ^ 2 * k.shift_W_sq := by
    simp only [e'_shift_W_sq, e_shift_W_sq, h_W_sq, h_R, h_tau, sq]
    first | done | ring1 | (field_simp; done) | (field_simp; ring1)
  have e_shift_lambda_Y : k.shift_lambda_Y = k.lambda_Y + sq k.R - 2 * k.lambda_RY := by
      rw [hk]; rfl
  have e'_shift_lambda_Y : k'.shift_lambda_Y = k'.lambda_Y + sq k'.R - 2 * k'.lambda_RY := by
      rw [hk']; rfl
  have h_shift_lambda_Y : k'.shift_lambda_Y = c ^ 4 * k.shift_lambda_Y := by
    simp only [e'_shift_lambda_Y, e_shift_lambda_Y, h_lambda_Y, h_R, h_lambda_RY, sq]
    first | done | ring1 | (field_simp; done) | (field_simp; ring1)
  have e_shift_lambda_1 : k.shift_lambda_1 = k.lambda_1 + 1 / (4 * sq k.M) * ( (sq k.R - 2 *
      k.lambda_RY) * k.lambda_S + k.R * (k.S - 2 * sq k.M * k.z_1) * ( 2 * k.S * k.S_x + 4 * sq
      k.M * k.Q_sq - k.R * (k.S - 2 * sq k.M * k.z_1))) := by rw [hk]; rfl
  have e'_shift_lambda_1 : k'.shift_lambda_1 = k'.lambda_1 + 1 / (4 * sq k'.M) * ( (sq k'.R - 2 *
      k'.lambda_RY) * k'.lambda_S + k'.R * (k'.S - 2 * sq k'.M * k'.z_1) * ( 2 * k'.S * k'.S_x + 4
      * sq k'.M * k'.Q_sq - k'.R * (k'.S - 2 * sq k'.M * k'.z_1))) := by rw [hk']; rfl
  have h_shift_lambda_1 : k'.shift_lambda_1 = c ^ 6 * k.shift_lambda_1 := by
    simp only [e'_shift_lambda_1, e_shift_lambda_1, h_lambda_1, h_M, h_R, h_lambda_RY,
        h_lambda_S, h_S, h_z_1, h_S_x, h_Q_sq, sq]
    first | done | ring1 | (field_simp; done) | (field_simp; ring1)
  have e_shift_lambda_2 : k.shift_lambda_2 = sq k.shift_V_m + sq k.mh * k.shift_Q_sq := by
      rw [hk]; rfl
  have e'_shift_lambda_2 : k'.shift_lambda_2 = sq k'.shift_V_m + sq k'.mh * k'.shift_Q_sq := by
      rw [hk']; rfl
  have h_shift_lambda_2 : k'.shift_lambda_2 = c ^ 4 * k.shift_lambda_2 := by
    simp only [e'_shift_lambda_2, e_shift_lambda_2, h_shift_V_m, h_mh, h_shift_Q_sq, sq]
    first | done | ring1 | (field_simp; done) | (field_simp; ring1)
  have e_shift_lambda_3 : k.shift_lambda_3 = k.shift_V_m + k.shift_z * k.shift_Q_sq := by
      rw [hk]; rfl
  have e'_shift_lambda_3 : k'.shift_lambda_3 = k'.shift_V_m + k'.shift_z * k'.shift_Q_sq := by
      rw [hk']; rfl
  have h_shift_lambda_3 : k'.shift_lambda_3 = c ^ 2 * k.shift_lambda_3 := by
    simp only [e'_shift_lambda_3, e_shift_lambda_3, h_shift_V_m, h_shift_z, h_shift_Q_sq, sq]
    first | done | ring1 | (field_simp; done) | (field_simp; ring1)
  have e_shift_lambda_Y_sqrt : k.shift_lambda_Y_sqrt = sqrt k.shift_lambda_Y := by rw [hk]; rfl
  have e'_shift_lambda_Y_sqrt : k'.shift_lambda_Y_sqrt = sqrt k'.shift_lambda_Y := by rw [hk']; rfl
  have h_shift_lambda_Y_sqrt : k'.shift_lambda_Y_sqrt = c ^ 2 * k.shift_lambda_Y_sqrt := by
    rw [e'_shift_lambda_Y_sqrt, e_shift_lambda_Y_sqrt, h_shift_lambda_Y]; exact sqrt_c hc 2 _
  have e_shift_lambda_1_sqrt : k.shift_lambda_1_sqrt = sqrt k.shift_lambda_1 := by rw [hk]; rfl
  have e'_shift_lambda_1_sqrt : k'.shift_lambda_1_sqrt = sqrt k'.shift_lambda_1 := by rw [hk']; rfl
  have h_shift_lambda_1_sqrt : k'.shift_lambda_1_sqrt = c ^ 3 * k.shift_lambda_1_sqrt := by
    rw [e'_shift_lambda_1_sqrt, e_shift_lambda_1_sqrt, h_shift_lambda_1]; exact sqrt_c hc 3 _
  have e_shift_lambda_2_sqrt : k.shift_lambda_2_sqrt = sqrt k.shift_lambda_2 := by rw [hk]; rfl
  have e'_shift_lambda_2_sqrt : k'.shift_lambda_2_sqrt = sqrt k'.shift_lambda_2 := by rw [hk']; rfl
  have h_shift_lambda_2_sqrt : k'.shift_lambda_2_sqrt = c ^ 2 * k.shift_lambda_2_sqrt := by
    rw [e'_shift_lambda_2_sqrt, e_shift_lambda_2_sqrt, h_shift_lambda_2]; exact sqrt_c hc 2 _
  have e_shift_lambda_3_sqrt : k.shift_lambda_3_sqrt = sqrt k.shift_lambda_3 := by rw [hk]; rfl
  have e'_shift_lambda_3_sqrt : k'.shift_lambda_3_sqrt = sqrt k'.shift_lambda_3 := by rw [hk']; rfl
  have h_shift_lambda_3_sqrt : k'.shift_lambda_3_sqrt = c * k.shift_lambda_3_sqrt := by
    rw [e'_shift_lambda_3_sqrt, e_shift_lambda_3_sqrt, h_shift_lambda_3]; simpa using sqrt_c hc
        1 k.shift_lambda_3
  have e_shift_ph_t_sq : k.shift_ph_t_sq = k.ph_t_sq + 1 / k.shift_lambda_Y * ( (sq k.R - 2 *
      k.lambda_RY) * sq k.ph_l + (k.lambda_Y_sqrt * k.lambda_RV * k.ph_l) / k.M - sq k.lambda_RV /
      (4 * sq k.M)) := by rw [hk]; rfl
  have e'_shift_ph_t_sq : k'.shift_ph_t_sq = k'.ph_t_sq + 1 / k'.shift_lambda_Y * ( (sq k'.R - 2 *
      k'.lambda_RY) * sq k'.ph_l + (k'.lambda_Y_sqrt * k'.lambda_RV * k'.ph_l) / k'.M - sq
      k'.lambda_RV / (4 * sq k'.M)) := by rw [hk']; rfl
  have h_shift_ph_t_sq : k'.shift_ph_t_sq = c ^ 2 * k.shift_ph_t_sq := by
    simp only [e'_shift_ph_t_sq, e_shift_ph_t_sq, h_ph_t_sq, h_shift_lambda_Y, h_R, h_lambda_RY,
        h_ph_l, h_lambda_Y_sqrt, h_lambda_RV, h_M, sq]
    first | done | ring1 | (field_simp; done) | (field_simp; ring1)
  have e_shift_ph_t : k.shift_ph_t = sqrt k.shift_ph_t_sq := by rw [hk]; rfl
  have e'_shift_ph_t : k'.shift_ph_t = sqrt k'.shift_ph_t_sq := by rw [hk']; rfl
  have h_shift_ph_t : k'.shift_ph_t = c * k.shift_ph_t := by
    rw [e'_shift_ph_t, e_shift_ph_t, h_shift_ph_t_sq]; simpa using sqrt_c hc 1 k.shift_ph_t_sq
  have e_shift_ph_l : k.shift_ph_l = 1 / k.shift_lambda_Y_sqrt * (k.lambda_Y_sqrt * k.ph_l -
      k.lambda_RV / (2 * k.M)) := by rw [hk]; rfl
  have e'_shift_ph_l : k'.shift_ph_l = 1 / k'.shift_lambda_Y_sqrt * (k'.lambda_Y_sqrt * k'.ph_l -
      k'.lambda_RV / (2 * k'.M)) := by rw [hk']; rfl
  have h_shift_ph_l : k'.shift_ph_l = c * k.shift_ph_l := by
    simp only [e'_shift_ph_l, e_shift_ph_l, h_shift_lambda_Y_sqrt, h_lambda_Y_sqrt, h_ph_l,
        h_lambda_RV, h_M, sq]
    first | done | ring1 | (field_simp; done) | (field_simp; ring1)
  have e_shift_q_0 : k.shift_q_0 = k.shift_S_x / (2 * k.M) := by rw [hk]; rfl
  have e'_shift_q_0 : k'.shift_q_0 = k'.shift_S_x / (2 * k'.M) := by rw [hk']; rfl
  have h_shift_q_0 : k'.shift_q_0 = c * k.shift_q_0 := by
    simp only [e'_shift_q_0, e_shift_q_0, h_shift_S_x, h_M, sq]
    first | done | ring1 | (field_simp; done) | (field_simp; ring1)
  have e_shift_q_t : k.shift_q_t = k.shift_lambda_1_sqrt / k.lambda_S_sqrt := by rw [hk]; rfl
  have e'_shift_q_t : k'.shift_q_t = k'.shift_lambda_1_sqrt / k'.lambda_S_sqrt := by rw [hk']; rfl
  have h_shift_q_t : k'.shift_q_t = c * k.shift_q_t := by
    simp only [e'_shift_q_t, e_shift_q_t, h_shift_lambda_1_sqrt, h_lambda_S_sqrt, sq]
    first | done | ring1 | (field_simp; done) | (field_simp; ring1)
  have e_shift_q_l : k.shift_q_l = k.q_l - k.R / (2 * k.M * k.lambda_S_sqrt) * (k.S - 2 * sq k.M *
      k.z_1) := by rw [hk]; rfl
  have e'_shift_q_l : k'.shift_q_l = k'.q_l - k'.R / (2 * k'.M * k'.lambda_S_sqrt) * (k'.S - 2 *
      sq k'.M * k'.z_1) := by rw [hk']; rfl
  have h_shift_q_l : k'.shift_q_l = c * k.shift_q_l := by
    simp only [e'_shift_q_l, e_shift_q_l, h_q_l, h_R, h_M, h_lambda_S_sqrt, h_S, h_z_1, sq]
    first | done | ring1 | (field_simp; done) | (field_simp; ring1)
  have e_shift_k1_t : k.shift_k1_t = k.shift_lambda_1_sqrt / k.shift_lambda_Y_sqrt := by
      rw [hk]; rfl
  have e'_shift_k1_t : k'.shift_k1_t = k'.shift_lambda_1_sqrt / k'.shift_lambda_Y_sqrt := by
      rw [hk']; rfl
  have h_shift_k1_t : k'.shift_k1_t = c * k.shift_k1_t := by
    simp only [e'_shift_k1_t, e_shift_k1_t, h_shift_lambda_1_sqrt, h_shift_lambda_Y_sqrt, sq]
    first | done | ring1 | (field_simp; done) | (field_simp; ring1)
  have e_shift_mx_sq : k.shift_mx_sq = k.mx_sq - k.R * (1 + k.tau) + (k.z * k.R * k.S_x -
      k.lambda_RV) / (2 * sq k.M) := by rw [hk]; rfl
  have e'_shift_mx_sq : k'.shift_mx_sq = k'.mx_sq - k'.R * (1 + k'.tau) + (k'.z * k'.R * k'.S_x -
      k'.lambda_RV) / (2 * sq k'.M) := by rw [hk']; rfl
  have h_shift_mx_sq : k'.shift_mx_sq = c ^ 2 * k.shift_mx_sq := by
    simp only [e'_shift_mx_sq, e_shift_mx_sq, h_mx_sq, h_R, h_tau, h_z, h_S_x, h_lambda_RV, h_M, sq]
    first | done | ring1 | (field_simp; done) | (field_simp; ring1)
  have e_shift_mx : k.shift_mx = sqrt k.shift_mx_sq := by rw [hk]; rfl
  have e'_shift_mx : k'.shift_mx = sqrt k'.shift_mx_sq := by rw [hk']; rfl
  have h_shift_mx : k'.shift_mx = c * k.shift_mx := by
    rw [e'_shift_mx, e_shift_mx, h_shift_mx_sq]; simpa using sqrt_c hc 1 k.shift_mx_sq
  have e_shift_vol_phi_h : k.shift_vol_phi_h = k.vol_phi_h + 1 / (2 * k.lambda_1) * ( k.R *
      k.vol_phi_h * ( k.tau * k.lambda_S + 2 * sq k.m * k.S_x + k.Q_sq * k.S - k.z_1 * (k.S *
      k.S_x + 2 * sq k.M * k.Q_sq)) + k.R * k.vol_phi_k_R * ( 2 * sq k.m * (4 * k.V_m * sq k.M -
      k.z * sq k.S_x) + k.S * (k.S * k.V_2 - k.X * k.V_1 - k.z * k.Q_sq * k.S_x) + 2 * k.V_1 * sq
      k.M * k.Q_sq)) := by rw [hk]; rfl
  have e'_shift_vol_phi_h : k'.shift_vol_phi_h = k'.vol_phi_h + 1 / (2 * k'.lambda_1) * ( k'.R *
      k'.vol_phi_h * ( k'.tau * k'.lambda_S + 2 * sq k'.m * k'.S_x + k'.Q_sq * k'.S - k'.z_1 *
      (k'.S * k'.S_x + 2 * sq k'.M * k'.Q_sq)) + k'.R * k'.vol_phi_k_R * ( 2 * sq k'.m * (4 *
      k'.V_m * sq k'.M - k'.z * sq k'.S_x) + k'.S * (k'.S * k'.V_2 - k'.X * k'.V_1 - k'.z *
      k'.Q_sq * k'.S_x) + 2 * k'.V_1 * sq k'.M * k'.Q_sq)) := by rw [hk']; rfl
  have h_shift_vol_phi_h : k'.shift_vol_phi_h = c ^ 4 * k.shift_vol_phi_h := by
    simp only [e'_shift_vol_phi_h, e_shift_vol_phi_h, h_vol_phi_h, h_lambda_1, h_R, h_tau,
        h_lambda_S, h_m, h_S_x, h_Q_sq, h_S, h_z_1, h_M, h_vol_phi_k_R, h_V_m, h_z, h_V_2, h_X,
        h_V_1, sq]
    first | done | ring1 | (field_simp; done) | (field_simp; ring1)
  have e_shift_C_1 : k.shift_C_1 =  (4 * k.M * k.shift_ph_l * (k.shift_Q_sq + 2 * k.shift_x * sq
      k.M)) / sq (sq k.shift_Q_sq) := by rw [hk]; rfl
  have e'_shift_C_1 : k'.shift_C_1 =  (4 * k'.M * k'.shift_ph_l * (k'.shift_Q_sq + 2 * k'.shift_x
      * sq k'.M)) / sq (sq k'.shift_Q_sq) := by rw [hk']; rfl
  have h_shift_C_1 : k'.shift_C_1 = k.shift_C_1 / c ^ 4 := by
    simp only [e'_shift_C_1, e_shift_C_1, h_M, h_shift_ph_l, h_shift_Q_sq, h_shift_x, sq]
    first | done | ring1 | (field_simp; done) | (field_simp; ring1)
  have e_shift_sin_phi_h : k.shift_sin_phi_h = -2 * k.shift_vol_phi_h / (k.shift_ph_t *
      k.shift_q_t * k.lambda_S_sqrt) := by rw [hk]; rfl
  have e'_shift_sin_phi_h : k'.shift_sin_phi_h = -2 * k'.shift_vol_phi_h / (k'.shift_ph_t *
      k'.shift_q_t * k'.lambda_S_sqrt) := by rw [hk']; rfl
  have h_shift_sin_phi_h : k'.shift_sin_phi_h = k.shift_sin_phi_h := by
    simp only [e'_shift_sin_phi_h, e_shift_sin_phi_h, h_shift_vol_phi_h, h_shift_ph_t,
        h_shift_q_t, h_lambda_S_sqrt, sq]
    first | done | ring1 | (field_simp; done) | (field_simp; ring1)
  have e_shift_cos_phi_h : k.shift_cos_phi_h =  1 / (4 * sq k.M * k.shift_ph_t * k.shift_q_t *
      k.shift_lambda_Y_sqrt * k.lambda_S_sqrt) * ( k.shift_lambda_Y * (k.z * k.S * k.S_x - 2 * sq
      k.M * k.V_1) - (k.lambda_V - k.lambda_RV) * (k.S * k.shift_S_x + 2 * sq k.M * k.Q_sq + 2 *
      sq k.M * k.z_1 * k.R)) := by rw [hk]; rfl
  have e'_shift_cos_phi_h : k'.shift_cos_phi_h =  1 / (4 * sq k'.M * k'.shift_ph_t * k'.shift_q_t
      * k'.shift_lambda_Y_sqrt * k'.lambda_S_sqrt) * ( k'.shift_lambda_Y * (k'.z * k'.S * k'.S_x -
      2 * sq k'.M * k'.V_1) - (k'.lambda_V - k'.lambda_RV) * (k'.S * k'.shift_S_x + 2 * sq k'.M *
      k'.Q_sq + 2 * sq k'.M * k'.z_1 * k'.R)) := by rw [hk']; rfl
  have h_shift_cos_phi_h : k'.shift_cos_phi_h = k.shift_cos_phi_h := by
    simp only [e'_shift_cos_phi_h, e_shift_cos_phi_h, h_M, h_shift_ph_t, h_shift_q_t,
        h_shift_lambda_Y_sqrt, h_lambda_S_sqrt, h_shift_lambda_Y, h_z, h_S, h_S_x, h_V_1,
        h_lambda_V, h_lambda_RV, h_shift_S_x, h_Q_sq, h_z_1, h_R, sq]
    first | done | ring1 | (field_simp; done) | (field_simp; ring1)
  have e_shift_phi_h : k.shift_phi_h = atan2 k.shift_sin_phi_h k.shift_cos_phi_h := by rw [hk]; rfl
  have e'_shift_phi_h : k'.shift_phi_h = atan2 k'.shift_sin_phi_h k'.shift_cos_phi_h := by
      rw [hk']; rfl
  have h_shift_phi_h : k'.shift_phi_h = k.shift_phi_h := by
    simp only [e'_shift_phi_h, e_shift_phi_h, h_shift_sin_phi_h, h_shift_cos_phi_h, sq]
    first | done | ring1 | (field_simp; done) | (field_simp; ring1)
  have e_shift_sin_phi_q : k.shift_sin_phi_q = 1 / k.shift_q_t * ( k.q_t * k.sin_phi_q - (2 * k.M)
      / k.lambda_Y_sqrt * ( k.k_t * (-k.q_l * k.sin_phi * k.cos_phi_k + k.lambda_Y_sqrt / (2 *
      k.M) * k.cos_phi * k.sin_phi_k) + k.k_l * k.q_t * k.sin_phi)) := by rw [hk]; rfl
  have e'_shift_sin_phi_q : k'.shift_sin_phi_q = 1 / k'.shift_q_t * ( k'.q_t * k'.sin_phi_q - (2 *
      k'.M) / k'.lambda_Y_sqrt * ( k'.k_t * (-k'.q_l * k'.sin_phi * k'.cos_phi_k +
      k'.lambda_Y_sqrt / (2 * k'.M) * k'.cos_phi * k'.sin_phi_k) + k'.k_l * k'.q_t * k'.sin_phi))
      := by rw [hk']; rfl
  have h_shift_sin_phi_q : k'.shift_sin_phi_q = k.shift_sin_phi_q := by
    simp only [e'_shift_sin_phi_q, e_shift_sin_phi_q, h_shift_q_t, h_q_t, h_sin_phi_q, h_M,
        h_lambda_Y_sqrt, h_k_t, h_q_l, h_sin_phi, h_cos_phi_k, h_cos_phi, h_sin_phi_k, h_k_l,
        sq]
    first | done | ring1 | (field_simp; done) | (field_simp; ring1)
  have e_shift_cos_phi_q : k.shift_cos_phi_q = 1 / k.shift_q_t * ( k.q_t * k.cos_phi_q - (2 * k.M)
      / k.lambda_Y_sqrt * ( k.k_t * (k.q_l * k.cos_phi * k.cos_phi_k + k.lambda_Y_sqrt / (2 * k.M)
      * k.sin_phi * k.sin_phi_k) - k.k_l * k.q_t * k.cos_phi)) := by rw [hk]; rfl
  have e'_shift_cos_phi_q : k'.shift_cos_phi_q = 1 / k'.shift_q_t * ( k'.q_t * k'.cos_phi_q - (2 *
      k'.M) / k'.lambda_Y_sqrt * ( k'.k_t * (k'.q_l * k'.cos_phi * k'.cos_phi_k + k'.lambda_Y_sqrt
      / (2 * k'.M) * k'.sin_phi * k'.sin_phi_k) - k'.k_l * k'.q_t * k'.cos_phi)) := by
      rw [hk']; rfl
  have h_shift_cos_phi_q : k'.shift_cos_phi_q = k.shift_cos_phi_q := by
    simp only [e'_shift_cos_phi_q, e_shift_cos_phi_q, h_shift_q_t, h_q_t, h_cos_phi_q, h_M,
        h_lambda_Y_sqrt, h_k_t, h_q_l, h_cos_phi, h_cos_phi_k, h_sin_phi, h_sin_phi_k, h_k_l,
        sq]
    first | done | ring1 | (field_simp; done) | (field_simp; ring1)
  have e_shift_phi_q : k.shift_phi_q = atan2 k.shift_sin_phi_q k.shift_cos_phi_q := by rw [hk]; rfl
  have e'_shift_phi_q : k'.shift_phi_q = atan2 k'.shift_sin_phi_q k'.shift_cos_phi_q := by
      rw [hk']; rfl
  have h_shift_phi_q : k'.shift_phi_q = k.shift_phi_q := by
    simp only [e'_shift_phi_q, e_shift_phi_q, h_shift_sin_phi_q, h_shift_cos_phi_q, sq]
    first | done | ring1 | (field_simp; done) | (field_simp; ring1)
  have e : k' = KinematicsRad.mk k'.target k'.beam k'.hadron k'.S k'.M k'.m k'.mh k'.Mth k'.x k'.y
      k'.z k'.ph_t_sq k'.phi_h k'.phi k'.Q_sq k'.Q k'.t k'.W_sq k'.X k'.S_x k'.S_p k'.V_1 k'.V_2
      k'.V_m k'.V_p k'.lambda_S k'.lambda_X k'.lambda_Y k'.lambda_1 k'.lambda_2 k'.lambda_3
      k'.lambda_S_sqrt k'.lambda_X_sqrt k'.lambda_Y_sqrt k'.lambda_1_sqrt k'.lambda_2_sqrt
      k'.lambda_3_sqrt k'.mx_sq k'.mx k'.vol_phi_h k'.C_1 k'.ph_0 k'.ph_t k'.ph_l k'.cos_phi_h
      k'.sin_phi_h k'.q_0 k'.q_t k'.q_l k'.phi_q k'.cos_phi_q k'.sin_phi_q k'.k2_0 k'.k2_t k'.k2_l
      k'.k1_t k'.cos_phi k'.sin_phi k'.tau k'.phi_k k'.R k'.tau_min k'.tau_max k'.mu k'.z_1 k'.z_2
      k'.lambda_V k'.lambda_RV k'.lambda_RY k'.lambda_H k'.lambda_z k'.lambda_z_sqrt k'.k_0_bar
      k'.vol_phi_k_R k'.vol_phi_hk k'.F_22 k'.F_21 k'.F_2p k'.F_2m k'.F_d k'.F_1p k'.F_IR k'.k_0
      k'.k_t k'.k_l k'.cos_phi_k k'.sin_phi_k k'.shift_x k'.shift_y k'.shift_z k'.shift_ph_t_sq
      k'.shift_phi_h k'.shift_phi_q k'.shift_cos_phi_h k'.shift_sin_phi_h k'.shift_cos_phi_q
      k'.shift_sin_phi_q k'.shift_Q_sq k'.shift_Q k'.shift_t k'.shift_W_sq k'.shift_S_x
      k'.shift_V_m k'.shift_lambda_Y k'.shift_lambda_1 k'.shift_lambda_2 k'.shift_lambda_3
      k'.shift_lambda_Y_sqrt k'.shift_lambda_1_sqrt k'.shift_lambda_2_sqrt k'.shift_lambda_3_sqrt
      k'.shift_mx_sq k'.shift_mx k'.shift_vol_phi_h k'.shift_C_1 k'.shift_ph_t k'.shift_ph_l
      k'.shift_q_0 k'.shift_q_t k'.shift_q_l k'.shift_k1_t := rfl
  rw [e, h_S, h_M, h_m, h_mh, h_Mth, h_x, h_y, h_z, h_ph_t_sq, h_phi_h, h_phi, h_Q_sq, h_Q, h_t,
      h_W_sq, h_X, h_S_x, h_S_p, h_V_1, h_V_2, h_V_m, h_V_p, h_lambda_S, h_lambda_X, h_lambda_Y,
      h_lambda_1, h_lambda_2, h_lambda_3, h_lambda_S_sqrt, h_lambda_X_sqrt, h_lambda_Y_sqrt,
      h_lambda_1_sqrt, h_lambda_2_sqrt, h_lambda_3_sqrt, h_mx_sq, h_mx, h_vol_phi_h, h_C_1,
      h_ph_0, h_ph_t, h_ph_l, h_cos_phi_h, h_sin_phi_h, h_q_0, h_q_t, h_q_l, h_phi_q, h_cos_phi_q,
      h_sin_phi_q, h_k2_0, h_k2_t, h_k2_l, h_k1_t, h_cos_phi, h_sin_phi, h_tau, h_phi_k, h_R,
      h_tau_min, h_tau_max, h_mu, h_z_1, h_z_2, h_lambda_V, h_lambda_RV, h_lambda_RY, h_lambda_H,
      h_lambda_z, h_lambda_z_sqrt, h_k_0_bar, h_vol_phi_k_R, h_vol_phi_hk, h_F_22, h_F_21, h_F_2p,
      h_F_2m, h_F_d, h_F_1p, h_F_IR, h_k_0, h_k_t, h_k_l, h_cos_phi_k, h_sin_phi_k, h_shift_x,
      h_shift_y, h_shift_z, h_shift_ph_t_sq, h_shift_phi_h, h_shift_phi_q, h_shift_cos_phi_h,
      h_shift_sin_phi_h, h_shift_cos_phi_q, h_shift_sin_phi_q, h_shift_Q_sq, h_shift_Q, h_shift_t,
      h_shift_W_sq, h_shift_S_x, h_shift_V_m, h_shift_lambda_Y, h_shift_lambda_1,
      h_shift_lambda_2, h_shift_lambda_3, h_shift_lambda_Y_sqrt, h_shift_lambda_1_sqrt,
      h_shift_lambda_2_sqrt, h_shift_lambda_3_sqrt, h_shift_mx_sq, h_shift_mx, h_shift_vol_phi_h,
      h_shift_C_1, h_shift_ph_t, h_shift_ph_l, h_shift_q_0, h_shift_q_t, h_shift_q_l,
      h_shift_k1_t]
  have t : k'.target = k.target := by rw [hk, hk']; rfl
  have b : k'.beam = k.beam := by rw [hk, hk']; rfl
  have h : k'.hadron = k.hadron := by rw [hk, hk']; rfl
  rw [t, b, h]
  rfl

end Sidis.Lemmas.Units
