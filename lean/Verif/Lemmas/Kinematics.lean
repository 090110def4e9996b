import Verif.Spec.Kinematics
import Verif.Lemmas.Transform
import Mathlib.Analysis.SpecialFunctions.Pow.Real
import Mathlib.Tactic.LinearCombination
import Mathlib.Tactic.FieldSimp

/-! # Lemmas about kinematics -/

namespace Sidis

open Spec

/-- `π - φ` wrapped. -/
theorem wrapPhiQ_spec (phi : ℝ) : -Real.pi ≤ wrapPhiQ phi ∧ wrapPhiQ phi ≤ Real.pi ∧
    ∃ n : ℤ, wrapPhiQ phi = Real.pi - phi + n * (2 * Real.pi) := by
  have hpi := Real.pi_pos
  have key : ∃ n : ℤ, fmodR (Real.pi - phi) (2 * Real.pi) = Real.pi - phi + n * (2 * Real.pi) :=
    ⟨-truncR ((Real.pi - phi) / (2 * Real.pi)), by unfold fmodR; push_cast; ring⟩
  have hb : -(2 * Real.pi) < fmodR (Real.pi - phi) (2 * Real.pi) ∧
      fmodR (Real.pi - phi) (2 * Real.pi) < 2 * Real.pi := by
    unfold fmodR truncR
    set u := (Real.pi - phi) / (2 * Real.pi) with hu
    have e : Real.pi - phi = 2 * Real.pi * u := by rw [hu]; field_simp
    rw [e]
    split_ifs with h
    · have h1 := Int.floor_le u
      have h2 := Int.lt_floor_add_one u
      constructor <;> nlinarith
    · have h1 := Int.le_ceil u
      have h2 := Int.ceil_lt_add_one u
      constructor <;> nlinarith
  have e : wrapPhiQ phi = (if Real.pi < fmodR (Real.pi - phi) (2 * Real.pi)
      then fmodR (Real.pi - phi) (2 * Real.pi) - 2 * Real.pi
      else if fmodR (Real.pi - phi) (2 * Real.pi) < -Real.pi
      then fmodR (Real.pi - phi) (2 * Real.pi) + 2 * Real.pi
      else fmodR (Real.pi - phi) (2 * Real.pi)) := rfl
  rw [e]
  obtain ⟨n, hn⟩ := key
  split_ifs with h1 h2
  · exact ⟨by linarith, by linarith, n - 1, by rw [hn]; push_cast; ring⟩
  · exact ⟨by linarith, by linarith, n + 1, by rw [hn]; push_cast; ring⟩
  · exact ⟨by linarith, by linarith, n, hn⟩

theorem cos_wrapPhiQ (phi : ℝ) : Real.cos (wrapPhiQ phi) = -Real.cos phi := by
  obtain ⟨-, -, n, hn⟩ := wrapPhiQ_spec phi
  rw [hn, Real.cos_add_int_mul_two_pi, Real.cos_pi_sub]

theorem sin_wrapPhiQ (phi : ℝ) : Real.sin (wrapPhiQ phi) = Real.sin phi := by
  obtain ⟨-, -, n, hn⟩ := wrapPhiQ_spec phi
  rw [hn, Real.sin_add_int_mul_two_pi, Real.sin_pi_sub]

theorem sqrt1p1mR_eq {x : ℝ} (h : -1 ≤ x) : sqrt1p1mR x = √(1 + x) - 1 := by
  unfold sqrt1p1mR
  split_ifs with h0
  · rw [h0]; simp
  · have hp : 0 < 1 + x := by
      rcases lt_or_eq_of_le h with h1 | h1
      · linarith
      · exact absurd h1.symm h0
    rw [Real.sqrt_eq_rpow, Real.rpow_def_of_pos hp, mul_comm]

/-- The relations between the cached quantities of a physical point. -/
structure KinRel (K : Kinematics ℝ) : Prop where
  M_pos : 0 < K.M
  S_pos : 0 < K.S
  Sx_pos : 0 < K.S_x
  Q2_pos : 0 < K.Q_sq
  z_pos : 0 < K.z
  x_eq : K.x = K.Q_sq / K.S_x
  y_eq : K.y = K.S_x / K.S
  X_eq : K.X = K.S - K.S_x
  Sp_eq : K.S_p = 2 * K.S - K.S_x
  Q_sqr : K.Q ^ 2 = K.Q_sq
  Q_pos : 0 < K.Q
  lS_eq : K.lambda_S = K.S ^ 2 - 4 * K.M ^ 2 * K.m ^ 2
  lX_eq : K.lambda_X = K.X ^ 2 - 4 * K.M ^ 2 * K.m ^ 2
  lY_eq : K.lambda_Y = K.S_x ^ 2 + 4 * K.M ^ 2 * K.Q_sq
  l1_eq : K.lambda_1 = K.Q_sq * (K.S * K.X - K.M ^ 2 * K.Q_sq) - K.m ^ 2 * K.lambda_Y
  lS_pos : 0 < K.lambda_S_sqrt
  lY_pos : 0 < K.lambda_Y_sqrt
  l1_nonneg : 0 ≤ K.lambda_1_sqrt
  lS_sq : K.lambda_S_sqrt ^ 2 = K.lambda_S
  lY_sq : K.lambda_Y_sqrt ^ 2 = K.lambda_Y
  l1_sq : K.lambda_1_sqrt ^ 2 = K.lambda_1
  ph_0_eq : K.ph_0 = K.z * K.S_x / (2 * K.M)
  ph_t_nonneg : 0 ≤ K.ph_t
  ph_t_sqr : K.ph_t ^ 2 = K.ph_t_sq
  ph_l_nonneg : 0 ≤ K.ph_l
  ph_l_sq : K.ph_l ^ 2 = K.ph_0 ^ 2 - K.ph_t ^ 2 - K.mh ^ 2
  q_0_eq : K.q_0 = K.S_x / (2 * K.M)
  q_t_eq : K.q_t = K.lambda_1_sqrt / K.lambda_S_sqrt
  q_l_eq : K.q_l = (2 * K.M ^ 2 * K.Q_sq + K.S * K.S_x) / (2 * K.M * K.lambda_S_sqrt)
  k2_0_eq : K.k2_0 = K.X / (2 * K.M)
  k2_t_eq : K.k2_t = K.lambda_1_sqrt / K.lambda_S_sqrt
  k2_l_eq : K.k2_l = (K.S * K.X - 2 * K.M ^ 2 * K.Q_sq - 4 * K.M ^ 2 * K.m ^ 2) /
    (2 * K.M * K.lambda_S_sqrt)
  k1_t_eq : K.k1_t = K.lambda_1_sqrt / K.lambda_Y_sqrt
  V_1_eq : K.V_1 = K.ph_0 * K.S / K.M
    - (K.ph_l * (K.S * K.S_x + 2 * K.M ^ 2 * K.Q_sq)) / (K.M * K.lambda_Y_sqrt)
    - 2 * K.ph_t * K.k1_t * K.cos_phi_h
  V_2_eq : K.V_2 = K.ph_0 * K.X / K.M
    - (K.ph_l * (K.X * K.S_x - 2 * K.M ^ 2 * K.Q_sq)) / (K.M * K.lambda_Y_sqrt)
    - 2 * K.ph_t * K.k1_t * K.cos_phi_h
  V_p_eq : K.V_p = 1 / 2 * (K.V_1 + K.V_2)
  V_m_eq : K.V_m = K.q_0 * K.ph_0 - K.lambda_Y_sqrt / (2 * K.M) * K.ph_l
  t_eq : K.t = K.mh ^ 2 - K.Q_sq - 2 * K.V_m
  W_eq : K.W_sq = K.M ^ 2 + K.S_x - K.Q_sq
  mx_eq : K.mx_sq = K.M ^ 2 + K.t + (1 - K.z) * K.S_x
  vol_eq : K.vol_phi_h = -(1 / 2) * K.ph_t * K.lambda_1_sqrt * K.sin_phi_h
  cos_h : K.cos_phi_h = Real.cos K.phi_h
  sin_h : K.sin_phi_h = Real.sin K.phi_h
  cos_p : K.cos_phi = Real.cos K.phi
  sin_p : K.sin_phi = Real.sin K.phi
  cos_q : K.cos_phi_q = Real.cos K.phi_q
  sin_q : K.sin_phi_q = Real.sin K.phi_q
  cos_qp : K.cos_phi_q = -K.cos_phi
  sin_qp : K.sin_phi_q = K.sin_phi

theorem kinRel_of_physical {ps : Particles ℝ} {S : ℝ} {pt : PhaseSpace ℝ}
    (h : Physical ps S pt) : KinRel (.make ps S pt) := by
  obtain ⟨hM, hm, hb, hx, hy, hz, ht, hl, hh⟩ := h
  have hS : 0 < S := lt_of_le_of_lt (by positivity) hb
  have hSx : 0 < S * pt.y := mul_pos hS hy
  have hQ : 0 < S * pt.x * pt.y := mul_pos (mul_pos hS hx) hy
  set K := Kinematics.make ps S pt with hK
  have hph0 : 0 < pt.z * (S * pt.y) / (2 * ps.M) := by positivity
  have eph0 : K.ph_0 = pt.z * (S * pt.y) / (2 * ps.M) := rfl
  have elS : K.lambda_S = S * S - 4 * (ps.M * ps.M) * (ps.m * ps.m) := rfl
  have elY : K.lambda_Y = (S * pt.y) * (S * pt.y) + 4 * (ps.M * ps.M) * (S * pt.x * pt.y) := rfl
  have el1 : K.lambda_1 = S * pt.x * pt.y * (S * ((1 - pt.y) * S) - ps.M * ps.M *
    (S * pt.x * pt.y)) - ps.m * ps.m * K.lambda_Y := rfl
  have hlS : 0 < K.lambda_S := by rw [elS]; nlinarith [mul_nonneg hM.le hm]
  have hlY : 0 < K.lambda_Y := by rw [elY]; positivity
  have hl1 : 0 ≤ K.lambda_1 := by rw [el1, elY]; nlinarith
  -- the hadron momentum
  set r := pt.ph_t_sq / (K.ph_0 * K.ph_0) + ps.mh / K.ph_0 * (ps.mh / K.ph_0) with hr
  have hr1 : r * K.ph_0 ^ 2 = pt.ph_t_sq + ps.mh ^ 2 := by
    rw [hr, eph0]; field_simp
  have hr2 : r ≤ 1 := by
    by_contra hc
    push Not at hc
    rw [← eph0] at hh hph0
    nlinarith [sq_nonneg K.ph_0, pow_pos hph0 2]
  have epl : K.ph_l = K.ph_0 * √(1 - r) := rfl
  have hpl2 : K.ph_l ^ 2 = K.ph_0 ^ 2 - pt.ph_t_sq - ps.mh ^ 2 := by
    rw [epl, mul_pow, Real.sq_sqrt (by linarith)]; linarith
  have ept : K.ph_t = √pt.ph_t_sq := rfl
  have hpt2 : K.ph_t ^ 2 = pt.ph_t_sq := by rw [ept, Real.sq_sqrt ht]
  have e1S : K.lambda_S_sqrt = √K.lambda_S := rfl
  have e1Y : K.lambda_Y_sqrt = √K.lambda_Y := rfl
  have e11 : K.lambda_1_sqrt = √K.lambda_1 := rfl
  -- V_m
  set ρ := 4 * (ps.M * ps.M) * (S * pt.x * pt.y) / ((S * pt.y) * (S * pt.y)) with hρ
  have eVm : K.V_m = -(K.ph_0 * (S * pt.y)) / (2 * ps.M) * sqrt1p1mR (ρ - r * (1 + ρ)) := rfl
  have hρ0 : 0 < ρ := by rw [hρ]; positivity
  have hfac : 1 + (ρ - r * (1 + ρ)) = (1 + ρ) * (1 - r) := by ring
  have hVm : K.V_m = S * pt.y / (2 * ps.M) * K.ph_0 - K.lambda_Y_sqrt / (2 * ps.M) * K.ph_l := by
    have hsY : K.lambda_Y_sqrt = S * pt.y * √(1 + ρ) := by
      rw [e1Y, elY, show S * pt.y * (S * pt.y) + 4 * (ps.M * ps.M) * (S * pt.x * pt.y) =
        (S * pt.y) ^ 2 * (1 + ρ) by rw [hρ]; field_simp, Real.sqrt_mul (sq_nonneg _),
        Real.sqrt_sq hSx.le]
    have hle : -1 ≤ ρ - r * (1 + ρ) := by
      have : 0 ≤ (1 + ρ) * (1 - r) := mul_nonneg (by linarith) (by linarith)
      linarith
    rw [eVm, sqrt1p1mR_eq hle, hfac, Real.sqrt_mul (by linarith), hsY, epl]
    field_simp
    ring
  refine
    { M_pos := hM, S_pos := hS, Sx_pos := hSx, Q2_pos := hQ, z_pos := hz
      x_eq := ?_, y_eq := ?_, X_eq := ?_, Sp_eq := ?_, Q_sqr := Real.sq_sqrt hQ.le
      Q_pos := Real.sqrt_pos.2 hQ, lS_eq := ?_, lX_eq := ?_, lY_eq := ?_, l1_eq := ?_
      lS_pos := by rw [e1S]; exact Real.sqrt_pos.2 hlS
      lY_pos := by rw [e1Y]; exact Real.sqrt_pos.2 hlY
      l1_nonneg := by rw [e11]; exact Real.sqrt_nonneg _
      lS_sq := by rw [e1S]; exact Real.sq_sqrt hlS.le
      lY_sq := by rw [e1Y]; exact Real.sq_sqrt hlY.le
      l1_sq := by rw [e11]; exact Real.sq_sqrt hl1
      ph_0_eq := rfl, ph_t_nonneg := Real.sqrt_nonneg _, ph_t_sqr := hpt2
      ph_l_nonneg := by rw [epl, eph0]; positivity
      ph_l_sq := ?_, q_0_eq := rfl, q_t_eq := rfl, q_l_eq := ?_, k2_0_eq := rfl, k2_t_eq := rfl
      k2_l_eq := ?_, k1_t_eq := rfl, V_1_eq := ?_, V_2_eq := ?_, V_p_eq := rfl, V_m_eq := hVm
      t_eq := ?_, W_eq := ?_, mx_eq := ?_, vol_eq := rfl, cos_h := rfl, sin_h := rfl
      cos_p := rfl, sin_p := rfl, cos_q := (cos_wrapPhiQ pt.phi).symm
      sin_q := (sin_wrapPhiQ pt.phi).symm, cos_qp := rfl, sin_qp := rfl }
  · change pt.x = S * pt.x * pt.y / (S * pt.y); field_simp
  · change pt.y = S * pt.y / S; field_simp
  · change (1 - pt.y) * S = S - S * pt.y; ring
  · change S * (2 - pt.y) = 2 * S - S * pt.y; ring
  · rw [elS]; change _ = S ^ 2 - 4 * ps.M ^ 2 * ps.m ^ 2; ring
  · change ((1 - pt.y) * S) * ((1 - pt.y) * S) - 4 * (ps.M * ps.M) * (ps.m * ps.m) =
      ((1 - pt.y) * S) ^ 2 - 4 * ps.M ^ 2 * ps.m ^ 2
    ring
  · rw [elY]; change _ = (S * pt.y) ^ 2 + 4 * ps.M ^ 2 * (S * pt.x * pt.y); ring
  · rw [el1]
    change _ = S * pt.x * pt.y * (S * ((1 - pt.y) * S) - ps.M ^ 2 * (S * pt.x * pt.y)) -
      ps.m ^ 2 * K.lambda_Y
    ring
  · rw [hpt2]; exact hpl2
  · rw [pow_two]; rfl
  · rw [pow_two, pow_two]; rfl
  · rw [pow_two]; rfl
  · rw [pow_two]; rfl
  · rw [pow_two]; rfl
  · rw [pow_two]; rfl
  · rw [pow_two]; rfl

end Sidis
