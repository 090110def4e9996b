import Verif.Lemmas.RadGeom
import Verif.Props.Kinematics

/-! # Properties of `KinematicsRad` (C17, C18) -/

namespace Sidis

open Spec

attribute [ext] Kinematics

theorem radRel_of_physical {ps : Particles ℝ} {S : ℝ} {pt : PhaseSpaceRad ℝ}
    (h : PhysicalRad ps S pt) : RadRel (.ofPoint ps S pt) := by
  have hk := kinRel_of_physical h.phys
  have hM := hk.M_pos
  have hY := hk.lY_pos
  have e := hk.lY_sq
  rw [hk.lY_eq] at e
  have ht : (Kinematics.make ps S pt.project).M ^ 2 * pt.tau ^ 2 ≤
      (Kinematics.make ps S pt.project).S_x * pt.tau + (Kinematics.make ps S pt.project).Q_sq := h.tau
  set K := Kinematics.make ps S pt.project with hK
  have emin : (KinematicsRad.make K pt.tau pt.phi_k pt.R).tau_min =
    (K.S_x - K.lambda_Y_sqrt) / (2 * K.M ^ 2) := by rw [pow_two]; rfl
  have emax : (KinematicsRad.make K pt.tau pt.phi_k pt.R).tau_max =
    (K.S_x + K.lambda_Y_sqrt) / (2 * K.M ^ 2) := by rw [pow_two]; rfl
  have hsq : (2 * K.M ^ 2 * pt.tau - K.S_x) ^ 2 ≤ K.lambda_Y_sqrt ^ 2 := by
    rw [e]
    nlinarith [mul_le_mul_of_nonneg_left ht (by positivity : 0 ≤ 4 * K.M ^ 2)]
  have habs := abs_le_of_sq_le_sq' hsq hY.le
  refine radRel_of hk ?_ ?_ ?_
  · rw [hk.l1_eq, hk.lY_eq, hk.X_eq]
    have h2 := h.angle
    change 0 < S * pt.x * pt.y * (S * (S - S * pt.y) - ps.M ^ 2 * (S * pt.x * pt.y)) -
      ps.m ^ 2 * ((S * pt.y) ^ 2 + 4 * ps.M ^ 2 * (S * pt.x * pt.y))
    nlinarith
  · rw [emin, div_le_iff₀ (by positivity)]
    linarith [habs.1]
  · rw [emax, le_div_iff₀ (by positivity)]
    linarith [habs.2]

/-- The geometry of the Trento frame. -/
theorem trento_dot {q k : Vec3} (v : Vec3) (hq : 0 < eucl q q)
    (hqk : 0 < eucl (q.cross k) (q.cross k)) :
    eucl v (trentoZ q) = eucl v q / length q ∧
    eucl v (trentoY q k) = eucl v (q.cross k) / length (q.cross k) ∧
    eucl v (trentoX q k) = (eucl v k * eucl q q - eucl v q * eucl q k) /
      (length (q.cross k) * length q) := by
  have hl : length q ≠ 0 := by
    unfold length; unfold eucl at hq
    exact (Real.sqrt_pos.2 (by nlinarith)).ne'
  have hl' : length (q.cross k) ≠ 0 := by
    unfold length; unfold eucl at hqk
    exact (Real.sqrt_pos.2 (by nlinarith)).ne'
  refine ⟨?_, ?_, ?_⟩
  · simp [trentoZ, eucl]; field_simp
  · simp only [trentoY, eucl, Vec3.smul_x, Vec3.smul_y, Vec3.smul_z]; field_simp
  · simp only [trentoX, trentoY, trentoZ, Vec3.cross, eucl, Vec3.smul_x, Vec3.smul_y, Vec3.smul_z]
    simp only [Vec3.cross] at hl'
    field_simp
    ring

theorem length_sq (v : Vec3) : length v ^ 2 = eucl v v := by
  unfold length eucl
  rw [Real.sq_sqrt (by positivity)]; ring

theorem length_pos {v : Vec3} (h : 0 < eucl v v) : 0 < length v := by
  unfold length; unfold eucl at h
  exact Real.sqrt_pos.2 (by nlinarith)

theorem cross_sq (a b : Vec3) : eucl (a.cross b) (a.cross b) =
    eucl a a * eucl b b - eucl a b ^ 2 := by
  simp [eucl, Vec3.cross]; ring

theorem trento_parseval {q k : Vec3} (v : Vec3) (hq : 0 < eucl q q)
    (hqk : 0 < eucl (q.cross k) (q.cross k)) :
    eucl v (trentoX q k) ^ 2 + eucl v (trentoY q k) ^ 2 = eucl v v - eucl v q ^ 2 / eucl q q := by
  obtain ⟨-, h2, h3⟩ := trento_dot v hq hqk
  have e1 := length_sq q
  have e2 := length_sq (q.cross k)
  have p1 := length_pos hq
  have p2 := length_pos hqk
  rw [h2, h3, ← e1]
  have hc := cross_sq q k
  have key : (eucl v k * eucl q q - eucl v q * eucl q k) ^ 2 + eucl v (q.cross k) ^ 2 * eucl q q =
      eucl (q.cross k) (q.cross k) * (eucl v v * eucl q q - eucl v q ^ 2) := by
    simp only [eucl, Vec3.cross]; ring
  rw [← e1, ← e2] at key
  field_simp
  linear_combination key

theorem cos_atan2R {s c : ℝ} (h : s ^ 2 + c ^ 2 = 1) :
    Real.cos (atan2R s c) = c ∧ Real.sin (atan2R s c) = s := by
  have hn : ‖(⟨c, s⟩ : ℂ)‖ = 1 := by
    have e : ‖(⟨c, s⟩ : ℂ)‖ ^ 2 = 1 := by
      rw [Complex.sq_norm, Complex.normSq_mk]; linarith
    have hp : 0 ≤ ‖(⟨c, s⟩ : ℂ)‖ := norm_nonneg _
    nlinarith
  have h0 : (⟨c, s⟩ : ℂ) ≠ 0 := by
    intro h0; rw [h0] at hn; simp at hn
  unfold atan2R
  rw [Complex.cos_arg h0, Complex.sin_arg, hn]
  simp

namespace Props

variable {ps : Particles ℝ} {S : ℝ} {pt : PhaseSpaceRad ℝ}

/-- C17: the photon is real, and its products with the other momenta are the documented ones. -/
theorem c17_photon (h : PhysicalRad ps S pt) :
    let k := KinematicsRad.ofPoint ps S pt
    let kin := k.project
    msq (momK k) = 0 ∧ 2 * mink (momK k) (momP kin) = pt.R ∧
    2 * mink (momK k) (momQ kin) = pt.R * pt.tau ∧
    2 * mink (momK k) (momK1 kin) = pt.R * k.z_1 ∧
    2 * mink (momK k) (momK2 kin) = pt.R * k.z_2 ∧
    2 * mink (momK k) (momH kin) = pt.R * k.mu ∧
    (momK k).t = pt.R / (2 * ps.M) := by
  intro k kin
  have hr : RadRel k := radRel_of_physical h
  have eR : pt.R = k.R := rfl
  have et : pt.tau = k.tau := rfl
  refine ⟨hr.kk, ?_, ?_, ?_, ?_, ?_, hr.k_t'⟩
  · rw [hr.kp, eR]; ring
  · rw [hr.kq, eR, et]; ring
  · rw [hr.kk1, eR]; ring
  · rw [hr.kk2, eR]; ring
  · rw [hr.kh, eR]; ring

/-- C17: angles between the photon, the virtual photon and the hadron in the target rest frame. -/
theorem c17_lambda (h : PhysicalRad ps S pt) :
    let k := KinematicsRad.ofPoint ps S pt
    let kin := k.project
    k.lambda_RY = 4 * ps.M ^ 2 * eucl (momK k).r (momQ kin).r ∧
    k.lambda_RV = 4 * ps.M ^ 2 * eucl (momK k).r (momH kin).r ∧
    k.lambda_V = 4 * ps.M ^ 2 * eucl (momQ kin).r (momH kin).r ∧
    k.lambda_H = 4 * ps.M ^ 2 * eucl (momH kin).r (momH kin).r := by
  intro k kin
  have hr : RadRel k := radRel_of_physical h
  have hM := hr.M0
  have eM : ps.M = k.M := rfl
  obtain ⟨-, -, -, o4, -⟩ := c16_on_shell h.phys
  obtain ⟨-, -, -, -, -, -, i5, -⟩ := c16_invariants h.phys
  have q0 : (momQ kin).t = k.S_x / (2 * k.M) := hr.kin.q_0_eq
  have h0 : (momH kin).t = k.z * k.S_x / (2 * k.M) := hr.kin.ph_0_eq
  have i5' : mink (momQ kin) (momH kin) = k.V_m := i5
  have o4' : mink (momH kin) (momH kin) = k.mh ^ 2 := o4
  refine ⟨?_, ?_, ?_, ?_⟩
  · rw [eucl_eq, hr.kq, hr.k_t', q0, hr.lRY_eq, eM]; field_simp; ring
  · rw [eucl_eq, hr.kh, hr.k_t', h0, hr.lRV', eM]; field_simp; ring
  · rw [eucl_eq, i5', q0, h0, hr.lV_eq, eM]; field_simp; ring
  · rw [eucl_eq, o4', h0, hr.lH_eq, eM]; field_simp; ring

/-- C17: the photon energy in the rest frame of the undetected state (photon included). -/
theorem c17_k_0_bar (h : PhysicalRad ps S pt) :
    let k := KinematicsRad.ofPoint ps S pt
    let kin := k.project
    k.k_0_bar = mink (momK k) (momP kin + momQ kin - momH kin) / k.mx := by
  intro k kin
  have hr : RadRel k := radRel_of_physical h
  rw [mink_sub_right, mink_add_right, hr.kp, hr.kq, hr.kh, hr.k_0_bar_eq]
  ring

/-- C17: the infrared factor is the square of the eikonal current. -/
theorem c17_infrared (h : PhysicalRad ps S pt)
    (h1 : (KinematicsRad.ofPoint ps S pt).z_1 ≠ 0) (h2 : (KinematicsRad.ofPoint ps S pt).z_2 ≠ 0) :
    let k := KinematicsRad.ofPoint ps S pt
    let kin := k.project
    k.F_IR = msq ((1 / k.z_1) • momK1 kin - (1 / k.z_2) • momK2 kin) := by
  intro k kin
  have hr : RadRel k := radRel_of_physical h
  obtain ⟨-, o2, o3, -, o5⟩ := c16_on_shell h.phys
  have a : mink (momK1 kin) (momK1 kin) = k.m ^ 2 := o2
  have b : mink (momK2 kin) (momK2 kin) = k.m ^ 2 := o3
  have c : mink (momK1 kin - momK2 kin) (momK1 kin - momK2 kin) = -k.Q_sq := by
    have ec : momQ kin = momK1 kin - momK2 kin := c16_conservation h.phys
    rw [← ec]; exact o5
  have h1' : k.z_1 ≠ 0 := h1
  have h2' : k.z_2 ≠ 0 := h2
  have e : mink (momK1 kin) (momK2 kin) = (k.Q_sq + 2 * k.m ^ 2) / 2 := by
    rw [mink_sub_left, mink_sub_right, mink_sub_right, mink_comm (momK2 kin) (momK1 kin), a, b] at c
    linear_combination (-1 / 2) * c
  have e2 : msq ((1 / k.z_1) • momK1 kin - (1 / k.z_2) • momK2 kin) =
      1 / k.z_1 ^ 2 * mink (momK1 kin) (momK1 kin) + 1 / k.z_2 ^ 2 * mink (momK2 kin) (momK2 kin)
      - 2 / (k.z_1 * k.z_2) * mink (momK1 kin) (momK2 kin) := by
    simp only [msq, mink, Vec4.sub_t, Vec4.sub_x, Vec4.sub_y, Vec4.sub_z, Vec4.smul_t, Vec4.smul_x,
      Vec4.smul_y, Vec4.smul_z]
    field_simp
    ring
  rw [e2, a, b, e, hr.F_IR_eq, hr.F_2p_eq, hr.F_21_eq, hr.F_22_eq, hr.F_d_eq]
  field_simp
  ring

/-- C17: the oriented volumes. -/
theorem c17_vol (h : PhysicalRad ps S pt) :
    let k := KinematicsRad.ofPoint ps S pt
    let kin := k.project
    pt.R * k.vol_phi_k_R = eps (momK k) (momP kin) (momK1 kin) (momQ kin) ∧
    k.vol_phi_hk = eps (momK k) (momP kin) (momH kin) (momQ kin) ∧
    k.shift_vol_phi_h = eps (momH kin) (momP kin) (momK1 kin) (momQ kin - momK k) := by
  intro k kin
  have hr : RadRel k := radRel_of_physical h
  exact ⟨hr.volk, hr.volhk, hr.svol⟩

/-- C17: the shifted invariants are those of the process with virtual photon `q - k`. -/
theorem c17_shift (h : PhysicalRad ps S pt) :
    let k := KinematicsRad.ofPoint ps S pt
    let kin := k.project
    let p := momP kin
    let s := momQ kin - momK k
    let ph := momH kin
    k.shift_Q_sq = -msq s ∧ k.shift_S_x = 2 * mink p s ∧ k.shift_V_m = mink s ph ∧
    k.shift_t = msq (s - ph) ∧ k.shift_W_sq = msq (p + s) ∧ k.shift_mx_sq = msq (p + s - ph) ∧
    k.shift_x = -msq s / (2 * mink p s) ∧ k.shift_y = mink p s / mink p (momK1 kin) ∧
    k.shift_z = mink p ph / mink p s ∧
    k.shift_Q = √k.shift_Q_sq ∧ k.shift_mx = √k.shift_mx_sq := by
  intro k kin p s ph
  have hr : RadRel k := radRel_of_physical h
  have hM := hr.M0
  have hS : k.S ≠ 0 := hr.kin.S_pos.ne'
  obtain ⟨o1, -, -, o4, o5⟩ := c16_on_shell h.phys
  obtain ⟨i1, i2, -, -, -, -, i5, -, i8, i9, i10, -⟩ := c16_invariants h.phys
  have a1 : mink p p = k.M ^ 2 := o1
  have a2 : mink ph ph = k.mh ^ 2 := o4
  have a3 : mink (momQ kin) (momQ kin) = -k.Q_sq := o5
  have b1 : 2 * mink p (momK1 kin) = k.S := i1
  have b2 : 2 * mink p (momQ kin) = k.S_x := i2
  have b3 : mink (momQ kin) ph = k.V_m := i5
  have b4 : msq (momQ kin - ph) = k.t := i8
  have b5 : msq (p + momQ kin) = k.W_sq := i9
  have b6 : msq (p + momQ kin - ph) = k.mx_sq := i10
  have hz : mink p ph = k.z * k.S_x / 2 := by
    obtain ⟨-, -, c, -⟩ := c16_phase_space h.phys
    have c' : k.z = mink p ph / mink p (momQ kin) := c
    have hSx : k.S_x ≠ 0 := hr.kin.Sx_pos.ne'
    rw [show mink p (momQ kin) = k.S_x / 2 by linarith] at c'
    rw [c']; field_simp
  have kp : mink p (momK k) = k.R / 2 := by rw [mink_comm]; exact hr.kp
  have kq : mink (momQ kin) (momK k) = k.R * k.tau / 2 := by rw [mink_comm]; exact hr.kq
  have kh : mink ph (momK k) = k.R * k.mu / 2 := by rw [mink_comm]; exact hr.kh
  have kk := hr.kk
  have s1 : k.shift_Q_sq = -msq s := by
    have : msq s = mink (momQ kin) (momQ kin) - 2 * mink (momQ kin) (momK k) +
        mink (momK k) (momK k) := by
      simp only [msq, s, mink, Vec4.sub_t, Vec4.sub_x, Vec4.sub_y, Vec4.sub_z]; ring
    rw [this, a3, kq, kk, hr.sQ_eq]; ring
  have s2 : k.shift_S_x = 2 * mink p s := by
    simp only [s]; rw [mink_sub_right, kp, hr.sSx_eq]; linarith
  have s3 : k.shift_V_m = mink s ph := by
    simp only [s]; rw [mink_sub_left, b3, mink_comm, kh, hr.sVm_eq, hr.lRV']; field_simp; ring
  have s4 : k.shift_t = msq (s - ph) := by
    have : msq (s - ph) = msq (momQ kin - ph) - 2 * mink (momQ kin) (momK k) +
        mink (momK k) (momK k) + 2 * mink ph (momK k) := by
      simp only [msq, s, mink, Vec4.sub_t, Vec4.sub_x, Vec4.sub_y, Vec4.sub_z]; ring
    rw [this, b4, kq, kk, kh, hr.st_eq, hr.lRV']; field_simp; ring
  have s5 : k.shift_W_sq = msq (p + s) := by
    have : msq (p + s) = msq (p + momQ kin) - 2 * mink (momQ kin) (momK k) +
        mink (momK k) (momK k) - 2 * mink p (momK k) := by
      simp only [msq, s, mink, Vec4.sub_t, Vec4.sub_x, Vec4.sub_y, Vec4.sub_z, Vec4.add_t,
        Vec4.add_x, Vec4.add_y, Vec4.add_z]; ring
    rw [this, b5, kq, kk, kp, hr.sW_eq]; ring
  have s6 : k.shift_mx_sq = msq (p + s - ph) := by
    have : msq (p + s - ph) = msq (p + momQ kin - ph) - 2 * mink (momQ kin) (momK k) +
        mink (momK k) (momK k) - 2 * mink p (momK k) + 2 * mink ph (momK k) := by
      simp only [msq, s, mink, Vec4.sub_t, Vec4.sub_x, Vec4.sub_y, Vec4.sub_z, Vec4.add_t,
        Vec4.add_x, Vec4.add_y, Vec4.add_z]; ring
    rw [this, b6, kq, kk, kp, kh, hr.smx_eq, hr.lRV']; field_simp; ring
  have ey : k.y = k.S_x / k.S := hr.kin.y_eq
  refine ⟨s1, s2, s3, s4, s5, s6, ?_, ?_, ?_, rfl, rfl⟩
  · rw [← s1, ← s2]; exact hr.sx_eq
  · rw [show mink p s = k.shift_S_x / 2 by linarith, show mink p (momK1 kin) = k.S / 2 by linarith,
      hr.sSx_eq, hr.sy_eq, ey]; field_simp
  · rw [show mink p s = k.shift_S_x / 2 by linarith, hz, hr.sz_eq, mul_div_assoc]
    by_cases h0 : k.shift_S_x = 0
    · rw [h0]; simp
    · field_simp

/-- C17: the shifted momenta in the target rest frame. -/
theorem c17_shift_lambda (h : PhysicalRad ps S pt) :
    let k := KinematicsRad.ofPoint ps S pt
    let kin := k.project
    let s := momQ kin - momK k
    let k1 := momK1 kin
    let ph := momH kin
    k.shift_lambda_Y = 4 * ps.M ^ 2 * eucl s.r s.r ∧
    k.shift_lambda_1 = 4 * ps.M ^ 2 * (eucl s.r s.r * eucl k1.r k1.r - eucl s.r k1.r ^ 2) ∧
    k.shift_lambda_2 = mink s ph ^ 2 - msq s * msq ph ∧
    k.shift_lambda_3 = mink s ph - k.shift_z * msq s ∧
    k.shift_lambda_Y_sqrt = √k.shift_lambda_Y ∧ k.shift_lambda_1_sqrt = √k.shift_lambda_1 ∧
    k.shift_lambda_2_sqrt = √k.shift_lambda_2 ∧ k.shift_lambda_3_sqrt = √k.shift_lambda_3 ∧
    k.shift_q_0 = s.t ∧ k.shift_q_l = s.z ∧ k.shift_q_t = √(s.x ^ 2 + s.y ^ 2) := by
  intro k kin s k1 ph
  have hr : RadRel k := radRel_of_physical h
  have hM := hr.M0
  have hMp := hr.kin.M_pos
  have hS0 := hr.S0
  have hSp : 0 < k.lambda_S_sqrt := hr.kin.lS_pos
  have eM : ps.M = k.M := rfl
  obtain ⟨s1, s2, s3, -⟩ := c17_shift h
  obtain ⟨-, o2, o3, o4, o5⟩ := c16_on_shell h.phys
  have a2 : msq ph = k.mh ^ 2 := o4
  have a3 : mink k1 k1 = k.m ^ 2 := o2
  have a4 : mink (momK2 kin) (momK2 kin) = k.m ^ 2 := o3
  have a5 : mink (momQ kin) (momQ kin) = -k.Q_sq := o5
  have s1' : mink s s = -k.shift_Q_sq := by rw [s1, neg_neg]; rfl
  have st : s.t = (k.S_x - k.R) / (2 * k.M) := by
    have q0 : (momQ kin).t = k.S_x / (2 * k.M) := hr.kin.q_0_eq
    simp only [s, Vec4.sub_t]; rw [hr.k_t', q0]; ring
  have k1t : k1.t = k.S / (2 * k.M) := rfl
  have qk1 : mink (momQ kin) k1 = -k.Q_sq / 2 := by
    have ec : momQ kin = k1 - momK2 kin := c16_conservation h.phys
    have e2 : momK2 kin = k1 - momQ kin := hr.kin.momK2_eq
    rw [e2, mink_sub_left, mink_sub_right, mink_sub_right, mink_comm k1 (momQ kin), a3, a5] at a4
    linear_combination (-1 / 2) * a4
  have sk1 : mink s k1 = -k.Q_sq / 2 - k.R * k.z_1 / 2 := by
    simp only [s]; rw [mink_sub_left, qk1, hr.kk1]
  have eY : k.lambda_Y = k.S_x ^ 2 + 4 * k.M ^ 2 * k.Q_sq := hr.kin.lY_eq
  have e1 : k.lambda_1 = k.Q_sq * (k.S * k.X - k.M ^ 2 * k.Q_sq) - k.m ^ 2 * k.lambda_Y :=
    hr.kin.l1_eq
  have eS : k.lambda_S = k.S ^ 2 - 4 * k.M ^ 2 * k.m ^ 2 := hr.kin.lS_eq
  have eSs : k.lambda_S_sqrt ^ 2 = k.lambda_S := hr.kin.lS_sq
  have c2 : k.shift_lambda_1 =
      4 * ps.M ^ 2 * (eucl s.r s.r * eucl k1.r k1.r - eucl s.r k1.r ^ 2) := by
    rw [eucl_eq, eucl_eq, eucl_eq, s1', st, k1t, a3, sk1, hr.sl1_eq, hr.lRY_eq, e1, eY, eS, hr.X_eq,
      hr.sQ_eq, eM]
    field_simp; ring
  have hz : k1.r = ⟨0, 0, k.lambda_S_sqrt / (2 * k.M)⟩ := by
    have e := hr.kin.k1_len
    simp only [k1, momK1, Vec4.r]
    rw [e]; rfl
  have c2' : k.shift_lambda_1 = k.lambda_S_sqrt ^ 2 * (s.x ^ 2 + s.y ^ 2) := by
    rw [c2, hz, eM]
    simp only [eucl, Vec4.r]
    field_simp; ring
  refine ⟨?_, c2, ?_, ?_, rfl, rfl, rfl, rfl, ?_, ?_, ?_⟩
  · rw [eucl_eq, s1', st, hr.slY_eq, hr.lRY_eq, eY, hr.sQ_eq, eM]; field_simp; ring
  · rw [hr.sl2_eq, s3, a2, s1]; ring
  · rw [hr.sl3_eq, s3, s1]; ring
  · rw [st, hr.sq0_eq, hr.sSx_eq]
  · have e : eucl s.r k1.r = s.z * (k.lambda_S_sqrt / (2 * k.M)) := by
      rw [hz]; simp [eucl, Vec4.r]
    rw [eucl_eq, st, k1t, sk1] at e
    have eql : k.q_l = (2 * k.M ^ 2 * k.Q_sq + k.S * k.S_x) / (2 * k.M * k.lambda_S_sqrt) :=
      hr.kin.q_l_eq
    have e' : s.z = ((k.S_x - k.R) / (2 * k.M) * (k.S / (2 * k.M)) - (-k.Q_sq / 2 - k.R * k.z_1 / 2))
        / (k.lambda_S_sqrt / (2 * k.M)) := by
      rw [e]; field_simp
    rw [e', hr.sql_eq, eql]
    field_simp
    ring
  · rw [hr.sqt_eq, hr.sl1s_eq, c2', Real.sqrt_mul (sq_nonneg _), Real.sqrt_sq hSp.le]
    field_simp

/-- C17: longitudinal and transverse momentum of the hadron with respect to `q - k`, and of the
beam. -/
theorem c17_shift_hadron (h : PhysicalRad ps S pt) :
    let k := KinematicsRad.ofPoint ps S pt
    let kin := k.project
    let s := (momQ kin - momK k).r
    let k1 := (momK1 kin).r
    let ph := (momH kin).r
    0 < eucl s s →
    k.shift_ph_l = eucl ph s / length s ∧
    k.shift_ph_t_sq = eucl ph ph - eucl ph s ^ 2 / eucl s s ∧
    k.shift_ph_t = √k.shift_ph_t_sq ∧
    k.shift_k1_t = length (s.cross k1) / length s := by
  intro k kin s k1 ph hs
  have hr : RadRel k := radRel_of_physical h
  have hM := hr.M0
  have hMp : 0 < k.M := hr.kin.M_pos
  have eM : ps.M = k.M := rfl
  obtain ⟨l1, l2, -⟩ := c17_shift_lambda h
  obtain ⟨m1, m2, m3, m4⟩ := c17_lambda h
  rw [eM] at l1 l2 m2 m3 m4
  have l1' : k.shift_lambda_Y = (2 * k.M * length s) ^ 2 := by
    rw [mul_pow, length_sq]; rw [l1]; ring
  have ls := length_pos hs
  have l1s : k.shift_lambda_Y_sqrt = 2 * k.M * length s := by
    rw [hr.slYs_eq, l1', Real.sqrt_sq (by positivity)]
  have phs : eucl ph s = (k.lambda_V - k.lambda_RV) / (4 * k.M ^ 2) := by
    rw [show k.lambda_V = _ from m3, show k.lambda_RV = _ from m2]
    field_simp
    simp only [ph, s, eucl, Vec4.r, Vec4.sub_x, Vec4.sub_y, Vec4.sub_z]
    ring
  have eph : eucl ph ph = k.ph_t ^ 2 + k.ph_l ^ 2 := by
    have e0 : k.lambda_H = 4 * k.M ^ 2 * eucl ph ph := m4
    have e2 : k.ph_l ^ 2 = k.ph_0 ^ 2 - k.ph_t ^ 2 - k.mh ^ 2 := hr.kin.ph_l_sq
    rw [hr.lH_eq] at e0
    rw [e2, hr.ph_0_eq]
    field_simp
    linear_combination -e0
  have ept : k.ph_t ^ 2 = k.ph_t_sq := hr.kin.ph_t_sqr
  refine ⟨?_, ?_, hr.spts_eq, ?_⟩
  · rw [hr.spl_eq, l1s, phs, hr.lV']
    field_simp
    ring
  · rw [hr.spt_eq, phs, eph, hr.lV', ← length_sq, ← ept, l1']
    have hRY := hr.slY_eq
    rw [l1', hr.lY'] at hRY
    field_simp
    linear_combination (-16 * k.ph_l ^ 2 * k.M ^ 2) * hRY
  · rw [hr.sk1t_eq, l1s, hr.sl1s_eq]
    have : k.shift_lambda_1 = (2 * k.M * length (s.cross k1)) ^ 2 := by
      rw [mul_pow, length_sq, cross_sq]; rw [l2]; ring
    rw [this, Real.sqrt_sq (by unfold length; positivity)]
    field_simp

/-- C17: the shifted azimuth of the hadron, in the Trento frame of `q - k`. -/
theorem c17_shift_phi_h (h : PhysicalRad ps S pt) :
    let k := KinematicsRad.ofPoint ps S pt
    let kin := k.project
    let s := (momQ kin - momK k).r
    let k1 := (momK1 kin).r
    let ph := (momH kin).r
    0 < eucl s s → 0 < eucl (s.cross k1) (s.cross k1) → 0 < k.shift_ph_t →
    eucl ph (trentoX s k1) = k.shift_ph_t * k.shift_cos_phi_h ∧
    eucl ph (trentoY s k1) = k.shift_ph_t * k.shift_sin_phi_h ∧
    eucl ph (trentoZ s) = k.shift_ph_l ∧
    Real.cos k.shift_phi_h = k.shift_cos_phi_h ∧ Real.sin k.shift_phi_h = k.shift_sin_phi_h ∧
    -Real.pi < k.shift_phi_h ∧ k.shift_phi_h ≤ Real.pi := by
  intro k kin s k1 ph hs hsk hpt
  have hr : RadRel k := radRel_of_physical h
  have hM := hr.M0
  have hMp : 0 < k.M := hr.kin.M_pos
  have hSp : 0 < k.lambda_S_sqrt := hr.kin.lS_pos
  have eM : ps.M = k.M := rfl
  obtain ⟨l1, l2, -⟩ := c17_shift_lambda h
  obtain ⟨m1, m2, m3, m4⟩ := c17_lambda h
  obtain ⟨n1, n2, n3, -⟩ := c17_shift_hadron h hs
  obtain ⟨d1, d2, d3⟩ := trento_dot ph hs hsk
  have dp := trento_parseval ph hs hsk
  rw [eM] at l1 l2 m2 m3 m4
  have ls := length_pos hs
  have lk := length_pos hsk
  have l1' : k.shift_lambda_Y = (2 * k.M * length s) ^ 2 := by
    rw [mul_pow, length_sq]; rw [l1]; ring
  have l1s : k.shift_lambda_Y_sqrt = 2 * k.M * length s := by
    rw [hr.slYs_eq, l1', Real.sqrt_sq (by positivity)]
  have l2s : k.shift_lambda_1_sqrt = 2 * k.M * length (s.cross k1) := by
    have : k.shift_lambda_1 = (2 * k.M * length (s.cross k1)) ^ 2 := by
      rw [mul_pow, length_sq, cross_sq]; rw [l2]; ring
    rw [hr.sl1s_eq, this, Real.sqrt_sq (by positivity)]
  have phs : eucl ph s = (k.lambda_V - k.lambda_RV) / (4 * k.M ^ 2) := by
    rw [show k.lambda_V = _ from m3, show k.lambda_RV = _ from m2]
    field_simp
    simp only [ph, s, eucl, Vec4.r, Vec4.sub_x, Vec4.sub_y, Vec4.sub_z]
    ring
  -- products with the beam
  obtain ⟨-, -, -, -, i4, -⟩ := c16_invariants h.phys
  have phk1 : eucl ph k1 = (k.z * k.S * k.S_x - 2 * k.M ^ 2 * k.V_1) / (4 * k.M ^ 2) := by
    have e1 : mink (momK1 kin) (momH kin) = k.V_1 / 2 := by
      have : 2 * mink (momK1 kin) (momH kin) = k.V_1 := i4
      linarith
    have h0 : (momH kin).t = k.z * k.S_x / (2 * k.M) := hr.kin.ph_0_eq
    have k1t : (momK1 kin).t = k.S / (2 * k.M) := rfl
    rw [eucl_eq, mink_comm, e1, h0, k1t]
    field_simp
    ring
  have sk1 : eucl s k1 = (k.S * k.shift_S_x + 2 * k.M ^ 2 * k.Q_sq + 2 * k.M ^ 2 * k.z_1 * k.R) /
      (4 * k.M ^ 2) := by
    obtain ⟨-, o2, o3, -, o5⟩ := c16_on_shell h.phys
    have a3 : mink (momK1 kin) (momK1 kin) = k.m ^ 2 := o2
    have a4 : mink (momK2 kin) (momK2 kin) = k.m ^ 2 := o3
    have a5 : mink (momQ kin) (momQ kin) = -k.Q_sq := o5
    have qk1 : mink (momQ kin) (momK1 kin) = -k.Q_sq / 2 := by
      have e2 : momK2 kin = momK1 kin - momQ kin := hr.kin.momK2_eq
      rw [e2, mink_sub_left, mink_sub_right, mink_sub_right, mink_comm (momK1 kin) (momQ kin), a3,
        a5] at a4
      linear_combination (-1 / 2) * a4
    have q0 : (momQ kin).t = k.S_x / (2 * k.M) := hr.kin.q_0_eq
    have k1t : (momK1 kin).t = k.S / (2 * k.M) := rfl
    rw [eucl_eq, mink_sub_left, qk1, hr.kk1, k1t, Vec4.sub_t, q0, hr.k_t', hr.sSx_eq]
    field_simp
    ring
  have hvol : k.shift_vol_phi_h = -k.M * eucl ph (s.cross k1) := by
    rw [hr.svol, show momP k.project = ⟨k.M, 0, 0, 0⟩ from rfl, eps_rest]
    simp only [ph, s, k1, eucl, Vec4.r, Vec3.cross, kin]
    ring
  have c1 : eucl ph (trentoX s k1) = k.shift_ph_t * k.shift_cos_phi_h := by
    rw [d3, hr.sch_eq, phk1, phs, sk1, hr.sqt_eq, l1s, l2s, l1', ← length_sq]
    field_simp
    ring
  have c2 : eucl ph (trentoY s k1) = k.shift_ph_t * k.shift_sin_phi_h := by
    rw [d2, hr.ssh_eq, hvol, hr.sqt_eq, l2s]
    field_simp
  have c3 : eucl ph (trentoZ s) = k.shift_ph_l := by rw [d1]; exact n1.symm
  have hptq : k.shift_ph_t ^ 2 = k.shift_ph_t_sq := by
    rw [hr.spts_eq] at hpt ⊢
    exact Real.sq_sqrt (Real.sqrt_pos.1 hpt).le
  have hsc : k.shift_sin_phi_h ^ 2 + k.shift_cos_phi_h ^ 2 = 1 := by
    have n2' : k.shift_ph_t_sq = eucl ph ph - eucl ph s ^ 2 / eucl s s := n2
    rw [← n2', ← hptq, c1, c2] at dp
    have hp2 : k.shift_ph_t ^ 2 ≠ 0 := by positivity
    have : k.shift_ph_t ^ 2 * (k.shift_sin_phi_h ^ 2 + k.shift_cos_phi_h ^ 2) =
        k.shift_ph_t ^ 2 * 1 := by linear_combination dp
    exact mul_left_cancel₀ hp2 this
  obtain ⟨t1, t2⟩ := cos_atan2R hsc
  refine ⟨c1, c2, c3, ?_, ?_, ?_, ?_⟩
  · rw [hr.sphi_h_eq, t1]
  · rw [hr.sphi_h_eq, t2]
  · rw [hr.sphi_h_eq]; exact Complex.neg_pi_lt_arg _
  · rw [hr.sphi_h_eq]; exact Complex.arg_le_pi _

/-- C17: the shifted azimuth of the virtual photon. -/
theorem c17_shift_phi_q (h : PhysicalRad ps S pt) :
    let k := KinematicsRad.ofPoint ps S pt
    let s := momQ k.project - momK k
    0 < k.shift_q_t →
    s.x = -k.shift_q_t * k.shift_sin_phi_q ∧ s.y = k.shift_q_t * k.shift_cos_phi_q ∧
    Real.cos k.shift_phi_q = k.shift_cos_phi_q ∧ Real.sin k.shift_phi_q = k.shift_sin_phi_q ∧
    -Real.pi < k.shift_phi_q ∧ k.shift_phi_q ≤ Real.pi := by
  intro k s hq
  have hr : RadRel k := radRel_of_physical h
  have hM := hr.M0
  have hY := hr.Y0
  obtain ⟨-, -, -, -, -, -, -, -, -, -, l3⟩ := c17_shift_lambda h
  have l3' : k.shift_q_t = √(s.x ^ 2 + s.y ^ 2) := l3
  have q1 : k.cos_phi_q = -k.cos_phi := hr.kin.cos_qp
  have q2 : k.sin_phi_q = k.sin_phi := hr.kin.sin_qp
  have eK := hr.momK_eq
  have eK' : (momK k).x = k.k_t * k.cos_phi_k * ((2 * k.M / k.lambda_Y_sqrt) *
      (k.q_l * k.sin_phi_q)) + k.k_t * k.sin_phi_k * k.cos_phi_q + k.k_l *
      ((2 * k.M / k.lambda_Y_sqrt) * (-k.q_t * k.sin_phi_q)) ∧
      (momK k).y = k.k_t * k.cos_phi_k * ((2 * k.M / k.lambda_Y_sqrt) *
      (-k.q_l * k.cos_phi_q)) + k.k_t * k.sin_phi_k * k.sin_phi_q + k.k_l *
      ((2 * k.M / k.lambda_Y_sqrt) * (k.q_t * k.cos_phi_q)) := by
    rw [eK, lepT, Transform4.ofT3_apply]
    simp only [Transform3.apply, Vec3.dot, Vec4.r, Vec4.ofVec3, Frame.targetFromLepton,
      Transform3.transpose, Frame.leptonFromTarget, Vec3.smul_x, Vec3.smul_y, Vec3.smul_z]
    simp only [KinematicsRad.project]
    constructor <;> field_simp
  have qx : (momQ k.project).x = -k.q_t * k.sin_phi_q := by
    have e : k.sin_phi_q = Real.sin k.phi_q := hr.kin.sin_q
    rw [e]; rfl
  have qy : (momQ k.project).y = k.q_t * k.cos_phi_q := by
    have e : k.cos_phi_q = Real.cos k.phi_q := hr.kin.cos_q
    rw [e]; rfl
  have sx : s.x = -k.shift_q_t * k.shift_sin_phi_q := by
    simp only [s, Vec4.sub_x]
    rw [eK'.1, qx, hr.ssq_eq, q1, q2]
    field_simp
    ring
  have sy : s.y = k.shift_q_t * k.shift_cos_phi_q := by
    simp only [s, Vec4.sub_y]
    rw [eK'.2, qy, hr.scq_eq, q1, q2]
    field_simp
    ring
  have hsc : k.shift_sin_phi_q ^ 2 + k.shift_cos_phi_q ^ 2 = 1 := by
    have e : k.shift_q_t ^ 2 = s.x ^ 2 + s.y ^ 2 := by
      rw [l3']; exact Real.sq_sqrt (by positivity)
    rw [sx, sy] at e
    have hp2 : k.shift_q_t ^ 2 ≠ 0 := by positivity
    have : k.shift_q_t ^ 2 * (k.shift_sin_phi_q ^ 2 + k.shift_cos_phi_q ^ 2) =
        k.shift_q_t ^ 2 * 1 := by linear_combination -e
    exact mul_left_cancel₀ hp2 this
  obtain ⟨t1, t2⟩ := cos_atan2R hsc
  refine ⟨sx, sy, ?_, ?_, ?_, ?_⟩
  · rw [hr.sphi_q_eq, t1]
  · rw [hr.sphi_q_eq, t2]
  · rw [hr.sphi_q_eq]; exact Complex.neg_pi_lt_arg _
  · rw [hr.sphi_q_eq]; exact Complex.arg_le_pi _

/-- C17: `project_shift` collects the quantities of the process with virtual photon `q - k`, and
keeps those of the beam and of the detected particles. -/
theorem c17_project_shift (h : PhysicalRad ps S pt) :
    let k := KinematicsRad.ofPoint ps S pt
    let kin := k.project
    let k' := k.projectShift
    let p := momP kin
    let k1 := momK1 kin
    let k2 := momK2 kin
    let s := momQ kin - momK k
    let ph := momH kin
    k'.Q_sq = -msq s ∧ k'.S_x = 2 * mink p s ∧ k'.V_m = mink s ph ∧
    k'.t = msq (s - ph) ∧ k'.W_sq = msq (p + s) ∧ k'.mx_sq = msq (p + s - ph) ∧
    k'.x = -msq s / (2 * mink p s) ∧ k'.y = mink p s / mink p k1 ∧ k'.z = mink p ph / mink p s ∧
    k'.Q = √k'.Q_sq ∧ k'.mx = √k'.mx_sq ∧
    k'.lambda_Y = 4 * ps.M ^ 2 * eucl s.r s.r ∧
    k'.lambda_1 = 4 * ps.M ^ 2 * (eucl s.r s.r * eucl k1.r k1.r - eucl s.r k1.r ^ 2) ∧
    k'.lambda_2 = mink s ph ^ 2 - msq s * msq ph ∧ k'.lambda_3 = mink s ph - k'.z * msq s ∧
    k'.lambda_Y_sqrt = √k'.lambda_Y ∧ k'.lambda_1_sqrt = √k'.lambda_1 ∧
    k'.lambda_2_sqrt = √k'.lambda_2 ∧ k'.lambda_3_sqrt = √k'.lambda_3 ∧
    k'.q_0 = s.t ∧ k'.q_l = s.z ∧ k'.q_t = √(s.x ^ 2 + s.y ^ 2) ∧
    k'.vol_phi_h = eps ph p k1 s ∧
    (0 < eucl s.r s.r → k'.ph_l = eucl ph.r s.r / length s.r ∧
      k'.ph_t_sq = eucl ph.r ph.r - eucl ph.r s.r ^ 2 / eucl s.r s.r ∧ k'.ph_t = √k'.ph_t_sq ∧
      k'.k1_t = length (s.r.cross k1.r) / length s.r) ∧
    (0 < eucl s.r s.r → 0 < eucl (s.r.cross k1.r) (s.r.cross k1.r) → 0 < k'.ph_t →
      eucl ph.r (trentoX s.r k1.r) = k'.ph_t * k'.cos_phi_h ∧
      eucl ph.r (trentoY s.r k1.r) = k'.ph_t * k'.sin_phi_h ∧
      Real.cos k'.phi_h = k'.cos_phi_h ∧ Real.sin k'.phi_h = k'.sin_phi_h) ∧
    (0 < k'.q_t → s.x = -k'.q_t * k'.sin_phi_q ∧ s.y = k'.q_t * k'.cos_phi_q ∧
      Real.cos k'.phi_q = k'.cos_phi_q ∧ Real.sin k'.phi_q = k'.sin_phi_q) ∧
    2 * mink p k1 = k'.S ∧ 2 * mink p k2 = k'.X ∧ 2 * mink p (k1 + k2) = k'.S_p ∧
    2 * mink k1 ph = k'.V_1 ∧ 2 * mink k2 ph = k'.V_2 ∧ mink (k1 + k2) ph = k'.V_p ∧
    k'.lambda_S = 4 * ps.M ^ 2 * eucl k1.r k1.r ∧ k'.lambda_X = 4 * ps.M ^ 2 * eucl k2.r k2.r ∧
    (0 < eucl s.r s.r → mink p s ≠ 0 → k'.C_1 =
      8 * k'.x * ps.M * (eucl ph.r s.r / length s.r) * mink p (p + s) / (msq s) ^ 4) ∧
    momP k' = p ∧ momK1 k' = k1 ∧ momK2 k' = k2 ∧ k'.ph_0 = ph.t ∧ k'.phi = pt.phi ∧
    k'.target = ps.target ∧ k'.beam = ps.beam ∧ k'.hadron = ps.hadron ∧ k'.M = ps.M ∧
    k'.m = ps.m ∧ k'.mh = ps.mh ∧ k'.Mth = ps.Mth := by
  intro k kin k' p k1 k2 s ph
  obtain ⟨a1, a2, a3, a4, a5, a6, a7, a8, a9, a10, a11⟩ := c17_shift h
  obtain ⟨b1, b2, b3, b4, b5, b6, b7, b8, b9, b10, b11⟩ := c17_shift_lambda h
  obtain ⟨-, -, v⟩ := c17_vol h
  obtain ⟨i1, -, i3, i4, i5, i6, -, i8, -⟩ := c16_invariants h.phys
  obtain ⟨l1, l2, -⟩ := c16_lambda h.phys
  refine ⟨a1, a2, a3, a4, a5, a6, a7, a8, a9, a10, a11, b1, b2, b3, b4, b5, b6, b7, b8, b9, b10,
    b11, v, c17_shift_hadron h, fun x1 x2 x3 => ?_, fun x1 => ?_, i1, i3, i4, i5, i6, i8, l1, l2,
    fun x1 x2 => ?_, rfl, rfl, rfl, rfl, rfl, rfl, rfl, rfl, rfl, rfl, rfl, rfl⟩
  · obtain ⟨c1, c2, -, c4, c5, -⟩ := c17_shift_phi_h h x1 x2 x3
    exact ⟨c1, c2, c4, c5⟩
  · obtain ⟨c1, c2, c3, c4, -⟩ := c17_shift_phi_q h x1
    exact ⟨c1, c2, c3, c4⟩
  · obtain ⟨e1, -⟩ := c17_shift_hadron h x1
    have eC : k'.C_1 = 4 * k'.M * k'.ph_l * (k'.Q_sq + 2 * k'.x * (k'.M * k'.M)) /
      (k'.Q_sq * k'.Q_sq * (k'.Q_sq * k'.Q_sq)) := rfl
    have eM : ps.M = k'.M := rfl
    have e2 : mink p (p + s) = k'.M ^ 2 + mink p s := by
      obtain ⟨o1, -⟩ := c16_on_shell h.phys
      have : mink p p = k'.M ^ 2 := o1
      rw [mink_add_right, this]
    have e1' : k'.ph_l = eucl ph.r s.r / length s.r := e1
    have e3 : msq s = -k'.Q_sq := by rw [show k'.Q_sq = -msq s from a1, neg_neg]
    have e4 : k'.Q_sq = k'.x * (2 * mink p s) := by
      rw [show k'.x = -msq s / (2 * mink p s) from a7, show k'.Q_sq = -msq s from a1]
      field_simp
    rw [eC, e1', e2, e3, eM]
    have e5 : k'.Q_sq + 2 * k'.x * (k'.M * k'.M) = 2 * k'.x * (k'.M ^ 2 + mink p s) := by
      rw [e4]; ring
    rw [e5]
    have e6 : (-k'.Q_sq) ^ 4 = k'.Q_sq * k'.Q_sq * (k'.Q_sq * k'.Q_sq) := by ring
    rw [e6]
    ring

/-- A radiative point with all momenta in general position. -/
noncomputable def samplePtRad : PhaseSpaceRad ℝ :=
  ⟨0.3, 0.6, 0.5, 0.1, 0, 1.1, 0.5, Real.pi / 2, 1⟩

theorem sample_physicalRad : PhysicalRad samplePs 20 samplePtRad := by
  refine ⟨?_, ?_, ?_⟩
  · constructor <;> norm_num [samplePs, samplePtRad, PhaseSpaceRad.project, Nucleus.mass,
      Lepton.mass, Hadron.mass, CMath.ofReal]
  · norm_num [samplePs, samplePtRad, Nucleus.mass, Lepton.mass, Hadron.mass, CMath.ofReal]
  · norm_num [samplePs, samplePtRad, Nucleus.mass, Lepton.mass, Hadron.mass, CMath.ofReal]

/-- The sample point meets all hypotheses of the C17 theorems on the shifted process. -/
theorem sampleRad_nondegenerate :
    let k := KinematicsRad.ofPoint samplePs 20 samplePtRad
    let kin := k.project
    let s := (momQ kin - momK k).r
    let k1 := (momK1 kin).r
    0 < eucl s s ∧ 0 < eucl (s.cross k1) (s.cross k1) ∧ 0 < k.shift_ph_t ∧ 0 < k.shift_q_t := by
  intro k kin s k1
  have hr : RadRel k := radRel_of_physical sample_physicalRad
  have hk : KinRel kin := hr.kin
  have hM : 0 < k.M := hk.M_pos
  have hY := hr.lY_pos
  have h1 := hr.l1_pos
  have hR : k.R = 1 := rfl
  have hc : k.cos_phi_k = 0 := by
    rw [hr.cos_k]; exact Real.cos_pi_div_two
  have hs : k.sin_phi_k = 1 := by
    rw [hr.sin_k]; exact Real.sin_pi_div_two
  have hch : kin.cos_phi_h = 1 := by
    rw [hk.cos_h]; exact Real.cos_zero
  have hsh : kin.sin_phi_h = 0 := by
    rw [hk.sin_h]; exact Real.sin_zero
  have hpt : 0 < kin.ph_t := Real.sqrt_pos.2 (by norm_num [kin, k, KinematicsRad.ofPoint,
    KinematicsRad.make, Kinematics.make, KinematicsRad.project, samplePtRad])
  have hT : 0 < tauRoot k := by
    have e := hr.T_sq
    rw [hr.lY] at e
    have : 0 < k.S_x ^ 2 + 4 * k.M ^ 2 * k.Q_sq - (k.S_x - 2 * k.M ^ 2 * k.tau) ^ 2 := by
      norm_num [kin, k, KinematicsRad.ofPoint, KinematicsRad.make, Kinematics.make,
        KinematicsRad.project, samplePtRad, samplePs, Nucleus.mass, CMath.ofReal]
    rw [← e] at this
    rcases lt_or_eq_of_le hr.T_nonneg with h | h
    · exact h
    · rw [← h] at this; norm_num at this
  have hkt : 0 < k.k_t := by rw [hr.k_t_eq, hR]; positivity
  have hk1t : 0 < kin.k1_t := by rw [hk.k1_t_eq]; exact div_pos h1 hY
  -- lepton frame coordinates
  have es : momQ kin - momK k = (lepT kin).apply
      ⟨kin.q_0 - k.k_0, 0, -k.k_t, kin.lambda_Y_sqrt / (2 * kin.M) - k.k_l⟩ := by
    rw [hk.momQ_eq, hr.momK_eq, ← Transform4.apply_sub, hc, hs]
    congr 1
    ext <;> simp
  have ek := hk.momK1_eq
  have eh := hk.momH_eq
  rw [hch, hsh] at eh
  have hrot : ∀ a b : Vec4, eucl ((lepT kin).apply a).r ((lepT kin).apply b).r = eucl a.r b.r := by
    intro a b
    unfold lepT
    rw [Transform4.ofT3_apply, Transform4.ofT3_apply]
    exact hk.lep_rotation.1 a.r b.r
  have ss : eucl s s = k.k_t ^ 2 + (kin.lambda_Y_sqrt / (2 * kin.M) - k.k_l) ^ 2 := by
    simp only [s]; rw [es, hrot]; simp [eucl, Vec4.r]; ring
  have kk : eucl k1 k1 = kin.k1_t ^ 2 + k1l kin ^ 2 := by
    simp only [k1]; rw [ek, hrot]; simp [eucl, Vec4.r]; ring
  have sk : eucl s k1 = (kin.lambda_Y_sqrt / (2 * kin.M) - k.k_l) * k1l kin := by
    simp only [s, k1]; rw [es, ek, hrot]; simp [eucl, Vec4.r]
  have hh : eucl (momH kin).r (momH kin).r = kin.ph_t ^ 2 + kin.ph_l ^ 2 := by
    rw [eh, hrot]; simp [eucl, Vec4.r]; ring
  have hhs : eucl (momH kin).r s = kin.ph_l * (kin.lambda_Y_sqrt / (2 * kin.M) - k.k_l) := by
    simp only [s]; rw [es, eh, hrot]; simp [eucl, Vec4.r]
  have p1 : 0 < eucl s s := by rw [ss]; positivity
  have p2 : 0 < eucl (s.cross k1) (s.cross k1) := by
    rw [cross_sq, ss, kk, sk]
    have : 0 < k.k_t ^ 2 * (kin.k1_t ^ 2 + k1l kin ^ 2) +
      (kin.lambda_Y_sqrt / (2 * kin.M) - k.k_l) ^ 2 * kin.k1_t ^ 2 := by positivity
    linarith
  obtain ⟨-, n2, n3, n4⟩ := c17_shift_hadron sample_physicalRad p1
  refine ⟨p1, p2, ?_, ?_⟩
  · have n3' : k.shift_ph_t = √k.shift_ph_t_sq := n3
    have n2' : k.shift_ph_t_sq = eucl (momH kin).r (momH kin).r -
      eucl (momH kin).r s ^ 2 / eucl s s := n2
    rw [n3', n2']
    apply Real.sqrt_pos.2
    rw [sub_pos, div_lt_iff₀ p1, hh, hhs, ss]
    have : 0 < k.k_t ^ 2 * (kin.ph_t ^ 2 + kin.ph_l ^ 2) +
      (kin.lambda_Y_sqrt / (2 * kin.M) - k.k_l) ^ 2 * kin.ph_t ^ 2 := by positivity
    linarith
  · obtain ⟨-, l2, -⟩ := c17_shift_lambda sample_physicalRad
    rw [hr.sqt_eq, hr.sl1s_eq]
    refine div_pos (Real.sqrt_pos.2 ?_) hk.lS_pos
    rw [cross_sq] at p2
    have l2' : k.shift_lambda_1 = 4 * k.M ^ 2 * (eucl s s * eucl k1 k1 - eucl s k1 ^ 2) := l2
    rw [l2']; positivity

/-! ## C18: a photon of zero energy -/

/-- C18: at `R = 0` the shifted kinematics agree with the unshifted ones in every field; the two
angles are replaced by their representatives in `(-π, π]`. -/
theorem c18_zero_photon {ps : Particles ℝ} {S : ℝ} {pt : PhaseSpace ℝ} (h : Physical ps S pt)
    (h1 : 0 < (Kinematics.make ps S pt).lambda_1) (hpt : 0 < pt.ph_t_sq) (tau phi_k : ℝ) :
    let kin := Kinematics.make ps S pt
    let k := KinematicsRad.make kin tau phi_k 0
    k.projectShift = { kin with phi_h := k.shift_phi_h, phi_q := k.shift_phi_q } ∧
    (∃ n : ℤ, k.shift_phi_h = pt.phi_h + n * (2 * Real.pi)) ∧
    (∃ n : ℤ, k.shift_phi_q = kin.phi_q + n * (2 * Real.pi)) ∧
    (-Real.pi < k.shift_phi_h ∧ k.shift_phi_h ≤ Real.pi) ∧
    (-Real.pi < k.shift_phi_q ∧ k.shift_phi_q ≤ Real.pi) ∧
    (-Real.pi < pt.phi_h → pt.phi_h ≤ Real.pi → -Real.pi < kin.phi_q → k.projectShift = kin) := by
  intro kin k
  have hk : KinRel kin := kinRel_of_physical h
  have hM := hk.M_pos
  have hY := hk.lY_pos
  have hS := hk.lS_pos
  have hSx := hk.Sx_pos
  have hS0 := hk.S_pos
  have hl1 : 0 < kin.lambda_1_sqrt := Real.sqrt_pos.2 h1
  have hpt' : 0 < kin.ph_t := Real.sqrt_pos.2 hpt
  have hqt : 0 < kin.q_t := by rw [hk.q_t_eq]; positivity
  have lRY : k.lambda_RY = 0 := zero_mul _
  have lRV : k.lambda_RV = 0 := by
    change (2 * kin.M) / kin.lambda_Y_sqrt * (2 * (kin.M * kin.M) * 0 * kin.ph_t * √_ * Real.cos _
      + k.lambda_RY * kin.ph_l) = 0
    rw [lRY]; ring
  have kt : k.k_t = 0 := by
    change kin.M * 0 * k.lambda_z_sqrt / _ = 0
    simp
  have kl : k.k_l = 0 := by
    change k.lambda_RY / _ = 0
    rw [lRY, zero_div]
  have sQ : k.shift_Q_sq = kin.Q_sq := by change kin.Q_sq + 0 * tau = _; ring
  have sQ' : k.shift_Q = kin.Q := by
    change √k.shift_Q_sq = _; rw [sQ]; rfl
  have sSx : k.shift_S_x = kin.S_x := sub_zero _
  have sVm : k.shift_V_m = kin.V_m := by
    change kin.V_m + (k.lambda_RV - kin.z * 0 * kin.S_x) / _ = _; rw [lRV]; simp
  have sx : k.shift_x = kin.x := by
    change k.shift_Q_sq / k.shift_S_x = _; rw [sQ, sSx, hk.x_eq]
  have sy : k.shift_y = kin.y := by change kin.y - 0 / kin.S = _; simp
  have sz : k.shift_z = kin.z := by
    change kin.S_x / k.shift_S_x * kin.z = _; rw [sSx, div_self hSx.ne', one_mul]
  have st : k.shift_t = kin.t := by
    change kin.t - 0 * tau + (kin.z * 0 * kin.S_x - k.lambda_RV) / _ = _; rw [lRV]; simp
  have sW : k.shift_W_sq = kin.W_sq := by change kin.W_sq - 0 * (1 + tau) = _; simp
  have slY : k.shift_lambda_Y = kin.lambda_Y := by
    change kin.lambda_Y + 0 * 0 - 2 * k.lambda_RY = _; rw [lRY]; ring
  have sl1 : k.shift_lambda_1 = kin.lambda_1 := by
    change kin.lambda_1 + 1 / _ * ((0 * 0 - 2 * k.lambda_RY) * kin.lambda_S + 0 * _ * _) = _
    rw [lRY]; ring
  have sl2 : k.shift_lambda_2 = kin.lambda_2 := by
    change k.shift_V_m * k.shift_V_m + kin.mh * kin.mh * k.shift_Q_sq = _; rw [sVm, sQ]; rfl
  have sl3 : k.shift_lambda_3 = kin.lambda_3 := by
    change k.shift_V_m + k.shift_z * k.shift_Q_sq = _; rw [sVm, sQ, sz]; rfl
  have slYs : k.shift_lambda_Y_sqrt = kin.lambda_Y_sqrt := by
    change √k.shift_lambda_Y = _; rw [slY]; rfl
  have sl1s : k.shift_lambda_1_sqrt = kin.lambda_1_sqrt := by
    change √k.shift_lambda_1 = _; rw [sl1]; rfl
  have sl2s : k.shift_lambda_2_sqrt = kin.lambda_2_sqrt := by
    change √k.shift_lambda_2 = _; rw [sl2]; rfl
  have sl3s : k.shift_lambda_3_sqrt = kin.lambda_3_sqrt := by
    change √k.shift_lambda_3 = _; rw [sl3]; rfl
  have spt2 : k.shift_ph_t_sq = kin.ph_t_sq := by
    change kin.ph_t_sq + 1 / _ * ((0 * 0 - 2 * k.lambda_RY) * (kin.ph_l * kin.ph_l)
      + (kin.lambda_Y_sqrt * k.lambda_RV * kin.ph_l) / _ - k.lambda_RV * k.lambda_RV / _) = _
    rw [lRY, lRV]; simp
  have spt : k.shift_ph_t = kin.ph_t := by
    change √k.shift_ph_t_sq = _; rw [spt2]; rfl
  have spl : k.shift_ph_l = kin.ph_l := by
    change 1 / k.shift_lambda_Y_sqrt * (kin.lambda_Y_sqrt * kin.ph_l - k.lambda_RV / _) = _
    rw [slYs, lRV]; field_simp; ring
  have sq0 : k.shift_q_0 = kin.q_0 := by
    change k.shift_S_x / _ = _; rw [sSx]; rfl
  have sqt : k.shift_q_t = kin.q_t := by
    change k.shift_lambda_1_sqrt / kin.lambda_S_sqrt = _; rw [sl1s]; rfl
  have sql : k.shift_q_l = kin.q_l := by
    change kin.q_l - 0 / _ * _ = _; simp
  have sk1 : k.shift_k1_t = kin.k1_t := by
    change k.shift_lambda_1_sqrt / k.shift_lambda_Y_sqrt = _; rw [sl1s, slYs]; rfl
  have smx2 : k.shift_mx_sq = kin.mx_sq := by
    change kin.mx_sq - 0 * (1 + tau) + (kin.z * 0 * kin.S_x - k.lambda_RV) / _ = _
    rw [lRV]; simp
  have smx : k.shift_mx = kin.mx := by
    change √k.shift_mx_sq = _; rw [smx2]; rfl
  have svol : k.shift_vol_phi_h = kin.vol_phi_h := by
    change kin.vol_phi_h + 1 / _ * (0 * kin.vol_phi_h * _ + 0 * k.vol_phi_k_R * _) = _
    simp
  have sC : k.shift_C_1 = kin.C_1 := by
    change (4 * kin.M * k.shift_ph_l * (k.shift_Q_sq + 2 * k.shift_x * (kin.M * kin.M))) /
      ((k.shift_Q_sq * k.shift_Q_sq) * (k.shift_Q_sq * k.shift_Q_sq)) = _
    rw [spl, sQ, sx]; rfl
  have ssh : k.shift_sin_phi_h = kin.sin_phi_h := by
    change -2 * k.shift_vol_phi_h / (k.shift_ph_t * k.shift_q_t * kin.lambda_S_sqrt) = _
    rw [svol, spt, sqt, hk.vol_eq, hk.q_t_eq]
    field_simp
  have sch : k.shift_cos_phi_h = kin.cos_phi_h := by
    change 1 / (4 * (kin.M * kin.M) * k.shift_ph_t * k.shift_q_t * k.shift_lambda_Y_sqrt *
      kin.lambda_S_sqrt) * (k.shift_lambda_Y * (kin.z * kin.S * kin.S_x - 2 * (kin.M * kin.M) *
      kin.V_1) - ((kin.z * (kin.S_x * kin.S_x) - 4 * (kin.M * kin.M) * kin.V_m) - k.lambda_RV) *
      (kin.S * k.shift_S_x + 2 * (kin.M * kin.M) * kin.Q_sq + 2 * (kin.M * kin.M) * k.z_1 * 0)) = _
    rw [spt, sqt, slYs, slY, lRV, sSx, hk.V_1_eq, hk.V_m_eq, hk.q_t_eq, hk.k1_t_eq, hk.q_0_eq,
      hk.ph_0_eq, ← hk.lY_sq]
    field_simp
    ring
  have ssq : k.shift_sin_phi_q = kin.sin_phi_q := by
    change 1 / k.shift_q_t * (kin.q_t * kin.sin_phi_q - (2 * kin.M) / kin.lambda_Y_sqrt * (
      k.k_t * _ + k.k_l * kin.q_t * kin.sin_phi)) = _
    rw [sqt, kt, kl]; field_simp; ring
  have scq : k.shift_cos_phi_q = kin.cos_phi_q := by
    change 1 / k.shift_q_t * (kin.q_t * kin.cos_phi_q - (2 * kin.M) / kin.lambda_Y_sqrt * (
      k.k_t * _ - k.k_l * kin.q_t * kin.cos_phi)) = _
    rw [sqt, kt, kl]; field_simp; ring
  have main : k.projectShift = { kin with phi_h := k.shift_phi_h, phi_q := k.shift_phi_q } := by
    apply Kinematics.ext <;> first | rfl | assumption
  have eh : k.shift_phi_h = Complex.arg ⟨Real.cos pt.phi_h, Real.sin pt.phi_h⟩ := by
    change atan2R k.shift_sin_phi_h k.shift_cos_phi_h = _
    rw [ssh, sch]; rfl
  have eq : k.shift_phi_q = Complex.arg ⟨Real.cos kin.phi_q, Real.sin kin.phi_q⟩ := by
    change atan2R k.shift_sin_phi_q k.shift_cos_phi_q = _
    rw [ssq, scq, hk.cos_q, hk.sin_q]; rfl
  have hform : ∀ a : ℝ, (⟨Real.cos a, Real.sin a⟩ : ℂ) = Complex.cos a + Complex.sin a * Complex.I := by
    intro a
    apply Complex.ext <;> simp [← Complex.ofReal_cos, ← Complex.ofReal_sin]
  have hmod : ∀ a : ℝ, ∃ n : ℤ, Complex.arg ⟨Real.cos a, Real.sin a⟩ = a + n * (2 * Real.pi) := by
    intro a
    rw [hform, Complex.arg_cos_add_sin_mul_I_eq_toIocMod]
    refine ⟨-toIocDiv Real.two_pi_pos (-Real.pi) a, ?_⟩
    have e := toIocMod_add_toIocDiv_zsmul Real.two_pi_pos (-Real.pi) a
    rw [zsmul_eq_mul] at e
    push_cast
    linarith
  refine ⟨main, ?_, ?_, ?_, ?_, ?_⟩
  · rw [eh]; exact hmod _
  · rw [eq]; exact hmod _
  · rw [eh]; exact ⟨Complex.neg_pi_lt_arg _, Complex.arg_le_pi _⟩
  · rw [eq]; exact ⟨Complex.neg_pi_lt_arg _, Complex.arg_le_pi _⟩
  · intro a1 a2 a3
    have a4 : kin.phi_q ≤ Real.pi := (wrapPhiQ_spec pt.phi).2.1
    rw [main]
    have b1 : k.shift_phi_h = kin.phi_h := by
      rw [eh, hform, Complex.arg_cos_add_sin_mul_I ⟨a1, a2⟩]; rfl
    have b2 : k.shift_phi_q = kin.phi_q := by
      rw [eq, hform, Complex.arg_cos_add_sin_mul_I ⟨a3, a4⟩]
    rw [b1, b2]

/-- The sample point meets the hypotheses of C18. -/
example : Physical samplePs 20 samplePt ∧ 0 < (Kinematics.make samplePs 20 samplePt).lambda_1 ∧
    0 < samplePt.ph_t_sq := by
  refine ⟨sample_physical.2, ?_, ?_⟩
  · rw [(kinRel_of_physical sample_physical.2).l1_eq, (kinRel_of_physical sample_physical.2).lY_eq]
    norm_num [samplePs, samplePt, Kinematics.make, Nucleus.mass, Lepton.mass, Hadron.mass,
      CMath.ofReal]
  · norm_num [samplePt]

end Props
end Sidis
