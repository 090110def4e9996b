import Verif.Spec.Trento
import Verif.Props.CrossSection

/-!
# C72: the Born cross-section is the textbook formula
-/

namespace Sidis.Props

open Spec

section
variable {k : Kinematics ℝ}

/-- Short names: `L = √λ_Y` and `u`, with which the hadron momentum enters the coefficients. -/
private noncomputable def uOf (k : Kinematics ℝ) : ℝ :=
  (k.z * k.lambda_Y_sqrt - 2 * k.M * k.ph_l) / (4 * k.M ^ 2)

variable (h : KinRel k) (hl2 : k.lambda_2 = sq k.V_m + sq k.mh * k.Q_sq)
  (hl3 : k.lambda_3 = k.V_m + k.z * k.Q_sq)

include h in
private theorem four_MQ : 4 * k.M ^ 2 * k.Q_sq = k.lambda_Y_sqrt ^ 2 - k.S_x ^ 2 := by
  rw [h.lY_sq, h.lY_eq]; ring

include h in
private theorem pl_eq : 2 * k.M * k.ph_l = k.z * k.lambda_Y_sqrt - 4 * k.M ^ 2 * uOf k := by
  have := h.M_pos
  unfold uOf; field_simp; ring

include h in
private theorem Vm_eq : k.V_m = k.lambda_Y_sqrt * uOf k - k.z * k.Q_sq := by
  have hM := h.M_pos
  have e : 4 * k.M ^ 2 * k.V_m = 4 * k.M ^ 2 * (k.lambda_Y_sqrt * uOf k - k.z * k.Q_sq) := by
    rw [h.V_m_eq, h.q_0_eq, h.ph_0_eq]
    have h2 := pl_eq h
    have h3 := four_MQ h
    field_simp
    linear_combination (-k.lambda_Y_sqrt) * h2 + k.z * h3
  exact mul_left_cancel₀ (by positivity) e

include h in
private theorem mh_eq : sq k.mh = -k.z ^ 2 * k.Q_sq - k.ph_t ^ 2 + 2 * uOf k * k.z * k.lambda_Y_sqrt
    - 4 * k.M ^ 2 * uOf k ^ 2 := by
  have hM := h.M_pos
  have h1 := h.ph_l_sq
  rw [h.ph_0_eq] at h1
  have h2 := pl_eq h
  have h3 := four_MQ h
  have e : 4 * k.M ^ 2 * sq k.mh = 4 * k.M ^ 2 * (-k.z ^ 2 * k.Q_sq - k.ph_t ^ 2
      + 2 * uOf k * k.z * k.lambda_Y_sqrt - 4 * k.M ^ 2 * uOf k ^ 2) := by
    unfold sq
    field_simp at h1
    linear_combination h1 + (k.z ^ 2) * h3 -
      (2 * k.M * k.ph_l + k.z * k.lambda_Y_sqrt - 4 * k.M ^ 2 * uOf k) * h2
  exact mul_left_cancel₀ (by positivity) e

include h in
private theorem m_eq : k.m ^ 2 = k.Q_sq * (k.S_p ^ 2 - k.lambda_Y_sqrt ^ 2) / (4 * k.lambda_Y_sqrt ^ 2)
    - k.k1_t ^ 2 := by
  have hY := h.lY_pos
  have h1 := h.l1_eq
  rw [h.X_eq, ← h.lY_sq, ← h.l1_sq] at h1
  have h3 := four_MQ h
  rw [h.k1_t_eq, h.Sp_eq]
  field_simp
  linear_combination 4 * h1 - k.Q_sq * h3

include h hl3 in
private theorem l3_eq : k.lambda_3 = k.lambda_Y_sqrt * uOf k := by
  rw [hl3, Vm_eq h]; ring

include h hl2 in
private theorem l2_eq : k.lambda_2 = k.S_x ^ 2 * uOf k ^ 2 - k.Q_sq * k.ph_t ^ 2 := by
  rw [hl2, mh_eq h, Vm_eq h]
  have h3 := four_MQ h
  unfold sq
  linear_combination (-(uOf k) ^ 2) * h3

include h hl2 hl3 in
/-- The Gram determinant of photon, target and hadron. -/
theorem lambda_gram : k.lambda_Y_sqrt ^ 2 * k.lambda_2 =
    k.S_x ^ 2 * k.lambda_3 ^ 2 - k.Q_sq * k.lambda_Y_sqrt ^ 2 * k.ph_t ^ 2 := by
  rw [l2_eq h hl2, l3_eq h hl3]; ring

include h in
private theorem Vp_eq : k.V_p = k.S_p * k.S_x * uOf k / k.lambda_Y_sqrt
    - 2 * k.ph_t * k.k1_t * k.cos_phi_h := by
  have hM := h.M_pos
  have hY := h.lY_pos
  rw [h.V_p_eq, h.V_1_eq, h.V_2_eq, h.ph_0_eq, h.X_eq, h.Sp_eq]
  unfold uOf
  field_simp
  ring

include h in
private theorem V1_eq : k.V_1 = k.V_p + k.V_m := by
  have hM := h.M_pos
  have hY := h.lY_pos
  have h3 := four_MQ h
  rw [h.V_p_eq, h.V_1_eq, h.V_2_eq, h.V_m_eq, h.q_0_eq, h.ph_0_eq, h.X_eq]
  field_simp
  linear_combination (-2 * k.ph_l * k.M) * h3

include h in
private theorem V2_eq : k.V_2 = k.V_p - k.V_m := by
  have := h.V_p_eq
  have := V1_eq h
  linarith

/-- Weight of transverse photons. -/
private noncomputable def kOf (k : Kinematics ℝ) : ℝ := 2 * k.k1_t ^ 2 + k.Q_sq

variable (hpt : 0 < k.ph_t)

include h hl2 hl3 hpt in
/-- The part of the contraction even under reflection. -/
private theorem contr_even (a00 a11 a22 a01 : ℝ) :
    (leptonicBorn k).c1 * a22
      + (leptonicBorn k).c2 * (4 / (sq k.lambda_Y * k.ph_t_sq) * (k.lambda_Y * k.ph_t_sq * k.Q_sq * a00
        + sq k.lambda_3 * sq k.S_x * a11 - k.lambda_2 * k.lambda_Y * a22 - 2 * k.S_x
        * k.lambda_3 * k.ph_t * k.Q * k.lambda_Y_sqrt * a01))
      + (leptonicBorn k).c3 * (1 / k.ph_t_sq * (a11 - a22))
      + (leptonicBorn k).c4 * (2 / (k.lambda_Y * k.ph_t_sq) * (k.lambda_3 * k.S_x * (a22 - a11)
        + k.ph_t * k.Q * k.lambda_Y_sqrt * a01))
    = kOf k * ((a11 + a22) / 2) + 2 * k.k1_t ^ 2 * (2 * k.cos_phi_h ^ 2 - 1) * ((a11 - a22) / 2)
      + (2 * k.k1_t ^ 2 + 2 * k.m ^ 2) * a00
      - 2 * k.k1_t * (k.Q * k.S_p / k.lambda_Y_sqrt) * k.cos_phi_h * a01 := by
  have hY := h.lY_pos
  have t1 : (leptonicBorn k).c1 = k.Q_sq - 2 * k.m ^ 2 := by simp [leptonicBorn, LepBornBaseUU.make, sq, pow_two]
  have t2 : (leptonicBorn k).c2 = 1 / 8 * (k.S_p ^ 2 - k.lambda_Y_sqrt ^ 2) := by
    have h3 := four_MQ h
    simp only [leptonicBorn, LepBornBaseUU.make, sq, h.X_eq, h.Sp_eq]
    linear_combination (-1 / 8 : ℝ) * h3
  have t3 : (leptonicBorn k).c3 = 1 / 2 * (k.V_p ^ 2 - k.lambda_2) := by
    simp only [leptonicBorn, LepBornBaseUU.make, hl2, V1_eq h, V2_eq h]
    simp only [sq]; ring
  have t4 : (leptonicBorn k).c4 = 1 / 2 * (k.S_p * k.V_p - k.S_x * k.lambda_3) := by
    simp only [leptonicBorn, LepBornBaseUU.make, hl3, V1_eq h, V2_eq h, h.X_eq, h.Sp_eq]
    ring
  rw [t1, t2, t3, t4, l2_eq h hl2, l3_eq h hl3, Vp_eq h, m_eq h, ← h.lY_sq, ← h.ph_t_sqr, kOf]
  simp only [sq]
  rw [← h.Q_sqr]
  field_simp
  ring

include h in
private theorem vol_eq' : k.vol_phi_h = -(1 / 2) * k.ph_t * (k.k1_t * k.lambda_Y_sqrt) * k.sin_phi_h := by
  have hY := h.lY_pos
  rw [h.vol_eq, h.k1_t_eq, div_mul_cancel₀ _ hY.ne']

include h hl3 hpt in
/-- The part of the contraction odd under reflection. -/
private theorem contr_odd (a b : ℝ) :
    (leptonicBorn k).c6 * (4 / (k.lambda_Y_sqrt ^ 3 * k.ph_t_sq) * (k.lambda_3 * k.S_x * a - k.Q * k.ph_t
      * k.lambda_Y_sqrt * b)) + (leptonicBorn k).c8 * (-2 / (k.lambda_Y_sqrt * k.ph_t_sq) * a)
    = 2 * k.k1_t ^ 2 * (2 * k.sin_phi_h * k.cos_phi_h) * a
      - 2 * k.k1_t * (k.Q * k.S_p / k.lambda_Y_sqrt) * k.sin_phi_h * b := by
  have hY := h.lY_pos
  simp only [leptonicBorn, LepBornBaseUP.make, vol_eq' h, l3_eq h hl3, Vp_eq h, ← h.ph_t_sqr]
  field_simp
  ring

include h hpt in
private theorem contr_circ_even (b : ℝ) :
    (leptonicBorn k).c5 * ((2 * k.Q) / (k.ph_t * k.lambda_Y_sqrt) * b)
    = -(2 * k.k1_t * k.Q * (k.S / k.lambda_S_sqrt)) * k.sin_phi_h * b := by
  have hY := h.lY_pos
  have hS := h.lS_pos
  simp only [leptonicBorn, LepBornBaseLU.make, vol_eq' h]
  field_simp

include h hl2 hl3 hpt in
private theorem contr_circ_odd (a b : ℝ) :
    (leptonicBorn k).c7 * (4 / (k.lambda_Y_sqrt ^ 3 * k.ph_t_sq) * (k.lambda_3 * k.S_x * a - k.Q * k.ph_t
      * k.lambda_Y_sqrt * b)) + (leptonicBorn k).c9 * (-2 / (k.lambda_Y_sqrt * k.ph_t_sq) * a)
    = -(k.S * k.Q ^ 2 * k.S_p / k.lambda_Y_sqrt - 2 * k.m ^ 2 * k.lambda_Y_sqrt) / k.lambda_S_sqrt * a
      + 2 * k.k1_t * k.Q * (k.S / k.lambda_S_sqrt) * k.cos_phi_h * b := by
  have hY := h.lY_pos
  have hS := h.lS_pos
  have t7 : (leptonicBorn k).c7 = k.S / (4 * k.lambda_S_sqrt)
      * (k.lambda_Y_sqrt ^ 2 * k.V_p - k.S_p * k.S_x * k.lambda_3) := by
    simp only [leptonicBorn, LepBornBaseLP.make, hl3, ← h.lY_sq]
    ring
  have t9 : (leptonicBorn k).c9 = 1 / (2 * k.lambda_S_sqrt)
      * (k.S * (k.S_x * k.V_p * k.lambda_3 - k.S_p * k.lambda_2)
        - 2 * k.m ^ 2 * (k.lambda_Y_sqrt ^ 2 * k.ph_t ^ 2)) := by
    have e : 4 * sq k.M * sq k.V_m + k.lambda_Y * sq k.mh
        - k.z * sq k.S_x * (k.z * k.Q_sq + 2 * k.V_m) = -(k.lambda_Y_sqrt ^ 2 * k.ph_t ^ 2) := by
      rw [mh_eq h, Vm_eq h, ← h.lY_sq]
      have h3 := four_MQ h
      simp only [sq]
      linear_combination (k.z ^ 2 * k.Q_sq - 2 * uOf k * k.z * k.lambda_Y_sqrt) * h3
    simp only [leptonicBorn, LepBornBaseLP.make, e, hl2, hl3, V1_eq h, V2_eq h, h.X_eq, h.Sp_eq]
    simp only [sq]
    ring
  rw [t7, t9, l2_eq h hl2, l3_eq h hl3, Vp_eq h, ← h.ph_t_sqr, ← h.Q_sqr]
  field_simp
  ring

include h hl2 hl3 hpt in
/-- The contraction for target polarisation `S_T (cos, sin)(phi_S - phi_h)` and `S_L`. -/
private theorem contr_all (sf : SfFuns) (lambda_e S_L S_T phi_S : ℝ) :
    contract (leptonicBorn k) (hadronic k sf ⟨S_T * Real.cos (phi_S - k.phi_h),
      S_T * Real.sin (phi_S - k.phi_h), S_L⟩) lambda_e
    = angular ⟨k.C_1 * kOf k, (2 * k.k1_t ^ 2 + 2 * k.m ^ 2) / kOf k, 2 * k.k1_t ^ 2 / kOf k,
        2 * k.k1_t * (k.Q * k.S_p / k.lambda_Y_sqrt) / kOf k,
        (k.S * k.Q ^ 2 * k.S_p / k.lambda_Y_sqrt - 2 * k.m ^ 2 * k.lambda_Y_sqrt) / k.lambda_S_sqrt
          / kOf k,
        2 * k.k1_t * k.Q * (k.S / k.lambda_S_sqrt) / kOf k⟩
      (.at sf k.hadron k.x k.z k.Q_sq k.ph_t_sq) k.phi_h phi_S lambda_e S_L S_T := by
  have hK : kOf k ≠ 0 := by
    have := h.Q2_pos
    unfold kOf; positivity
  obtain ⟨D, rfl⟩ : ∃ D, phi_S = k.phi_h + D := ⟨phi_S - k.phi_h, by ring⟩
  set F := SfValues.at sf k.hadron k.x k.z k.Q_sq k.ph_t_sq with hF
  set C := k.C_1
  set ex := S_T * Real.cos D with hex
  set ey := S_T * Real.sin D with hey
  have E := contr_even h hl2 hl3 hpt (C * F.UUL - ey * (C * F.UTL_sin_h_m_S))
    (C * (F.UU_cos_2h + F.UUT) - ey * (C * (F.UT_sin_3h_m_S + F.UTT_sin_h_m_S - F.UT_sin_h_p_S)))
    (C * (F.UUT - F.UU_cos_2h) - ey * (C * (F.UT_sin_h_p_S + F.UTT_sin_h_m_S - F.UT_sin_3h_m_S)))
    (-C * F.UU_cos_h - ey * (C * (F.UT_sin_S - F.UT_sin_2h_m_S)))
  have O := contr_odd h hl3 hpt
    (ex * (C * (F.UT_sin_3h_m_S + F.UT_sin_h_p_S)) + S_L * (C * F.UL_sin_2h))
    (ex * (-C * (F.UT_sin_2h_m_S + F.UT_sin_S)) + S_L * (-C * F.UL_sin_h))
  have CE := contr_circ_even h hpt (-C * F.LU_sin_h - ey * (-C * (F.LT_cos_S - F.LT_cos_2h_m_S)))
  have CO := contr_circ_odd h hl2 hl3 hpt
    (ex * (-C * F.LT_cos_h_m_S) + S_L * (-C * F.LL))
    (ex * (C * (F.LT_cos_2h_m_S + F.LT_cos_S)) + S_L * (C * F.LL_cos_h))
  have e := congrArg₂ (· + ·) (congrArg₂ (· + ·) E O)
    (congrArg (lambda_e * ·) (congrArg₂ (· + ·) CE CO))
  rw [add_sub_cancel_left, ← hex, ← hey]
  refine (Eq.trans ?_ e).trans ?_
  · simp only [contract, hadronic, hadronicOf, makeHadBaseUU, makeHadBaseUL, makeHadBaseUT,
      makeHadBaseLU, makeHadBaseLL, makeHadBaseLT, SfFuns.baseUU, SfFuns.baseUL, SfFuns.baseUT,
      SfFuns.baseLU, SfFuns.baseLL, SfFuns.baseLT, hF, SfValues.at]
    ring
  have hs := h.sin_h
  have hc := h.cos_h
  have t1 : Real.sin (k.phi_h - (k.phi_h + D)) = -Real.sin D := by
    rw [sub_add_cancel_left, Real.sin_neg]
  have t2 : Real.cos (k.phi_h - (k.phi_h + D)) = Real.cos D := by
    rw [sub_add_cancel_left, Real.cos_neg]
  have t3 : k.phi_h + (k.phi_h + D) = 2 * k.phi_h + D := by ring
  have t4 : 3 * k.phi_h - (k.phi_h + D) = 2 * k.phi_h - D := by ring
  have t5 : 2 * k.phi_h - (k.phi_h + D) = k.phi_h - D := by ring
  simp only [angular, t1, t2, t3, t4, t5, Real.sin_add, Real.sin_sub, Real.cos_add, Real.cos_sub,
    Real.sin_two_mul, Real.cos_two_mul, ← hs, ← hc, hex, hey]
  field_simp
  ring

end

/-- C72: the Born cross-section of the library is the textbook formula for a lepton of mass `m`, for
every beam helicity, every target polarisation (`S_L` along the virtual photon, `S_T` transverse to it
at azimuth `phi_S`) and every set of structure functions, at every physical point with a hadron that
is neither collinear nor of vanishing longitudinal momentum. -/
theorem c72_textbook {ps : Particles ℝ} {S : ℝ} {pt : PhaseSpace ℝ} (hp : Physical ps S pt)
    (hpt : 0 < pt.ph_t_sq) (hpl : pt.ph_t_sq + ps.mh ^ 2 < (pt.z * (S * pt.y) / (2 * ps.M)) ^ 2)
    (ph : Phenom) (sf : SfFuns) (lambda_e S_L S_T phi_S : ℝ) :
    xsBorn (.make ps S pt) ph sf lambda_e
        ⟨S_T * Real.cos (phi_S - pt.phi_h), S_T * Real.sin (phi_S - pt.phi_h), S_L⟩
      = angular (massiveWeights ph.alpha_qed ps.M ps.m S pt.x pt.y (S * pt.x * pt.y))
        (.at sf ps.hadron pt.x pt.z (S * pt.x * pt.y) pt.ph_t_sq) pt.phi_h phi_S lambda_e S_L S_T := by
  have h := kinRel_of_physical hp
  set k := Kinematics.make ps S pt with hk
  have hpt' : 0 < k.ph_t := Real.sqrt_pos.2 hpt
  have hl : 0 < k.ph_l := by
    have h1 := h.ph_l_sq
    have h2 : k.ph_t ^ 2 = pt.ph_t_sq := h.ph_t_sqr
    have h3 : k.mh = ps.mh := rfl
    rw [h2, h3, h.ph_0_eq] at h1
    have h4 : 0 < k.ph_l ^ 2 := by
      rw [h1]
      have : pt.ph_t_sq + ps.mh ^ 2 < (k.z * k.S_x / (2 * k.M)) ^ 2 := hpl
      linarith
    exact lt_of_le_of_ne h.ph_l_nonneg fun e => by rw [← e] at h4; norm_num at h4
  rw [c54_born]
  have hC := contr_all h rfl rfl hpt' sf lambda_e S_L S_T phi_S
  rw [show k.phi_h = pt.phi_h from rfl] at hC
  rw [hC]
  have hM := h.M_pos
  have hS := h.S_pos
  have hx := h.Sx_pos
  have hQ2 := h.Q2_pos
  have hY := h.lY_pos
  have hSS := h.lS_pos
  have hK : 0 < kOf k := by unfold kOf; positivity
  have eQ : S * pt.x * pt.y = k.Q_sq := rfl
  have ex : pt.x = k.Q_sq / k.S_x := h.x_eq
  have ey : pt.y = k.S_x / k.S := h.y_eq
  have eM : ps.M = k.M := rfl
  have em : ps.m = k.m := rfl
  have eS : S = k.S := rfl
  rw [eQ, eM, em, eS]
  have γ : 4 * k.M ^ 2 * pt.x ^ 2 / k.Q_sq = k.lambda_Y_sqrt ^ 2 / k.S_x ^ 2 - 1 := by
    have h3 := four_MQ h
    rw [ex]
    field_simp
    linear_combination h3
  have PT : 4 * k.Q_sq * (1 - pt.y - 4 * k.M ^ 2 * pt.x ^ 2 / k.Q_sq * pt.y ^ 2 / 4)
      / (pt.y ^ 2 * (1 + 4 * k.M ^ 2 * pt.x ^ 2 / k.Q_sq)) - 4 * k.m ^ 2 = 4 * k.k1_t ^ 2 := by
    rw [γ, ey, m_eq h, h.Sp_eq]
    field_simp
    ring
  have P0 : √(4 * k.k1_t ^ 2 + k.Q_sq + 4 * k.m ^ 2) = k.Q * k.S_p / k.lambda_Y_sqrt := by
    have hX : 0 < k.X := by
      have h1 := h.l1_eq
      rw [← h.l1_sq, ← h.lY_sq] at h1
      have h2 : 0 ≤ k.Q_sq * (k.S * k.X - k.M ^ 2 * k.Q_sq) := by
        have : k.Q_sq * (k.S * k.X - k.M ^ 2 * k.Q_sq)
          = k.lambda_1_sqrt ^ 2 + k.m ^ 2 * k.lambda_Y_sqrt ^ 2 := by linarith
        rw [this]; positivity
      have h3 : 0 ≤ k.S * k.X - k.M ^ 2 * k.Q_sq := nonneg_of_mul_nonneg_right h2 hQ2
      have h4 : 0 < k.S * k.X := by
        have : 0 < k.M ^ 2 * k.Q_sq := by positivity
        linarith
      exact (mul_pos_iff_of_pos_left hS).1 h4
    have hSp : 0 < k.S_p := by rw [h.Sp_eq]; rw [h.X_eq] at hX; linarith
    have hQ := h.Q_pos
    rw [show 4 * k.k1_t ^ 2 + k.Q_sq + 4 * k.m ^ 2 = (k.Q * k.S_p / k.lambda_Y_sqrt) ^ 2 by
      rw [m_eq h, ← h.Q_sqr]; field_simp; ring, Real.sqrt_sq (by positivity)]
  have PT' : √(4 * k.k1_t ^ 2) = 2 * k.k1_t := by
    rw [show 4 * k.k1_t ^ 2 = (2 * k.k1_t) ^ 2 by ring, Real.sqrt_sq]
    rw [h.k1_t_eq]
    have := h.l1_nonneg
    positivity
  have β : √(1 - 4 * k.M ^ 2 * k.m ^ 2 / k.S ^ 2) = k.lambda_S_sqrt / k.S := by
    rw [show 1 - 4 * k.M ^ 2 * k.m ^ 2 / k.S ^ 2 = (k.lambda_S_sqrt / k.S) ^ 2 by
      rw [div_pow, h.lS_sq, h.lS_eq]; field_simp, Real.sqrt_sq (by positivity)]
  have hg : pt.y * √(1 + 4 * k.M ^ 2 * pt.x ^ 2 / k.Q_sq) = k.lambda_Y_sqrt / k.S := by
    rw [γ, add_sub_cancel, ← div_pow, Real.sqrt_sq (by positivity), ey]
    field_simp
  have hw : massiveWeights ph.alpha_qed k.M k.m k.S pt.x pt.y k.Q_sq
      = ⟨bornCoeff k ph * (k.C_1 * kOf k), (2 * k.k1_t ^ 2 + 2 * k.m ^ 2) / kOf k,
        2 * k.k1_t ^ 2 / kOf k, 2 * k.k1_t * (k.Q * k.S_p / k.lambda_Y_sqrt) / kOf k,
        (k.S * k.Q ^ 2 * k.S_p / k.lambda_Y_sqrt - 2 * k.m ^ 2 * k.lambda_Y_sqrt) / k.lambda_S_sqrt
          / kOf k,
        2 * k.k1_t * k.Q * (k.S / k.lambda_S_sqrt) / kOf k⟩ := by
    unfold massiveWeights
    have hQ : √k.Q_sq = k.Q := rfl
    dsimp only
    rw [PT, P0, PT', β, hQ, show 4 * k.k1_t ^ 2 / 2 + k.Q_sq = kOf k by unfold kOf; ring]
    congr 1
    · have e : k.C_1 = (4 * k.M * k.ph_l * (k.Q_sq + 2 * pt.x * sq k.M)) / sq (sq k.Q_sq) := rfl
      rw [e, bornCoeff, ← h.lS_sq, ex, ey]
      simp only [sq]
      field_simp
      ring
    · ring
    · ring
    · ring
    · rw [mul_assoc (2 * k.m ^ 2), hg]; field_simp
    · field_simp
  rw [hw, show SfValues.at sf ps.hadron pt.x pt.z k.Q_sq pt.ph_t_sq
    = SfValues.at sf k.hadron k.x k.z k.Q_sq k.ph_t_sq from rfl]
  unfold angular
  dsimp only
  ring

/-- For a massless lepton the weights are the published ones. -/
theorem massiveWeights_zero (alpha M S x y Q_sq : ℝ) (hx : 0 < x) (hy : 0 < y) (hQ : 0 < Q_sq)
    (hA : 0 ≤ 1 - y - 4 * M ^ 2 * x ^ 2 / Q_sq * y ^ 2 / 4) :
    massiveWeights alpha M 0 S x y Q_sq = masslessWeights alpha M x y Q_sq := by
  unfold massiveWeights masslessWeights
  dsimp only
  set g := 4 * M ^ 2 * x ^ 2 / Q_sq with hg
  have hg0 : 0 ≤ g := by positivity
  set A := 1 - y - g * y ^ 2 / 4 with hAdef
  have hA' : 1 - y + y ^ 2 / 2 + g * y ^ 2 / 4 = A + y ^ 2 * (1 + g) / 2 := by rw [hAdef]; ring
  have hB : 0 < y ^ 2 * (1 + g) := by positivity
  set B := y ^ 2 * (1 + g) with hBdef
  rw [hA']
  set T := 4 * Q_sq * A / B with hT
  have hT0 : 0 ≤ T := by positivity
  have e0 : 4 * Q_sq * A / B - 4 * (0 : ℝ) ^ 2 = T := by rw [hT]; ring
  rw [e0]
  set ε := A / (A + B / 2) with hε
  have hK : 0 < T / 2 + Q_sq := by positivity
  set K := T / 2 + Q_sq with hKdef
  have e1 : ε = T / 2 / K := by
    have h1 : 0 < A + B / 2 := by positivity
    rw [hε, hKdef, hT, div_eq_div_iff h1.ne' (by positivity)]
    field_simp
    ring
  have e2 : 1 - ε = Q_sq / K := by rw [e1, eq_div_iff hK.ne', sub_mul, div_mul_cancel₀ _ hK.ne']; ring
  have e3 : (1 : ℝ) - 4 * M ^ 2 * 0 ^ 2 / S ^ 2 = 1 := by ring
  have e4 : T + Q_sq + 4 * (0 : ℝ) ^ 2 = T + Q_sq := by ring
  rw [e3, e4, Real.sqrt_one]
  have s1 : √(2 * ε * (1 + ε)) = √(T + Q_sq) * √T / K := by
    rw [show 2 * ε * (1 + ε) = (T + Q_sq) * T / K ^ 2 by rw [e1]; field_simp; rw [hKdef]; ring,
      Real.sqrt_div (by positivity), Real.sqrt_sq hK.le, Real.sqrt_mul (by positivity)]
  have s2 : √(1 - ε ^ 2) = √(T + Q_sq) * √Q_sq / K := by
    rw [show 1 - ε ^ 2 = (T + Q_sq) * Q_sq / K ^ 2 by
        rw [show 1 - ε ^ 2 = (1 - ε) * (1 + ε) by ring, e2, e1]; field_simp; rw [hKdef]; ring,
      Real.sqrt_div (by positivity), Real.sqrt_sq hK.le, Real.sqrt_mul (by positivity)]
  have s3 : √(2 * ε * (1 - ε)) = √T * √Q_sq / K := by
    rw [show 2 * ε * (1 - ε) = T * Q_sq / K ^ 2 by rw [e2, e1]; field_simp,
      Real.sqrt_div (by positivity), Real.sqrt_sq hK.le, Real.sqrt_mul (by positivity)]
  rw [s1, s2, s3, e2, e1]
  congr 1
  · field_simp
  · ring
  · ring
  · ring

/-- C72: for a massless lepton the Born cross-section is the published formula in terms of the ratio
`ε` of longitudinal and transverse photon flux. -/
theorem c72_massless {ps : Particles ℝ} {S : ℝ} {pt : PhaseSpace ℝ} (hp : Physical ps S pt)
    (hm : ps.m = 0)
    (hpt : 0 < pt.ph_t_sq) (hpl : pt.ph_t_sq + ps.mh ^ 2 < (pt.z * (S * pt.y) / (2 * ps.M)) ^ 2)
    (ph : Phenom) (sf : SfFuns) (lambda_e S_L S_T phi_S : ℝ) :
    xsBorn (.make ps S pt) ph sf lambda_e
        ⟨S_T * Real.cos (phi_S - pt.phi_h), S_T * Real.sin (phi_S - pt.phi_h), S_L⟩
      = angular (masslessWeights ph.alpha_qed ps.M pt.x pt.y (S * pt.x * pt.y))
        (.at sf ps.hadron pt.x pt.z (S * pt.x * pt.y) pt.ph_t_sq) pt.phi_h phi_S lambda_e S_L S_T := by
  have hS : 0 < S := (kinRel_of_physical hp).S_pos
  have hx := hp.x_pos
  have hy := hp.y_pos
  rw [c72_textbook hp hpt hpl, hm, massiveWeights_zero _ _ _ _ _ _ hx hy (by positivity)]
  have h := hp.lepton
  rw [hm] at h
  have h1 : 0 ≤ S * pt.x * pt.y * (S ^ 2 * (1 - pt.y - 4 * ps.M ^ 2 * pt.x ^ 2 / (S * pt.x * pt.y)
      * pt.y ^ 2 / 4)) := by
    have : S * pt.x * pt.y * (S ^ 2 * (1 - pt.y - 4 * ps.M ^ 2 * pt.x ^ 2 / (S * pt.x * pt.y)
      * pt.y ^ 2 / 4))
      = S * pt.x * pt.y * (S * ((1 - pt.y) * S) - ps.M ^ 2 * (S * pt.x * pt.y)) := by
      field_simp
    rw [this]; linarith
  exact nonneg_of_mul_nonneg_right (nonneg_of_mul_nonneg_right h1 (by positivity)) (by positivity)

/-- The sample point, with its massive and with a massless beam, meets the hypotheses. -/
example : Physical samplePs 20 samplePt ∧ Physical { samplePs with m := 0 } 20 samplePt ∧
    0 < samplePt.ph_t_sq ∧
    samplePt.ph_t_sq + samplePs.mh ^ 2 < (samplePt.z * (20 * samplePt.y) / (2 * samplePs.M)) ^ 2 := by
  refine ⟨sample_physical.2, ?_, ?_, ?_⟩
  · constructor <;> norm_num [samplePs, samplePt, Nucleus.mass, Lepton.mass, Hadron.mass, CMath.ofReal]
  all_goals norm_num [samplePs, samplePt, Nucleus.mass, Hadron.mass, CMath.ofReal]

end Sidis.Props
