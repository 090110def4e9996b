import Verif.Lemmas.Frame
import Verif.Props.KinRad
import Verif.Props.Transform

/-! # Properties of reference frames and final states (C21, C22) -/

namespace Sidis.Props

open Spec Frame

variable {ps : Particles ℝ} {S : ℝ}

/-! ## C21 -/

/-- C21: the lepton frame is a rotation of the target frame, with the virtual photon along z and the
beam in the half plane of the positive x axis. -/
theorem c21_lepton {pt : PhaseSpace ℝ} (h : Physical ps S pt) :
    let k := Kinematics.make ps S pt
    IsRotation (targetFromLepton k) ∧ IsRotation (leptonFromTarget k) ∧
    Inverse3 (targetFromLepton k) (leptonFromTarget k) ∧
    (leptonFromTarget k).apply (momQ k).r = ⟨0, 0, length (momQ k).r⟩ ∧
    ((leptonFromTarget k).apply (momK1 k).r).y = 0 ∧
    ((leptonFromTarget k).apply (momK1 k).r).x = k.k1_t ∧ 0 ≤ k.k1_t := by
  intro k
  have hk : KinRel k := kinRel_of_physical h
  have hrot : IsRotation (targetFromLepton k) := hk.lep_rotation
  have hq : (momQ k).r = (targetFromLepton k).apply ⟨0, 0, k.lambda_Y_sqrt / (2 * k.M)⟩ := by
    rw [hk.momQ_eq, lepT, Transform4.ofT3_apply]; rfl
  have hk1 : (momK1 k).r = (targetFromLepton k).apply ⟨k.k1_t, 0, k1l k⟩ := by
    rw [hk.momK1_eq, lepT, Transform4.ofT3_apply]; rfl
  have inv : Inverse3 (targetFromLepton k) (leptonFromTarget k) := Transform3.rotation_inverse hrot
  refine ⟨hrot, Transform3.rotation_transpose hrot, inv, ?_, ?_, ?_, ?_⟩
  · rw [hk.len_q, hq, inv.2]
  · rw [hk1, inv.2]
  · rw [hk1, inv.2]
  · rw [hk.k1_t_eq]; exact div_nonneg hk.l1_nonneg hk.lY_pos.le

theorem hadron_rot {k : Kinematics ℝ} (hk : KinRel k) : IsRotation (targetFromHadron k) := by
  refine Transform3.rotation_mul hk.lep_rotation (Transform3.rotZ ?_)
  rw [hk.cos_h, hk.sin_h]; exact Real.sin_sq_add_cos_sq _

theorem hadron_apply {k : Kinematics ℝ} (x y z : ℝ) : (targetFromHadron k).apply ⟨x, y, z⟩ =
    (targetFromLepton k).apply ⟨x * k.cos_phi_h - y * k.sin_phi_h,
      x * k.sin_phi_h + y * k.cos_phi_h, z⟩ := by
  rw [targetFromHadron, Transform3.apply_mul]
  congr 1
  ext <;> simp [Transform3.apply, Transform3.mk9, Vec3.dot] <;> ring

/-- C21: the hadron frame is a rotation of the target frame, with the virtual photon along z and the
hadron in the half plane of the positive x axis. -/
theorem c21_hadron {pt : PhaseSpace ℝ} (h : Physical ps S pt) :
    let k := Kinematics.make ps S pt
    IsRotation (targetFromHadron k) ∧ IsRotation (hadronFromTarget k) ∧
    Inverse3 (targetFromHadron k) (hadronFromTarget k) ∧
    (hadronFromTarget k).apply (momQ k).r = ⟨0, 0, length (momQ k).r⟩ ∧
    (hadronFromTarget k).apply (momH k).r = ⟨k.ph_t, 0, k.ph_l⟩ ∧ 0 ≤ k.ph_t := by
  intro k
  have hk : KinRel k := kinRel_of_physical h
  have hrot := hadron_rot hk
  have inv : Inverse3 (targetFromHadron k) (hadronFromTarget k) := Transform3.rotation_inverse hrot
  have hq : (momQ k).r = (targetFromHadron k).apply ⟨0, 0, k.lambda_Y_sqrt / (2 * k.M)⟩ := by
    rw [hk.momQ_eq, lepT, Transform4.ofT3_apply, hadron_apply]; simp [Vec4.ofVec3, Vec4.r]
  have hh : (momH k).r = (targetFromHadron k).apply ⟨k.ph_t, 0, k.ph_l⟩ := by
    rw [hk.momH_eq, lepT, Transform4.ofT3_apply, hadron_apply]; simp [Vec4.ofVec3, Vec4.r]
  refine ⟨hrot, Transform3.rotation_transpose hrot, inv, ?_, ?_, hk.ph_t_nonneg⟩
  · rw [hk.len_q, hq, inv.2]
  · rw [hh, inv.2]

/-- C21: the virtual photon frame is a proper Lorentz transformation of the target frame in which the
virtual photon has no energy and momentum `Q` along z. -/
theorem c21_virt_photon {pt : PhaseSpace ℝ} (h : Physical ps S pt) :
    let k := Kinematics.make ps S pt
    IsProperLorentz (targetFromVirtPhoton k) ∧ IsLorentz (virtPhotonFromTarget k) ∧
    Inverse4 (targetFromVirtPhoton k) (virtPhotonFromTarget k) ∧
    (virtPhotonFromTarget k).apply (momQ k) = ⟨0, 0, 0, k.Q⟩ ∧ 0 < k.Q := by
  intro k
  have hk : KinRel k := kinRel_of_physical h
  have hM := hk.M_pos
  have hQ := hk.Q_pos
  have hY := hk.lY_pos
  set b : Transform4 := .mk16 (k.lambda_Y_sqrt / (2 * k.M * k.Q)) 0 0 (k.q_0 / k.Q) 0 1 0 0 0 0 1 0
    (k.q_0 / k.Q) 0 0 (k.lambda_Y_sqrt / (2 * k.M * k.Q)) with hb
  have e : targetFromVirtPhoton k = (Transform4.ofT3 (targetFromHadron k)).mul b := rfl
  have key : (k.lambda_Y_sqrt / (2 * k.M * k.Q)) ^ 2 - (k.q_0 / k.Q) ^ 2 = 1 := by
    rw [hk.q_0_eq]
    field_simp
    rw [hk.lY_sq, hk.lY_eq, ← hk.Q_sqr]
    ring
  have hbl : IsLorentz b := by
    apply Transform4.lorentz_of
    rw [hb]
    generalize k.lambda_Y_sqrt / (2 * k.M * k.Q) = c at *
    generalize k.q_0 / k.Q = s at *
    ext <;> simp [Transform4.mul, Transform4.transpose, Vec4.dot, Transform4.one,
      Transform4.mk16]
    all_goals first | ring1 | linear_combination key | linear_combination -key
  have hbd : b.det = 1 := by
    rw [hb]
    generalize k.lambda_Y_sqrt / (2 * k.M * k.Q) = c at *
    generalize k.q_0 / k.Q = s at *
    simp [Transform4.det, Transform4.mk16]
    linear_combination key
  have hrot := Transform4.ofT3_proper (hadron_rot hk)
  have hl : IsLorentz (targetFromVirtPhoton k) := by rw [e]; exact Transform4.lorentz_mul hrot.1 hbl
  have inv : Inverse4 (targetFromVirtPhoton k) (virtPhotonFromTarget k) :=
    ⟨fun v => by
      rw [virtPhotonFromTarget, ← Transform4.apply_mul, Transform4.lorentz_mul_transpose hl,
        Transform4.apply_one],
     fun v => by
      rw [virtPhotonFromTarget, ← Transform4.apply_mul, Transform4.lorentz_transpose_mul hl,
        Transform4.apply_one]⟩
  refine ⟨⟨hl, ?_, ?_⟩, Transform4.lorentz_transpose hl, inv, ?_, hQ⟩
  · rw [e, Transform4.mat4_mul, Matrix.det_mul, hrot.2.1, ← Transform4.det_eq, hbd, one_mul]
  · rw [e, Transform4.mat4_mul, Transform4.mat4_eq, Transform4.mat4_eq, hb]
    simp [Matrix.mul_apply, Fin.sum_univ_four, Transform4.ofT3, Vec4.ofVec3, Vec4.et,
      Transform4.mk16]
    positivity
  · have hq : momQ k = (targetFromVirtPhoton k).apply ⟨0, 0, 0, k.Q⟩ := by
      rw [e, Transform4.apply_mul]
      have : b.apply ⟨0, 0, 0, k.Q⟩ = ⟨k.q_0, 0, 0, k.lambda_Y_sqrt / (2 * k.M)⟩ := by
        rw [hb]
        ext <;> simp [Transform4.apply, Transform4.mk16, Vec4.dot] <;> field_simp
      rw [this, Transform4.ofT3_apply, hk.momQ_eq, lepT, Transform4.ofT3_apply]
      simp only [Vec4.r]
      rw [hadron_apply]; simp
    rw [hq, inv.2]

/-- C21: the real photon frame is a rotation of the target frame, with the virtual photon along z
and the real photon in the half plane of the x axis. -/
theorem c21_real_photon {pt : PhaseSpaceRad ℝ} (h : PhysicalRad ps S pt) :
    let k := KinematicsRad.ofPoint ps S pt
    IsRotation (targetFromRealPhoton k) ∧ IsRotation (realPhotonFromTarget k) ∧
    Inverse3 (targetFromRealPhoton k) (realPhotonFromTarget k) ∧
    (realPhotonFromTarget k).apply (momQ k.project).r = ⟨0, 0, length (momQ k.project).r⟩ ∧
    (realPhotonFromTarget k).apply (momK k).r = ⟨k.k_t, 0, k.k_l⟩ ∧ (0 ≤ pt.R → 0 ≤ k.k_t) := by
  intro k
  have hr : RadRel k := radRel_of_physical h
  have hk : KinRel k.project := hr.kin
  have hrot : IsRotation (targetFromRealPhoton k) :=
    Transform3.rotation_mul hk.lep_rotation (Transform3.rotZ hr.sck)
  have ap : ∀ x y z : ℝ, (targetFromRealPhoton k).apply ⟨x, y, z⟩ =
      (targetFromLepton k.project).apply ⟨x * k.cos_phi_k - y * k.sin_phi_k,
        x * k.sin_phi_k + y * k.cos_phi_k, z⟩ := by
    intro x y z
    rw [targetFromRealPhoton, Transform3.apply_mul]
    congr 1
    ext <;> simp [Transform3.apply, Transform3.mk9, Vec3.dot] <;> ring
  have inv : Inverse3 (targetFromRealPhoton k) (realPhotonFromTarget k) :=
    Transform3.rotation_inverse hrot
  have hq : (momQ k.project).r = (targetFromRealPhoton k).apply
      ⟨0, 0, k.lambda_Y_sqrt / (2 * k.M)⟩ := by
    rw [hk.momQ_eq, lepT, Transform4.ofT3_apply, ap]; simp [Vec4.ofVec3, Vec4.r]; rfl
  have hh : (momK k).r = (targetFromRealPhoton k).apply ⟨k.k_t, 0, k.k_l⟩ := by
    rw [hr.momK_eq, lepT, Transform4.ofT3_apply, ap]; simp [Vec4.ofVec3, Vec4.r]
  refine ⟨hrot, Transform3.rotation_transpose hrot, inv, ?_, ?_, ?_⟩
  · rw [hk.len_q, hq, inv.2]; rfl
  · rw [hh, inv.2]
  · intro hR
    have hM : 0 < k.M := hk.M_pos
    have hY := hr.lY_pos
    have hT := hr.T_nonneg
    have hR' : 0 ≤ k.R := hR
    rw [hr.k_t_eq]; positivity

/-- C21: the shifted frame is a rotation of the target frame, with `q - k` along z and the hadron in
the half plane of the positive x axis.  The transformation from the hadron frame needs a hadron with
transverse momentum both before and after the emission. -/
theorem c21_shift {pt : PhaseSpaceRad ℝ} (h : PhysicalRad ps S pt) :
    let k := KinematicsRad.ofPoint ps S pt
    let s := (momQ k.project - momK k).r
    0 < pt.ph_t_sq → 0 < k.shift_ph_t → 0 < eucl s s →
    IsRotation (shiftFromHadron k) ∧ Inverse3 (shiftFromHadron k) (hadronFromShift k) ∧
    IsRotation (targetFromShift k) ∧ Inverse3 (targetFromShift k) (shiftFromTarget k) ∧
    (shiftFromTarget k).apply s = ⟨0, 0, length s⟩ ∧
    (shiftFromTarget k).apply (momH k.project).r = ⟨k.shift_ph_t, 0, k.shift_ph_l⟩ := by
  intro k s hpt hspt hs
  have hr : RadRel k := radRel_of_physical h
  have hk : KinRel k.project := hr.kin
  have hM : 0 < k.M := hk.M_pos
  have hM0 := hM.ne'
  have hY := hr.lY_pos
  have hY0 := hY.ne'
  have hpt' : 0 < k.ph_t := Real.sqrt_pos.2 hpt
  have hpt0 := hpt'.ne'
  have hs0 := hspt.ne'
  have hsc := hr.sch
  have hck := hr.sck
  -- coordinates in the hadron frame
  set n := k.lambda_Y_sqrt / (2 * k.M) with hn
  set kx := k.k_t * (k.cos_phi_k * k.cos_phi_h + k.sin_phi_k * k.sin_phi_h) with hkx
  set ky := k.k_t * (k.sin_phi_k * k.cos_phi_h - k.cos_phi_k * k.sin_phi_h) with hky
  have hn0 : 0 < n := by rw [hn]; positivity
  have hrot : IsRotation (targetFromHadron k.project) := hadron_rot hk
  have es : s = (targetFromHadron k.project).apply ⟨-kx, -ky, n - k.k_l⟩ := by
    simp only [s]
    rw [hk.momQ_eq, hr.momK_eq, ← Transform4.apply_sub, lepT, Transform4.ofT3_apply, hadron_apply]
    change (targetFromLepton k.project).apply _ = (targetFromLepton k.project).apply _
    congr 1
    ext
    · change 0 - k.k_t * k.cos_phi_k = -kx * k.cos_phi_h - -ky * k.sin_phi_h
      rw [hkx, hky]; linear_combination (k.k_t * k.cos_phi_k) * hsc
    · change 0 - k.k_t * k.sin_phi_k = -kx * k.sin_phi_h + -ky * k.cos_phi_h
      rw [hkx, hky]; linear_combination (k.k_t * k.sin_phi_k) * hsc
    · rfl
  have eh : (momH k.project).r = (targetFromHadron k.project).apply ⟨k.ph_t, 0, k.ph_l⟩ := by
    rw [hk.momH_eq, lepT, Transform4.ofT3_apply, hadron_apply]
    simp [Vec4.ofVec3, Vec4.r]; rfl
  have hss : eucl s s = eucl ⟨-kx, -ky, n - k.k_l⟩ ⟨-kx, -ky, n - k.k_l⟩ := by rw [es, hrot.1]
  have hsh : eucl (momH k.project).r s = eucl ⟨-kx, -ky, n - k.k_l⟩ ⟨k.ph_t, 0, k.ph_l⟩ := by
    rw [Transform3.eucl_comm, es, eh, hrot.1]
  have hhh : eucl (momH k.project).r (momH k.project).r =
      eucl ⟨k.ph_t, 0, k.ph_l⟩ ⟨k.ph_t, 0, k.ph_l⟩ := by rw [eh, hrot.1]
  set l := length s with hl
  have hlp : 0 < l := length_pos hs
  have hl0 := hlp.ne'
  have hl2 : l ^ 2 = eucl s s := length_sq s
  obtain ⟨p1, p2, p3, -⟩ := c17_shift_hadron h hs
  obtain ⟨q1, -⟩ := c17_shift_lambda h
  have q1' : k.shift_lambda_Y = 4 * k.M ^ 2 * eucl s s := q1
  have p1' : k.shift_ph_l = eucl (momH k.project).r s / l := p1
  have p2' : k.shift_ph_t_sq = eucl (momH k.project).r (momH k.project).r -
    eucl (momH k.project).r s ^ 2 / eucl s s := p2
  have p3' : k.shift_ph_t = √k.shift_ph_t_sq := p3
  have hw2 : k.shift_ph_t ^ 2 = k.shift_ph_t_sq := by
    rw [p3']; refine Real.sq_sqrt ?_
    by_contra hc
    push Not at hc
    rw [p3', Real.sqrt_eq_zero_of_nonpos hc.le] at hspt
    exact lt_irrefl _ hspt
  have eslY : k.shift_lambda_Y = 4 * k.M ^ 2 * l ^ 2 := by rw [q1', hl2]
  have eslYs : k.shift_lambda_Y_sqrt = 2 * k.M * l := by
    rw [hr.slYs_eq, eslY, show 4 * k.M ^ 2 * l ^ 2 = (2 * k.M * l) ^ 2 by ring,
      Real.sqrt_sq (by positivity)]
  have eYs : k.lambda_Y_sqrt = 2 * k.M * n := by rw [hn]; field_simp
  have eY : k.lambda_Y = 4 * k.M ^ 2 * n ^ 2 := by rw [hr.lY', eYs]; ring
  have eRY : k.lambda_RY = 4 * k.M ^ 2 * n * k.k_l := by
    rw [hr.k_l_eq, hn]; field_simp; ring
  have eRV : k.lambda_RV = 4 * k.M ^ 2 * (kx * k.ph_t + k.k_l * k.ph_l) := by
    rw [hr.lRV_eq, hkx, hr.k_t_eq, hr.k_l_eq]; field_simp; ring
  have eV : k.lambda_V = 4 * k.M ^ 2 * n * k.ph_l := by rw [hr.lV', eYs]; ring
  have eH : k.lambda_H = 4 * k.M ^ 2 * (k.ph_t ^ 2 + k.ph_l ^ 2) := by
    have a : k.ph_l ^ 2 = k.ph_0 ^ 2 - k.ph_t ^ 2 - k.mh ^ 2 := hk.ph_l_sq
    rw [hr.lH_eq, a, hr.ph_0_eq]; field_simp; ring
  have eR : k.R ^ 2 = 4 * k.M ^ 2 * (kx ^ 2 + ky ^ 2 + k.k_l ^ 2) := by
    have a := hr.kk
    rw [hr.momK_eq, hk.mink_lep] at a
    have a' : k.k_0 * k.k_0 - (k.k_t * k.cos_phi_k * (k.k_t * k.cos_phi_k) + k.k_t * k.sin_phi_k *
      (k.k_t * k.sin_phi_k) + k.k_l * k.k_l) = 0 := a
    rw [hr.k_0_eq] at a'
    field_simp at a'
    rw [hkx, hky]
    linear_combination a' - (4 * k.M ^ 2 * k.k_t ^ 2 * (k.cos_phi_k ^ 2 + k.sin_phi_k ^ 2)) * hsc
  have evol : k.vol_phi_hk = -(k.M * ky * k.ph_t * n) := by
    rw [hr.volhk, hr.momK_eq, hk.momP_eq, hk.momH_eq, hk.momQ_eq, hk.eps_lep, eps_rest]
    change k.M * (k.k_t * k.cos_phi_k * (k.ph_t * k.sin_phi_h * n - k.ph_l * 0) +
      k.k_t * k.sin_phi_k * (k.ph_l * 0 - k.ph_t * k.cos_phi_h * n) +
      k.k_l * (k.ph_t * k.cos_phi_h * 0 - k.ph_t * k.sin_phi_h * 0)) = _
    rw [hky]; ring
  have hl2' : l ^ 2 = kx ^ 2 + ky ^ 2 + (n - k.k_l) ^ 2 := by
    rw [hl2, hss]; simp [eucl]; ring
  have main := Transform3.frame_of (a := ⟨-kx, -ky, n - k.k_l⟩) (b := ⟨k.ph_t, 0, k.ph_l⟩)
    (t := shiftFromHadron k) hlp hspt (by rw [hl2, hss]) (by
      rw [hw2, p2', hhh, hsh, ← hl2]; field_simp) ?_ ?_ ?_
  · obtain ⟨m1, m2, m3⟩ := main
    have rot2 : IsRotation (targetFromShift k) :=
      Transform3.rotation_mul hrot (Transform3.rotation_transpose m1)
    have inv2 : Inverse3 (targetFromShift k) (shiftFromTarget k) :=
      Transform3.rotation_inverse rot2
    have inv1 : Inverse3 (shiftFromHadron k) (hadronFromShift k) := Transform3.rotation_inverse m1
    have tr : ∀ v w, (shiftFromHadron k).apply v = w →
        (shiftFromTarget k).apply ((targetFromHadron k.project).apply v) = w := by
      intro v w hvw
      have : (targetFromHadron k.project).apply v = (targetFromShift k).apply w := by
        rw [targetFromShift, Transform3.apply_mul, ← hvw, inv1.2]
      rw [this, inv2.2]
    refine ⟨m1, inv1, rot2, inv2, ?_, ?_⟩
    · nth_rewrite 1 [es]; exact tr _ _ m2
    · rw [eh, p1', hsh]; exact tr _ _ m3
  · ext <;> simp only [shiftFromHadron, sq, eslY, eslYs, eY, eYs, eRY, eRV, eV, eH, eR, evol,
      Vec3.smul_x, Vec3.smul_y, Vec3.smul_z, Vec3.sub_x, Vec3.sub_y, Vec3.sub_z, eucl]
    · rw [← pow_two k.R, eR]; field_simp; linear_combination (-k.ph_t ^ 2) * hl2'
    · field_simp; ring
    · rw [← pow_two k.R, eR]; field_simp; linear_combination (-4 * k.ph_l) * hl2'
  · ext <;> simp only [shiftFromHadron, sq, eslY, eslYs, eY, eYs, eRY, eRV, eV, eH, eR, evol,
      Vec3.smul_x, Vec3.smul_y, Vec3.smul_z, Vec3.cross]
    · field_simp; ring
    · field_simp; ring
    · field_simp; ring
  · ext <;> simp only [shiftFromHadron, sq, eslY, eslYs, eY, eYs, eRY, eRV, eV, eH, eR, evol,
      Vec3.smul_x, Vec3.smul_y, Vec3.smul_z]
    · field_simp; ring
    · field_simp; ring
    · field_simp; ring

/-- The y axis chosen by `target_from_lab` is never degenerate. -/
theorem yAxis_spec (pol k : Vec3) (hk : k ≠ ⟨0, 0, 0⟩) :
    eucl (yAxis pol k) k = 0 ∧ yAxis pol k ≠ ⟨0, 0, 0⟩ ∧
    (pol.perp k.unit ≠ ⟨0, 0, 0⟩ → yAxis pol k = pol.perp k.unit) := by
  have hu : k.norm • k.unit = k := Vec3.smul_unit k
  have hn := Vec3.norm_pos hk
  have hu0 : k.unit ≠ ⟨0, 0, 0⟩ := by
    intro h; rw [h] at hu; apply hk; rw [← hu]; ext <;> simp
  have ek : ∀ v : Vec3, eucl v k.unit = 0 → eucl v k = 0 := by
    intro v hv; rw [← hu, Transform3.eucl_smul_right, hv, mul_zero]
  have hc : ∀ v : Vec3, eucl (v.cross k.unit) k = 0 := fun v =>
    ek _ (Transform3.eucl_cross_self' _ _)
  have hz : ∀ v : Vec3, v.normSq = 0 ↔ v = ⟨0, 0, 0⟩ := fun v => Vec3.normSq_eq_zero
  simp only [yAxis]
  by_cases h1 : (pol.perp k.unit).normSq = 0
  · rw [if_pos h1]
    have h1' := (hz _).1 h1
    by_cases h2 : (Vec3.ex.cross k.unit).normSq = 0
    · rw [if_pos h2]
      have h2' := (hz _).1 h2
      have h3 : (Vec3.ey.cross k.unit).normSq ≠ 0 := by
        intro h3
        have h3' := (hz _).1 h3
        apply hu0
        have a := congrArg Vec3.y h2'
        have b := congrArg Vec3.z h2'
        have c := congrArg Vec3.z h3'
        simp [Vec3.cross, Vec3.ex, Vec3.ey] at a b c
        ext <;> assumption
      rw [if_neg h3]
      exact ⟨hc _, fun h => h3 ((hz _).2 h), fun h => absurd h1' h⟩
    · rw [if_neg h2, if_neg h2]
      exact ⟨hc _, fun h => h2 ((hz _).2 h), fun h => absurd h1' h⟩
  · rw [if_neg h1, if_neg h1, if_neg h1]
    exact ⟨ek _ (c09_par_perp pol k.unit hu0).2.2, fun h => h1 ((hz _).2 h), fun _ => rfl⟩

/-- The sample points meet the hypotheses of the frames above. -/
example :
    let k := KinematicsRad.ofPoint samplePs 20 samplePtRad
    let s := (momQ k.project - momK k).r
    Physical samplePs 20 samplePt ∧ PhysicalRad samplePs 20 samplePtRad ∧
      0 < samplePtRad.ph_t_sq ∧ 0 < k.shift_ph_t ∧ 0 < eucl s s :=
  ⟨sample_physical.2, sample_physicalRad, by norm_num [samplePtRad, samplePt],
    sampleRad_nondegenerate.2.2.1, sampleRad_nondegenerate.1⟩

/-- C21: the transformation from the laboratory to the target frame is a proper Lorentz
transformation which brings the target to rest and the beam to the z axis.  It is a boost followed
by a rotation; seen after the boost, the polarisation lies in the y-z plane, with a positive y
component unless it is along the beam. -/
theorem c21_lab (init : Initial) (pol : Vec3) (hp : 0 < msq init.p) (ht : 0 < init.p.t)
    (hk : msq init.p * msq init.k1 < mink init.p init.k1 ^ 2) :
    ∃ (L B : Transform4) (R : Transform3), targetFromLab init pol = some L ∧
      labFromTarget init pol = some L.transpose ∧ Inverse4 L L.transpose ∧
      IsProperLorentz L ∧ L.apply init.p = ⟨√(msq init.p), 0, 0, 0⟩ ∧
      L.apply init.k1 = ⟨mink init.p init.k1 / √(msq init.p), 0, 0,
        √((mink init.p init.k1 / √(msq init.p)) ^ 2 - msq init.k1)⟩ ∧
      (∀ v, L.apply v = .ofVec3 (B.apply v).t (R.apply (B.apply v).r)) ∧ IsProperLorentz B ∧
      B.apply init.p = ⟨√(msq init.p), 0, 0, 0⟩ ∧ IsRotation R ∧
      (R.apply pol).x = 0 ∧ 0 ≤ (R.apply pol).y ∧
      (pol.cross (B.apply init.k1).r ≠ ⟨0, 0, 0⟩ → 0 < (R.apply pol).y) := by
  have het : mink Vec4.et Vec4.et = 1 := by simp [mink, Vec4.et]
  obtain ⟨B, hB, hBu, hBl⟩ := c11_transform_to_future init.p .et hp (by rw [het]; norm_num) ht
    (by simp [Vec4.et])
  have hMp : 0 < √(msq init.p) := Real.sqrt_pos.2 hp
  have hM2 : √(msq init.p) ^ 2 = msq init.p := Real.sq_sqrt hp.le
  have hns : init.p.normSq ≠ 0 := by
    have : 0 < init.p.normSq := by rw [Vec4.normSq, ← Transform4.mink_eq]; exact hp
    exact this.ne'
  have hnorm : init.p.norm = √(msq init.p) := by
    rw [Vec4.norm_eq, Vec4.normSq, ← Transform4.mink_eq]
    change √|msq init.p| = _
    rw [abs_of_pos hp]
  have hetu : Vec4.et.unit = .et := by
    have e : Vec4.et.norm = 1 := by
      rw [Vec4.norm_eq, Vec4.normSq, ← Transform4.mink_eq, het]; simp
    rw [Vec4.unit_eq (by rw [Vec4.normSq, ← Transform4.mink_eq, het]; norm_num), e]
    ext <;> simp [Vec4.et]
  have hBp : B.apply init.p = ⟨√(msq init.p), 0, 0, 0⟩ := by
    have e := congrArg B.apply (Vec4.smul_unit hns)
    rw [Transform4.apply_smul, hBu, hetu, hnorm] at e
    rw [← e]
    ext <;> simp [Vec4.et]
  set k' := B.apply init.k1 with hk'
  have hE : mink init.p init.k1 = √(msq init.p) * k'.t := by
    rw [← hBl.1 init.p init.k1, hBp]; simp [mink, hk']
  have hkk : msq init.k1 = k'.t ^ 2 - eucl k'.r k'.r := by
    rw [msq, ← hBl.1 init.k1 init.k1, ← hk']; simp [mink, eucl, Vec4.r]; ring
  have hr : 0 < eucl k'.r k'.r := by
    rw [hE, hkk, mul_pow, hM2] at hk
    by_contra hc
    push Not at hc
    nlinarith
  have hr0 : k'.r ≠ ⟨0, 0, 0⟩ := by
    intro h; rw [h] at hr; simp [eucl] at hr
  obtain ⟨y1, y2, y3⟩ := yAxis_spec pol k'.r hr0
  have hyz : (yAxis pol k'.r).cross k'.r ≠ ⟨0, 0, 0⟩ := by
    intro h
    have e := Transform3.eucl_cross_cross (yAxis pol k'.r) k'.r
    rw [h, y1] at e
    have hy : 0 < eucl (yAxis pol k'.r) (yAxis pol k'.r) := by
      have : (yAxis pol k'.r).normSq ≠ 0 := fun h => y2 (Vec3.normSq_eq_zero.1 h)
      rw [Vec3.normSq_eq] at this
      have h0 : 0 ≤ (yAxis pol k'.r).x ^ 2 + (yAxis pol k'.r).y ^ 2 + (yAxis pol k'.r).z ^ 2 := by
        positivity
      have := lt_of_le_of_ne h0 (Ne.symm this)
      unfold eucl; nlinarith
    have : (0 : ℝ) < eucl (yAxis pol k'.r) (yAxis pol k'.r) * eucl k'.r k'.r := mul_pos hy hr
    have e0 : eucl ⟨0, 0, 0⟩ ⟨0, 0, 0⟩ = 0 := by simp [eucl]
    rw [e0] at e
    linarith
  obtain ⟨r1, r2, r3, r4⟩ := c10_rotate_basis k'.r (yAxis pol k'.r) hyz
  set R := Transform3.rotateBasis k'.r (yAxis pol k'.r) with hR
  have hL : targetFromLab init pol = some ((Transform4.ofT3 R).mul B) := by
    unfold targetFromLab; rw [hB]; rfl
  have hRl := Transform4.ofT3_proper r1
  have hll : IsLorentz ((Transform4.ofT3 R).mul B) := Transform4.lorentz_mul hRl.1 hBl.1
  have happ : ∀ v, ((Transform4.ofT3 R).mul B).apply v =
      .ofVec3 (B.apply v).t (R.apply (B.apply v).r) := by
    intro v; rw [Transform4.apply_mul, Transform4.ofT3_apply]
  refine ⟨(Transform4.ofT3 R).mul B, B, R, hL, by unfold labFromTarget; rw [hL]; rfl, ?_,
    ⟨hll, ?_, ?_⟩, ?_, ?_, happ, hBl, hBp, r1, ?_, ?_, ?_⟩
  · exact ⟨fun v => by rw [← Transform4.apply_mul, Transform4.lorentz_mul_transpose hll,
      Transform4.apply_one], fun v => by rw [← Transform4.apply_mul,
      Transform4.lorentz_transpose_mul hll, Transform4.apply_one]⟩
  · rw [Transform4.mat4_mul, Matrix.det_mul, hRl.2.1, hBl.2.1, one_mul]
  · have h00 := hBl.2.2
    rw [Transform4.mat4_mul]
    rw [Transform4.mat4_eq] at h00 ⊢
    rw [Transform4.mat4_eq]
    simp [Matrix.mul_apply, Fin.sum_univ_four, Transform4.ofT3, Vec4.ofVec3, Vec4.et] at h00 ⊢
    exact h00
  · rw [happ, hBp]
    simp [Vec4.ofVec3, Vec4.r, Transform3.apply, Vec3.dot]
  · rw [happ, ← hk', r2, hE, hkk]
    have e1 : √(msq init.p) * k'.t / √(msq init.p) = k'.t := by field_simp
    rw [e1]
    have e2 : k'.t ^ 2 - (k'.t ^ 2 - eucl k'.r k'.r) = k'.r.x ^ 2 + k'.r.y ^ 2 + k'.r.z ^ 2 := by
      unfold eucl; ring
    rw [e2]; rfl
  all_goals
    have hu : k'.r.norm • k'.r.unit = k'.r := Vec3.smul_unit k'.r
    have hn := Vec3.norm_pos hr0
    have hu0 : k'.r.unit ≠ ⟨0, 0, 0⟩ := by
      intro h; rw [h] at hu; apply hr0; rw [← hu]; ext <;> simp
    obtain ⟨d1, ⟨c, d2⟩, -⟩ := c09_par_perp pol k'.r.unit hu0
    have hpar : pol.par k'.r.unit = (c / k'.r.norm) • k'.r := by
      rw [d2, Vec3.unit_eq hr0]
      ext <;> simp <;> ring
    have hRp : R.apply pol = (c / k'.r.norm) • (⟨0, 0, length k'.r⟩ : Vec3) +
        R.apply (pol.perp k'.r.unit) := by
      nth_rewrite 1 [← d1]
      rw [Transform3.apply_add, hpar, Transform3.apply_smul, r2]
    by_cases h0 : pol.perp k'.r.unit = ⟨0, 0, 0⟩
  · rw [hRp, h0]; simp [Transform3.apply, Vec3.dot]
  · rw [hRp, ← y3 h0]; simp [r3]
  · rw [hRp, h0]; simp [Transform3.apply, Vec3.dot]
  · rw [hRp, ← y3 h0]; simp [r4.le]
  · intro hx
    exfalso; apply hx
    rw [h0, hpar] at d1
    rw [← d1]
    ext <;> simp [Vec3.cross] <;> ring
  · intro _
    rw [hRp, ← y3 h0]; simp [r4]

/-- A proton of momentum 3 in the -z direction against a beam at an angle: every
hypothesis of the laboratory frame holds. -/
example : ∃ init : Initial, 0 < msq init.p ∧ 0 < init.p.t ∧
    msq init.p * msq init.k1 < mink init.p init.k1 ^ 2 ∧ init.p.r ≠ ⟨0, 0, 0⟩ :=
  ⟨⟨samplePs.target, samplePs.beam, ⟨5, 0, 0, -3⟩, ⟨2, 1, 0, 1⟩⟩, by norm_num [msq, mink], by norm_num,
    by norm_num [msq, mink], by simp [Vec4.r]⟩

/-! ## C22 -/

/-- The target frame momenta are those of the initial state. -/
theorem lab_of_matches {pt : PhaseSpace ℝ} (h : Physical ps S pt) {init : Initial}
    (hm : Matches init ps S) (pol : Vec3) :
    ∃ L, labFromTarget init pol = some L ∧ IsProperLorentz L ∧
      L.apply (momP (.make ps S pt)) = init.p ∧ L.apply (momK1 (.make ps S pt)) = init.k1 := by
  obtain ⟨h1, h2, h3, h4⟩ := hm
  have hM := h.M_pos
  have hmn := h.m_nonneg
  have hb := h.beam
  obtain ⟨L, B, R, -, l2, l3, l4, l5, l6, -⟩ := c21_lab init pol (by rw [h1]; positivity) h3 (by
    rw [h1, h2]
    have : mink init.p init.k1 = S / 2 := by linarith
    rw [this]
    nlinarith [mul_nonneg hM.le hmn])
  have hl := Transform4.lorentz_transpose l4.1
  refine ⟨L.transpose, l2, ⟨hl, ?_, ?_⟩, ?_, ?_⟩
  · have h2 : (mat4 L.transpose).det = (mat4 L).det := by
      rw [← Transform4.det_eq, ← Transform4.det_eq]; simp [Transform4.det, Transform4.transpose]; ring
    rw [h2, l4.2.1]
  · have h00 := l4.2.2
    rw [Transform4.mat4_eq] at h00 ⊢
    simpa [Transform4.transpose] using h00
  · have : momP (.make ps S pt) = L.apply init.p := by
      rw [l5, h1, Real.sqrt_sq hM.le]; rfl
    rw [this, l3.2]
  · have : momK1 (.make ps S pt) = L.apply init.k1 := by
      rw [l6, h1, h2, Real.sqrt_sq hM.le]
      have : mink init.p init.k1 / ps.M = S / (2 * ps.M) := by
        rw [← h4]; field_simp
      rw [this]; rfl
    rw [this, l3.2]

/-- C22: for every initial state of the right masses and energy, every polarisation and every
physical point, the final state is a proper Lorentz transform of the target frame momenta, conserves
four-momentum, is on shell and has the invariants of the kinematics. -/
theorem c22_final {pt : PhaseSpace ℝ} (h : Physical ps S pt) (init : Initial)
    (hm : Matches init ps S) (pol : Vec3) :
    let kin := Kinematics.make ps S pt
    ∃ f, Final.make init pol kin = some f ∧
      (∃ L, labFromTarget init pol = some L ∧ IsProperLorentz L ∧ L.apply (momP kin) = init.p ∧
        L.apply (momK1 kin) = init.k1 ∧ L.apply (momQ kin) = f.q ∧ L.apply (momK2 kin) = f.k2 ∧
        L.apply (momH kin) = f.ph) ∧
      f.q = init.k1 - f.k2 ∧ msq f.q = -kin.Q_sq ∧ msq f.k2 = ps.m ^ 2 ∧ msq f.ph = ps.mh ^ 2 ∧
      2 * mink init.p f.q = kin.S_x ∧ 2 * mink init.p f.k2 = kin.X ∧
      2 * mink init.k1 f.ph = kin.V_1 ∧ 2 * mink f.k2 f.ph = kin.V_2 ∧
      msq (f.q - f.ph) = kin.t ∧ msq (init.p + f.q) = kin.W_sq ∧
      msq (init.p + f.q - f.ph) = kin.mx_sq ∧
      pt.x = -msq f.q / (2 * mink init.p f.q) ∧
      pt.y = mink init.p f.q / mink init.p init.k1 ∧
      pt.z = mink init.p f.ph / mink init.p f.q := by
  intro kin
  have hk : KinRel kin := kinRel_of_physical h
  obtain ⟨L, l1, l2, l3, l4⟩ := lab_of_matches h hm pol
  have l3' : L.apply (momP kin) = init.p := l3
  have l4' : L.apply (momK1 kin) = init.k1 := l4
  have eq : L.apply (momQ kin) = (L.mul (.ofT3 (targetFromLepton kin))).apply
      ⟨kin.q_0, 0, 0, kin.lambda_Y_sqrt / (2 * kin.M)⟩ := by
    rw [Transform4.apply_mul, hk.momQ_eq]; rfl
  have ek : L.apply (momK2 kin) = L.apply
      ⟨kin.k2_0, kin.k2_t * kin.sin_phi, kin.k2_t * kin.cos_phi, kin.k2_l⟩ := by
    rw [hk.cos_p, hk.sin_p]; rfl
  have eh : L.apply (momH kin) = (L.mul (.ofT3 (targetFromHadron kin))).apply
      ⟨kin.ph_0, kin.ph_t, 0, kin.ph_l⟩ := by
    rw [Transform4.apply_mul, hk.momH_eq, lepT, Transform4.ofT3_apply, Transform4.ofT3_apply]
    simp only [Vec4.r]
    rw [hadron_apply]; simp
  have ml : ∀ a b, mink (L.apply a) (L.apply b) = mink a b := l2.1
  obtain ⟨-, -, o3, o4, o5⟩ := c16_on_shell h
  obtain ⟨-, i2, i3, -, i5, i6, -, -, i9, i10, i11, -⟩ := c16_invariants h
  obtain ⟨s1, s2, s3, -⟩ := c16_phase_space h
  have cons := c16_conservation h
  refine ⟨_, by rw [Final.make, l1]; rfl, ⟨L, l1, l2, l3, l4, eq, ek, eh⟩, ?_⟩
  simp only
  rw [← eq, ← ek, ← eh, ← l3', ← l4']
  simp only [← Transform4.apply_sub, ← Transform4.apply_add, msq, ml]
  refine ⟨?_, o5, o3, o4, i2, i3, i5, i6, i9, i10, i11, s1, s2, s3⟩
  congr 1

/-- C22: the same for a radiative point, with in addition a real photon of the documented
products. -/
theorem c22_final_rad {pt : PhaseSpaceRad ℝ} (h : PhysicalRad ps S pt) (init : Initial)
    (hm : Matches init ps S) (pol : Vec3) :
    let k := KinematicsRad.ofPoint ps S pt
    let kin := k.project
    ∃ f, FinalRad.make init pol k = some f ∧
      (∃ L, labFromTarget init pol = some L ∧ IsProperLorentz L ∧ L.apply (momP kin) = init.p ∧
        L.apply (momK1 kin) = init.k1 ∧ L.apply (momQ kin) = f.q ∧ L.apply (momK2 kin) = f.k2 ∧
        L.apply (momH kin) = f.ph ∧ L.apply (momK k) = f.k) ∧
      f.q = init.k1 - f.k2 ∧ msq f.q = -k.Q_sq ∧ msq f.k2 = ps.m ^ 2 ∧ msq f.ph = ps.mh ^ 2 ∧
      msq f.k = 0 ∧ 2 * mink f.k init.p = pt.R ∧ 2 * mink f.k f.q = pt.R * pt.tau ∧
      2 * mink f.k init.k1 = pt.R * k.z_1 ∧ 2 * mink f.k f.k2 = pt.R * k.z_2 ∧
      2 * mink f.k f.ph = pt.R * k.mu ∧
      msq (init.p + f.q - f.ph) = k.mx_sq ∧ msq (init.p + f.q - f.k - f.ph) = k.shift_mx_sq ∧
      msq (f.q - f.k) = -k.shift_Q_sq := by
  intro k kin
  have hr : RadRel k := radRel_of_physical h
  have hk : KinRel kin := hr.kin
  obtain ⟨L, l1, l2, l3, l4⟩ := lab_of_matches h.phys hm pol
  have l3' : L.apply (momP kin) = init.p := l3
  have l4' : L.apply (momK1 kin) = init.k1 := l4
  have eq : L.apply (momQ kin) = (L.mul (.ofT3 (targetFromLepton kin))).apply
      ⟨k.q_0, 0, 0, k.lambda_Y_sqrt / (2 * k.M)⟩ := by
    rw [Transform4.apply_mul, hk.momQ_eq]; rfl
  have ek : L.apply (momK2 kin) = L.apply
      ⟨k.k2_0, k.k2_t * k.sin_phi, k.k2_t * k.cos_phi, k.k2_l⟩ := by
    have e1 : k.cos_phi = Real.cos k.phi := hk.cos_p
    have e2 : k.sin_phi = Real.sin k.phi := hk.sin_p
    rw [e1, e2]; rfl
  have eh : L.apply (momH kin) = (L.mul (.ofT3 (targetFromLepton kin))).apply
      ⟨k.ph_0, k.ph_t * k.cos_phi_h, k.ph_t * k.sin_phi_h, k.ph_l⟩ := by
    rw [Transform4.apply_mul, hk.momH_eq]; rfl
  have eg : L.apply (momK k) = (L.mul (.ofT3 (targetFromLepton kin))).apply
      ⟨k.k_0, k.k_t * k.cos_phi_k, k.k_t * k.sin_phi_k, k.k_l⟩ := by
    rw [Transform4.apply_mul, hr.momK_eq]; rfl
  have ml : ∀ a b, mink (L.apply a) (L.apply b) = mink a b := l2.1
  obtain ⟨-, -, o3, o4, o5⟩ := c16_on_shell h.phys
  obtain ⟨-, -, -, -, -, -, -, -, -, -, i11, -⟩ := c16_invariants h.phys
  obtain ⟨g1, g2, g3, g4, g5, g6, -⟩ := c17_photon h
  obtain ⟨t1, -, -, -, -, t6, -⟩ := c17_shift h
  have cons := c16_conservation h.phys
  refine ⟨_, by rw [FinalRad.make, l1]; rfl, ⟨L, l1, l2, l3, l4, eq, ek, eh, eg⟩, ?_⟩
  simp only
  rw [← eq, ← ek, ← eh, ← eg, ← l3', ← l4']
  simp only [← Transform4.apply_sub, ← Transform4.apply_add, msq, ml]
  refine ⟨?_, o5, o3, o4, g1, g2, g3, g4, g5, g6, i11, ?_, ?_⟩
  · congr 1
  · have e : momP kin + momQ kin - momK k - momH kin =
        momP kin + (momQ kin - momK k) - momH kin := by
      ext <;> simp <;> ring
    rw [e]; exact t6.symm
  · have t1' : k.shift_Q_sq = -mink (momQ kin - momK k) (momQ kin - momK k) := t1
    rw [t1']; ring

/-- C22: the constructors of `Initial` give states with the right masses: from two momenta, from a
beam energy, and from the kinematics (which reproduces `S`). -/
theorem c22_initial (ps : Particles ℝ) (hM : 0 < ps.M) (hm : 0 ≤ ps.m) :
    (∀ p k1 : Vec3, ¬ (ps.m = 0 ∧ k1 = ⟨0, 0, 0⟩) →
      Matches (.ofMomenta ps p k1) ps
        (2 * mink (Initial.ofMomenta ps p k1).p (Initial.ofMomenta ps p k1).k1) ∧
      (Initial.ofMomenta ps p k1).p.r = p ∧ (Initial.ofMomenta ps p k1).k1.r = k1 ∧
      0 < (Initial.ofMomenta ps p k1).k1.t) ∧
    (∀ e : ℝ, ps.m ≤ e → 0 < e → Matches (.ofEnergy ps e) ps (2 * ps.M * e) ∧
      (Initial.ofEnergy ps e).k1.t = e ∧ (Initial.ofEnergy ps e).p = ⟨ps.M, 0, 0, 0⟩) ∧
    (∀ (S : ℝ) (pt : PhaseSpace ℝ), 2 * ps.M * ps.m < S →
      Matches (.ofKin (.make ps S pt)) ps S) := by
  have hez : Vec3.ez ≠ ⟨0, 0, 0⟩ := by
    intro h; simpa [Vec3.ez] using congrArg Vec3.z h
  have hrest : msq ⟨ps.M, 0, 0, 0⟩ = ps.M ^ 2 := by simp [msq, mink]; ring
  refine ⟨?_, ?_, ?_⟩
  · intro p k1 hk
    obtain ⟨a1, a2, a3⟩ := c09_from_r ps.M p (fun h => hM.ne' h.1)
    obtain ⟨b1, b2, b3⟩ := c09_from_r ps.m k1 hk
    exact ⟨⟨a3, b3, a2, rfl⟩, a1, b1, b2⟩
  · intro e he he0
    obtain ⟨b1, -, b3⟩ := c09_from_t ps.m e .ez (by
      rw [abs_of_nonneg hm, abs_of_pos he0]; exact he) he0.ne' hez
    refine ⟨⟨hrest, b3, hM, ?_⟩, b1, rfl⟩
    change 2 * mink ⟨ps.M, 0, 0, 0⟩ (Vec4.fromLengthAndT ps.m e .ez) = _
    simp only [mink]
    rw [b1]; ring
  · intro S pt hS
    have hS0 : 0 < S / (2 * ps.M) := by
      have : 0 < S := lt_of_le_of_lt (by positivity) hS
      positivity
    have hmS : ps.m ≤ S / (2 * ps.M) := by
      rw [le_div_iff₀ (by positivity)]; linarith
    obtain ⟨b1, -, b3⟩ := c09_from_t ps.m (S / (2 * ps.M)) .ez (by
      rw [abs_of_nonneg hm, abs_of_pos hS0]; exact hmS) hS0.ne' hez
    refine ⟨hrest, b3, hM, ?_⟩
    change 2 * mink ⟨ps.M, 0, 0, 0⟩ (Vec4.fromLengthAndT ps.m (S / (2 * ps.M)) .ez) = _
    simp only [mink]
    rw [b1]; field_simp; ring

/-- The sample point with a target at rest, or with colliding beams, meets the hypotheses. -/
example : Physical samplePs 20 samplePt ∧ PhysicalRad samplePs 20 samplePtRad ∧
    Matches (.ofKin (.make samplePs 20 samplePt)) samplePs 20 :=
  ⟨sample_physical.2, sample_physicalRad, (c22_initial samplePs sample_physical.2.M_pos
    sample_physical.2.m_nonneg).2.2 20 samplePt sample_physical.2.beam⟩

end Sidis.Props
