import Verif.Spec.Symmetry
import Verif.Lemmas.Symmetry

/-! # Symmetries of the cross-sections: C107, C108 -/

namespace Sidis.Props

open Sidis.Spec Sidis.Lemmas.Symmetry

section Mirror

variable (ps : Particles ℝ) (S : ℝ) (pt : PhaseSpace ℝ) (rt : PhaseSpaceRad ℝ) (ph : Phenom)
  (sf : SfFuns) (lambda_e : ℝ) (target_pol : Vec3)

/-- C107: the momenta at the point with all azimuthal angles negated are the images in a mirror. -/
theorem c107_momenta : momenta (.make ps S (mirror pt)) =
    let m := momenta (.make ps S pt)
    (reflect m.1, reflect m.2.1, reflect m.2.2) := by
  rw [mirror, make_mirror]
  simp only [momenta, flipK, reflect, Frame.targetFromLepton, Frame.targetFromHadron,
    Frame.leptonFromTarget, Transform3.transpose, Transform3.mul, Transform3.mk9, Transform3.apply,
    Vec3.dot, HSMul.hSMul, SMul.smul, Prod.mk.injEq, Vec3.mk.injEq]
  refine ⟨⟨?_, ?_, ?_⟩, ⟨?_, ?_, ?_⟩, ?_, ?_, ?_⟩ <;> first | trivial | ring

/-- C107: and so is the momentum of the photon. -/
theorem c107_photon :
    photonMomentum (.ofPoint ps S (mirrorRad rt)) = reflect (photonMomentum (.ofPoint ps S rt)) := by
  obtain ⟨h, p, e⟩ := makeR_mirror (.make ps S rt.project) (wrapPhiQ (-rt.project.phi)) rt.tau rt.phi_k rt.R
  have : KinematicsRad.ofPoint ps S (mirrorRad rt)
      = flipR (wrapPhiQ (-rt.phi)) h p (.ofPoint ps S rt) := by
    rw [← make_mirror ps S rt.project] at e
    exact e
  rw [this]
  simp only [photonMomentum, flipR_project, Frame.targetFromRealPhoton, Frame.targetFromLepton]
  simp only [flipK, flipR, reflect, 
    Frame.leptonFromTarget, Transform3.transpose, Transform3.mul, Transform3.mk9, Transform3.apply,
    Vec3.dot, HSMul.hSMul, SMul.smul, Vec3.mk.injEq]
  refine ⟨?_, ?_, ?_⟩ <;> ring

private theorem spin_mirror (q : ℝ) (k : Kinematics ℝ) :
    (Frame.hadronFromTarget (flipK q k)).apply (reflectSpin target_pol)
      = flipSpin ((Frame.hadronFromTarget k).apply target_pol) := by
  simp only [Frame.hadronFromTarget, Frame.targetFromHadron, Frame.targetFromLepton]
  simp only [flipK, flipSpin, reflectSpin, Frame.leptonFromTarget, Transform3.transpose,
    Transform3.mul, Transform3.mk9, Transform3.apply, Vec3.dot, HSMul.hSMul, SMul.smul,
    Vec3.mk.injEq]
  refine ⟨?_, ?_, ?_⟩ <;> ring

/-- C107: `xs::born` is the same in the mirror, for all polarisations and all structure functions. -/
theorem c107_born :
    atTarget (xsBorn · ph sf) (.make ps S (mirror pt)) (-lambda_e) (reflectSpin target_pol)
      = atTarget (xsBorn · ph sf) (.make ps S pt) lambda_e target_pol := by
  rw [atTarget, atTarget, mirror, make_mirror, spin_mirror, born_flip]

/-- C107: and so is `xs::amm`. -/
theorem c107_amm :
    atTarget (xsAmm · ph sf) (.make ps S (mirror pt)) (-lambda_e) (reflectSpin target_pol)
      = atTarget (xsAmm · ph sf) (.make ps S pt) lambda_e target_pol := by
  rw [atTarget, atTarget, mirror, make_mirror, spin_mirror, amm_flip]

/-- C107: and so is `xs::nrad_ir` for every cut-off, infinite and NaN results included. -/
theorem c107_nrad_ir (k_0_bar : Fl) :
    atTarget (fun k l e => xsNradIr k ph sf l e k_0_bar) (.make ps S (mirror pt)) (-lambda_e)
        (reflectSpin target_pol)
      = atTarget (fun k l e => xsNradIr k ph sf l e k_0_bar) (.make ps S pt) lambda_e target_pol := by
  rw [atTarget, atTarget, mirror, make_mirror, spin_mirror, nrad_flip]

private theorem ofPoint_mirror : ∃ h p, KinematicsRad.ofPoint ps S (mirrorRad rt)
    = flipR (wrapPhiQ (-rt.phi)) h p (.ofPoint ps S rt) := by
  obtain ⟨h, p, e⟩ := makeR_mirror (.make ps S rt.project) (wrapPhiQ (-rt.project.phi)) rt.tau rt.phi_k rt.R
  rw [← make_mirror ps S rt.project] at e
  exact ⟨h, p, e⟩

/-- C107: and so is `xs::rad`. -/
theorem c107_rad :
    atTargetRad (xsRad · ph sf) (.ofPoint ps S (mirrorRad rt)) (-lambda_e) (reflectSpin target_pol)
      = atTargetRad (xsRad · ph sf) (.ofPoint ps S rt) lambda_e target_pol := by
  obtain ⟨h, p, e⟩ := ofPoint_mirror ps S rt
  rw [atTargetRad, atTargetRad, e, flipR_project, spin_mirror, rad_flip]

/-- C107: and so is `xs::rad_f`. -/
theorem c107_rad_f :
    atTargetRad (xsRadF · ph sf) (.ofPoint ps S (mirrorRad rt)) (-lambda_e) (reflectSpin target_pol)
      = atTargetRad (xsRadF · ph sf) (.ofPoint ps S rt) lambda_e target_pol := by
  obtain ⟨h, p, e⟩ := ofPoint_mirror ps S rt
  rw [atTargetRad, atTargetRad, e, flipR_project, spin_mirror, radF_flip]

end Mirror

section Turn

variable (ps : Particles ℝ) (S a : ℝ) (pt : PhaseSpace ℝ) (rt : PhaseSpaceRad ℝ) (ph : Phenom)
  (sf : SfFuns) (lambda_e : ℝ) (eta target_pol : Vec3)

private theorem turned : Kinematics.make ps S (turnPt a pt) =
    let k := Kinematics.make ps S pt
    turnK (pt.phi + a) (wrapPhiQ (pt.phi + a)) (Real.cos a * k.cos_phi - Real.sin a * k.sin_phi)
      (Real.cos a * k.sin_phi + Real.sin a * k.cos_phi)
      (Real.cos a * k.cos_phi_q + Real.sin a * k.sin_phi_q)
      (Real.cos a * k.sin_phi_q - Real.sin a * k.cos_phi_q) k := by
  simp only [Kinematics.make, turnPt, turnK, cosR, sinR, Real.cos_add, Real.sin_add,
    Kinematics.mk.injEq]
  repeat' apply And.intro
  all_goals first | trivial | rfl | ring

/-- C108: the momenta at the point with the azimuth of the lepton changed by `a` are turned about the
beam. -/
theorem c108_momenta : momenta (.make ps S (turnPt a pt)) =
    let m := momenta (.make ps S pt)
    (turnVec a m.1, turnVec a m.2.1, turnVec a m.2.2) := by
  rw [turned]
  simp only [momenta, turnVec, turnK, Frame.targetFromLepton, Frame.targetFromHadron,
    Frame.leptonFromTarget, Transform3.transpose, Transform3.mul, Transform3.mk9, Transform3.apply,
    Vec3.dot, HSMul.hSMul, SMul.smul, Prod.mk.injEq, Vec3.mk.injEq]
  refine ⟨⟨?_, ?_, ?_⟩, ⟨?_, ?_, ?_⟩, ?_, ?_, ?_⟩ <;> first | trivial | ring

/-- C108: and so is the momentum of the photon. -/
theorem c108_photon : photonMomentum (.ofPoint ps S (turnRad a rt))
    = turnVec a (photonMomentum (.ofPoint ps S rt)) := by
  have e : (KinematicsRad.ofPoint ps S (turnRad a rt)).project
    = Kinematics.make ps S (turnPt a rt.project) := rfl
  have e' : (KinematicsRad.ofPoint ps S rt).project = Kinematics.make ps S rt.project := rfl
  have c : (KinematicsRad.ofPoint ps S (turnRad a rt)).cos_phi_k
    = (KinematicsRad.ofPoint ps S rt).cos_phi_k := rfl
  have s : (KinematicsRad.ofPoint ps S (turnRad a rt)).sin_phi_k
    = (KinematicsRad.ofPoint ps S rt).sin_phi_k := rfl
  have t : (KinematicsRad.ofPoint ps S (turnRad a rt)).k_t
    = (KinematicsRad.ofPoint ps S rt).k_t := rfl
  have l : (KinematicsRad.ofPoint ps S (turnRad a rt)).k_l
    = (KinematicsRad.ofPoint ps S rt).k_l := rfl
  simp only [photonMomentum, Frame.targetFromRealPhoton, Frame.targetFromLepton, e, e', c, s, t, l,
    turned]
  simp only [turnVec, turnK, Frame.leptonFromTarget, Transform3.transpose, Transform3.mul, Transform3.mk9,
    Transform3.apply, Vec3.dot, HSMul.hSMul, SMul.smul, Vec3.mk.injEq]
  refine ⟨?_, ?_, ?_⟩ <;> first | trivial | ring

private theorem spin_turn :
    (Frame.hadronFromTarget (.make ps S (turnPt a pt))).apply (turnVec a target_pol)
      = (Frame.hadronFromTarget (.make ps S pt)).apply target_pol := by
  rw [turned]
  generalize Kinematics.make ps S pt = k
  have h := Real.sin_sq_add_cos_sq a
  simp only [Frame.hadronFromTarget, Frame.targetFromHadron, Frame.targetFromLepton]
  simp only [turnVec, turnK, Frame.leptonFromTarget, Transform3.transpose, Transform3.mul, Transform3.mk9,
    Transform3.apply, Vec3.dot, HSMul.hSMul, SMul.smul, Vec3.mk.injEq]
  generalize Real.sin a = s at h ⊢
  obtain ⟨c, hc⟩ : ∃ c, c = Real.cos a := ⟨_, rfl⟩
  rw [← hc] at h ⊢
  refine ⟨?_, ?_, ?_⟩
  · linear_combination (target_pol.x * (k.cos_phi_h * (k.q_l * k.sin_phi_q * (1 / (k.lambda_Y_sqrt / (2 * k.M)))) + k.sin_phi_h * k.cos_phi_q)
      + target_pol.y * (k.cos_phi_h * (-k.q_l * k.cos_phi_q * (1 / (k.lambda_Y_sqrt / (2 * k.M)))) + k.sin_phi_h * k.sin_phi_q)) * h
  · linear_combination (target_pol.x * (-k.sin_phi_h * (k.q_l * k.sin_phi_q * (1 / (k.lambda_Y_sqrt / (2 * k.M)))) + k.cos_phi_h * k.cos_phi_q)
      + target_pol.y * (-k.sin_phi_h * (-k.q_l * k.cos_phi_q * (1 / (k.lambda_Y_sqrt / (2 * k.M)))) + k.cos_phi_h * k.sin_phi_q)) * h
  · linear_combination (target_pol.x * (-k.q_t * k.sin_phi_q * (1 / (k.lambda_Y_sqrt / (2 * k.M))))
      + target_pol.y * (k.q_t * k.cos_phi_q * (1 / (k.lambda_Y_sqrt / (2 * k.M))))) * h

/-- C108: `xs::born` does not change when everything, the target polarisation included, is turned
about the beam. -/
theorem c108_born :
    atTarget (xsBorn · ph sf) (.make ps S (turnPt a pt)) lambda_e (turnVec a target_pol)
      = atTarget (xsBorn · ph sf) (.make ps S pt) lambda_e target_pol := by
  rw [atTarget, atTarget, spin_turn, turned, born_turn]

/-- C108: nor does `xs::amm`. -/
theorem c108_amm :
    atTarget (xsAmm · ph sf) (.make ps S (turnPt a pt)) lambda_e (turnVec a target_pol)
      = atTarget (xsAmm · ph sf) (.make ps S pt) lambda_e target_pol := by
  rw [atTarget, atTarget, spin_turn, turned, amm_turn]

/-- C108: nor does `xs::nrad_ir`, for every cut-off. -/
theorem c108_nrad_ir (k_0_bar : Fl) :
    atTarget (fun k l e => xsNradIr k ph sf l e k_0_bar) (.make ps S (turnPt a pt)) lambda_e
        (turnVec a target_pol)
      = atTarget (fun k l e => xsNradIr k ph sf l e k_0_bar) (.make ps S pt) lambda_e target_pol := by
  rw [atTarget, atTarget, spin_turn, turned, nrad_turn]

private theorem ofPoint_turn : ∃ phi phi_q c s cq sq p pc ps',
    KinematicsRad.ofPoint ps S (turnRad a rt)
      = turnR phi phi_q c s cq sq p pc ps' (.ofPoint ps S rt) := by
  have e : KinematicsRad.ofPoint ps S (turnRad a rt)
      = KinematicsRad.make (Kinematics.make ps S (turnPt a rt.project)) rt.tau rt.phi_k rt.R := rfl
  rw [e, turned]
  obtain ⟨p, pc, ps', h⟩ := makeR_turn _ _ _ _ _ _ (.make ps S rt.project) rt.tau rt.phi_k rt.R
  exact ⟨_, _, _, _, _, _, p, pc, ps', h⟩

private theorem spin_turnR :
    (Frame.hadronFromTarget (KinematicsRad.ofPoint ps S (turnRad a rt)).project).apply
        (turnVec a target_pol)
      = (Frame.hadronFromTarget (KinematicsRad.ofPoint ps S rt).project).apply target_pol :=
  spin_turn ps S a rt.project target_pol

/-- C108: nor does `xs::rad`. -/
theorem c108_rad :
    atTargetRad (xsRad · ph sf) (.ofPoint ps S (turnRad a rt)) lambda_e (turnVec a target_pol)
      = atTargetRad (xsRad · ph sf) (.ofPoint ps S rt) lambda_e target_pol := by
  rw [atTargetRad, atTargetRad, spin_turnR]
  obtain ⟨_, _, _, _, _, _, _, _, _, e⟩ := ofPoint_turn ps S a rt
  rw [e, rad_turn]

/-- C108: nor does `xs::rad_f`. -/
theorem c108_rad_f :
    atTargetRad (xsRadF · ph sf) (.ofPoint ps S (turnRad a rt)) lambda_e (turnVec a target_pol)
      = atTargetRad (xsRadF · ph sf) (.ofPoint ps S rt) lambda_e target_pol := by
  rw [atTargetRad, atTargetRad, spin_turnR]
  obtain ⟨_, _, _, _, _, _, _, _, _, e⟩ := ofPoint_turn ps S a rt
  rw [e, radF_turn]

end Turn

section Both

variable (ps : Particles ℝ) (S : ℝ) (pt : PhaseSpace ℝ) (rt : PhaseSpaceRad ℝ) (ph : Phenom)
  (sf : SfFuns) (lambda_e : ℝ)

private theorem even_point : { pt with phi_h := -pt.phi_h } = turnPt (2 * pt.phi) (mirror pt) := by
  simp only [turnPt, mirror, PhaseSpace.mk.injEq, true_and]
  ring

private theorem spin_zero (k : Kinematics ℝ) : (Frame.hadronFromTarget k).apply .zero = .zero := by
  ext <;> simp [Transform3.apply, Vec3.zero, Vec3.dot]

/-- C107, C108: with an unpolarised target the cross-section at `-phi_h` is that at `phi_h` with the
helicity of the beam reversed, wherever the lepton goes.  So without polarisation it is even in `phi_h`,
and a beam-spin asymmetry is odd. -/
theorem c107_unpolarised_target :
    xsBorn (.make ps S { pt with phi_h := -pt.phi_h }) ph sf lambda_e .zero
      = xsBorn (.make ps S pt) ph sf (-lambda_e) .zero := by
  have a := c108_born ps S (2 * pt.phi) (mirror pt) ph sf lambda_e .zero
  have b := c107_born ps S pt ph sf (-lambda_e) .zero
  have t : turnVec (2 * pt.phi) .zero = .zero := by simp [turnVec, Vec3.zero]
  have r : reflectSpin .zero = .zero := by simp [reflectSpin, Vec3.zero]
  rw [t] at a
  rw [r, neg_neg] at b
  simp only [atTarget, spin_zero] at a b
  rw [even_point, a, b]

end Both

/-- Only the beam-spin structure function, equal to one. -/
def beamSpinSf : SfFuns where
  F_UUL _ _ _ _ _ := 0
  F_UUT _ _ _ _ _ := 0
  F_UU_cos_phih _ _ _ _ _ := 0
  F_UU_cos_2phih _ _ _ _ _ := 0
  F_UL_sin_phih _ _ _ _ _ := 0
  F_UL_sin_2phih _ _ _ _ _ := 0
  F_UTL_sin_phih_m_phis _ _ _ _ _ := 0
  F_UTT_sin_phih_m_phis _ _ _ _ _ := 0
  F_UT_sin_2phih_m_phis _ _ _ _ _ := 0
  F_UT_sin_3phih_m_phis _ _ _ _ _ := 0
  F_UT_sin_phis _ _ _ _ _ := 0
  F_UT_sin_phih_p_phis _ _ _ _ _ := 0
  F_LU_sin_phih _ _ _ _ _ := 1
  F_LL _ _ _ _ _ := 0
  F_LL_cos_phih _ _ _ _ _ := 0
  F_LT_cos_phih_m_phis _ _ _ _ _ := 0
  F_LT_cos_2phih_m_phis _ _ _ _ _ := 0
  F_LT_cos_phis _ _ _ _ _ := 0

/-- The cross-section at the sample point is not zero. -/
theorem sample_beamSpin : ∃ a ≠ 0, ∀ l,
    xsBorn (.make samplePs 20 samplePt) ⟨1, 0⟩ beamSpinSf l .zero = l * a := by
  have h := kinRel_of_physical sample_physical.2
  have hs : 0 < Real.sin 0.7 := Real.sin_pos_of_pos_of_lt_pi (by norm_num) 
    (by linarith [Real.two_le_pi])
  generalize hk : Kinematics.make samplePs 20 samplePt = k at h
  have hS : k.S = 20 := by rw [← hk]; rfl
  have hSx : k.S_x = 20 * 0.6 := by rw [← hk]; rfl
  have hQ : k.Q_sq = 20 * 0.3 * 0.6 := by rw [← hk]; rfl
  have hM : k.M = Nucleus.p.mass := by rw [← hk]; rfl
  have hm : k.m = Lepton.e.mass := by rw [← hk]; rfl
  have hh : k.mh = Hadron.piP.mass := by rw [← hk]; rfl
  have hz : k.z = 0.5 := by rw [← hk]; rfl
  have ht2 : k.ph_t_sq = 0.1 := by rw [← hk]; rfl
  have hsin : k.sin_phi_h = Real.sin 0.7 := by rw [← hk]; rfl
  have hx : 0 < k.x := by rw [h.x_eq]; exact div_pos h.Q2_pos h.Sx_pos
  have hC : k.C_1 = (4 * k.M * k.ph_l * (k.Q_sq + 2 * k.x * sq k.M)) / sq (sq k.Q_sq) := by
    rw [← hk]; rfl
  have v : ∀ l, xsBorn k ⟨1, 0⟩ beamSpinSf l .zero
      = l * (bornCoeff k ⟨1, 0⟩ * (2 * k.S * k.vol_phi_h / k.lambda_S_sqrt
        * ((2 * k.Q) / (k.ph_t * k.lambda_Y_sqrt) * -k.C_1))) := by
    intro l
    rw [c54_born]
    simp only [contract, leptonicBorn, hadronic, hadronicOf, Vec3.zero, LepBornBaseLU.make,
      makeHadBaseUU, makeHadBaseLU, SfFuns.baseUU, SfFuns.baseLU, beamSpinSf]
    ring
  have ht : 0 < k.ph_t := by
    have := h.ph_t_sqr
    rw [ht2] at this
    exact lt_of_le_of_ne h.ph_t_nonneg fun e => by rw [← e] at this; norm_num at this
  have hl : 0 < k.ph_l := by
    have := h.ph_l_sq
    rw [h.ph_t_sqr, h.ph_0_eq, ht2, hz, hSx, hM, hh] at this
    exact lt_of_le_of_ne h.ph_l_nonneg fun e => by
      rw [← e] at this; norm_num [Nucleus.mass, Hadron.mass, CMath.ofReal] at this
  have h1 : 0 < k.lambda_1_sqrt := by
    have := h.l1_sq
    rw [h.l1_eq, h.lY_eq, h.X_eq, hS, hSx, hQ, hM, hm] at this
    exact lt_of_le_of_ne h.l1_nonneg fun e => by
      rw [← e] at this; norm_num [Nucleus.mass, Lepton.mass, CMath.ofReal] at this
  have hv : k.vol_phi_h < 0 := by
    rw [h.vol_eq, hsin]
    have : 0 < k.ph_t * k.lambda_1_sqrt * Real.sin 0.7 := by positivity
    linarith
  have hc : 0 < k.C_1 := by
    have := h.M_pos
    have := h.Q2_pos
    rw [hC]
    unfold sq
    positivity
  have hb : 0 < bornCoeff k ⟨1, 0⟩ := by
    have := h.M_pos
    have := h.S_pos
    have := h.Sx_pos
    have : 0 < k.lambda_S := by rw [← h.lS_sq]; exact pow_pos h.lS_pos 2
    unfold bornCoeff sq
    positivity
  have := h.S_pos
  have := h.lS_pos
  have := h.lY_pos
  have := h.Q_pos
  have : bornCoeff k ⟨1, 0⟩ * (2 * k.S * k.vol_phi_h / k.lambda_S_sqrt
      * ((2 * k.Q) / (k.ph_t * k.lambda_Y_sqrt) * -k.C_1)) ≠ 0 := by
    have := hv.ne
    have := neg_ne_zero.2 hc.ne'
    positivity
  exact ⟨_, this, v⟩

/-- The helicity has to be reversed: at the sample point the cross-section changes when only the hadron
is reflected. -/
example : xsBorn (.make samplePs 20 { samplePt with phi_h := -samplePt.phi_h }) ⟨1, 0⟩ beamSpinSf 1 .zero
    ≠ xsBorn (.make samplePs 20 samplePt) ⟨1, 0⟩ beamSpinSf 1 .zero := by
  obtain ⟨a, ha, h⟩ := sample_beamSpin
  rw [c107_unpolarised_target, h, h]
  intro e
  apply ha
  linarith

end Sidis.Props
