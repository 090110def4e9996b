import Verif.Model.Kinematics
import Verif.Model.Transform

/-! # Model of reference frames and final states (src/frame.cpp, src/kinematics.cpp 458-499) -/

namespace Sidis

/-- `struct Initial` (include/sidis/kinematics.hpp 576-584). -/
structure Initial where
  target : Nucleus
  beam : Lepton
  p : Vec4
  k1 : Vec4

/-- `Initial(ps, p, k1)` (include/sidis/kinematics.hpp 588-593). -/
noncomputable def Initial.ofMomenta (ps : Particles ℝ) (p k1 : Vec3) : Initial :=
  ⟨ps.target, ps.beam, .fromLengthAndR ps.M p, .fromLengthAndR ps.m k1⟩

/-- `Initial(ps, beam_energy)` (include/sidis/kinematics.hpp 598-602). -/
noncomputable def Initial.ofEnergy (ps : Particles ℝ) (beam_energy : ℝ) : Initial :=
  ⟨ps.target, ps.beam, ⟨ps.M, 0, 0, 0⟩, .fromLengthAndT ps.m beam_energy .ez⟩

/-- `Initial(kin)` (include/sidis/kinematics.hpp 607-611). -/
noncomputable def Initial.ofKin (kin : Kinematics ℝ) : Initial :=
  ⟨kin.target, kin.beam, ⟨kin.M, 0, 0, 0⟩, .fromLengthAndT kin.m (kin.S / (2 * kin.M)) .ez⟩

namespace Frame

open Classical in
/-- The choice of the y axis in `target_from_lab` (src/frame.cpp 17-29). -/
noncomputable def yAxis (pol k : Vec3) : Vec3 :=
  let y := pol.perp k.unit
  let y := if y.normSq = 0 then Vec3.ex.cross k.unit else y
  let y := if y.normSq = 0 then Vec3.ey.cross k.unit else y
  if y.normSq = 0 then Vec3.ez.cross k.unit else y

/-- `target_from_lab` (src/frame.cpp 14-32); `none` is a matrix of NaNs. -/
noncomputable def targetFromLab (init : Initial) (pol : Vec3) : Option Transform4 :=
  (Transform4.transformTo init.p .et).map fun boost =>
    let k1_boost := boost.apply init.k1
    let y_axis := yAxis pol k1_boost.r
    (Transform4.ofT3 (.rotateBasis k1_boost.r y_axis)).mul boost

/-- `lab_from_target` (src/frame.cpp 33-35). -/
noncomputable def labFromTarget (init : Initial) (pol : Vec3) : Option Transform4 :=
  (targetFromLab init pol).map (·.transpose)

/-- `lepton_from_target` (src/frame.cpp 40-53). -/
noncomputable def leptonFromTarget (kin : Kinematics ℝ) : Transform3 :=
  let q_norm := kin.lambda_Y_sqrt / (2 * kin.M)
  let ez := (1 / q_norm) • (⟨-kin.q_t * kin.sin_phi_q, kin.q_t * kin.cos_phi_q, kin.q_l⟩ : Vec3)
  let ey : Vec3 := ⟨kin.cos_phi_q, kin.sin_phi_q, 0⟩
  let ex := (1 / q_norm) • (⟨kin.q_l * kin.sin_phi_q, -kin.q_l * kin.cos_phi_q, kin.q_t⟩ : Vec3)
  ⟨ex, ey, ez⟩

/-- `target_from_lepton` (src/frame.cpp 37-39). -/
noncomputable def targetFromLepton (kin : Kinematics ℝ) : Transform3 :=
  (leptonFromTarget kin).transpose

/-- `target_from_hadron` (src/frame.cpp 55-62). -/
noncomputable def targetFromHadron (kin : Kinematics ℝ) : Transform3 :=
  (targetFromLepton kin).mul (.mk9 kin.cos_phi_h (-kin.sin_phi_h) 0
    kin.sin_phi_h kin.cos_phi_h 0 0 0 1)

/-- `hadron_from_target` (src/frame.cpp 63-65). -/
noncomputable def hadronFromTarget (kin : Kinematics ℝ) : Transform3 :=
  (targetFromHadron kin).transpose

/-- `target_from_virt_photon` (src/frame.cpp 67-77). -/
noncomputable def targetFromVirtPhoton (kin : Kinematics ℝ) : Transform4 :=
  let q_0_rel := kin.q_0 / kin.Q
  let q_r_rel := kin.lambda_Y_sqrt / (2 * kin.M * kin.Q)
  (Transform4.ofT3 (targetFromHadron kin)).mul (.mk16 q_r_rel 0 0 q_0_rel 0 1 0 0 0 0 1 0
    q_0_rel 0 0 q_r_rel)

/-- `virt_photon_from_target` (src/frame.cpp 78-80). -/
noncomputable def virtPhotonFromTarget (kin : Kinematics ℝ) : Transform4 :=
  (targetFromVirtPhoton kin).transpose

/-- `target_from_real_photon` (src/frame.cpp 82-89). -/
noncomputable def targetFromRealPhoton (kin : KinematicsRad ℝ) : Transform3 :=
  (targetFromLepton kin.project).mul (.mk9 kin.cos_phi_k (-kin.sin_phi_k) 0
    kin.sin_phi_k kin.cos_phi_k 0 0 0 1)

/-- `real_photon_from_target` (src/frame.cpp 90-92). -/
noncomputable def realPhotonFromTarget (kin : KinematicsRad ℝ) : Transform3 :=
  (targetFromRealPhoton kin).transpose

/-- `shift_from_hadron` (src/frame.cpp 102-134). -/
noncomputable def shiftFromHadron (kin : KinematicsRad ℝ) : Transform3 :=
  let ex : Vec3 := ⟨
    1 / (kin.shift_lambda_Y * kin.shift_ph_t) * (
      kin.lambda_Y * kin.ph_t
      - 1 / (4 * sq kin.M * kin.lambda_Y * kin.ph_t) * (
        (sq kin.R - 2 * kin.lambda_RY) * (sq kin.lambda_V - kin.lambda_H * kin.lambda_Y)
        + (kin.lambda_V - kin.lambda_RV) * (
          kin.lambda_RY * kin.lambda_V - kin.lambda_RV * kin.lambda_Y))),
    -1 / (kin.lambda_Y_sqrt * kin.shift_lambda_Y * kin.ph_t * kin.shift_ph_t) * (
      2 * (kin.lambda_V - kin.lambda_RV) * kin.vol_phi_hk),
    1 / (2 * kin.M * kin.lambda_Y_sqrt * kin.shift_lambda_Y * kin.shift_ph_t) * (
      (sq kin.R - kin.lambda_RY) * kin.lambda_V
      + (kin.lambda_Y - kin.lambda_RY) * kin.lambda_RV)⟩
  let ey : Vec3 := ⟨
    1 / (kin.lambda_Y * kin.shift_lambda_Y_sqrt * kin.ph_t * kin.shift_ph_t) * (
      2 * kin.vol_phi_hk * kin.lambda_V),
    1 / (kin.shift_lambda_Y_sqrt * kin.shift_ph_t) * (
      kin.lambda_Y_sqrt * kin.ph_t
      + 1 / (4 * sq kin.M * kin.lambda_Y_sqrt * kin.ph_t) * (
        kin.lambda_V * kin.lambda_RV - kin.lambda_H * kin.lambda_RY)),
    -1 / (kin.lambda_Y_sqrt * kin.shift_lambda_Y_sqrt * kin.shift_ph_t) * (
      4 * kin.M * kin.vol_phi_hk)⟩
  let ez : Vec3 := ⟨
    1 / (2 * kin.M * kin.lambda_Y * kin.shift_lambda_Y_sqrt * kin.ph_t) * (
      kin.lambda_RY * kin.lambda_V - kin.lambda_RV * kin.lambda_Y),
    1 / (kin.lambda_Y_sqrt * kin.shift_lambda_Y_sqrt * kin.ph_t) * (
      4 * kin.M * kin.vol_phi_hk),
    1 / kin.shift_lambda_Y_sqrt * (
      kin.lambda_Y_sqrt - kin.lambda_RY / kin.lambda_Y_sqrt)⟩
  ⟨ex, ey, ez⟩

/-- `hadron_from_shift` (src/frame.cpp 135-137). -/
noncomputable def hadronFromShift (kin : KinematicsRad ℝ) : Transform3 :=
  (shiftFromHadron kin).transpose

/-- `target_from_shift` (src/frame.cpp 94-97). -/
noncomputable def targetFromShift (kin : KinematicsRad ℝ) : Transform3 :=
  (targetFromHadron kin.project).mul (hadronFromShift kin)

/-- `shift_from_target` (src/frame.cpp 98-100). -/
noncomputable def shiftFromTarget (kin : KinematicsRad ℝ) : Transform3 :=
  (targetFromShift kin).transpose

end Frame

/-- `struct Final` (include/sidis/kinematics.hpp 619-629). -/
structure Final where
  beam : Lepton
  hadron : Hadron
  q : Vec4
  k2 : Vec4
  ph : Vec4

/-- `Final::Final` (src/kinematics.cpp 458-473); `none` when the momenta are NaN. -/
noncomputable def Final.make (init : Initial) (target_pol : Vec3) (kin : Kinematics ℝ) :
    Option Final :=
  (Frame.labFromTarget init target_pol).map fun lab_from_target =>
    let lab_from_lepton := lab_from_target.mul (.ofT3 (Frame.targetFromLepton kin))
    let lab_from_hadron := lab_from_target.mul (.ofT3 (Frame.targetFromHadron kin))
    { beam := kin.beam, hadron := kin.hadron
      q := lab_from_lepton.apply ⟨kin.q_0, 0, 0, kin.lambda_Y_sqrt / (2 * kin.M)⟩
      k2 := lab_from_target.apply
        ⟨kin.k2_0, kin.k2_t * kin.sin_phi, kin.k2_t * kin.cos_phi, kin.k2_l⟩
      ph := lab_from_hadron.apply ⟨kin.ph_0, kin.ph_t, 0, kin.ph_l⟩ }

/-- `struct FinalRad` (include/sidis/kinematics.hpp 642-654). -/
structure FinalRad where
  beam : Lepton
  hadron : Hadron
  q : Vec4
  k2 : Vec4
  ph : Vec4
  k : Vec4

/-- `FinalRad::FinalRad` (src/kinematics.cpp 475-499); `none` when the momenta are NaN. -/
noncomputable def FinalRad.make (init : Initial) (target_pol : Vec3) (kin : KinematicsRad ℝ) :
    Option FinalRad :=
  (Frame.labFromTarget init target_pol).map fun lab_from_target =>
    let lab_from_lepton := lab_from_target.mul (.ofT3 (Frame.targetFromLepton kin.project))
    { beam := kin.beam, hadron := kin.hadron
      q := lab_from_lepton.apply ⟨kin.q_0, 0, 0, kin.lambda_Y_sqrt / (2 * kin.M)⟩
      k2 := lab_from_target.apply
        ⟨kin.k2_0, kin.k2_t * kin.sin_phi, kin.k2_t * kin.cos_phi, kin.k2_l⟩
      ph := lab_from_lepton.apply
        ⟨kin.ph_0, kin.ph_t * kin.cos_phi_h, kin.ph_t * kin.sin_phi_h, kin.ph_l⟩
      k := lab_from_lepton.apply
        ⟨kin.k_0, kin.k_t * kin.cos_phi_k, kin.k_t * kin.sin_phi_k, kin.k_l⟩ }

end Sidis
