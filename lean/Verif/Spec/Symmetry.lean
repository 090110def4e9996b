import Verif.Model.CrossSection

/-!
# Vocabulary for the symmetries of the cross-sections

In the target frame the target is at rest and the beam comes along the `z` axis.  The laws of
electromagnetic scattering are the same in a mirror and after a rotation about the beam.  A mirror
that sends `x` to `-x` leaves a rotation about `x` as it is and turns rotations about `y` and `z`
around: this is what happens to a spin.  It reverses the helicity of the beam.
-/

namespace Sidis.Spec

/-- The image of a momentum in a mirror perpendicular to the `x` axis. -/
def reflect (v : Vec3) : Vec3 := ⟨-v.x, v.y, v.z⟩

/-- The image of a spin in a mirror perpendicular to the `x` axis. -/
def reflectSpin (s : Vec3) : Vec3 := ⟨s.x, -s.y, -s.z⟩

/-- The rotation about the `z` axis by `-a` (the angle `phi` of the library is that of
`(sin phi, cos phi)`, so it increases against the usual orientation). -/
noncomputable def turnVec (a : ℝ) (v : Vec3) : Vec3 :=
  ⟨Real.cos a * v.x + Real.sin a * v.y, -Real.sin a * v.x + Real.cos a * v.y, v.z⟩

/-- All azimuthal angles negated. -/
def mirror (pt : PhaseSpace ℝ) : PhaseSpace ℝ := { pt with phi_h := -pt.phi_h, phi := -pt.phi }

@[inherit_doc mirror] def mirrorRad (pt : PhaseSpaceRad ℝ) : PhaseSpaceRad ℝ :=
  { pt with phi_h := -pt.phi_h, phi := -pt.phi, phi_k := -pt.phi_k }

/-- The azimuth of the scattered lepton about the beam changed by `a`; the other angles are measured
from the lepton plane. -/
def turnPt (a : ℝ) (pt : PhaseSpace ℝ) : PhaseSpace ℝ := { pt with phi := pt.phi + a }

@[inherit_doc turnPt] def turnRad (a : ℝ) (pt : PhaseSpaceRad ℝ) : PhaseSpaceRad ℝ :=
  { pt with phi := pt.phi + a }

/-- A cross-section for a target polarisation given in the target frame, computed as by the programs:
`xs(kin, ..., lambda_e, frame::hadron_from_target(kin) * target_pol)`. -/
noncomputable def atTarget {β : Type} (xs : Kinematics ℝ → ℝ → Vec3 → β) (kin : Kinematics ℝ)
    (lambda_e : ℝ) (target_pol : Vec3) : β :=
  xs kin lambda_e ((Frame.hadronFromTarget kin).apply target_pol)

@[inherit_doc atTarget] noncomputable def atTargetRad {β : Type}
    (xs : KinematicsRad ℝ → ℝ → Vec3 → β) (kin : KinematicsRad ℝ) (lambda_e : ℝ)
    (target_pol : Vec3) : β :=
  xs kin lambda_e ((Frame.hadronFromTarget kin.project).apply target_pol)

/-- The momenta of the scattered lepton, the virtual photon and the hadron in the target frame. -/
noncomputable def momenta (kin : Kinematics ℝ) : Vec3 × Vec3 × Vec3 :=
  (⟨kin.k2_t * kin.sin_phi, kin.k2_t * kin.cos_phi, kin.k2_l⟩,
   (Frame.targetFromLepton kin).apply ⟨0, 0, kin.lambda_Y_sqrt / (2 * kin.M)⟩,
   (Frame.targetFromHadron kin).apply ⟨kin.ph_t, 0, kin.ph_l⟩)

/-- The momentum of the radiated photon in the target frame. -/
noncomputable def photonMomentum (kin : KinematicsRad ℝ) : Vec3 :=
  (Frame.targetFromRealPhoton kin).apply ⟨kin.k_t, 0, kin.k_l⟩

end Sidis.Spec
