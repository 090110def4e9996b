import Verif.Spec.Symmetry
import Verif.Lemmas.Units
import Verif.Props.Symmetry

/-! # Independence of the unit of energy: C109 -/

namespace Sidis.Props

open Sidis.Spec Sidis.Lemmas.Units

variable (c : ℝ) (hc : 0 < c) (ps : Particles ℝ) (S : ℝ) (pt : PhaseSpace ℝ) (rt : PhaseSpaceRad ℝ)
  (ph : Phenom) (sf : SfFuns) (lambda_e : ℝ) (eta target_pol : Vec3)

include hc

/-- C109: when all masses and momenta are given in a unit `c` times smaller, every member of
`kin::Kinematics` is the same quantity in this unit, whether or not the point is in phase space. -/
theorem c109_kinematics : Kinematics.make (psInUnit c ps) (c ^ 2 * S) (ptInUnit c pt)
    = kinInUnit c (.make ps S pt) :=
  make_unit hc ps S pt

/-- C109: and so is every member of `kin::KinematicsRad`. -/
theorem c109_kinematics_rad : KinematicsRad.ofPoint (psInUnit c ps) (c ^ 2 * S) (radInUnit c rt)
    = kinRadInUnit c (.ofPoint ps S rt) := by
  have e : KinematicsRad.ofPoint (psInUnit c ps) (c ^ 2 * S) (radInUnit c rt)
    = .make (.make (psInUnit c ps) (c ^ 2 * S) (ptInUnit c rt.project)) rt.tau rt.phi_k (c ^ 2 * rt.R) :=
    rfl
  rw [e, make_unit hc, makeR_unit hc]
  rfl

/-- C109: `xs::born` is an area per squared momentum. -/
theorem c109_born : xsBorn (.make (psInUnit c ps) (c ^ 2 * S) (ptInUnit c pt)) ph (sfInUnit c sf)
      lambda_e eta
    = xsBorn (.make ps S pt) ph sf lambda_e eta / c ^ 4 := by
  rw [make_unit hc, born_unit _ _ _ _ _ hc.ne']

/-- C109: and so is `xs::amm`. -/
theorem c109_amm : xsAmm (.make (psInUnit c ps) (c ^ 2 * S) (ptInUnit c pt)) ph (sfInUnit c sf)
      lambda_e eta
    = xsAmm (.make ps S pt) ph sf lambda_e eta / c ^ 4 := by
  rw [make_unit hc, amm_unit _ _ _ _ _ hc]

/-- C109: `xs::rad` is the same per unit of `R`, a squared momentum. -/
theorem c109_rad : xsRad (.ofPoint (psInUnit c ps) (c ^ 2 * S) (radInUnit c rt)) ph (sfInUnit c sf)
      lambda_e eta
    = xsRad (.ofPoint ps S rt) ph sf lambda_e eta / c ^ 6 := by
  rw [c109_kinematics_rad c hc, rad_unit _ _ _ _ _ hc.ne']

/-- C109: and so is `xs::rad_f`, for soft photons too. -/
theorem c109_rad_f : xsRadF (.ofPoint (psInUnit c ps) (c ^ 2 * S) (radInUnit c rt)) ph (sfInUnit c sf)
      lambda_e eta
    = xsRadF (.ofPoint ps S rt) ph sf lambda_e eta / c ^ 6 := by
  rw [c109_kinematics_rad c hc, radF_unit _ _ _ _ _ hc]

/-- C109: the corrections `xs::delta_vert_rad_ir` and `xs::delta_rad_ir_hard` are pure numbers, for
every cut-off (finite, infinite or NaN) given in the same unit. -/
theorem c109_delta (k_0_bar : Fl) :
    deltaVertRadIr (.make (psInUnit c ps) (c ^ 2 * S) (ptInUnit c pt)) (.fin c * k_0_bar)
        = deltaVertRadIr (.make ps S pt) k_0_bar
      ∧ deltaRadIrHard (.make (psInUnit c ps) (c ^ 2 * S) (ptInUnit c pt)) (.fin c * k_0_bar)
        = deltaRadIrHard (.make ps S pt) k_0_bar := by
  rw [make_unit hc]
  exact ⟨vert_unit _ hc _, hard_unit _ hc _⟩

omit hc

/-- At the sample point (a beam on a proton at rest, in GeV) the cross-section in MeV is another number:
the power of the unit matters. -/
example : xsBorn (.make (psInUnit 1000 samplePs) (1000 ^ 2 * 20) (ptInUnit 1000 samplePt)) ⟨1, 0⟩
      (sfInUnit 1000 beamSpinSf) 1 .zero
    ≠ xsBorn (.make samplePs 20 samplePt) ⟨1, 0⟩ beamSpinSf 1 .zero := by
  obtain ⟨a, ha, h⟩ := sample_beamSpin
  rw [c109_born 1000 (by norm_num), h]
  intro e
  apply ha
  linarith

/-- In MeV `Q_sq` of the sample point is a million times larger, and `x` is the same. -/
example : (Kinematics.make (psInUnit 1000 samplePs) (1000 ^ 2 * 20) (ptInUnit 1000 samplePt)).Q_sq
      = 3600000
    ∧ (Kinematics.make (psInUnit 1000 samplePs) (1000 ^ 2 * 20) (ptInUnit 1000 samplePt)).x = 0.3 := by
  rw [c109_kinematics 1000 (by norm_num)]
  constructor
  · change (1000 : ℝ) ^ 2 * (20 * 0.3 * 0.6) = 3600000
    norm_num
  · rfl

end Sidis.Props
