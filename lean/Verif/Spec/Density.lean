import Verif.Spec.Format
import Verif.Spec.Cut
import Verif.Model.Density

/-! # Specification vocabulary for event densities -/

namespace Sidis.Spec

open Sidis.Codec Sidis.Format

/-- One degree in radians. -/
noncomputable def deg : ℝ := Real.pi / 180

/-- The cuts a user can set: name of the parameter, its unit, and the quantity it restricts. -/
noncomputable def cutRows : List (String × ℝ × (Kinematics Fl → Fl)) := [
  ("cut.x", 1, fun k => k.x),
  ("cut.y", 1, fun k => k.y),
  ("cut.z", 1, fun k => k.z),
  ("cut.ph_t_sq", 1, fun k => k.ph_t_sq),
  ("cut.phi_h", deg, fun k => k.phi_h),
  ("cut.phi", deg, fun k => k.phi),
  ("cut.Q_sq", 1, fun k => k.Q_sq),
  ("cut.t", 1, fun k => k.t),
  ("cut.W_sq", 1, fun k => k.W_sq),
  ("cut.r", 1, fun k => k.V_2 / k.V_1),
  ("cut.mx_sq", 1, fun k => k.mx_sq),
  ("cut.qt_to_Q", 1, Cut.qtToQ),
  ("cut.lab.mom_q", 1, Cut.labMomQ),
  ("cut.lab.mom_k2", 1, Cut.labMomK2),
  ("cut.lab.mom_h", 1, Cut.labMomH),
  ("cut.lab.theta_q", deg, Cut.labThetaQ),
  ("cut.lab.theta_k2", deg, Cut.labThetaK2),
  ("cut.lab.theta_h", deg, Cut.labThetaH)]

/-- The cuts on the photon. -/
noncomputable def photonRows : List (String × ℝ × (KinematicsRad Fl → Fl)) := [
  ("cut.tau", 1, fun k => k.tau),
  ("cut.phi_k", deg, fun k => k.phi_k),
  ("cut.R", 1, fun k => k.R),
  ("cut.k_0_bar", 1, fun k => k.k_0_bar),
  ("cut.lab.mom_k", 1, fun k => k.k_0),
  ("cut.lab.theta_k", deg, Cut.labThetaK)]

/-- The cut called `n`, if it is one (ends in order, neither NaN), holds of `x`. -/
def CutHolds (p : P) (n : String) (unit : ℝ) (x : Fl) : Prop :=
  ∀ lo hi, actual p n = some (.bound lo hi) → lo.toFl ≤ hi.toFl →
    lo.toFl * .fin unit ≤ x ∧ x ≤ hi.toFl * .fin unit

/-- The angle `a` can be sampled under the cut called `n`: a cut has finite ends, and without a cut
angles run over one turn around zero. -/
def AngleOk (p : P) (n : String) (a : ℝ) : Prop :=
  ∀ lo hi, actual p n = some (.bound lo hi) →
    (lo.toFl ≤ hi.toFl → ∃ l u : ℚ, lo = .fin l ∧ hi = .fin u) ∧
    (¬ lo.toFl ≤ hi.toFl → -Real.pi ≤ a ∧ a ≤ Real.pi)

/-- What the densities read from the parameters, apart from cuts. -/
structure Inputs where
  rc : RcMethod
  soft : Dbl
  target : Nucleus
  beam : Lepton
  hadron : Hadron
  Mth : Dbl
  energy : Dbl
  beamPol : Dbl
  targetPol : Dbl × Dbl × Dbl

/-- The parameters have these values. -/
structure Inputs.Of (i : Inputs) (p : P) : Prop where
  rc : actual p "phys.rc_method" = some (.rcMethod i.rc)
  soft : actual p "phys.soft_threshold" = some (.double i.soft)
  target : actual p "setup.target" = some (.nucleus i.target)
  beam : actual p "setup.beam" = some (.lepton i.beam)
  hadron : actual p "setup.hadron" = some (.hadron i.hadron)
  Mth : actual p "phys.mass_threshold" = some (.double i.Mth)
  energy : actual p "setup.beam_energy" = some (.double i.energy)
  beamPol : actual p "setup.beam_pol" = some (.double i.beamPol)
  targetPol : actual p "setup.target_pol" =
    some (.vec3 i.targetPol.1 i.targetPol.2.1 i.targetPol.2.2)

/-- The threshold for the missing mass is between the mass of the target and that mass with the mass
of the detected hadron added. -/
def Inputs.MassOk (i : Inputs) : Prop :=
  ∃ q, i.Mth = .fin q ∧ (i.target.mass : ℝ) ≤ q ∧ (q : ℝ) ≤ i.target.mass + i.hadron.mass

end Sidis.Spec
