import Verif.Model.Phenom
import Verif.Model.PhotonInteg

/-!
# The functions without phenomenological inputs (src/cross_section.cpp 449-472)

They forward to the functions with them, and supply `Phenom(kin)`, or `Phenom(kin.project())` for kinematics with
a photon.  The coupling may be NaN below the electron mass (C61); here the inputs are the numbers they are when
they are finite.
-/

namespace Sidis.Phen

/-- `Phenom::Phenom(Kinematics const&)` (src/phenom.cpp 83-85): `ph` is what it makes, when that is finite. -/
def IsPhenomOf (t : Tables) (k : Kinematics ℝ) (ph : Phenom) : Prop :=
  alphaQed t (.fin k.Q_sq) = .val (.fin ph.alpha_qed) ∧ ph.delta_vac_had = deltaVacHad k.Q_sq

/-- `xs::born(kin, sf, lambda_e, eta)` and `xs::amm` (src/cross_section.cpp 449-454) return `r`. -/
def BornReturns (t : Tables) (k : Kinematics ℝ) (sf : SfFuns) (lambda : ℝ) (eta : Vec3) (r : ℝ) : Prop :=
  ∃ ph, IsPhenomOf t k ph ∧ r = xsBorn k ph sf lambda eta
@[inherit_doc BornReturns]
def AmmReturns (t : Tables) (k : Kinematics ℝ) (sf : SfFuns) (lambda : ℝ) (eta : Vec3) (r : ℝ) : Prop :=
  ∃ ph, IsPhenomOf t k ph ∧ r = xsAmm k ph sf lambda eta

/-- `xs::nrad_ir(kin, sf, lambda_e, eta, k_0_bar)` (src/cross_section.cpp 455-457) returns `r`. -/
def NradIrReturns (t : Tables) (k : Kinematics ℝ) (sf : SfFuns) (lambda : ℝ) (eta : Vec3) (c r : Fl) : Prop :=
  ∃ ph, IsPhenomOf t k ph ∧ r = xsNradIr k ph sf lambda eta c

/-- `xs::rad(kin, sf, lambda_e, eta)` and `xs::rad_f` (src/cross_section.cpp 458-463) return `r`. -/
def RadReturns (t : Tables) (k : KinematicsRad ℝ) (sf : SfFuns) (lambda : ℝ) (eta : Vec3) (r : ℝ) : Prop :=
  ∃ ph, IsPhenomOf t k.project ph ∧ r = xsRad k ph sf lambda eta
@[inherit_doc RadReturns]
def RadFReturns (t : Tables) (k : KinematicsRad ℝ) (sf : SfFuns) (lambda : ℝ) (eta : Vec3) (r : ℝ) : Prop :=
  ∃ ph, IsPhenomOf t k.project ph ∧ r = xsRadF k ph sf lambda eta

open Asym PhotonInteg in
/-- `xs::nrad_integ`, `xs::rad_f_integ` and `xs::rad_integ` without phenomenological inputs
(src/cross_section.cpp 464-472) return `r`; `K` is `k` in floating-point numbers, for `cut::take`. -/
def NradIntegReturns (t : Tables) (I : Integrator3) (K : Kinematics Fl) (k : Kinematics ℝ) (sf : SfFuns) (lambda : ℝ)
    (eta : Vec3) (c : Fl) (r : EstErr) : Prop :=
  ∃ ph, IsPhenomOf t k ph ∧ r = nradInteg I K k ph sf lambda eta c
open Asym PhotonInteg in
@[inherit_doc NradIntegReturns]
def RadFIntegReturns (t : Tables) (I : Integrator3) (K : Kinematics Fl) (k : Kinematics ℝ) (sf : SfFuns) (lambda : ℝ)
    (eta : Vec3) (c : Fl) (r : EstErr) : Prop :=
  ∃ ph, IsPhenomOf t k ph ∧ r = radFInteg I K k ph sf lambda eta c
open Asym PhotonInteg in
@[inherit_doc NradIntegReturns]
def RadIntegReturns (t : Tables) (I : Integrator3) (K : Kinematics Fl) (k : Kinematics ℝ) (sf : SfFuns) (lambda : ℝ)
    (eta : Vec3) (c : Fl) (r : EstErr) : Prop :=
  ∃ ph, IsPhenomOf t k ph ∧ r = radInteg I K k ph sf lambda eta c

end Sidis.Phen
