import Verif.Model.CrossSection
import Verif.Model.Cut
import Verif.Model.Asymmetry

/-!
# Model of the integrals over the photon (src/cross_section.cpp 386-447)

The integrator `math::integrate<3>` (include/sidis/extra/integrate.hpp 26-137) with its `IntegParams` is a
parameter.  The kinematic point is finite: `K` are its kinematics as floating-point numbers, from which
the photon is sampled, and `k` the same kinematics as real numbers, from which the cross-sections are
computed in exact arithmetic.  Structure functions are numbers, so that a cross-section is NaN only when
the photon variables are not finite.
-/

namespace Sidis.PhotonInteg

open Asym (EstErr nanToZero)

/-- `math::integrate<3>` with its parameters: an integrand, the lower and the upper corner. -/
abbrev Integrator3 := ((Fin 3 → ℝ) → Fl) → (Fin 3 → ℝ) → (Fin 3 → ℝ) → EstErr

/-- `CutRad cut;` (include/sidis/cut.hpp 72-86, include/sidis/bound.hpp 27-30): every bound is invalid, that is, no cut. -/
def noCuts : CutRad := ⟨.invalid, .invalid, .invalid, .invalid, .invalid, .invalid⟩

/-- A cross-section at the point with a photon given in floating-point numbers. -/
noncomputable def xsAt (k : Kinematics ℝ) (xs : KinematicsRad ℝ → ℝ) (kin_rad : KinematicsRad Fl) : Fl :=
  match kin_rad.tau, kin_rad.phi_k, kin_rad.R with
  | .fin tau, .fin phi_k, .fin R => .fin (xs (.make k tau phi_k R))
  | _, _, _ => .nan

/-- The integrand (src/cross_section.cpp 402-418, 431-442): zero when `take` rejects the point or the
product is NaN. -/
noncomputable def integrand (cut : CutRad) (K : Kinematics Fl) (xs : KinematicsRad Fl → Fl)
    (x : Fin 3 → ℝ) : Fl :=
  let t := Cut.takePhotonCut cut K fun i => .fin (x i)
  if ¬t.ok then .fin 0 else nanToZero (t.jac * xs t.kin)

variable (I : Integrator3) (K : Kinematics Fl) (k : Kinematics ℝ) (ph : Phenom) (sf : SfFuns)
  (lambda_e : ℝ) (eta : Vec3) (k_0_bar : Fl)

/-- `xs::rad_f_integ` (src/cross_section.cpp 397-423). -/
noncomputable def radFInteg : EstErr :=
  let had_0 := HadLP.make k sf
  let cut := { noCuts with k_0_bar := Bound.mk' 0 k_0_bar }
  I (integrand cut K (xsAt k fun kr => xsRadF0 kr ph sf had_0 lambda_e eta)) (fun _ => 0) fun _ => 1

/-- `xs::nrad_integ` (src/cross_section.cpp 386-395). -/
noncomputable def nradInteg : EstErr :=
  let xs_nrad_ir := xsNradIr k ph sf lambda_e eta k_0_bar
  let xs_rad_f := radFInteg I K k ph sf lambda_e eta k_0_bar
  ⟨xs_nrad_ir + xs_rad_f.val, xs_rad_f.err⟩

/-- `xs::rad_integ` (src/cross_section.cpp 425-447). -/
noncomputable def radInteg : EstErr :=
  let cut := { noCuts with k_0_bar := Bound.mk' k_0_bar .pinf }
  I (integrand cut K (xsAt k fun kr => xsRad kr ph sf lambda_e eta)) (fun _ => 0) fun _ => 1

end Sidis.PhotonInteg
