import Verif.Model.PhotonInteg

/-!
# Model of the integrals over the photon with structure functions that are NaN outside of their tables

As Model/PhotonInteg (src/cross_section.cpp 386-447), with a set of arguments `(x, z, Q_sq, ph_t_sq)` at which the
structure functions are numbers, those of `sf`; elsewhere all of them are NaN (as the Prokudin functions are where z
and Q² are outside of the tables, C121).  NaN goes through every sum and product, and the cross-sections do
not branch on structure functions, so that a cross-section is NaN when one of the arguments it uses is outside.
-/

namespace Sidis.PhotonInteg

open Asym (EstErr)

/-- Where the structure functions are numbers. -/
abbrev Dom := ℝ → ℝ → ℝ → ℝ → Prop

/-- The structure functions in `Had` (src/hadronic_coeff.cpp 390-438) are numbers. -/
def hadKnown (D : Dom) (k : Kinematics ℝ) : Prop := D k.x k.z k.Q_sq k.ph_t_sq

/-- The structure functions in `HadRad` (src/hadronic_coeff.cpp 457-479), at the shifted point, are numbers. -/
def hadRadKnown (D : Dom) (k : KinematicsRad ℝ) : Prop := D k.shift_x k.shift_z k.shift_Q_sq k.shift_ph_t_sq

/-- The structure functions in `HadRadF` with given `had_0` (src/hadronic_coeff.cpp 539-607) are numbers: at the
shifted point and, for a very soft photon, at the two points of the extrapolation. -/
def hadRadFKnown (D : Dom) (k : KinematicsRad ℝ) : Prop :=
  hadRadKnown D k ∧ ∀ delta_R, softStep k = some delta_R →
    hadRadKnown D (.make k.project k.tau k.phi_k delta_R) ∧
    hadRadKnown D (.make k.project k.tau k.phi_k (2 * delta_R))

open Classical in
/-- A cross-section at the point with a photon given in floating-point numbers, NaN where it is not known. -/
noncomputable def xsAtKnown (known : KinematicsRad ℝ → Prop) (k : Kinematics ℝ) (xs : KinematicsRad ℝ → ℝ)
    (kin_rad : KinematicsRad Fl) : Fl :=
  match kin_rad.tau, kin_rad.phi_k, kin_rad.R with
  | .fin tau, .fin phi_k, .fin R =>
    if known (.make k tau phi_k R) then .fin (xs (.make k tau phi_k R)) else .nan
  | _, _, _ => .nan

variable (D : Dom) (I : Integrator3) (K : Kinematics Fl) (k : Kinematics ℝ) (ph : Phenom) (sf : SfFuns)
  (lambda_e : ℝ) (eta : Vec3) (k_0_bar : Fl)

/-- `xs::rad_f_integ` (src/cross_section.cpp 397-423). -/
noncomputable def radFIntegKnown : EstErr :=
  let had_0 := HadLP.make k sf
  let cut := { noCuts with k_0_bar := Bound.mk' 0 k_0_bar }
  I (integrand cut K (xsAtKnown (fun kr => hadKnown D k ∧ hadRadFKnown D kr) k
    fun kr => xsRadF0 kr ph sf had_0 lambda_e eta)) (fun _ => 0) fun _ => 1

open Classical in
/-- `xs::nrad_ir` (src/cross_section.cpp 371-374). -/
noncomputable def nradIrKnown : Fl :=
  if hadKnown D k then xsNradIr k ph sf lambda_e eta k_0_bar else .nan

/-- `xs::nrad_integ` (src/cross_section.cpp 386-395). -/
noncomputable def nradIntegKnown : EstErr :=
  let xs_nrad_ir := nradIrKnown D k ph sf lambda_e eta k_0_bar
  let xs_rad_f := radFIntegKnown D I K k ph sf lambda_e eta k_0_bar
  ⟨xs_nrad_ir + xs_rad_f.val, xs_rad_f.err⟩

/-- `xs::rad_integ` (src/cross_section.cpp 425-447). -/
noncomputable def radIntegKnown : EstErr :=
  let cut := { noCuts with k_0_bar := Bound.mk' k_0_bar .pinf }
  I (integrand cut K (xsAtKnown (hadRadKnown D) k fun kr => xsRad kr ph sf lambda_e eta)) (fun _ => 0) fun _ => 1

end Sidis.PhotonInteg
