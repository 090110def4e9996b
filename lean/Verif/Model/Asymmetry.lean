import Verif.Model.CrossSection

/-!
# Model of the transverse single-spin asymmetries (src/asymmetry.cpp)

The integrators (`math::integrate`, include/sidis/extra/integrate.hpp 26-137) hand the integrand to the
cubature library or to GSL; they are a parameter here, and `IntegParams` is part of it.  `Phenom(kin)`
(src/phenom.cpp 83-85) depends on the kinematics only through `Q_sq`, and is a parameter as a function of
`Q_sq`.  The step from the unit cube to photon variables (`cut::take`, Model/Cut.lean) is a parameter too.
Sums of the integer coefficients are assumed not to overflow `int`.
-/

namespace Sidis.Asym

/-- `struct EstErr` (include/sidis/integ_params.hpp). -/
@[ext] structure EstErr where
  (val err : Fl)

/-- `math::integrate` for one and for four variables, with its parameters
(include/sidis/extra/integrate.hpp 26-137). -/
structure Integrator where
  one : (ℝ → Fl) → ℝ → ℝ → EstErr
  four : ((Fin 4 → ℝ) → Fl) → (Fin 4 → ℝ) → (Fin 4 → ℝ) → EstErr

/-- `cut::take(kin, ph_rad, &kin_rad, &jac)` (src/cut.cpp 539-550): the photon variables `tau`, `phi_k` and
`R` with which `kin_rad` is built, and the Jacobian; `none` when it returns false. -/
abbrev PhotonMap := Kinematics ℝ → (Fin 3 → ℝ) → Option (ℝ × ℝ × ℝ × Fl)

/-- What the functions below take apart from the kinematic point: the structure functions, the
phenomenological inputs, the integrator and the photon variables. -/
structure Env where
  sf : SfFuns
  phenom : ℝ → Phenom
  integ : Integrator
  photon : PhotonMap

open Classical in
/-- `std::hypot`: infinite when one argument is, even if the other is NaN. -/
noncomputable def hypot : Fl → Fl → Fl
  | .fin a, .fin b => .fin (√(a * a + b * b))
  | .pinf, _ => .pinf
  | .ninf, _ => .pinf
  | _, .pinf => .pinf
  | _, .ninf => .pinf
  | _, _ => .nan

/-- `std::abs`. -/
noncomputable def fabs : Fl → Fl
  | .nan => .nan
  | .ninf => .pinf
  | .pinf => .pinf
  | .fin a => .fin |a|

open Classical in
/-- `if (std::isnan(xs)) { xs = 0.; }` (src/asymmetry.cpp 97-99, 169-171). -/
noncomputable def nanToZero (x : Fl) : Fl := if x.isNaN then .fin 0 else x

/-- `Bound(-PI, PI).lerp(t)` (include/sidis/bound.hpp): linear from `-π` to `π`. -/
noncomputable def lerpPhiH (t : ℝ) : ℝ := (1 - t) * -Real.pi + t * Real.pi

/-- `Bound(-PI, PI).size()`. -/
noncomputable def sizePhiH : ℝ := Real.pi - -Real.pi

/-- `HadRadFBaseUU::HadRadFBaseUU(kin, sf_set, had_0)` (src/hadronic_coeff.cpp 481-494). -/
noncomputable def hadRadFBaseUU (k : KinematicsRad ℝ) (sf : SfFuns) (had_0 : HadBaseUU) : HadRadFBaseUU :=
  let kin_0 := k.project
  let had := (HadRadUU.make k sf).uu
  match softStep k with
  | some delta_R =>
    let kin_1 := KinematicsRad.make kin_0 k.tau k.phi_k delta_R
    let kin_2 := KinematicsRad.make kin_0 k.tau k.phi_k (2 * delta_R)
    makeHadRadFBaseUUDeriv k.R delta_R had had_0 (HadRadUU.make kin_1 sf).uu (HadRadUU.make kin_2 sf).uu
  | none => makeHadRadFBaseUUDiff k.R had had_0

/-- `HadRadFBaseUP::HadRadFBaseUP(kin, sf_set, had_0)` (src/hadronic_coeff.cpp 495-508). -/
noncomputable def hadRadFBaseUP (k : KinematicsRad ℝ) (sf : SfFuns) (had_0 : HadBaseUP) : HadRadFBaseUP :=
  let kin_0 := k.project
  let had := (HadRadUP.make k sf).up
  match softStep k with
  | some delta_R =>
    let kin_1 := KinematicsRad.make kin_0 k.tau k.phi_k delta_R
    let kin_2 := KinematicsRad.make kin_0 k.tau k.phi_k (2 * delta_R)
    makeHadRadFBaseUPDeriv k.R delta_R had had_0 (HadRadUP.make kin_1 sf).up (HadRadUP.make kin_2 sf).up
  | none => makeHadRadFBaseUPDiff k.R had had_0

variable (E : Env) (ps : Particles ℝ) (S x y z ph_t_sq : ℝ)

/-- `Kinematics kin(ps, S, { x, y, z, ph_t_sq, phi_h, 0. })` (src/asymmetry.cpp 39, 62, 78, 128, 144, 155). -/
noncomputable def kinAt (phi_h : ℝ) : Kinematics ℝ := .make ps S ⟨x, y, z, ph_t_sq, phi_h, 0⟩

/-- `Vec3 eta(...)` (src/asymmetry.cpp 44-47, 65-68, 92-95). -/
noncomputable def etaAt (eta_1 : ℝ) (phi_h_coeff_1 offset_1 : ℤ) (eta_2 : ℝ) (phi_h_coeff_2 offset_2 : ℤ)
    (phi_h : ℝ) : Vec3 :=
  ⟨eta_1 * Real.sin (phi_h_coeff_1 * phi_h + 0.5 * offset_1 * Real.pi),
    eta_2 * Real.sin (phi_h_coeff_2 * phi_h + 0.5 * offset_2 * Real.pi), 0⟩

/-- `ut_integ_h` (src/asymmetry.cpp 27-109). -/
noncomputable def utIntegH (eta_1 : ℝ) (phi_h_coeff_1 offset_1 : ℤ) (eta_2 : ℝ)
    (phi_h_coeff_2 offset_2 : ℤ) (include_rc : Bool) : EstErr :=
  let kin_0 := kinAt ps S x y z ph_t_sq 0
  let had_0 := makeHadBaseUP kin_0 (E.sf.baseUP kin_0.hadron kin_0.x kin_0.z kin_0.Q_sq kin_0.ph_t_sq)
  if ¬include_rc then
    E.integ.one (fun phi_h =>
      let kin := kinAt ps S x y z ph_t_sq phi_h
      let b := bornBase (bornCoeff kin (E.phenom kin.Q_sq))
      let eta := etaAt eta_1 phi_h_coeff_1 offset_1 eta_2 phi_h_coeff_2 offset_2 phi_h
      .fin (eta.x * b.ut1 (.make kin) had_0.ut + eta.y * b.ut2 (.make kin) had_0.ut))
      (-Real.pi) Real.pi
  else
    let nrad_ir_integ := E.integ.one (fun phi_h =>
      let kin := kinAt ps S x y z ph_t_sq phi_h
      let b := nradBase (.make kin (E.phenom kin.Q_sq) .pinf)
      let eta := etaAt eta_1 phi_h_coeff_1 offset_1 eta_2 phi_h_coeff_2 offset_2 phi_h
      .fin eta.x * b.ut1 (.make kin) had_0.ut + .fin eta.y * b.ut2 (.make kin) had_0.ut)
      (-Real.pi) Real.pi
    let rad_f_integ := E.integ.four (fun ph =>
      let phi_h := lerpPhiH (ph 0)
      let kin := kinAt ps S x y z ph_t_sq phi_h
      match E.photon kin ![ph 1, ph 2, ph 3] with
      | none => .fin 0
      | some (tau, phi_k, R, jac) =>
        let kin_rad := KinematicsRad.make kin tau phi_k R
        let jac := jac * .fin sizePhiH
        let had := hadRadFBaseUP kin_rad E.sf had_0
        let eta := etaAt eta_1 phi_h_coeff_1 offset_1 eta_2 phi_h_coeff_2 offset_2 phi_h
        nanToZero (jac * .fin (eta.dot
          (radFBaseUP (radCoeff kin_rad (E.phenom kin.Q_sq)) kin_rad.R (.make kin_rad) (.make kin_rad) had))))
      (fun _ => 0) (fun _ => 1)
    ⟨nrad_ir_integ.val + rad_f_integ.val, hypot nrad_ir_integ.err rad_f_integ.err⟩

/-- `asym::uu_integ` (src/asymmetry.cpp 113-183). -/
noncomputable def uuInteg (include_rc : Bool) : EstErr :=
  let kin_0 := kinAt ps S x y z ph_t_sq 0
  let had_0 := makeHadBaseUU kin_0 (E.sf.baseUU kin_0.hadron kin_0.x kin_0.z kin_0.Q_sq kin_0.ph_t_sq)
  if ¬include_rc then
    let born_integ := E.integ.one (fun phi_h =>
      let kin := kinAt ps S x y z ph_t_sq phi_h
      .fin ((bornBase (bornCoeff kin (E.phenom kin.Q_sq))).uu (.make kin) had_0))
      (-Real.pi) Real.pi
    ⟨.fin (2 * Real.pi) * born_integ.val, .fin (2 * Real.pi) * born_integ.err⟩
  else
    let nrad_ir_integ := E.integ.one (fun phi_h =>
      let kin := kinAt ps S x y z ph_t_sq phi_h
      (nradBase (.make kin (E.phenom kin.Q_sq) .pinf)).uu (.make kin) had_0)
      (-Real.pi) Real.pi
    let rad_f_integ := E.integ.four (fun ph =>
      let phi_h := lerpPhiH (ph 0)
      let kin := kinAt ps S x y z ph_t_sq phi_h
      match E.photon kin ![ph 1, ph 2, ph 3] with
      | none => .fin 0
      | some (tau, phi_k, R, jac) =>
        let kin_rad := KinematicsRad.make kin tau phi_k R
        let jac := jac * .fin sizePhiH
        let had := hadRadFBaseUU kin_rad E.sf had_0
        nanToZero (jac * .fin
          (radFBaseUU (radCoeff kin_rad (E.phenom kin.Q_sq)) kin_rad.R (.make kin_rad) had)))
      (fun _ => 0) (fun _ => 1)
    ⟨.fin (2 * Real.pi) * (nrad_ir_integ.val + rad_f_integ.val),
      .fin (2 * Real.pi) * hypot nrad_ir_integ.err rad_f_integ.err⟩

/-- `asym::ut_integ` (src/asymmetry.cpp 185-208). -/
noncomputable def utInteg (phi_s_coeff phi_h_coeff offset : ℤ) (include_rc : Bool) : EstErr :=
  if phi_s_coeff = 0 ∨ phi_s_coeff > 1 ∨ phi_s_coeff < -1 then ⟨.fin 0, .fin 0⟩
  else
    let eta_1 : ℝ := 0.5
    let eta_2 : ℝ := 0.5 * phi_s_coeff
    let integ_h := utIntegH E ps S x y z ph_t_sq
      eta_1 (phi_s_coeff + phi_h_coeff) offset
      eta_2 (phi_s_coeff + phi_h_coeff) (offset + 1)
      include_rc
    ⟨.fin (2 * Real.pi) * integ_h.val, .fin (2 * Real.pi) * integ_h.err⟩

/-- `asym::ut_asym` (src/asymmetry.cpp 210-231). -/
noncomputable def utAsym (phi_s_coeff phi_h_coeff offset : ℤ) (include_rc : Bool) : EstErr :=
  let uu := uuInteg E ps S x y z ph_t_sq include_rc
  let ut := utInteg E ps S x y z ph_t_sq phi_s_coeff phi_h_coeff offset include_rc
  let val := .fin 2 * ut.val / uu.val
  let err := hypot (ut.err / ut.val) (uu.err / uu.val) * fabs val
  ⟨val, err⟩

/-- `asym::sivers` (src/asymmetry.cpp 233-239). -/
noncomputable def sivers (include_rc : Bool) : EstErr :=
  utAsym E ps S x y z ph_t_sq (-1) 1 0 include_rc

/-- `asym::collins` (src/asymmetry.cpp 240-246). -/
noncomputable def collins (include_rc : Bool) : EstErr :=
  utAsym E ps S x y z ph_t_sq 1 1 0 include_rc

end Sidis.Asym
