import Verif.Model.Cut
import Verif.Model.Format
import Verif.Model.CrossSection

/-!
# Model of the event densities (app/sidisgen/generator.hpp 25-94, generator.cpp 15-221)

Simplifications: `params[name]` marks the parameter as used; the marks are not tracked (as in
Model/Format).  A double read from the parameters is the exact rational it denotes.  The functions
that compute cross-sections and polarisations are parameters (`XsFuns`) that may return any floating
point number; they are modelled in Model/CrossSection and Model/Frame.
-/

namespace Sidis.Density

open Sidis.ParamStream Sidis.Codec Sidis.Format

/-- A double as a number of the kinematic model. -/
def _root_.Sidis.Codec.Dbl.toFl : Dbl → Fl
  | .nan => .nan
  | .ninf => .ninf
  | .pinf => .pinf
  | .fin q => .fin q

/-- What the constructors can throw. -/
inductive Err where
  | params (e : MErr)
  /-- `MassThresholdOutOfRange` (src/particle.cpp 15-20) -/
  | massThreshold
  /-- generator.cpp 78-80 -/
  | k0BarNrad
  /-- generator.cpp 89-91 -/
  | photonCut (n : Text)
  /-- generator.cpp 163-165 -/
  | rcNone
  /-- generator.cpp 170-172 -/
  | k0BarRad

/-- Exceptions of the parameter set. -/
def fromParams {α : Type} : Except MErr α → Except Err α
  | .ok a => .ok a
  | .error e => .error (.params e)

/-- `Bound b = params[name].any()`.  The object was made by a constructor of `Bound`, so its ends are
what `Bound(min, max)` makes of them. -/
noncomputable def bound (p : P) (n : String) : Except Err Bound := do
  match ← fromParams (look p n.toList) with
  | .bound lo hi => .ok (Bound.mk' lo.toFl hi.toFl)
  | _ => .error (.params (.badCast n.toList))

/-- `Double d = params[name].any()` -/
def double (p : P) (n : String) : Except Err Fl := do
  match ← fromParams (look p n.toList) with
  | .double d => .ok d.toFl
  | _ => .error (.params (.badCast n.toList))

/-- `Int i = params[name].any()` -/
def int (p : P) (n : String) : Except Err ℤ := do
  match ← fromParams (look p n.toList) with
  | .int i => .ok i
  | _ => .error (.params (.badCast n.toList))

/-- `part::Nucleus t = params[name].any()` -/
def nucleus (p : P) (n : String) : Except Err Nucleus := do
  match ← fromParams (look p n.toList) with
  | .nucleus t => .ok t
  | _ => .error (.params (.badCast n.toList))

/-- `part::Lepton l = params[name].any()` -/
def lepton (p : P) (n : String) : Except Err Lepton := do
  match ← fromParams (look p n.toList) with
  | .lepton t => .ok t
  | _ => .error (.params (.badCast n.toList))

/-- `part::Hadron h = params[name].any()` -/
def hadron (p : P) (n : String) : Except Err Hadron := do
  match ← fromParams (look p n.toList) with
  | .hadron t => .ok t
  | _ => .error (.params (.badCast n.toList))

/-- `math::Vec3 v = params[name].any()` -/
def vec3 (p : P) (n : String) : Except Err (V3 Fl) := do
  match ← fromParams (look p n.toList) with
  | .vec3 x y z => .ok ⟨x.toFl, y.toFl, z.toFl⟩
  | _ => .error (.params (.badCast n.toList))

/-- `DEG` (generator.cpp 18, 42). -/
noncomputable def DEG : Fl := .fin (Real.pi / 180)

/-- `cut_from_params` (generator.cpp 17-39). -/
noncomputable def cutFromParams (p : P) : Except Err Cut := do
  let x ← bound p "cut.x"
  let y ← bound p "cut.y"
  let z ← bound p "cut.z"
  let ph_t_sq ← bound p "cut.ph_t_sq"
  let phi_h ← bound p "cut.phi_h"
  let phi ← bound p "cut.phi"
  let Q_sq ← bound p "cut.Q_sq"
  let t ← bound p "cut.t"
  let W_sq ← bound p "cut.W_sq"
  let r ← bound p "cut.r"
  let mx_sq ← bound p "cut.mx_sq"
  let qt_to_Q ← bound p "cut.qt_to_Q"
  let lab_mom_q ← bound p "cut.lab.mom_q"
  let lab_mom_k2 ← bound p "cut.lab.mom_k2"
  let lab_mom_h ← bound p "cut.lab.mom_h"
  let lab_theta_q ← bound p "cut.lab.theta_q"
  let lab_theta_k2 ← bound p "cut.lab.theta_k2"
  let lab_theta_h ← bound p "cut.lab.theta_h"
  .ok {
    x := x
    y := y
    z := z
    ph_t_sq := ph_t_sq
    phi_h := phi_h.scale DEG
    phi := phi.scale DEG
    Q_sq := Q_sq
    t := t
    W_sq := W_sq
    r := r
    mx_sq := mx_sq
    qt_to_Q := qt_to_Q
    lab_mom_q := lab_mom_q
    lab_mom_k2 := lab_mom_k2
    lab_mom_h := lab_mom_h
    lab_theta_q := lab_theta_q.scale DEG
    lab_theta_k2 := lab_theta_k2.scale DEG
    lab_theta_h := lab_theta_h.scale DEG }

/-- `CutRad()` (include/sidis/cut.hpp 72-86): all bounds invalid. -/
def noCutRad : CutRad :=
  ⟨Bound.invalid, Bound.invalid, Bound.invalid, Bound.invalid, Bound.invalid, Bound.invalid⟩

/-- `cut_rad_from_params` (generator.cpp 41-55). -/
noncomputable def cutRadFromParams (p : P) : Except Err CutRad := do
  let enable ← fromParams (lookBool p (nameEnable .rad))
  if enable then
    let tau ← bound p "cut.tau"
    let phi_k ← bound p "cut.phi_k"
    let R ← bound p "cut.R"
    let k_0_bar ← bound p "cut.k_0_bar"
    let soft ← double p "phys.soft_threshold"
    let lab_mom_k ← bound p "cut.lab.mom_k"
    let lab_theta_k ← bound p "cut.lab.theta_k"
    .ok {
      tau := tau
      phi_k := phi_k.scale DEG
      R := R
      k_0_bar := k_0_bar.inter (Bound.mk' soft .pinf)
      lab_mom_k := lab_mom_k
      lab_theta_k := lab_theta_k.scale DEG }
  else .ok noCutRad

/-- The members of `NradDensity` and `RadDensity` other than `_cut_rad` and `_sf`
(generator.hpp 27-34, 51-59). -/
structure Setup where
  cut : Cut
  rc_method : RcMethod
  soft_threshold : Fl
  ps : Particles Fl
  S : Fl
  beam_pol : Fl
  target_pol : V3 Fl

/-- The member initialisers shared by the two constructors (generator.cpp 60-71, 149, 152-161), in
the order of the members.  Simplification: the four arguments of `Particles` are read from left to
right (the order is unspecified, and only matters for which exception is thrown). -/
noncomputable def Setup.make (p : P) : Except Err Setup := do
  let cut ← cutFromParams p
  let rc_method ← fromParams (lookRc p "phys.rc_method".toList)
  let soft_threshold ← double p "phys.soft_threshold"
  let target ← nucleus p "setup.target"
  let beam ← lepton p "setup.beam"
  let h ← hadron p "setup.hadron"
  let Mth ← double p "phys.mass_threshold"
  match Particles.make target beam h Mth with
  | none => .error .massThreshold
  | some ps =>
    let E ← double p "setup.beam_energy"
    let beam_pol ← double p "setup.beam_pol"
    let target_pol ← vec3 p "setup.target_pol"
    .ok ⟨cut, rc_method, soft_threshold, ps, .fin 2 * (ps.target.mass : Fl) * E, beam_pol, target_pol⟩

/-- The loop over the names of the photon cuts (generator.cpp 87-93). -/
def checkNames (q : P) : List Text → Except Err Unit
  | [] => .ok ()
  | n :: ns => do
    let b ← fromParams (lift (q.isSet n))
    if b then .error (.photonCut n) else checkNames q ns

/-- `NradDensity::NradDensity` (generator.cpp 59-95). -/
noncomputable def nradMake (p : P) : Except Err Setup := do
  let d ← Setup.make p
  if d.rc_method = .approx ∨ d.rc_method = .exact then
    let set ← fromParams (lift (p.isSet "cut.k_0_bar".toList))
    if set then
      let k_0_bar ← bound p "cut.k_0_bar"
      if ¬ (k_0_bar.min ≤ .fin 0) ∨ ¬ (d.soft_threshold ≤ k_0_bar.max) then
        Except.error Err.k0BarNrad
    let q := p.filter (.tag .cutNoNrad)
    checkNames q q.names
    .ok d
  else .ok d

/-- A `RadDensity`. -/
structure RadSetup extends Setup where
  cut_rad : CutRad

/-- `RadDensity::RadDensity` (generator.cpp 148-174).  Simplification: `_cut_rad` is initialised
after `_cut` and before the other members; here after them (only matters for which exception is
thrown). -/
noncomputable def radMake (p : P) : Except Err RadSetup := do
  let d ← Setup.make p
  let cut_rad ← cutRadFromParams p
  if d.rc_method = .none then .error .rcNone
  else
    let k_0_bar ← bound p "cut.k_0_bar"
    if ¬ (d.soft_threshold < k_0_bar.max) then .error .k0BarRad
    else .ok ⟨d, cut_rad⟩

/-- The functions the densities call: `frame::hadron_from_target(kin) * pol` and the
cross-sections. -/
structure XsFuns where
  hadronFromTarget : Kinematics Fl → V3 Fl → V3 Fl
  born : Kinematics Fl → Fl → V3 Fl → Fl
  nradIr : Kinematics Fl → Fl → V3 Fl → Fl → Fl
  nradInteg : Kinematics Fl → Fl → V3 Fl → Fl → Fl
  rad : KinematicsRad Fl → Fl → V3 Fl → Fl

open Classical in
/-- `if (!std::isfinite(xs) || !(xs >= 0.)) { return 0.; } else { return jacobian * xs; }`
(generator.cpp 136-140, 194-198). -/
noncomputable def weigh (jac xs : Fl) : Fl :=
  if ¬ xs.isFinite ∨ ¬ (.fin 0 ≤ xs) then .fin 0 else jac * xs

/-- `NradDensity::transform` (generator.cpp 97-105). -/
noncomputable def Setup.transform (d : Setup) (u : Fin 6 → Fl) : Fl :=
  let t := Cut.takeCut d.cut d.ps d.S u
  if t.ok then t.jac else .fin 0

/-- `NradDensity::eval` (generator.cpp 107-141): the density; `*kin` is that of `take`. -/
noncomputable def Setup.eval (F : XsFuns) (d : Setup) (u : Fin 6 → Fl) : Fl :=
  let t := Cut.takeCut d.cut d.ps d.S u
  if ¬ t.ok then .fin 0
  else
    let eta := F.hadronFromTarget t.kin d.target_pol
    let xs := match d.rc_method with
      | .none => F.born t.kin d.beam_pol eta
      | .approx => F.nradIr t.kin d.beam_pol eta d.soft_threshold
      | .exact => F.nradInteg t.kin d.beam_pol eta d.soft_threshold
    weigh t.jac xs

/-- `RadDensity::transform` (generator.cpp 176-184). -/
noncomputable def RadSetup.transform (d : RadSetup) (u : Fin 9 → Fl) : Fl :=
  match Cut.takeRadCut d.cut d.cut_rad d.ps d.S u with
  | none => .fin 0
  | some t => if t.ok then t.jac else .fin 0

/-- `RadDensity::eval` (generator.cpp 186-199). -/
noncomputable def RadSetup.eval (F : XsFuns) (d : RadSetup) (u : Fin 9 → Fl) : Fl :=
  match Cut.takeRadCut d.cut d.cut_rad d.ps d.S u with
  | none => .fin 0
  | some t =>
    if ¬ t.ok then .fin 0
    else
      let kin := t.kin.project
      let eta := F.hadronFromTarget kin d.target_pol
      weigh t.jac (F.rad t.kin d.beam_pol eta)

/-- The members of `BubbleParams` set in `DistParams::DistParams` (generator.cpp 206-221). -/
structure DistParams where
  check_samples : ℕ
  target_rel_var : Fl
  scale_exp_est : Fl
  min_cell_explore_samples : ℕ
  hist_num_per_bin : ℕ
  max_explore_cells : ℕ

/-- `p_name_init_*` (params_format.hpp 82-93). -/
def initName (t : EventType) (s : String) : String :=
  "mc." ++ (match t with | .nrad => "nrad" | .rad => "rad") ++ ".init." ++ s

/-- `DistParams::DistParams` (generator.cpp 206-221). -/
noncomputable def DistParams.make (t : EventType) (p : P) : Except Err DistParams := do
  let target_eff ← double p (initName t "target_eff")
  let scale_exp ← double p (initName t "scale_exp")
  let max_cells ← int p (initName t "max_cells")
  let max_cells := if max_cells ≤ 0 then 1 else max_cells
  .ok ⟨16384, CMap.expm1 (.fin (-2) * CMap.log target_eff), scale_exp, 512, 2, max_cells.toNat⟩

/-- The weight of an event drawn by `Generator::draw` (generator.cpp 293-304): the weight of the
point drawn from the distribution, times the density there. -/
noncomputable def drawWeight (w density : Fl) : Fl := w * density

end Sidis.Density
