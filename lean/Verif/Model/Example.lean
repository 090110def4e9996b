import Verif.Model.Cut
import Verif.Model.SfMask
import Verif.Model.Density
import Verif.Model.Asymmetry

/-!
# Model of the example programs cross_section, random_phase_space and plot_cutoff

The arguments are those after the name of the program.  `std::stoi` and `std::stold` are parameters (`none`
when they throw), and so are the functions of the library that compute cross-sections.  The outcome is the
list of numbers that are printed; labels and formatting are left out.
-/

namespace Sidis.Example

open SfMask (SfSet Mask maskSfSet numSf)
open Asym (EstErr)

/-- How a program ends: with the message on its usage (exit status 1), by an exception that nobody catches
(`std::terminate`), never, or normally. -/
inductive Exit (α : Type) where
  | usage
  | abort
  | diverge
  | done (a : α)

/-- `std::stoi` and `std::stold`; `none` when an exception is thrown. -/
structure Std where
  stoi : List Char → Option ℤ
  stold : List Char → Option Fl

open Classical in
/-- The particles of the example programs: protons, electrons and positive pions, with the threshold
`MASS_P + MASS_PI_0` (example/cross_section.cpp 22-25, 118); `none` when the constructor throws. -/
noncomputable def particles : Option (Particles Fl) :=
  Particles.make .p .e .piP (Nucleus.p.mass + Hadron.pi0.mass)

/-- `TestSfSet` (include/sidis/sf_set/test.hpp 13-83). -/
def testSfSet {A : Type} : SfSet A :=
  ⟨fun _ => .fin 1, fun _ => .fin 1, fun _ => .fin 1, fun _ => .fin 1, fun _ => .fin 1, fun _ => .fin 1,
   fun _ => .fin 1, fun _ => .fin 1, fun _ => .fin 1, fun _ => .fin 1, fun _ => .fin 1, fun _ => .fin 1,
   fun _ => .fin 1, fun _ => .fin 1, fun _ => .fin 1, fun _ => .fin 1, fun _ => .fin 1, fun _ => .fin 1⟩

/-- The choice of structure functions (cross_section.cpp 63-74); `none` when it throws. -/
def chooseSf {A : Type} (prokudin : SfSet A) (set_idx : ℤ) : Option (SfSet A) :=
  if set_idx = 0 then some prokudin
  else if set_idx ≤ -1 ∧ -(numSf : ℤ) ≤ set_idx then
    let mask : Mask := (List.replicate numSf false).set (-set_idx - 1).toNat true
    some (maskSfSet mask testSfSet)
  else none

/-- The message when the choice is refused (cross_section.cpp 70-73).  `NUM_SF` is a `std::size_t` (of 64
bits), so that `-NUM_SF` is taken modulo `2^64`. -/
def chooseMessage : String :=
  "SF set index must be Prokudin (0), STF (1), or Test (" ++ toString ((2 ^ 64 - numSf) % 2 ^ 64) ++ " to -1)"

/-- The polarization of the beam (cross_section.cpp 76-83). -/
def beamPol (s : List Char) : Option Fl :=
  if s = "U".toList then some (.fin 0)
  else if s = "L".toList then some (.fin 1)
  else none

/-- The polarization of the target (cross_section.cpp 84-94). -/
def targetPol (s : List Char) : Option (V3 Fl) :=
  if s = "U".toList then some ⟨.fin 0, .fin 0, .fin 0⟩
  else if s = "L".toList then some ⟨.fin 0, .fin 0, .fin 1⟩
  else if s = "T".toList then some ⟨.fin 0, .fin 1, .fin 0⟩
  else none

/-- What remains: the cutoff, or the variables of the photon. -/
inductive Photon where
  | soft (k0_cut : Fl)
  | hard (tau phi_k R : Fl)

/-- The arguments once read. -/
structure Input (A : Type) where
  sf : SfSet A
  beam_energy : Fl
  beam_pol : Fl
  target_pol : V3 Fl
  ph_space : PhaseSpace Fl
  photon : Photon

/-- The last argument or the last three (cross_section.cpp 39-42, 53-61). -/
def parsePhoton (std : Std) : List (List Char) → Option Photon
  | [k0_cut] => do
    let k0_cut ← std.stold k0_cut
    return .soft k0_cut
  | [tau, phi_k, R] => do
    let tau ← std.stold tau
    let phi_k ← std.stold phi_k
    let R ← std.stold R
    return .hard tau phi_k R
  | _ => none

/-- Reading the arguments (cross_section.cpp 38-115): `none` for any exception, all being caught in the
same place. -/
def parse {A : Type} (std : Std) (prokudin : SfSet A) : List (List Char) → Option (Input A)
  | set_idx :: E :: beam_pol :: target_pol :: x :: y :: z :: ph_t_sq :: phi_h :: phi :: rest => do
    let set_idx ← std.stoi set_idx
    let E ← std.stold E
    let x ← std.stold x
    let y ← std.stold y
    let z ← std.stold z
    let ph_t_sq ← std.stold ph_t_sq
    let phi_h ← std.stold phi_h
    let phi ← std.stold phi
    let photon ← parsePhoton std rest
    let sf ← chooseSf prokudin set_idx
    let beam_pol ← beamPol beam_pol
    let target_pol ← targetPol target_pol
    return ⟨sf, E, beam_pol, target_pol, ⟨x, y, z, ph_t_sq, phi_h, phi⟩, photon⟩
  | _ => none

/-- The functions of the library that are called. -/
structure Funs (A : Type) where
  hadronFromTarget : Kinematics Fl → V3 Fl → V3 Fl
  born : Kinematics Fl → SfSet A → Fl → V3 Fl → Fl
  amm : Kinematics Fl → SfSet A → Fl → V3 Fl → Fl
  nradIr : Kinematics Fl → SfSet A → Fl → V3 Fl → Fl → Fl
  radFInteg : Kinematics Fl → SfSet A → Fl → V3 Fl → Fl → EstErr
  nradInteg : Kinematics Fl → SfSet A → Fl → V3 Fl → Fl → EstErr
  radInteg : Kinematics Fl → SfSet A → Fl → V3 Fl → Fl → EstErr
  radF : KinematicsRad Fl → SfSet A → Fl → V3 Fl → Fl
  rad : KinematicsRad Fl → SfSet A → Fl → V3 Fl → Fl

/-- The eleven numbers printed without a photon (cross_section.cpp 140-153). -/
noncomputable def printNrad {A : Type} (F : Funs A) (kin : Kinematics Fl) (sf : SfSet A) (beam_pol : Fl) (eta : V3 Fl)
    (k0_cut : Fl) : List Fl :=
  let born := F.born kin sf beam_pol eta
  let amm := F.amm kin sf beam_pol eta
  let nrad_ir := F.nradIr kin sf beam_pol eta k0_cut
  let rad_f := F.radFInteg kin sf beam_pol eta k0_cut
  let nrad := F.nradInteg kin sf beam_pol eta k0_cut
  let rad := F.radInteg kin sf beam_pol eta k0_cut
  [born, amm, nrad_ir, rad_f.val, rad_f.err, nrad.val, nrad.err, rad.val, rad.err, nrad.val + rad.val,
    nrad.err + rad.err]

open Classical in
/-- `main` of example/cross_section.cpp (lines 21-170). -/
noncomputable def crossSection {A : Type} (std : Std) (prokudin : SfSet A) (F : Funs A)
    (args : List (List Char)) : Exit (List Fl) :=
  match parse std prokudin args with
  | none => .usage
  | some i =>
    match particles with
    | none => .abort
    | some ps =>
      let S := .fin 2 * ps.M * i.beam_energy
      let p := i.ph_space
      if ¬ (Cut.SMin ps ≤ S) then .abort
      else if ¬ (Cut.xBound ps S).contains p.x then .abort
      else if ¬ (Cut.yBound ps S p.x).contains p.y then .abort
      else if ¬ (Cut.zBound ps S p.x p.y).contains p.z then .abort
      else if ¬ (Cut.phTSqBound ps S p.x p.y p.z).contains p.ph_t_sq then .abort
      else
        let kin := Kinematics.make ps S p
        let eta := F.hadronFromTarget kin i.target_pol
        match i.photon with
        | .soft k0_cut => .done (printNrad F kin i.sf i.beam_pol eta k0_cut)
        | .hard tau phi_k R =>
          if ¬ (Cut.tauBound kin).contains tau then .abort
          else if ¬ (Cut.RBound kin tau phi_k).contains R then .abort
          else
            let kin_rad := KinematicsRad.make kin tau phi_k R
            .done [F.radF kin_rad i.sf i.beam_pol eta, F.rad kin_rad i.sf i.beam_pol eta]

/-- The second argument of random_phase_space (example/random_phase_space.cpp 31-44); `none` when it
throws. -/
def radiative (s : List Char) : Option Bool :=
  if s = "true".toList ∨ s = "on".toList ∨ s = "rad".toList then some true
  else if s = "false".toList ∨ s = "off".toList ∨ s = "nrad".toList then some false
  else none

/-- `main` of example/random_phase_space.cpp (lines 16-86); `point` are the nine random numbers.  The two
loops repeat `take` on the same point, hence end at once or never. -/
noncomputable def randomPhaseSpace (std : Std) (point : Fin 9 → Fl) : List (List Char) → Exit (List Fl)
  | [E, mode] =>
    match std.stold E, radiative mode with
    | some E, some rad =>
      match particles with
      | none => .abort
      | some ps =>
        let S := .fin 2 * ps.M * E
        let t := Cut.take ps S (Cut.head6 point)
        if ¬ t.ok then .diverge
        else
          let t' := Cut.takePhotonKin t.kin (Cut.tail3 point)
          if ¬ t'.ok then .diverge
          else
            let k := t.kin
            .done ([k.x, k.y, k.z, k.ph_t_sq, k.phi_h, k.phi] ++
              if rad then [t'.kin.tau, t'.kin.phi_k, t'.kin.R] else [])
    | _, _ => .usage
  | _ => .usage

/-- `std::abs`. -/
noncomputable def absFl : Fl → Fl
  | .nan => .nan
  | .fin r => .fin |r|
  | .ninf => .pinf
  | .pinf => .pinf

/-- One point of example/plot_cutoff.cpp (lines 65-78): the cutoff, the value and its error, from the two
integrals. -/
noncomputable def cutoffPoint (idx : ℕ) (xs xs_rad_f : EstErr) : ℝ × Fl × Fl :=
  let lambda : ℝ := idx / (100 - 1)
  let k0_pow := lambda * -3 + (1 - lambda) * 0
  let ratio := xs_rad_f.val / xs.val
  let err_rel := absFl (xs_rad_f.err / xs_rad_f.val) + absFl (xs.err / xs.val)
  let err := err_rel * ratio
  (10 ^ k0_pow, .fin (-100) * ratio, .fin 100 * err)

end Sidis.Example
