import Verif.Spec.TakeAll
import Verif.Spec.SfMask
import Verif.Model.Example

/-! # What the example programs should do -/

namespace Sidis.Spec

open Example SfMask

/-- Protons, electrons and positive pions, with a proton and a neutral pion undetected at least. -/
noncomputable def examplePs : Particles ℝ :=
  ⟨.p, .e, .piP, Nucleus.p.mass, Lepton.e.mass, Hadron.piP.mass, Nucleus.p.mass + Hadron.pi0.mass⟩

/-- Twice the product of the momenta of beam and target, for a beam of energy `E` on a target at rest. -/
noncomputable def beamS (E : ℝ) : ℝ := 2 * examplePs.M * E

/-- The variables are numbers in the phase space of the process: without a photon, of the scattering (the
two azimuthal angles, which no limit concerns, may be anything); with a photon, of the scattering with this
photon (only the angle of the target polarization may be anything). -/
def Allowed (E : Fl) (pt : PhaseSpace Fl) : Photon → Prop
  | .soft _ => ∃ e x y z t : ℝ, E = .fin e ∧ pt.x = .fin x ∧ pt.y = .fin y ∧ pt.z = .fin z ∧
      pt.ph_t_sq = .fin t ∧ ∀ f g, Accepted examplePs (beamS e) ⟨x, y, z, t, f, g⟩
  | .hard tau phi_k R => ∃ e x y z t f a b c : ℝ, E = .fin e ∧ pt.x = .fin x ∧ pt.y = .fin y ∧
      pt.z = .fin z ∧ pt.ph_t_sq = .fin t ∧ pt.phi_h = .fin f ∧ tau = .fin a ∧ phi_k = .fin b ∧ R = .fin c ∧
      ∀ g, AcceptedRad examplePs (beamS e) ⟨x, y, z, t, f, g⟩ a b c

/-- The particles of the program in floating point, and `S` for a beam energy. -/
noncomputable def exampleKin (E : Fl) (pt : PhaseSpace Fl) : Kinematics Fl :=
  .make (finPs examplePs) (.fin 2 * .fin examplePs.M * E) pt

/-- What is to be printed. -/
noncomputable def expected {A : Type} (F : Funs A) (i : Input A) : List Fl :=
  let kin := exampleKin i.beam_energy i.ph_space
  let eta := F.hadronFromTarget kin i.target_pol
  match i.photon with
  | .soft k0 =>
    let nrad := F.nradInteg kin i.sf i.beam_pol eta k0
    let rad := F.radInteg kin i.sf i.beam_pol eta k0
    [F.born kin i.sf i.beam_pol eta, F.amm kin i.sf i.beam_pol eta, F.nradIr kin i.sf i.beam_pol eta k0,
      (F.radFInteg kin i.sf i.beam_pol eta k0).val, (F.radFInteg kin i.sf i.beam_pol eta k0).err,
      nrad.val, nrad.err, rad.val, rad.err, nrad.val + rad.val, nrad.err + rad.err]
  | .hard tau phi_k R =>
    let kin_rad := KinematicsRad.make kin tau phi_k R
    [F.radF kin_rad i.sf i.beam_pol eta, F.rad kin_rad i.sf i.beam_pol eta]

/-- The structure functions that a number asks for: 0 for those of Prokudin; `-1` to `-18` for a single one
of the eighteen (counted from 1), which is 1 everywhere, the others being 0. -/
def AsksFor {A : Type} (prokudin : SfSet A) (n : ℤ) (sf : SfSet A) : Prop :=
  n = 0 ∧ sf = prokudin ∨
  ∃ name : SfName, n = -(name.number + 1 : ℤ) ∧
    ∀ (m : SfName) (a : A), m.of sf a = if m = name then .fin 1 else .fin 0

/-- The meaning of the arguments, as in the message on the usage: a number for the structure functions, the
beam energy, the letters of the polarizations (beam along its direction, target along the beam or across),
the six variables, and the cutoff or the three variables of the photon. -/
def Means {A : Type} (std : Std) (prokudin : SfSet A) (args : List (List Char)) (i : Input A) : Prop :=
  ∃ k E b t x y z p f g : List Char, ∃ rest,
    args = k :: E :: b :: t :: x :: y :: z :: p :: f :: g :: rest ∧
    (∃ n, std.stoi k = some n ∧ AsksFor prokudin n i.sf) ∧
    std.stold E = some i.beam_energy ∧
    (b = ['U'] ∧ i.beam_pol = .fin 0 ∨ b = ['L'] ∧ i.beam_pol = .fin 1) ∧
    (t = ['U'] ∧ i.target_pol = ⟨.fin 0, .fin 0, .fin 0⟩ ∨
      t = ['L'] ∧ i.target_pol = ⟨.fin 0, .fin 0, .fin 1⟩ ∨
      t = ['T'] ∧ i.target_pol = ⟨.fin 0, .fin 1, .fin 0⟩) ∧
    std.stold x = some i.ph_space.x ∧ std.stold y = some i.ph_space.y ∧ std.stold z = some i.ph_space.z ∧
    std.stold p = some i.ph_space.ph_t_sq ∧ std.stold f = some i.ph_space.phi_h ∧
    std.stold g = some i.ph_space.phi ∧
    match i.photon with
    | .soft k0 => ∃ c, rest = [c] ∧ std.stold c = some k0
    | .hard tau phi_k R => ∃ c d e, rest = [c, d, e] ∧ std.stold c = some tau ∧
        std.stold d = some phi_k ∧ std.stold e = some R

end Sidis.Spec
