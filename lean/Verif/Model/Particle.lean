import Verif.Model.Num

/-! # Model of particles (include/sidis/particle.hpp, src/particle.cpp) -/

namespace Sidis

/-- `part::Nucleus` (include/sidis/particle.hpp 24-28). -/
inductive Nucleus where
  | p | n | d
  deriving DecidableEq
/-- `part::Lepton` (include/sidis/particle.hpp 16-21). -/
inductive Lepton where
  | e | mu | tau | masslessE
  deriving DecidableEq
/-- `part::Hadron` (include/sidis/particle.hpp 31-40). -/
inductive Hadron where
  | pi0 | piP | piM | k0 | kP | kM | phi | jPsi
  deriving DecidableEq

variable {α : Type} [CMath α]

/-- `mass(Lepton)` (particle.hpp 73-85, constant.hpp 25-27). -/
noncomputable def Lepton.mass : Lepton → α
  | .e => CMath.ofReal (5109989461 / 10 ^ 13)
  | .mu => CMath.ofReal (1056583745 / 10 ^ 10)
  | .tau => CMath.ofReal (177686 / 10 ^ 5)
  | .masslessE => CMath.ofReal 0

/-- `mass(Nucleus)` (particle.hpp 86-96, constant.hpp 29-31). -/
noncomputable def Nucleus.mass : Nucleus → α
  | .p => CMath.ofReal (9382720813 / 10 ^ 10)
  | .n => CMath.ofReal (939565413 / 10 ^ 9)
  | .d => CMath.ofReal (1875612928 / 10 ^ 9)

/-- `mass(Hadron)` (particle.hpp 97-115, constant.hpp 33-38). -/
noncomputable def Hadron.mass : Hadron → α
  | .pi0 => CMath.ofReal (1349770 / 10 ^ 7)
  | .piP | .piM => CMath.ofReal (13957061 / 10 ^ 8)
  | .k0 => CMath.ofReal (497611 / 10 ^ 6)
  | .kP | .kM => CMath.ofReal (493677 / 10 ^ 6)
  | .phi => CMath.ofReal (1019461 / 10 ^ 6)
  | .jPsi => CMath.ofReal (3096900 / 10 ^ 6)

/-- `charge(Lepton)` (particle.hpp 122-131). -/
def Lepton.charge : Lepton → ℤ
  | .e | .mu | .tau | .masslessE => -1

/-- `charge(Nucleus)` (particle.hpp 132-141). -/
def Nucleus.charge : Nucleus → ℤ
  | .p | .d => 1
  | .n => 0

/-- `charge(Hadron)` (particle.hpp 142-157). -/
def Hadron.charge : Hadron → ℤ
  | .pi0 | .k0 | .phi | .jPsi => 0
  | .piP | .kP => 1
  | .piM | .kM => -1

/-- `struct Particles` (particle.hpp 44-67). -/
structure Particles (α : Type) where
  target : Nucleus
  beam : Lepton
  hadron : Hadron
  M : α
  m : α
  mh : α
  Mth : α

/-- The constructor `Particles(target, beam, hadron, Mth)` (src/particle.cpp 8-23); `none` is the
exception `MassThresholdOutOfRange`. -/
noncomputable def Particles.make [Add α] [LE α] [DecidableLE α]
    (target : Nucleus) (beam : Lepton) (hadron : Hadron) (Mth : α) : Option (Particles α) :=
  let M : α := target.mass
  let m : α := beam.mass
  let mh : α := hadron.mass
  if ¬ (M ≤ Mth) ∨ ¬ (Mth ≤ M + mh) then none
  else some ⟨target, beam, hadron, M, m, mh, Mth⟩

end Sidis
