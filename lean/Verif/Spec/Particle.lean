import Verif.Model.Particle

/-! # Particle data, from the quark model and the Particle Data Group -/

namespace Sidis.Spec

/-- Quark flavours. -/
inductive Quark where
  | u | d | s | c

/-- Charge in units of a third of the positron charge. -/
def Quark.thirds : Quark → ℤ
  | .u | .c => 2
  | .d | .s => -1

/-- The valence quarks and antiquarks. -/
def hadronQuarks : Hadron → List Quark × List Quark
  | .pi0 => ([.u], [.u])
  | .piP => ([.u], [.d])
  | .piM => ([.d], [.u])
  | .k0 => ([.d], [.s])
  | .kP => ([.u], [.s])
  | .kM => ([.s], [.u])
  | .phi => ([.s], [.s])
  | .jPsi => ([.c], [.c])
@[inherit_doc hadronQuarks] def nucleusQuarks : Nucleus → List Quark × List Quark
  | .p => ([.u, .u, .d], [])
  | .n => ([.u, .d, .d], [])
  | .d => ([.u, .u, .d, .u, .d, .d], [])

/-- Total charge, in thirds. -/
def quarkCharge (q : List Quark × List Quark) : ℤ :=
  (q.1.map Quark.thirds).sum - (q.2.map Quark.thirds).sum

/-- Masses in MeV as tabulated, to six digits at most. -/
def leptonMeV : Lepton → ℚ
  | .e => 0.510999
  | .mu => 105.658
  | .tau => 1776.9
  | .masslessE => 0
@[inherit_doc leptonMeV] def nucleusMeV : Nucleus → ℚ
  | .p => 938.272
  | .n => 939.565
  | .d => 1875.61
@[inherit_doc leptonMeV] def hadronMeV : Hadron → ℚ
  | .pi0 => 134.977
  | .piP | .piM => 139.57
  | .k0 => 497.611
  | .kP | .kM => 493.677
  | .phi => 1019.46
  | .jPsi => 3096.9

end Sidis.Spec
