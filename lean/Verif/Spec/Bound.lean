import Verif.Model.Bound

/-!
# Specification of `Bound`: what an interval means

The vocabulary used by the statements in `Verif/Props/Bound.lean`, independent of how the
operators are implemented: an interval is the set of numbers it contains, and a history is any
finite program over the public operators.
-/

namespace Sidis.Spec

/-- The set of (possibly infinite) numbers between two ends, as a plain set. -/
def between (lo hi : Fl) : Set Fl := { x | lo ≤ x ∧ x ≤ hi }

/-- A user program building Bounds with the public interface: constructor calls and any nesting
of the public operators with arbitrary operands. -/
inductive Prog where
  | default
  | ctor (min max : Fl)
  | inter (a b : Prog)
  | union (a b : Prog)
  | shift (a : Prog) (s : Fl)
  | unshift (a : Prog) (s : Fl)
  | scale (a : Prog) (s : Fl)
  | unscale (a : Prog) (s : Fl)

/-- The Bound computed by a user program. -/
noncomputable def Prog.run : Prog → Bound
  | .default => Bound.invalid
  | .ctor a b => Bound.mk' a b
  | .inter a b => a.run.inter b.run
  | .union a b => a.run.union b.run
  | .shift a s => a.run.shift s
  | .unshift a s => a.run.unshift s
  | .scale a s => a.run.scale s
  | .unscale a s => a.run.unscale s

/-- `Uses p q`: program `p` uses the result of `q` as an operand, at any depth. -/
inductive Prog.Uses : Prog → Prog → Prop
  | refl (p) : Uses p p
  | interL {a b q} : Uses a q → Uses (.inter a b) q
  | interR {a b q} : Uses b q → Uses (.inter a b) q
  | unionL {a b q} : Uses a q → Uses (.union a b) q
  | unionR {a b q} : Uses b q → Uses (.union a b) q
  | shift {a s q} : Uses a q → Uses (.shift a s) q
  | unshift {a s q} : Uses a q → Uses (.unshift a s) q
  | scale {a s q} : Uses a q → Uses (.scale a s) q
  | unscale {a s q} : Uses a q → Uses (.unscale a s) q

end Sidis.Spec
