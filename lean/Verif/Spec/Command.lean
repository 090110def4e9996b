import Verif.Model.Command
import Verif.Spec.Format

/-!
# Specification vocabulary for ROOT files and commands
-/

namespace Sidis.Spec

open Sidis.ParamStream Sidis.Codec Sidis.Format Sidis.Command

/-- A value that survives in a ROOT file: text without NUL characters, intervals whose ends are in
order (so neither is NaN).  A list of seeds stands for a multiset when it is in order. -/
def Storable : Val → Prop
  | .string s => '\x00' ∉ s
  | .bound a b => a.le b = true
  | .seedGen l => l.Pairwise (· ≤ ·)
  | _ => True

/-- Every value that has been provided survives in a ROOT file. -/
def AllStorable (p : P) : Prop := ∀ n v, given p n = some v → Storable v

/-- What is read back for a value: text ends at the first NUL character, an interval whose ends are not
in order cannot be read, a multiset of seeds comes back in order. -/
def restored : Val → Option Val
  | .string s => some (.string (s.takeWhile (· != '\x00')))
  | .bound a b => if a.le b = true then some (.bound a b) else none
  | .seedGen l => some (.seedGen (l.insertionSort (· ≤ ·)))
  | v => some v

/-- The same parameters are provided, with the same values. -/
def SameGiven (p p' : P) : Prop := ∀ n, given p' n = given p n

/-- The command failed and reports it: with one of the documented codes, or as an error. -/
def Failed (s : Stop) : Prop :=
  ∃ r : Main.Result, s = .result r ∧
    ((∃ c, r = .exception c ∧ -21 ≤ c ∧ c ≤ -1) ∨ r = .stdException)

/-- The command succeeded. -/
def Succeeded (s : Stop) : Prop := s = .result (.returns Main.SUCCESS)

end Sidis.Spec
