import Verif.Model.Format
import Verif.Spec.Params

/-!
# Specification vocabulary for whole parameter sets

Only the table of parameters of the program (`stdFormat`) and the observable contents of a set
(what is provided, what `get` would return) are used.
-/

namespace Sidis.Spec

open Sidis.ParamStream Sidis.Codec Sidis.Format

/-- Forget what has been provided. -/
def forget (e : Text × Params.Param Tag Ty Val) : Text × Params.Param Tag Ty Val :=
  (e.1, { e.2 with value := none, used := false })

/-- A copy of the standard table in which some parameters have been provided with values of their
type.  Every set the program handles is one (`std_stdFormat`, `std_set`, `std_read` ...). -/
def Std (p : P) : Prop :=
  p.entries.map forget = stdFormat.entries ∧ ∀ e ∈ p.entries, ∀ v, e.2.value = some v → v.ty = e.2.type

/-- What has been provided for `n` (`none`: nothing). -/
def given (p : P) (n : String) : Option Val := (p.find n.toList).bind (·.value)

/-- What `get` returns for `n`: the value provided, else the default, else nothing. -/
def actual (p : P) (n : String) : Option Val :=
  (p.find n.toList).bind fun q => q.value.or (q.dflt.map Prod.snd)

/-- The parameter called `n` carries the tag. -/
def Tagged (n : String) (t : Tag) : Prop := ∃ q, stdFormat.find n.toList = some q ∧ t ∈ q.tags

/-- `n` is a parameter affecting the distribution of events of type `t`. -/
def Determines (n : String) (t : EventType) : Prop :=
  (Tagged n .xs ∨ Tagged n .cut ∨ Tagged n .dist) ∧ Tagged n t.tag

/-- Name of the switch for an event type. -/
def switch : EventType → String
  | .nrad => "mc.nrad.enable"
  | .rad => "mc.rad.enable"

/-- Name of the generator identifier for an event type. -/
def uid : EventType → String
  | .nrad => "mc.nrad.init.uid"
  | .rad => "mc.rad.init.uid"

/-- Events of type `t` are asked for: the switch is on and, for radiative events, radiative
corrections are not turned off. -/
def Enabled (p : P) (t : EventType) : Prop :=
  actual p (switch t) = some (.bool true) ∧
    ∃ m, actual p "phys.rc_method" = some (.rcMethod m) ∧ (t = .rad → m ≠ .none)

/-- Both sets give `n` the same value, or neither gives it one (equality of doubles is the
machine's, so NaN differs from itself). -/
def Agree (p₁ p₂ : P) (n : String) : Prop :=
  match given p₁ n, given p₂ n with
  | none, none => True
  | some a, some b => equiv a.ty a b = true
  | _, _ => False

end Sidis.Spec
