import Verif.Model.SfLifetime

/-!
# Sets of structure functions as values

What a user expects of the objects, without a heap: each object has a value of its own, a move hands it over.
-/

namespace Sidis.Spec

open Sidis.SfLifetime

/-- The value of an object. -/
inductive SetVal (ι R : Type) where
  /-- a Prokudin set: its functions, or nothing once they were moved away -/
  | prok (k : Kind) (v : Option (ι → R))
  | other (f : ι → R)
  /-- structure functions from the TMD set in a variable -/
  | ref (slot : ℕ)
  | mask (m : ι → Bool) (sf : SetVal ι R)
  /-- a mask once its set was moved away -/
  | empty (m : ι → Bool)

variable {ι R : Type}

/-- The value of a function; `none` where there is none. -/
def SetVal.at [Zero R] (σ : ℕ → Option (SetVal ι R)) : SetVal ι R → ι → Option R
  | .prok _ v, n => v.map (· n)
  | .other f, n => some (f n)
  | .ref j, n =>
    match σ j with
    | some (.prok .tmd v) => v.map (· n)
    | _ => none
  | .mask m sf, n => if m n then SetVal.at σ sf n else some 0
  | .empty m, n => if m n then none else some 0

/-- A new object, in a variable without one. -/
def newVal (σ : ℕ → Option (SetVal ι R)) (i : ℕ) (v : SetVal ι R) : Option (ℕ → Option (SetVal ι R)) :=
  match σ i with
  | none => some (Function.update σ i (some v))
  | some _ => none

/-- What each operation means. -/
def meaning [Zero R] (σ : ℕ → Option (SetVal ι R)) : Op ι R → Option ((ℕ → Option (SetVal ι R)) × Option R)
  | .newProk _ i none => if (σ i).isNone then some (σ, none) else none
  | .newProk k i (some v) => (newVal σ i (.prok k (some v))).map (·, none)
  | .newOther i f => (newVal σ i (.other f)).map (·, none)
  | .newRef i j =>
    match σ j with
    | some (.prok .tmd _) => (newVal σ i (.ref j)).map (·, none)
    | _ => none
  | .newMask i j m =>
    match σ j with
    | some (.prok .tmd _) => none
    | some v => (newVal (Function.update σ j none) i (.mask m v)).map (·, none)
    | none => none
  | .moveNew i j =>
    match σ j with
    | some (.prok k v) => (newVal (Function.update σ j (some (.prok k none))) i (.prok k v)).map (·, none)
    | some (.mask m v) => (newVal (Function.update σ j (some (.empty m))) i (.mask m v)).map (·, none)
    | _ => none
  | .moveAssign i j =>
    match σ i, σ j with
    | some (.prok k v), some (.prok k' v') =>
      if k = k' then some (Function.update (Function.update σ i (some (.prok k v'))) j (some (.prok k v)), none)
      else none
    | _, _ => none
  | .destroy i => if (σ i).isSome then some (Function.update σ i none, none) else none
  | .eval i n =>
    match σ i with
    | none => none
    | some v => (v.at σ n).map fun r => (σ, some r)

/-- What a program means, and the values it sees. -/
def meanings [Zero R] : (ℕ → Option (SetVal ι R)) → List (Op ι R) → Option ((ℕ → Option (SetVal ι R)) × List R)
  | σ, [] => some (σ, [])
  | σ, op :: ops =>
    match meaning σ op with
    | none => none
    | some (σ', r) => (meanings σ' ops).map fun p => (p.1, r.toList ++ p.2)

end Sidis.Spec
