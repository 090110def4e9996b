import Mathlib.Algebra.Group.Basic
import Mathlib.Logic.Function.Basic

/-!
# Model of the lifetimes of sets of structure functions

Construction, moves and destruction of `ProkudinTmdSet`, `ProkudinSfSet` (src/sf_set/prokudin.cpp 278-354, 488-511),
`MaskSfSet` (include/sidis/sf_set/mask.hpp 101-131), the structure functions made from TMD sets
(include/sidis/structure_function.hpp 146-310) and `TestSfSet`.

The functions of a set are one function from an index type `ι` (which function, at which point) to values `R`.
The `Impl` objects on the heap have numbers. Undefined behaviour, and what does not compile (a copy, a move between
different classes), is `none`. The `target` and the widths, which are constants that every object of a class has and
a move copies, are left out.
-/

namespace Sidis.SfLifetime

/-- The two classes with an `Impl`. -/
inductive Kind where
  /-- `ProkudinSfSet` -/
  | sf
  /-- `ProkudinTmdSet` -/
  | tmd
  deriving DecidableEq

/-- Objects. -/
inductive Obj (ι R : Type) where
  /-- a Prokudin set with its member `_impl`; `none` is the null pointer (prokudin.hpp 22, 52) -/
  | prok (k : Kind) (impl : Option ℕ)
  /-- a set without resources, as `TestSfSet`, which cannot be moved (structure_function.hpp 53, 55) -/
  | other (f : ι → R)
  /-- structure functions with the member `TmdSet const& tmd_set` (structure_function.hpp 149, 190, 232, 275): the
  variable referred to -/
  | ref (slot : ℕ)
  /-- a `MaskSfSet` that owns a set -/
  | mask (m : ι → Bool) (sf : Obj ι R)
  /-- a `MaskSfSet` whose `_sf` is null -/
  | maskNull (m : ι → Bool)

/-- The heap of `Impl` objects (`none`: not allocated, or freed) and the variables (`none`: no object). -/
structure State (ι R : Type) where
  impls : ℕ → Option (ι → R)
  next : ℕ
  slots : ℕ → Option (Obj ι R)

/-- What a program does. -/
inductive Op (ι R : Type) where
  /-- default construction; `none`: the constructor of `ProkudinImpl` throws -/
  | newProk (k : Kind) (i : ℕ) (load : Option (ι → R))
  | newOther (i : ℕ) (f : ι → R)
  /-- structure functions from the TMD set in `j` -/
  | newRef (i j : ℕ)
  /-- a mask that takes the ownership of the set in `j` -/
  | newMask (i j : ℕ) (m : ι → Bool)
  /-- a new object in `i`, moved from `j` -/
  | moveNew (i j : ℕ)
  /-- `i = std::move(j)` -/
  | moveAssign (i j : ℕ)
  | destroy (i : ℕ)
  | eval (i : ℕ) (n : ι)

variable {ι R : Type}

/-- `delete p` of an `Impl`; one that is not allocated is undefined. -/
def free (s : State ι R) (k : ℕ) : Option (State ι R) :=
  match s.impls k with
  | none => none
  | some _ => some { s with impls := Function.update s.impls k none }

/-- The destructors (prokudin.cpp 348-352, 507-511; mask.hpp 131: `_sf` is deleted unless null). -/
def destroyObj (s : State ι R) : Obj ι R → Option (State ι R)
  | .prok _ none => some s
  | .prok _ (some k) => free s k
  | .other _ => some s
  | .ref _ => some s
  | .mask _ sf => destroyObj s sf
  | .maskNull _ => some s

/-- Evaluation: `_impl->impl...` (prokudin.cpp 358-487, 701-822), a call through the reference, and that of a mask
(mask.hpp 133-280). -/
def evalObj [Zero R] (s : State ι R) : Obj ι R → ι → Option R
  | .prok _ none, _ => none
  | .prok _ (some k), n => (s.impls k).map (· n)
  | .other f, n => some (f n)
  | .ref j, n =>
    match s.slots j with
    | some (.prok .tmd (some k)) => (s.impls k).map (· n)
    | _ => none
  | .mask m sf, n => if m n then evalObj s sf n else some 0
  | .maskNull m, n => if m n then none else some 0

/-- A new object in a variable that has none. -/
def put (s : State ι R) (i : ℕ) (o : Obj ι R) : Option (State ι R) :=
  match s.slots i with
  | some _ => none
  | none => some { s with slots := Function.update s.slots i (some o) }

/-- One step; the value of an evaluation is the second component. -/
def step [Zero R] (s : State ι R) : Op ι R → Option (State ι R × Option R)
  -- prokudin.cpp 282-319, 503-505; a throw in `new Impl()` frees the memory, and there is no object
  | .newProk _ i none =>
    match s.slots i with
    | some _ => none
    | none => some (s, none)
  | .newProk k i (some v) =>
    (put { s with impls := Function.update s.impls s.next (some v), next := s.next + 1 } i
      (.prok k (some s.next))).map (·, none)
  | .newOther i f => (put s i (.other f)).map (·, none)
  | .newRef i j =>
    match s.slots j with
    | some (.prok .tmd _) => (put s i (.ref j)).map (·, none)
    | _ => none
  -- mask.hpp 109-127: `sf->target`, then `_sf(std::move(sf))`
  | .newMask i j m =>
    match s.slots j with
    | some (.prok .tmd _) => none
    | some o => (put { s with slots := Function.update s.slots j none } i (.mask m o)).map (·, none)
    | none => none
  | .moveNew i j =>
    match s.slots j with
    -- prokudin.cpp 321-343, 492-496: `_impl(nullptr)`, `std::swap(_impl, other._impl)`
    | some (.prok k p) =>
      (put { s with slots := Function.update s.slots j (some (.prok k none)) } i (.prok k p)).map (·, none)
    -- mask.hpp 129: `MaskSfSet(other._mask, std::move(other._sf))`, with `sf->target`
    | some (.mask m o) =>
      (put { s with slots := Function.update s.slots j (some (.maskNull m)) } i (.mask m o)).map (·, none)
    | some (.maskNull _) => none
    | _ => none
  | .moveAssign i j =>
    match s.slots i, s.slots j with
    -- prokudin.cpp 344-347, 497-500: `std::swap(_impl, other._impl)`
    | some (.prok k p), some (.prok k' p') =>
      if k = k' then
        some ({ s with
          slots := Function.update (Function.update s.slots i (some (.prok k p'))) j (some (.prok k p)) }, none)
      else none
    | _, _ => none
  | .destroy i =>
    match s.slots i with
    | none => none
    | some o => (destroyObj { s with slots := Function.update s.slots i none } o).map (·, none)
  | .eval i n =>
    match s.slots i with
    | none => none
    | some o => (evalObj s o n).map fun r => (s, some r)

/-- A program, and the values of its evaluations. -/
def run [Zero R] : State ι R → List (Op ι R) → Option (State ι R × List R)
  | s, [] => some (s, [])
  | s, op :: ops =>
    match step s op with
    | none => none
    | some (s', r) => (run s' ops).map fun p => (p.1, r.toList ++ p.2)

/-- Before the program: nothing. -/
def State.empty : State ι R := ⟨fun _ => none, 0, fun _ => none⟩

end Sidis.SfLifetime
