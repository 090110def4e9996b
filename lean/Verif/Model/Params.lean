import Mathlib.Data.Finset.NAry
import Mathlib.Data.Finset.Image

/-!
# Model of `Filter` and `Params` (app/sidisgen/params.hpp, params.cpp)

Names, types and values are abstract (`N`, `T`, `V`); `ty v` is `Value::type()`, and
`equiv t a b` is `Type::equivalent`.  `std::map<std::string, Param>` is an association list with
distinct keys.  Documentation strings are not modelled.  A shared pointer to a default value is a
pair of an address and the value pointed to; the code compares addresses.
-/

namespace Sidis

/-- `Filter` (app/sidisgen/params.hpp 137-153): a disjunction (`Condition`, a `std::set`) of
conjunctions (`Term`, a `std::set`) of tags. -/
structure Filter (Tag : Type) where
  condition : Finset (Finset Tag)

namespace Filter

variable {Tag : Type} [DecidableEq Tag]

/-- `Filter::REJECT = Filter()` (params.hpp 155, params.cpp 41). -/
def reject : Filter Tag := ⟨∅⟩
/-- `Filter::ACCEPT = Filter(Term{})` (params.hpp 157, params.cpp 42). -/
def accept : Filter Tag := ⟨{∅}⟩
/-- `Filter(std::string const& tag)` (params.hpp 156, 163). -/
def tag (t : Tag) : Filter Tag := ⟨{{t}}⟩

/-- `Filter::check` (params.hpp 165-182): some term all of whose tags are found. -/
def check (f : Filter Tag) (tags : Finset Tag) : Bool :=
  decide (∃ term ∈ f.condition, ∀ factor ∈ term, factor ∈ tags)

/-- `Filter::operator|=` (params.cpp 44-47). -/
def or (f g : Filter Tag) : Filter Tag := ⟨f.condition ∪ g.condition⟩

/-- `Filter::operator&=` (params.cpp 49-63). -/
def and (f g : Filter Tag) : Filter Tag := ⟨Finset.image₂ (· ∪ ·) f.condition g.condition⟩

end Filter

namespace Params

/-- The exceptions thrown by `Params` members. -/
inductive Err (N : Type) where
  /-- `std::out_of_range` from `_params.at(name)` -/
  | unknown (n : N)
  | notProvided (n : N)
  | diffType (n : N)
  | diffTags (n : N)
  | diffDefault (n : N)
  | notFound (n : N)
  | notUsed (n : N)
  | notEquivalent (n : N)
  | exists_ (n : N)
  | duplicate (n : N)
  | parse (n : N)
  | unrecognized

/-- `Params::Param` (params.hpp 202-233) without the documentation strings. -/
structure Param (Tag T V : Type) where
  type : T
  value : Option V
  dflt : Option (ℕ × V)
  tags : Finset Tag
  used : Bool

/-- `Params` (params.hpp 201-234): the map `_params`. -/
structure _root_.Sidis.Params (N Tag T V : Type) where
  entries : List (N × Param Tag T V)

variable {N Tag T V : Type} [DecidableEq N] [DecidableEq T] [DecidableEq Tag]

/-- Keys are distinct, as in any `std::map`. -/
def WF (P : Sidis.Params N Tag T V) : Prop := (P.entries.map Prod.fst).Nodup

/-- `_params.find(name)` -/
def find (P : Sidis.Params N Tag T V) (n : N) : Option (Param Tag T V) := P.entries.lookup n

/-- Overwrite the entry called `n` in place (assignment through a reference into the map). -/
def update (P : Sidis.Params N Tag T V) (n : N) (p : Param Tag T V) : Sidis.Params N Tag T V :=
  ⟨P.entries.map fun e => if e.1 = n then (e.1, p) else e⟩

/-- `Params::names` (params.cpp 170-176). -/
def names (P : Sidis.Params N Tag T V) : List N := P.entries.map Prod.fst

/-- Constructor from a default value or from a type only (params.cpp 65-100); `used` is false and
no value is provided. -/
def Param.fresh (type : T) (dflt : Option (ℕ × V)) (tags : Finset Tag) : Param Tag T V :=
  ⟨type, none, dflt, tags, false⟩

/-- `Params::add_param` (params.hpp 289-312). -/
def addParam (P : Sidis.Params N Tag T V) (n : N) (p : Param Tag T V) :
    Except (Err N) Unit × Sidis.Params N Tag T V :=
  match P.find n with
  | some _ => (.error (.exists_ n), P)
  | none => (.ok (), ⟨P.entries ++ [(n, p)]⟩)

/-- `Params::get` (params.cpp 102-113). -/
def get (P : Sidis.Params N Tag T V) (n : N) : Except (Err N) V × Sidis.Params N Tag T V :=
  match P.find n with
  | none => (.error (.unknown n), P)
  | some p =>
    match p.value, p.dflt with
    | none, none => (.error (.notProvided n), P)
    | none, some d => (.ok d.2, P)
    | some v, _ => (.ok v, P.update n { p with used := true })

/-- `Params::get_soft` (params.cpp 115-125). -/
def getSoft (P : Sidis.Params N Tag T V) (n : N) : Except (Err N) V :=
  match P.find n with
  | none => .error (.unknown n)
  | some p =>
    match p.value, p.dflt with
    | none, none => .error (.notProvided n)
    | none, some d => .ok d.2
    | some v, _ => .ok v

/-- `Params::is_set` (params.hpp 280-282). -/
def isSet (P : Sidis.Params N Tag T V) (n : N) : Except (Err N) Bool :=
  match P.find n with
  | none => .error (.unknown n)
  | some p => .ok p.value.isSome

/-- `Params::set` (params.cpp 127-137); `ty` is `Value::type()`. -/
def set (ty : V → T) (P : Sidis.Params N Tag T V) (n : N) (v : Option V) :
    Except (Err N) Bool × Sidis.Params N Tag T V :=
  match P.find n with
  | none => (.error (.unknown n), P)
  | some p =>
    if (∃ w ∈ v, p.type ≠ ty w) then (.error (.diffType n), P)
    else (.ok p.value.isSome, P.update n { p with used := false, value := v })

/-- `Params::set_from(other, name)` (params.cpp 139-158). -/
def setFrom (P other : Sidis.Params N Tag T V) (n : N) :
    Except (Err N) Bool × Sidis.Params N Tag T V :=
  match P.find n with
  | none => (.error (.unknown n), P)
  | some p =>
    match other.find n with
    | none => (.error (.unknown n), P)
    | some o =>
      if p.type ≠ o.type then (.error (.diffType n), P)
      else if p.tags ≠ o.tags then (.error (.diffTags n), P)
      else if p.dflt.map Prod.fst ≠ o.dflt.map Prod.fst then (.error (.diffDefault n), P)
      else (.ok p.value.isSome, P.update n { p with used := false, value := o.value })

/-- Loop of `Params::set_from(other)` (params.cpp 160-168); an exception leaves the parameters
already copied in place. -/
def setFromNames (P other : Sidis.Params N Tag T V) : List N → Bool →
    Except (Err N) Bool × Sidis.Params N Tag T V
  | [], old => (.ok old, P)
  | n :: ns, old =>
    match P.setFrom other n with
    | (.error e, P') => (.error e, P')
    | (.ok b, P') => setFromNames P' other ns (old || b)

/-- `Params::set_from(other)` (params.cpp 160-168). -/
def setFromAll (P other : Sidis.Params N Tag T V) :
    Except (Err N) Bool × Sidis.Params N Tag T V :=
  P.setFromNames other other.names false

/-- Body of the loop of `Params::check_format` (params.cpp 179-200). -/
def checkFormatEntry (other : Sidis.Params N Tag T V) (e : N × Param Tag T V) :
    Except (Err N) Unit :=
  match other.find e.1 with
  | none => .error (.notFound e.1)
  | some o =>
    if e.2.type ≠ o.type then .error (.diffType e.1)
    else if e.2.tags ≠ o.tags then .error (.diffTags e.1)
    else if e.2.dflt.map Prod.fst ≠ o.dflt.map Prod.fst then .error (.diffDefault e.1)
    else .ok ()

/-- `Params::check_format` (params.cpp 178-201). -/
def checkFormat (P other : Sidis.Params N Tag T V) : Except (Err N) Unit :=
  P.entries.forM (checkFormatEntry other)

/-- `Params::check_complete` (params.cpp 203-210). -/
def checkComplete (P : Sidis.Params N Tag T V) : Except (Err N) Unit :=
  P.entries.forM fun e =>
    if e.2.value.isSome && !e.2.used then .error (.notUsed e.1) else .ok ()

/-- Body of the loop of `Params::check_equivalent` (params.cpp 214-233).  The dereference of
`other._params.find(name)` is safe because `check_format` succeeded; here a missing entry is an
error. -/
def checkEquivalentEntry (equiv : T → V → V → Bool) (other : Sidis.Params N Tag T V)
    (e : N × Param Tag T V) : Except (Err N) Unit :=
  match other.find e.1 with
  | none => .error (.notFound e.1)
  | some o =>
    match e.2.value, o.value with
    | none, none => .ok ()
    | some a, some b => if equiv e.2.type a b then .ok () else .error (.notEquivalent e.1)
    | _, _ => .error (.notEquivalent e.1)

/-- `Params::check_equivalent` (params.cpp 212-234). -/
def checkEquivalent (equiv : T → V → V → Bool) (P other : Sidis.Params N Tag T V) :
    Except (Err N) Unit := do
  P.checkFormat other
  P.entries.forM (checkEquivalentEntry equiv other)

/-- `Params::clear_unused` (params.cpp 236-242). -/
def clearUnused (P : Sidis.Params N Tag T V) : Sidis.Params N Tag T V :=
  ⟨P.entries.map fun e => if !e.2.used then (e.1, { e.2 with value := none }) else e⟩

/-- `Params::filter` (params.cpp 367-377): a copy (including the `used` flags). -/
def filter (P : Sidis.Params N Tag T V) (f : Filter Tag) : Sidis.Params N Tag T V :=
  ⟨P.entries.filter fun e => f.check e.2.tags⟩

end Params
end Sidis
