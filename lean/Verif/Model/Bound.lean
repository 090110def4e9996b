import Verif.Model.Fl

/-! # Model of `math::Bound` -/

namespace Sidis

/-- `class Bound` (include/sidis/bound.hpp 16-19): the two private members. -/
structure Bound where
  min : Fl
  max : Fl

namespace Bound

/-- `BOUND_INVALID` / `Bound::Bound()` (src/bound.cpp 9-12, bound.hpp 94-95). -/
def invalid : Bound := ⟨.nan, .nan⟩

/-- `Bound::Bound(Real min, Real max)` (src/bound.cpp 14-18). -/
noncomputable def mk' (min max : Fl) : Bound :=
  if ¬ (min ≤ max) then invalid else ⟨min, max⟩

/-- `Bound::contains(Real)` (include/sidis/bound.hpp 39-42). -/
def contains (b : Bound) (x : Fl) : Prop := b.min ≤ x ∧ x ≤ b.max

/-- `Bound::contains(Bound)` (include/sidis/bound.hpp 43-46). -/
def containsBound (b other : Bound) : Prop := b.contains other.min ∧ b.contains other.max

/-- `Bound::lerp` (include/sidis/bound.hpp 47-51). -/
noncomputable def lerp (b : Bound) (x : Fl) : Fl := (.fin 1 - x) * b.min + x * b.max

/-- `Bound::valid` (include/sidis/bound.hpp 52-55). -/
def valid (b : Bound) : Prop := b.min ≤ b.max

/-- `Bound::size` (include/sidis/bound.hpp 56-59). -/
noncomputable def size (b : Bound) : Fl := b.max - b.min

/-- `Bound::operator==` (include/sidis/bound.hpp 61-64). -/
def beq (a b : Bound) : Prop := a.min.eq b.min ∧ a.max.eq b.max

open Classical in
/-- `Bound::operator&=` and `operator&` (src/bound.cpp 20-32, bound.hpp 110-113). -/
noncomputable def inter (a b : Bound) : Bound :=
  if a.min.isNaN ∨ b.min.isNaN ∨ a.max.isNaN ∨ b.max.isNaN then invalid
  else
    let min := Fl.fmax a.min b.min
    let max := Fl.fmin a.max b.max
    if ¬ (min ≤ max) then invalid else ⟨min, max⟩

open Classical in
/-- `Bound::operator|=` and `operator|` (src/bound.cpp 33-42, bound.hpp 117-120). -/
noncomputable def union (a b : Bound) : Bound :=
  if a.min.isNaN ∨ b.min.isNaN ∨ a.max.isNaN ∨ b.max.isNaN then invalid
  else ⟨Fl.fmin a.min b.min, Fl.fmax a.max b.max⟩

/-- `Bound::operator+=` (src/bound.cpp 44-48). -/
noncomputable def shift (a : Bound) (s : Fl) : Bound := ⟨a.min + s, a.max + s⟩

/-- `Bound::operator-=` (src/bound.cpp 49-53). -/
noncomputable def unshift (a : Bound) (s : Fl) : Bound := ⟨a.min - s, a.max - s⟩

/-- `Bound::operator*=` (src/bound.cpp 54-62). -/
noncomputable def scale (a : Bound) (s : Fl) : Bound :=
  if s < .fin 0 then invalid else ⟨a.min * s, a.max * s⟩

/-- `Bound::operator/=` (src/bound.cpp 63-71). -/
noncomputable def unscale (a : Bound) (s : Fl) : Bound :=
  if s ≤ .fin 0 then invalid else ⟨a.min / s, a.max / s⟩

/-- `BOUND_ZERO` (include/sidis/bound.hpp 96-97). -/
noncomputable def zero : Bound := mk' (.fin 0) (.fin 0)
/-- `BOUND_UNIT` (include/sidis/bound.hpp 98-99). -/
noncomputable def unit : Bound := mk' (.fin 0) (.fin 1)
/-- `BOUND_FULL` (include/sidis/bound.hpp 100-101). -/
noncomputable def full : Bound := mk' .ninf .pinf
/-- `BOUND_POSITIVE` (include/sidis/bound.hpp 102-103). -/
noncomputable def positive : Bound := mk' (.fin 0) .pinf
/-- `BOUND_NEGATIVE` (include/sidis/bound.hpp 104-105). -/
noncomputable def negative : Bound := mk' .ninf (.fin 0)

end Bound

namespace MathUtil

/-- `clamp` (include/sidis/extra/math.hpp 14-42). -/
noncomputable def clamp (min x max : Fl) : Fl :=
  if ¬ (min < x) then min else if ¬ (x < max) then max else x

end MathUtil
end Sidis
