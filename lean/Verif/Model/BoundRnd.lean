import Verif.Model.Bound
import Verif.Model.Interp

/-! # `Bound::lerp` with the rounding of every operation -/

namespace Sidis

/-- `Bound::lerp` (include/sidis/bound.hpp 47-51), every operation followed by the rounding `rnd`. -/
noncomputable def Bound.lerpRnd (rnd : ℝ → ℝ) (b : Bound) (x : Fl) : Fl :=
  let r := Interp.rd rnd
  r (r (r (.fin 1 - x) * b.min) + r (x * b.max))

end Sidis
