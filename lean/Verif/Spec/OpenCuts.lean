import Verif.Spec.Cut

/-! # Vocabulary for cuts that cut nothing -/

namespace Sidis.Spec

/-- No cut is made: every Bound is invalid, as after construction. -/
def NoCut (bs : List Bound) : Prop := ∀ b ∈ bs, ¬ b.valid

/-- A cut that lets every number pass: it is not made, or goes from minus to plus infinity. -/
def Open (b : Bound) : Prop := ¬ b.valid ∨ b = ⟨.ninf, .pinf⟩

/-- Cuts that let every number pass on `x`, `y`, `z` and `ph_t_sq`, and no others. -/
def OpenCut (c : Cut) : Prop :=
  Open c.x ∧ Open c.y ∧ Open c.z ∧ Open c.ph_t_sq ∧ NoCut ((cutBounds c).drop 4)

/-- Two results of sampling agree in the point and the jacobian. -/
def SamePoint {K : Type} (s t : Cut.Taken K) : Prop := s.kin = t.kin ∧ s.jac = t.jac

end Sidis.Spec
