import Verif.Spec.Kinematics
import Verif.Model.Frame

/-! # Specification vocabulary for reference frames -/

namespace Sidis.Spec

/-- Two changes of coordinates that undo each other. -/
def Inverse3 (a b : Transform3) : Prop :=
  (∀ v, a.apply (b.apply v) = v) ∧ ∀ v, b.apply (a.apply v) = v
@[inherit_doc Inverse3] def Inverse4 (a b : Transform4) : Prop :=
  (∀ v, a.apply (b.apply v) = v) ∧ ∀ v, b.apply (a.apply v) = v

/-- An initial state with the given masses and `S = 2 p·k1`. -/
structure Matches (init : Initial) (ps : Particles ℝ) (S : ℝ) : Prop where
  p_sq : msq init.p = ps.M ^ 2
  k1_sq : msq init.k1 = ps.m ^ 2
  p_t : 0 < init.p.t
  S_eq : 2 * mink init.p init.k1 = S

end Sidis.Spec
