import Verif.Model.Map
import Mathlib.Analysis.Calculus.Deriv.Basic

/-! # Specification of variable maps -/

namespace Sidis.Spec

/-- `x` and `u` are inverse bijections between the domain `D` of the variable and the range `E` of
the coordinate. -/
structure Inverses (t : VarMap ℝ) (D E : Set ℝ) : Prop where
  u_mem : ∀ x ∈ D, t.u x ∈ E
  x_mem : ∀ u ∈ E, t.x u ∈ D
  x_u : ∀ x ∈ D, t.x (t.u x) = x
  u_x : ∀ u ∈ E, t.u (t.x u) = u

/-- What a sampler needs from `apply_map` on the bound `[lo, hi]`: on finite unit coordinates the
variable and the jacobian are finite, the jacobian is the derivative of the variable, the ends of
the unit interval go to the ends of the bound, the variable never decreases and takes every value
of the bound. -/
structure Samples (t : VarMap Fl) (lo hi : ℝ) (X J : ℝ → ℝ) : Prop where
  eq : ∀ p, 0 ≤ p → p ≤ 1 → t.apply (.fin p) ⟨.fin lo, .fin hi⟩ = (.fin (X p), .fin (J p))
  deriv : ∀ p, 0 ≤ p → p ≤ 1 → HasDerivAt X (J p) p
  zero : X 0 = lo
  one : X 1 = hi
  mono : ∀ p q, 0 ≤ p → p ≤ q → q ≤ 1 → X p ≤ X q
  onto : ∀ x, lo ≤ x → x ≤ hi → ∃ p, 0 ≤ p ∧ p ≤ 1 ∧ X p = x
  jac_nonneg : ∀ p, 0 ≤ p → p ≤ 1 → 0 ≤ J p
  jac_pos : lo < hi → ∀ p, 0 ≤ p → p ≤ 1 → 0 < J p

end Sidis.Spec
