import Verif.Model.SqrtRnd
import Mathlib.Analysis.SpecialFunctions.Log.Basic

/-! # Precision -/

namespace Sidis.Spec

/-- A number agrees with another up to a relative error. -/
def Agrees (err approx exact : ℝ) : Prop := |approx - exact| ≤ err * |exact|

/-- Each operation is right up to a relative error `u` (without overflow and underflow). -/
structure Precise (u : ℝ) (L : Libm) : Prop where
  expm1 : ∀ x, Agrees u (L.expm1 x) (Real.exp x - 1)
  log1p : ∀ x, -1 < x → Agrees u (L.log1p x) (Real.log (1 + x))
  mul : ∀ x y, Agrees u (L.mul x y) (x * y)

end Sidis.Spec
