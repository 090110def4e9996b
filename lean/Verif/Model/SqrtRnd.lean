import Mathlib.Data.Real.Basic

/-! # `sqrt1p_1m` with the rounding of every operation -/

namespace Sidis

/-- The operations of `<cmath>` and the multiplication of a floating-point type, on its finite values. -/
structure Libm where
  expm1 : ℝ → ℝ
  log1p : ℝ → ℝ
  mul : ℝ → ℝ → ℝ

/-- `sqrt1p_1m_impl` (src/math.cpp 11-14, the same for the three types in 132-140) for a finite argument
above -1. -/
noncomputable def sqrt1p1mRnd (L : Libm) (x : ℝ) : ℝ := L.expm1 (L.mul (1 / 2) (L.log1p x))

end Sidis
