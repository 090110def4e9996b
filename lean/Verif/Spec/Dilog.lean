import Mathlib.MeasureTheory.Integral.IntervalIntegral.Basic
import Mathlib.Analysis.SpecialFunctions.Log.Basic

/-! # The dilogarithm: vocabulary for C90 -/

namespace Sidis.Spec

/-- The real part of Euler's dilogarithm, `-∫₀ˣ log|1 - t| / t dt` (`Real.log` is the logarithm of the
absolute value). -/
noncomputable def Li2 (x : ℝ) : ℝ := -∫ t in (0 : ℝ)..x, Real.log (1 - t) / t

end Sidis.Spec
