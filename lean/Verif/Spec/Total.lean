import Verif.Spec.Sampling
import Verif.Spec.Random

/-! # What is assumed of the distribution from which points in the unit cube are drawn -/

namespace Sidis.Spec

open MeasureTheory
open scoped ENNReal

/-- Random points with random weights make up for each other, for the integral of the density `f` over
the unit cube (`avg f`): the weights are not negative, and the mean of weight times density, times the
prime of the distribution, is the integral. -/
structure Fair {Ω U : Type} [MeasurableSpace Ω] (P : Measure Ω) (point : Ω → U) (weight : Ω → ℝ)
    (prime : ℝ) (avg : (U → ℝ≥0∞) → ℝ≥0∞) (f : U → ℝ≥0∞) : Prop where
  nonneg : ∀ᵐ ω ∂P, 0 ≤ weight ω
  fair : ENNReal.ofReal prime * ∫⁻ ω, ENNReal.ofReal (weight ω) * f (point ω) ∂P = avg f

end Sidis.Spec
