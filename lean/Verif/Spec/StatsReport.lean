import Verif.Model.StatsReport
import Verif.Spec.Random

/-! # Specification vocabulary for the statistics shown to the user -/

namespace Sidis.Spec

open Gen StatsLib StatsErr MeasureTheory Filter Topology

/-- What is assumed of the error estimates of the external statistics library: the error of the mean is
the root of the sample variance divided by the number of weights, and the relative variance is the sample
variance divided by the square of the mean, the number of weights having been set to `n`; up to factors
that tend to one with the number of weights (such as `n / (n - 1)`). -/
structure Errors (S : Type) [StatsLib S] [StatsErr S] : Prop where
  mean : ∃ c : ℕ → ℝ, Tendsto c atTop (𝓝 1) ∧ ∀ ws : List ℝ, 2 ≤ ws.length →
    meanErr (collect (ws.map Fl.fin) : S) = .fin (Real.sqrt (c ws.length *
      ((ws.map fun w => w ^ 2).sum / ws.length - (ws.sum / ws.length) ^ 2) / ws.length))
  relVar : ∃ c : ℕ → ℝ, Tendsto c atTop (𝓝 1) ∧ ∀ (ws : List ℝ) (n : ℕ), 2 ≤ n → ws.sum ≠ 0 →
    relVar (collect (ws.map Fl.fin) : S) n = .fin (c n *
      ((ws.map fun w => w ^ 2).sum / n / (ws.sum / n) ^ 2 - 1))

/-- The mean of the weights that are drawn. -/
noncomputable def meanWeight (μ : Measure ℝ) : ℝ := ∫ w, w ∂μ

/-- The probability that a draw is kept, at rejection scale `s`: a draw of weight `w` is kept with
probability `w / max w s` (and then weighs `max w s`). -/
noncomputable def keptPart (μ : Measure ℝ) (s : ℝ) : ℝ := ∫ w, w / max w s ∂μ

/-- The mean square of the weights after rejection: `(max w s)^2` with probability `w / max w s`. -/
noncomputable def meanSquare (μ : Measure ℝ) (s : ℝ) : ℝ := ∫ w, w * max w s ∂μ

open Classical in
/-- The weight that is recorded for a draw of weight `w` with uniform number `u`, at rejection scale `s`
(no rejection for `s = 0`). -/
noncomputable def recorded (s w u : ℝ) : ℝ :=
  if s = 0 then w else if w < u * s then 0 else max w s

end Sidis.Spec
