import Mathlib.MeasureTheory.Integral.Lebesgue.Basic
import Mathlib.MeasureTheory.Measure.Lebesgue.Basic
import Verif.Spec.Density

/-! # Averages over uniform random numbers and integrals over the phase space -/

namespace Sidis.Spec

open MeasureTheory Set
open scoped ENNReal

/-- A floating-point number as a weight: negative numbers, minus infinity and NaN count as nothing. -/
noncomputable def mass : Fl → ℝ≥0∞
  | .fin r => ENNReal.ofReal r
  | .pinf => ⊤
  | .ninf => 0
  | .nan => 0

/-- A cross-section as it counts for the generator: the finite positive ones do. -/
noncomputable def counted : Fl → ℝ≥0∞
  | .fin r => ENNReal.ofReal r
  | _ => 0

/-- The average over one uniform random number. -/
noncomputable def mean (F : ℝ → ℝ≥0∞) : ℝ≥0∞ := ∫⁻ p in Icc (0 : ℝ) 1, F p

/-- The average over three independent uniform random numbers. -/
noncomputable def mean3 (F : (Fin 3 → ℝ) → ℝ≥0∞) : ℝ≥0∞ :=
  mean fun a => mean fun b => mean fun c => F ![a, b, c]

/-- The average over six independent uniform random numbers. -/
noncomputable def mean6 (F : (Fin 6 → ℝ) → ℝ≥0∞) : ℝ≥0∞ :=
  mean fun a => mean fun b => mean fun c => mean fun d => mean fun e => mean fun f => F ![a, b, c, d, e, f]

/-- The average over nine independent uniform random numbers. -/
noncomputable def mean9 (F : (Fin 9 → ℝ) → ℝ≥0∞) : ℝ≥0∞ :=
  mean fun a => mean fun b => mean fun c => mean fun d => mean fun e => mean fun f =>
    mean fun g => mean fun h => mean fun i => F ![a, b, c, d, e, f, g, h, i]

/-- The values of an angle: those allowed by the cut, or once around the circle. -/
def arc (cut : Bound) : Set ℝ :=
  {a | (cut.valid ∧ cut.contains (.fin a)) ∨ (¬ cut.valid ∧ -Real.pi ≤ a ∧ a ≤ Real.pi)}

/-- The integral over the six variables, the last two of them angles in the given sets. -/
noncomputable def integral6 (Ah Ap : Set ℝ) (F : PhaseSpace ℝ → ℝ≥0∞) : ℝ≥0∞ :=
  ∫⁻ x, ∫⁻ y, ∫⁻ z, ∫⁻ ph_t_sq, ∫⁻ phi_h in Ah, ∫⁻ phi in Ap,
    F ⟨x, y, z, ph_t_sq, phi_h, phi⟩

/-- The integral over the three photon variables, the second an angle in the given set. -/
noncomputable def integral3 (Ak : Set ℝ) (F : ℝ → ℝ → ℝ → ℝ≥0∞) : ℝ≥0∞ :=
  ∫⁻ tau, ∫⁻ phi_k in Ak, ∫⁻ R, F tau phi_k R

/-- A cut on an angle that can be sampled: not active, or with finite ends. -/
def FiniteAngle (cut : Bound) : Prop := cut.valid → ∃ lo hi : ℝ, cut = ⟨.fin lo, .fin hi⟩

open Sidis.Density Sidis.Format in
/-- The values of an angle under the parameter called `n`, in degrees: those allowed by the cut, or once
around the circle without a cut. -/
def turn (p : P) (n : String) : Set ℝ :=
  {a | ∃ lo hi, actual p n = some (.bound lo hi) ∧
    ((lo.toFl ≤ hi.toFl ∧ lo.toFl * .fin deg ≤ .fin a ∧ .fin a ≤ hi.toFl * .fin deg) ∨
      (¬ lo.toFl ≤ hi.toFl ∧ -Real.pi ≤ a ∧ a ≤ Real.pi))}

open Sidis.Density Sidis.Format in
/-- A cut on an angle in the parameters has finite ends. -/
def FiniteTurn (p : P) (n : String) : Prop :=
  ∀ lo hi, actual p n = some (.bound lo hi) → lo.toFl ≤ hi.toFl → ∃ l u : ℚ, lo = .fin l ∧ hi = .fin u

end Sidis.Spec
