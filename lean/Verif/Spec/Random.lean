import Verif.Spec.Integ
import Mathlib.MeasureTheory.Measure.Prod
import Mathlib.MeasureTheory.Measure.Lebesgue.Basic
import Mathlib.MeasureTheory.Function.L1Space.Integrable
import Mathlib.Probability.Independence.Basic
import Mathlib.MeasureTheory.Integral.Bochner.Basic

/-! # Specification vocabulary for random event generation -/

namespace Sidis.Spec

open Gen StatsLib MeasureTheory ProbabilityTheory

/-- What is assumed of the external statistics library in addition to `Counts`: the mean of finite
weights is their sum divided by their number, and the root mean square, the number of weights having
been set to `n`, is the square root of the sum of their squares divided by `n`. -/
structure Averages (S : Type) [StatsLib S] : Prop where
  mean : ∀ ws : List ℝ, ws ≠ [] → mean (collect (ws.map Fl.fin) : S) = .fin (ws.sum / ws.length)
  square : ∀ (ws : List ℝ) (n : ℕ), 0 < n →
    sqrtM2 (collect (ws.map Fl.fin) : S) n = .fin (Real.sqrt ((ws.map fun w => w ^ 2).sum / n))

/-- One draw: the weight of the event, its kinematics, and the uniform random number that decides on
its rejection. -/
structure Lot (K : Type) where
  weight : ℝ
  kin : K
  uniform : ℝ

/-- A random engine: for every generator a sequence of draws, how many of them have been made, and
the uniform number that belongs to the last draw. -/
structure Engine (K : Type) where
  lots : ℕ → ℕ → Lot K
  made : ℕ → ℕ
  uniform : ℝ

/-- The engine before anything has been drawn. -/
def fresh {K : Type} (lots : ℕ → ℕ → Lot K) : Engine K := ⟨lots, fun _ => 0, 0⟩

/-- The source of random inputs which uses up such an engine. -/
def engine (K : Type) : Source (Engine K) K where
  draw i e :=
    let d := e.lots i (e.made i)
    ((.fin d.weight, d.kin), ⟨e.lots, Function.update e.made i (e.made i + 1), d.uniform⟩)
  unif e := (.fin e.uniform, e)

/-- The draws from generator `i` are independent and have the same law: the weights have law `μ`,
and the uniform numbers are uniform and independent of the weights. -/
structure Independent {Ω K : Type} [MeasurableSpace Ω] (P : Measure Ω) (lots : Ω → ℕ → ℕ → Lot K)
    (i : ℕ) (μ : Measure ℝ) : Prop where
  measurable : ∀ n, Measurable fun ω => ((lots ω i n).weight, (lots ω i n).uniform)
  law : ∀ n, P.map (fun ω => ((lots ω i n).weight, (lots ω i n).uniform)) =
    μ.prod (volume.restrict (Set.Ioc 0 1))
  indep : iIndepFun (fun n ω => ((lots ω i n).weight, (lots ω i n).uniform)) P

end Sidis.Spec
