import Verif.Lemmas.RandomEnds
import Mathlib.Probability.StrongLaw
import Mathlib.MeasureTheory.Integral.Prod

/-! # The laws of the weights after rejection -/

namespace Sidis.Lemmas.Random

open Gen StatsLib Spec Props MeasureTheory ProbabilityTheory Topology

variable {K : Type}

theorem measurable_wr (s : ℝ) : Measurable fun q : ℝ × ℝ => wr s q.1 q.2 := by
  unfold wr
  by_cases hs : s = 0
  · simpa [hs] using measurable_fst
  · simp only [hs, if_false]
    refine Measurable.ite (measurableSet_lt (by fun_prop) (by fun_prop)) measurable_const ?_
    exact Measurable.ite (measurableSet_lt (by fun_prop) (by fun_prop)) measurable_const
      measurable_fst

theorem wr_le (s w u : ℝ) (hs : 0 ≤ s) (hw : 0 ≤ w) : 0 ≤ wr s w u ∧ wr s w u ≤ w + s := by
  unfold wr
  split_ifs <;> constructor <;> linarith

/-- The weight is the same on average. -/
theorem wr_mean (s w : ℝ) (hs : 0 ≤ s) (hw : 0 ≤ w) : ∫ u in Set.Ioc (0 : ℝ) 1, wr s w u = w := by
  by_cases h0 : s = 0
  · simp [wr, h0]
  · have := c46_mean w s hw (lt_of_le_of_ne hs (Ne.symm h0))
    rw [intervalIntegral.integral_of_le zero_le_one] at this
    refine Eq.trans ?_ this
    refine integral_congr_ae (Filter.Eventually.of_forall fun u => ?_)
    simp only [wr, h0, if_false, reweight, Fl.mul_fin, Fl.lt_fin]
    split_ifs <;> rfl

instance : IsProbabilityMeasure (volume.restrict (Set.Ioc (0 : ℝ) 1)) := ⟨by simp⟩

section
variable {μ : Measure ℝ} [IsProbabilityMeasure μ]

theorem integrable_of_sq (h2 : Integrable (fun w : ℝ => w ^ 2) μ) : Integrable (fun w : ℝ => w) μ := by
  refine ((integrable_const (1 : ℝ)).add h2).mono' (by fun_prop) (Filter.Eventually.of_forall ?_)
  intro w
  simp only [Pi.add_apply, Real.norm_eq_abs]
  nlinarith [sq_abs w, sq_nonneg (|w| - 1), abs_nonneg w]

theorem nonneg_prod (h0 : ∀ᵐ w ∂μ, 0 ≤ w) :
    ∀ᵐ q ∂μ.prod (volume.restrict (Set.Ioc (0 : ℝ) 1)), 0 ≤ q.1 :=
  Measure.quasiMeasurePreserving_fst.ae h0

theorem integrable_wr_sq (s : ℝ) (hs : 0 ≤ s) (h0 : ∀ᵐ w ∂μ, 0 ≤ w)
    (h2 : Integrable (fun w : ℝ => w ^ 2) μ) :
    Integrable (fun q : ℝ × ℝ => wr s q.1 q.2 ^ 2)
      (μ.prod (volume.restrict (Set.Ioc (0 : ℝ) 1))) := by
  have hdom : Integrable (fun q : ℝ × ℝ => 2 * q.1 ^ 2 + 2 * s ^ 2)
      (μ.prod (volume.restrict (Set.Ioc (0 : ℝ) 1))) :=
    ((h2.comp_fst _).const_mul 2).add (integrable_const _)
  refine hdom.mono' ((measurable_wr s).pow_const 2).aestronglyMeasurable ?_
  filter_upwards [nonneg_prod h0] with q hq
  obtain ⟨a, b⟩ := wr_le s q.1 q.2 hs hq
  rw [Real.norm_eq_abs, abs_of_nonneg (sq_nonneg _)]
  nlinarith [sq_nonneg (q.1 - s)]

theorem integrable_wr (s : ℝ) (hs : 0 ≤ s) (h0 : ∀ᵐ w ∂μ, 0 ≤ w)
    (h1 : Integrable (fun w : ℝ => w) μ) :
    Integrable (fun q : ℝ × ℝ => wr s q.1 q.2)
      (μ.prod (volume.restrict (Set.Ioc (0 : ℝ) 1))) := by
  have hdom : Integrable (fun q : ℝ × ℝ => q.1 + s)
      (μ.prod (volume.restrict (Set.Ioc (0 : ℝ) 1))) :=
    (h1.comp_fst _).add (integrable_const _)
  refine hdom.mono' (measurable_wr s).aestronglyMeasurable ?_
  filter_upwards [nonneg_prod h0] with q hq
  obtain ⟨a, b⟩ := wr_le s q.1 q.2 hs hq
  rwa [Real.norm_eq_abs, abs_of_nonneg a]

theorem integral_wr (s : ℝ) (hs : 0 ≤ s) (h0 : ∀ᵐ w ∂μ, 0 ≤ w)
    (h1 : Integrable (fun w : ℝ => w) μ) :
    ∫ q, wr s q.1 q.2 ∂(μ.prod (volume.restrict (Set.Ioc (0 : ℝ) 1))) = ∫ w, w ∂μ := by
  rw [integral_prod _ (integrable_wr s hs h0 h1)]
  refine integral_congr_ae ?_
  filter_upwards [h0] with w hw
  exact wr_mean s w hs hw
end

section
variable {Ω : Type} [MeasurableSpace Ω] {P : Measure Ω} [IsProbabilityMeasure P]
  {lots : Ω → ℕ → ℕ → Lot K} {i : ℕ} {μ : Measure ℝ} [IsProbabilityMeasure μ]

/-- The law of large numbers for a function of the draws. -/
theorem averages (h : Independent P lots i μ) (f : ℝ × ℝ → ℝ) (hf : Measurable f)
    (hi : Integrable f (μ.prod (volume.restrict (Set.Ioc (0 : ℝ) 1)))) :
    ∀ᵐ ω ∂P, Filter.Tendsto (fun n : ℕ => (∑ m ∈ Finset.range n,
      f ((lots ω i m).weight, (lots ω i m).uniform)) / n) Filter.atTop
      (𝓝 (∫ q, f q ∂(μ.prod (volume.restrict (Set.Ioc (0 : ℝ) 1))))) := by
  have hl := strong_law_ae_real (μ := P)
    (fun n ω => f ((lots ω i n).weight, (lots ω i n).uniform)) ?_ ?_ ?_
  · have e : ∫ q, f q ∂(μ.prod (volume.restrict (Set.Ioc (0 : ℝ) 1))) =
        ∫ ω, f ((lots ω i 0).weight, (lots ω i 0).uniform) ∂P := by
      rw [← h.law 0, integral_map (h.measurable 0).aemeasurable hf.aestronglyMeasurable]
    rw [e]
    exact hl
  · have := (integrable_map_measure hf.aestronglyMeasurable (h.measurable 0).aemeasurable).mp
      (by rw [h.law 0]; exact hi)
    exact this
  · intro a b hab
    exact (h.indep.indepFun hab).comp hf hf
  · intro n
    exact (IdentDistrib.mk (h.measurable n).aemeasurable (h.measurable 0).aemeasurable
      (by rw [h.law, h.law])).comp hf

end

/-- If the averages of the squares converge, the root of the sum of the squares grows more slowly
than the number of terms. -/
theorem root_small (x : ℕ → ℝ) (c : ℝ)
    (h : Filter.Tendsto (fun n : ℕ => (∑ m ∈ Finset.range n, x m ^ 2) / n) Filter.atTop (𝓝 c)) :
    Filter.Tendsto (fun n : ℕ => Real.sqrt (∑ m ∈ Finset.range n, x m ^ 2) / n) Filter.atTop
      (𝓝 0) := by
  have h1 : Filter.Tendsto (fun n : ℕ => Real.sqrt ((∑ m ∈ Finset.range n, x m ^ 2) / n *
      (1 / (n : ℝ)))) Filter.atTop (𝓝 (Real.sqrt (c * 0))) :=
    (Real.continuous_sqrt.tendsto _).comp (h.mul tendsto_one_div_atTop_nhds_zero_nat)
  rw [mul_zero, Real.sqrt_zero] at h1
  refine h1.congr fun n => ?_
  rw [div_mul_div_comm, mul_one, Real.sqrt_div (Finset.sum_nonneg fun m _ => sq_nonneg _),
    Real.sqrt_mul_self (Nat.cast_nonneg n)]

/-- If the averages have a positive limit, there is always another term that is not zero. -/
theorem again_of_mean (x : ℕ → ℝ) (c : ℝ) (hc : 0 < c)
    (h : Filter.Tendsto (fun n : ℕ => (∑ m ∈ Finset.range n, x m) / n) Filter.atTop (𝓝 c)) (k : ℕ) :
    ∃ m, x (k + m) ≠ 0 := by
  by_contra hh
  push Not at hh
  have hconst : ∀ n, k ≤ n → ∑ m ∈ Finset.range n, x m = ∑ m ∈ Finset.range k, x m := by
    intro n hn
    induction n, hn using Nat.le_induction with
    | base => rfl
    | succ n hn ih =>
      rw [Finset.sum_range_succ, ih]
      obtain ⟨m, rfl⟩ := Nat.exists_eq_add_of_le hn
      rw [hh m, add_zero]
  have h0 : Filter.Tendsto (fun n : ℕ => (∑ m ∈ Finset.range n, x m) / n) Filter.atTop (𝓝 0) := by
    have := tendsto_const_div_atTop_nhds_zero_nat (∑ m ∈ Finset.range k, x m)
    refine this.congr' ?_
    filter_upwards [Filter.eventually_ge_atTop k] with n hn
    rw [hconst n hn]
  exact hc.ne' (tendsto_nhds_unique h h0)

end Sidis.Lemmas.Random
