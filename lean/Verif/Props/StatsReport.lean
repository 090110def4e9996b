import Verif.Lemmas.StatsReport
import Verif.Props.RandomBias
import Mathlib.Analysis.SpecialFunctions.Integrals.Basic

/-! # C99: the statistics shown to the user -/

namespace Sidis.Props

open Gen StatsLib Spec
open Lemmas.Random hiding report
open MeasureTheory ProbabilityTheory Topology Filter

variable {S K : Type} [StatsLib S] [StatsErr S] {Ω : Type} [MeasurableSpace Ω]

theorem scale_of {gens : List (EventType × ℝ × ℝ)} {i : ℕ} {g : EventType × ℝ × ℝ} (h : gens[i]? = some g) :
    scales gens i = g.2.2 := by simp [scales, h]

/-- C99. The uncertainty shown for a cross-section is the standard deviation of the recorded weights
divided by the root of the number of draws, as the number of events grows, with probability one. -/
theorem c99_error (hS : Counts S) (hA : Averages S) (hR : RootMeanSquare S) (hE : Errors S)
    (P : Measure Ω) [IsProbabilityMeasure P] (lots : Ω → ℕ → ℕ → Lot K)
    (gens : List (EventType × ℝ × ℝ)) (hgens : ∀ g ∈ gens, 0 < g.2.1 ∧ 0 ≤ g.2.2)
    (μ : ℕ → Measure ℝ) (hμ : ∀ i < gens.length, IsProbabilityMeasure (μ i) ∧
      (∀ᵐ w ∂μ i, 0 ≤ w) ∧ Integrable (fun w => w ^ 2) (μ i))
    (hind : ∀ i < gens.length, Independent P lots i (μ i)) :
    ∀ᵐ ω ∂P, ∀ ε > 0, ∃ N : ℕ, ∀ (fuel : ℕ) (numEvents : ℤ) (s : State S (Engine K) K),
      N ≤ numEvents →
      generate (engine K) fuel (loaded gens) numEvents (fresh (lots ω)) = .done s →
      ∀ (i : ℕ) (g₀ : EventType × ℝ × ℝ) (g : GenTuple S), gens[i]? = some g₀ → s.gens[i]? = some g →
        ∃ e, (report g.integ.total).xsErr = .fin e ∧
          |e * √g.integ.total.count - √(meanSquare (μ i) g₀.2.2 - meanWeight (μ i) ^ 2) / g₀.2.1| < ε := by
  obtain ⟨c, hc, hce⟩ := hE.mean
  have key := limit_of_draws hS hA hR P lots gens hgens μ hμ hind
    (fun i x n => √(c n * ((∑ m ∈ Finset.range n, x m ^ 2) / n - ((∑ m ∈ Finset.range n, x m) / n) ^ 2)) /
      ((gens[i]?).map fun g => g.2.1).getD 0)
    (fun i => √(meanSquare (μ i) (scales gens i) - meanWeight (μ i) ^ 2) /
      ((gens[i]?).map fun g => g.2.1).getD 0) (by
    intro i _ x h1 h2 _
    have := ((Real.continuous_sqrt.tendsto _).comp (hc.mul (h2.sub (h1.pow 2)))).div_const
      (((gens[i]?).map fun g => g.2.1).getD 0)
    rw [one_mul] at this
    exact this) 2
  filter_upwards [key] with ω hω ε hε
  obtain ⟨N, hN⟩ := hω ε hε
  refine ⟨N, fun fuel numEvents s hle hrun i g₀ g hg0 hg => ?_⟩
  obtain ⟨x, hx, hp, h2, hlt⟩ := hN fuel numEvents s hle hrun i g₀ g hg0 hg
  have hp0 := (hgens g₀ (List.mem_of_getElem? hg0)).1
  have hcnt : g.integ.total.count = g.integ.count := count_seen hS hx
  refine ⟨√(c g.integ.count * ((∑ m ∈ Finset.range g.integ.count, x m ^ 2) / g.integ.count -
    ((∑ m ∈ Finset.range g.integ.count, x m) / g.integ.count) ^ 2) / g.integ.count) / g₀.2.1, ?_, ?_⟩
  rotate_left
  · rw [hcnt]
    simp only [scale_of hg0, hg0, Option.map_some, Option.getD_some] at hlt
    convert hlt using 3
    rw [div_mul_eq_mul_div]
    congr 1
    rw [Real.sqrt_div' _ (Nat.cast_nonneg _), div_mul_cancel₀]
    exact (Real.sqrt_pos.2 (by exact_mod_cast (by omega : 0 < g.integ.count))).ne'
  · simp only [report, Integrator.integErr, Accum.total, Integrator.mk', hx.weights, hp]
    rw [hce _ (by simpa using h2), Fl.div_fin _ hp0.ne', List.map_map, sum_range_list]
    simp only [List.length_map, List.length_range, Function.comp_def, sum_range_list]

/-- C99. The acceptance shown (in percent) tends to the probability that a draw is kept. -/
theorem c99_acceptance (hS : Counts S) (hA : Averages S) (hR : RootMeanSquare S)
    (P : Measure Ω) [IsProbabilityMeasure P] (lots : Ω → ℕ → ℕ → Lot K)
    (gens : List (EventType × ℝ × ℝ)) (hgens : ∀ g ∈ gens, 0 < g.2.1 ∧ 0 ≤ g.2.2)
    (μ : ℕ → Measure ℝ) (hμ : ∀ i < gens.length, IsProbabilityMeasure (μ i) ∧
      (∀ᵐ w ∂μ i, 0 ≤ w) ∧ Integrable (fun w => w ^ 2) (μ i))
    (hind : ∀ i < gens.length, Independent P lots i (μ i)) :
    ∀ᵐ ω ∂P, ∀ ε > 0, ∃ N : ℕ, ∀ (fuel : ℕ) (numEvents : ℤ) (s : State S (Engine K) K),
      N ≤ numEvents →
      generate (engine K) fuel (loaded gens) numEvents (fresh (lots ω)) = .done s →
      ∀ (i : ℕ) (g₀ : EventType × ℝ × ℝ) (g : GenTuple S), gens[i]? = some g₀ → s.gens[i]? = some g →
        ∃ a, (report g.integ.total).acceptance = .fin (100 * a) ∧ |a - keptPart (μ i) g₀.2.2| < ε := by
  have key := limit_of_draws hS hA hR P lots gens hgens μ hμ hind
    (fun i x n => (acc x n : ℝ) / n) (fun i => keptPart (μ i) (scales gens i))
    (fun i _ x _ _ h => h) 1
  filter_upwards [key] with ω hω ε hε
  obtain ⟨N, hN⟩ := hω ε hε
  refine ⟨N, fun fuel numEvents s hle hrun i g₀ g hg0 hg => ?_⟩
  obtain ⟨x, hx, -, h2, hlt⟩ := hN fuel numEvents s hle hrun i g₀ g hg0 hg
  have hcnt : g.integ.total.count = g.integ.count := count_seen hS hx
  rw [scale_of hg0] at hlt
  refine ⟨_, ?_, hlt⟩
  have : (g.integ.count : ℝ) ≠ 0 := by exact_mod_cast (by omega : g.integ.count ≠ 0)
  simp only [report, Integrator.acc]
  rw [hcnt, Fl.div_fin _ this, Fl.mul_fin]
  simp only [Accum.total, Integrator.mk', hx.acc]

/-- The efficiency of a relative variance. -/
theorem efficiency_fin {r : ℝ} (h : -1 < r) : efficiency (.fin r) = .fin (1 / √(1 + r)) := by
  have h1 : 0 < 1 + r := by linarith
  have e : CMap.log1p (Fl.fin r) = .fin (Real.log (1 + r)) := by
    show (if r < -1 then Fl.nan else if r = -1 then Fl.ninf else Fl.fin (Real.log (1 + r))) = _
    rw [if_neg (by linarith), if_neg h.ne']
  unfold efficiency
  rw [e, Fl.mul_fin]
  show Fl.fin (Real.exp _) = _
  congr 1
  rw [one_div, Real.sqrt_eq_rpow, ← Real.rpow_neg_one, ← Real.rpow_mul h1.le, Real.rpow_def_of_pos h1]
  congr 1
  ring

theorem kept_pos {μ : Measure ℝ} [IsProbabilityMeasure μ] {s : ℝ} (hs : 0 ≤ s) (h0 : ∀ᵐ w ∂μ, 0 ≤ w)
    (hm : 0 < meanWeight μ) : 0 < keptPart μ s := by
  have hnn : 0 ≤ᵐ[μ] fun w => w / max w s := by
    filter_upwards [h0] with w hw
    exact div_nonneg hw (le_max_of_le_left hw)
  have hint : Integrable (fun w : ℝ => w / max w s) μ := by
    refine (integrable_const (1 : ℝ)).mono' (measurable_id.div
      (measurable_id.max measurable_const)).aestronglyMeasurable ?_
    filter_upwards [h0] with w hw
    rw [Real.norm_eq_abs, abs_of_nonneg (div_nonneg hw (le_max_of_le_left hw))]
    exact div_le_one_of_le₀ (le_max_left _ _) (le_max_of_le_left hw)
  refine lt_of_le_of_ne (integral_nonneg_of_ae hnn) fun h => hm.ne' ?_
  have hz := (integral_eq_zero_iff_of_nonneg_ae hnn hint).1 h.symm
  refine integral_eq_zero_of_ae ?_
  filter_upwards [hz, h0] with w h1 h2
  rcases div_eq_zero_iff.1 (h1 : w / max w s = 0) with h | h
  · exact h
  · exact le_antisymm ((le_max_left w s).trans h.le) h2

theorem square_pos {μ : Measure ℝ} [IsProbabilityMeasure μ] {s : ℝ} (hs : 0 ≤ s) (h0 : ∀ᵐ w ∂μ, 0 ≤ w)
    (h2 : Integrable (fun w => w ^ 2) μ) (hm : 0 < meanWeight μ) : 0 < meanSquare μ s := by
  have hnn : 0 ≤ᵐ[μ] fun w => w * max w s := by
    filter_upwards [h0] with w hw
    exact mul_nonneg hw (le_max_of_le_left hw)
  have hint : Integrable (fun w : ℝ => w * max w s) μ := by
    refine (h2.add ((integrable_of_sq h2).mul_const s)).mono' (by fun_prop) ?_
    filter_upwards [h0] with w hw
    rw [Real.norm_eq_abs, abs_of_nonneg (mul_nonneg hw (le_max_of_le_left hw))]
    simp only [Pi.add_apply]
    rcases max_cases w s with ⟨h, -⟩ | ⟨h, -⟩ <;> rw [h] <;> nlinarith
  refine lt_of_le_of_ne (integral_nonneg_of_ae hnn) fun h => hm.ne' ?_
  have hz := (integral_eq_zero_iff_of_nonneg_ae hnn hint).1 h.symm
  refine integral_eq_zero_of_ae ?_
  filter_upwards [hz, h0] with w h1 h2
  rcases mul_eq_zero.1 (h1 : w * max w s = 0) with h | h
  · exact h
  · exact le_antisymm ((le_max_left w s).trans h.le) h2

open Classical in
/-- C99. The relative variance shown tends to that of the weights of the events that are kept, and the
efficiency (in percent) to their mean divided by their root mean square. -/
theorem c99_efficiency (hS : Counts S) (hA : Averages S) (hR : RootMeanSquare S) (hE : Errors S)
    (P : Measure Ω) [IsProbabilityMeasure P] (lots : Ω → ℕ → ℕ → Lot K)
    (gens : List (EventType × ℝ × ℝ)) (hgens : ∀ g ∈ gens, 0 < g.2.1 ∧ 0 ≤ g.2.2)
    (μ : ℕ → Measure ℝ) (hμ : ∀ i < gens.length, IsProbabilityMeasure (μ i) ∧
      (∀ᵐ w ∂μ i, 0 ≤ w) ∧ Integrable (fun w => w ^ 2) (μ i))
    (hpos : ∀ i < gens.length, 0 < meanWeight (μ i))
    (hind : ∀ i < gens.length, Independent P lots i (μ i)) :
    ∀ᵐ ω ∂P, ∀ ε > 0, ∃ N : ℕ, ∀ (fuel : ℕ) (numEvents : ℤ) (s : State S (Engine K) K),
      N ≤ numEvents →
      generate (engine K) fuel (loaded gens) numEvents (fresh (lots ω)) = .done s →
      ∀ (i : ℕ) (g₀ : EventType × ℝ × ℝ) (g : GenTuple S), gens[i]? = some g₀ → s.gens[i]? = some g →
        let mean := meanWeight (μ i) / keptPart (μ i) g₀.2.2
        let square := meanSquare (μ i) g₀.2.2 / keptPart (μ i) g₀.2.2
        ∃ r e, (report g.integ.total).relVar = .fin r ∧ |r - (square - mean ^ 2) / mean ^ 2| < ε ∧
          (report g.integ.total).efficiency = .fin (100 * e) ∧ |e - mean / √square| < ε := by
  obtain ⟨c, hc, hce⟩ := hE.relVar
  let r : (ℕ → ℝ) → ℕ → ℝ := fun x n => c (acc x n) * ((acc x n : ℝ) / n *
    ((∑ m ∈ Finset.range n, x m ^ 2) / n) / ((∑ m ∈ Finset.range n, x m) / n) ^ 2 - 1)
  let L : ℕ → ℝ := fun i => keptPart (μ i) (scales gens i) * meanSquare (μ i) (scales gens i) /
    meanWeight (μ i) ^ 2 - 1
  let good : (ℕ → ℝ) → ℕ → Prop := fun x n =>
    2 ≤ acc x n ∧ ∑ m ∈ Finset.range n, x m ≠ 0 ∧ -1 < r x n
  -- the sum of the two distances
  have key := limit_of_draws hS hA hR P lots gens hgens μ hμ hind
    (fun i x n => if good x n then |r x n - L i| + |1 / √(1 + r x n) - 1 / √(1 + L i)| else 1)
    (fun i => 0) (by
    intro i hi x h1 h2 h3
    obtain ⟨_, h0, hsq⟩ := hμ i hi
    have hs : 0 ≤ scales gens i := by
      simp only [scales, List.getElem?_eq_getElem hi]
      exact (hgens _ (List.getElem_mem hi)).2
    have k0 := kept_pos hs h0 (hpos i hi)
    have s0 := square_pos hs h0 hsq (hpos i hi)
    have hacc : Tendsto (fun n : ℕ => (acc x n : ℝ)) atTop atTop := by
      have := Filter.Tendsto.pos_mul_atTop k0 h3 tendsto_natCast_atTop_atTop
      refine this.congr' ?_
      filter_upwards [eventually_gt_atTop 0] with n hn
      rw [div_mul_cancel₀]
      exact_mod_cast hn.ne'
    have hacc' : Tendsto (fun n : ℕ => acc x n) atTop atTop := tendsto_natCast_atTop_iff.1 hacc
    have hr : Tendsto (fun n => r x n) atTop (𝓝 (L i)) := by
      have := (hc.comp hacc').mul (((h3.mul h2).div (h1.pow 2) (pow_ne_zero 2 (hpos i hi).ne')).sub
        (tendsto_const_nhds (x := (1 : ℝ))))
      rw [one_mul] at this
      exact this
    have hL : 0 < 1 + L i := by
      simp only [L]
      have := hpos i hi
      have : 0 < keptPart (μ i) (scales gens i) * meanSquare (μ i) (scales gens i) /
        meanWeight (μ i) ^ 2 := by positivity
      linarith
    have he : Tendsto (fun n => 1 / √(1 + r x n)) atTop (𝓝 (1 / √(1 + L i))) :=
      tendsto_const_nhds.div ((Real.continuous_sqrt.tendsto _).comp (hr.const_add 1))
        (Real.sqrt_pos.2 hL).ne'
    have hg : ∀ᶠ n in atTop, good x n := by
      refine (hacc'.eventually_ge_atTop 2).and (Eventually.and ?_ ?_)
      · filter_upwards [h1.eventually_ne (hpos i hi).ne'] with n hn hz
        exact hn (by rw [hz, zero_div])
      · exact hr.eventually (lt_mem_nhds (by linarith : -1 < L i))
    have h := ((hr.sub_const (L i)).abs).add ((he.sub_const (1 / √(1 + L i))).abs)
    rw [sub_self, sub_self, abs_zero, add_zero] at h
    refine h.congr' ?_
    filter_upwards [hg] with n hn
    rw [if_pos hn]) 1
  filter_upwards [key] with ω hω ε hε
  obtain ⟨N, hN⟩ := hω (min ε 1) (lt_min hε one_pos)
  refine ⟨N, fun fuel numEvents s hle hrun i g₀ g hg0 hg => ?_⟩
  obtain ⟨x, hx, hp, h1, hlt⟩ := hN fuel numEvents s hle hrun i g₀ g hg0 hg
  have hi : i < gens.length := by
    by_contra hc
    rw [List.getElem?_eq_none (by omega)] at hg0
    simp at hg0
  obtain ⟨_, h0, hsq⟩ := hμ i hi
  have hs := (hgens g₀ (List.mem_of_getElem? hg0)).2
  have k0 := kept_pos hs h0 (hpos i hi)
  have s0 := square_pos hs h0 hsq (hpos i hi)
  have m0 := hpos i hi
  have hgood : good x g.integ.count := by
    by_contra hb
    rw [if_neg hb, sub_zero, abs_one] at hlt
    exact absurd hlt (not_lt.2 (min_le_right _ _))
  rw [if_pos hgood, sub_zero, abs_of_nonneg (add_nonneg (abs_nonneg _) (abs_nonneg _))] at hlt
  have hlt' := lt_of_lt_of_le hlt (min_le_left _ _)
  obtain ⟨g1, g2, g3⟩ := hgood
  have hrep : (report g.integ.total).relVar = .fin (r x g.integ.count) := by
    simp only [report, Integrator.relVar, Accum.total, Integrator.mk', hx.weights, hx.acc]
    rw [hce _ _ g1 (by rw [sum_range_list]; exact g2), List.map_map, sum_range_list]
    simp only [Function.comp_def, sum_range_list, r]
    congr 3
    have n0 : (g.integ.count : ℝ) ≠ 0 := by exact_mod_cast (by omega : g.integ.count ≠ 0)
    have a0 : (acc x g.integ.count : ℝ) ≠ 0 := by exact_mod_cast (by omega : acc x g.integ.count ≠ 0)
    field_simp
  have eL : L i = meanSquare (μ i) g₀.2.2 / keptPart (μ i) g₀.2.2 /
      (meanWeight (μ i) / keptPart (μ i) g₀.2.2) ^ 2 - 1 := by
    simp only [L, scale_of hg0]
    field_simp
  intro mean square
  have hm : 0 < mean := div_pos m0 k0
  have hq : 0 < square := div_pos s0 k0
  have eL' : L i = square / mean ^ 2 - 1 := eL
  refine ⟨r x g.integ.count, 1 / √(1 + r x g.integ.count), hrep, ?_, ?_, ?_⟩
  · have e : (square - mean ^ 2) / mean ^ 2 = L i := by
      rw [eL', sub_div, div_self (pow_pos hm 2).ne']
    rw [e]
    linarith [abs_nonneg (1 / √(1 + r x g.integ.count) - 1 / √(1 + L i))]
  · have : (report g.integ.total).efficiency = .fin 100 * efficiency (report g.integ.total).relVar := rfl
    rw [this, hrep, efficiency_fin g3, Fl.mul_fin]
  · have e : mean / √square = 1 / √(1 + L i) := by
      rw [eL', add_sub_cancel, Real.sqrt_div' _ (sq_nonneg _), Real.sqrt_sq hm.le, one_div_div]
    rw [e]
    linarith [abs_nonneg (r x g.integ.count - L i)]

/-- C99. The efficiency asked for in the parameters is the one that would be shown: the relative variance
at which the construction of a generator stops is the one shown as that efficiency. -/
theorem c99_target {t : ℝ} (ht : 0 < t) :
    efficiency (CMap.expm1 (.fin (-2) * CMap.log (Fl.fin t))) = .fin t := by
  have e : CMap.log (Fl.fin t) = .fin (Real.log t) := by
    show (if t < 0 then Fl.nan else if t = 0 then Fl.ninf else Fl.fin (Real.log t)) = _
    rw [if_neg ht.le.not_gt, if_neg ht.ne']
  rw [e, Fl.mul_fin]
  show efficiency (Fl.fin (Real.exp (-2 * Real.log t) - 1)) = _
  rw [efficiency_fin (by linarith [Real.exp_pos (-2 * Real.log t)])]
  congr 1
  have : Real.exp (-2 * Real.log t) = (t⁻¹) ^ 2 := by
    rw [show -2 * Real.log t = Real.log t⁻¹ + Real.log t⁻¹ by rw [Real.log_inv]; ring, Real.exp_add,
      Real.exp_log (inv_pos.2 ht), pow_two]
  rw [add_sub_cancel, this, Real.sqrt_sq (inv_pos.2 ht).le, one_div, inv_inv]

theorem recorded_wr (s w u : ℝ) : recorded s w u = wr s w u := by
  unfold recorded wr
  split_ifs with h1 h2 h3
  · rfl
  · rfl
  · exact max_eq_right h3.le
  · exact max_eq_left (not_lt.1 h3)

/-- C99. The uncertainty is that of the cross-section: the mean of `n` recorded weights, divided by the
inverse prime, deviates from the true cross-section by that much (root mean square). -/
theorem c99_spread (P : Measure Ω) [IsProbabilityMeasure P] (lots : Ω → ℕ → ℕ → Lot K) (i : ℕ)
    {μ : Measure ℝ} [IsProbabilityMeasure μ] (h0 : ∀ᵐ w ∂μ, 0 ≤ w)
    (h2 : Integrable (fun w => w ^ 2) μ) (hind : Independent P lots i μ) {s p : ℝ} (hs : 0 ≤ s)
    (hp : 0 < p) {n : ℕ} (hn : 0 < n) :
    √(∫ ω, ((∑ m ∈ Finset.range n, recorded s (lots ω i m).weight (lots ω i m).uniform) / n / p -
      meanWeight μ / p) ^ 2 ∂P) = √(meanSquare μ s - meanWeight μ ^ 2) / p / √n := by
  let X : ℕ → Ω → ℝ := fun m ω => wr s (lots ω i m).weight (lots ω i m).uniform
  have hX : ∀ m, Measurable (X m) := fun m => (measurable_wr s).comp (hind.measurable m)
  have hlaw : ∀ (f : ℝ → ℝ), Measurable f → ∀ m, ∫ ω, f (X m ω) ∂P =
      ∫ q, f (wr s q.1 q.2) ∂(μ.prod (volume.restrict (Set.Ioc (0 : ℝ) 1))) := by
    intro f hf m
    rw [← hind.law m]
    exact (integral_map (hind.measurable m).aemeasurable
      (hf.comp (measurable_wr s)).aestronglyMeasurable).symm
  have hL : ∀ m, MemLp (X m) 2 P := by
    intro m
    refine (memLp_two_iff_integrable_sq (hX m).aestronglyMeasurable).2 ?_
    have := integrable_wr_sq s hs h0 h2
    rw [← hind.law m] at this
    exact this.comp_measurable (hind.measurable m)
  have hmean : ∀ m, ∫ ω, X m ω ∂P = meanWeight μ := by
    intro m
    rw [hlaw (fun x => x) measurable_id m, integral_wr s hs h0 (integrable_of_sq h2)]
    rfl
  have hvar : ∀ m, variance (X m) P = meanSquare μ s - meanWeight μ ^ 2 := by
    intro m
    rw [variance_eq_sub (hL m), hmean m]
    congr 1
    exact (hlaw (fun x => x ^ 2) (by fun_prop) m).trans (integral_wr_sq s hs h0 h2)
  have hsum : variance (∑ m ∈ Finset.range n, X m) P = n * (meanSquare μ s - meanWeight μ ^ 2) := by
    rw [IndepFun.variance_sum (fun m _ => hL m)]
    · simp only [hvar, Finset.sum_const, Finset.card_range, nsmul_eq_mul]
    · intro a _ b _ hab
      exact (hind.indep.indepFun hab).comp (measurable_wr s) (measurable_wr s)
  have hn' : (0 : ℝ) < n := by exact_mod_cast hn
  have hE : ∫ ω, (∑ m ∈ Finset.range n, X m) ω ∂P = n * meanWeight μ := by
    simp only [Finset.sum_apply]
    rw [integral_finset_sum _ fun m _ => (hL m).integrable (by norm_num)]
    simp [hmean]
  have hv := variance_eq_integral (μ := P) (X := ∑ m ∈ Finset.range n, X m)
    (by
      have := Finset.measurable_sum (Finset.range n) fun m _ => hX m
      convert this.aemeasurable using 1
      ext ω; simp)
  rw [hsum, hE] at hv
  have e : ∀ ω, ((∑ m ∈ Finset.range n, recorded s (lots ω i m).weight (lots ω i m).uniform) / n / p -
      meanWeight μ / p) ^ 2 = ((∑ m ∈ Finset.range n, X m) ω - n * meanWeight μ) ^ 2 / (n * p) ^ 2 := by
    intro ω
    simp only [recorded_wr, Finset.sum_apply, X]
    field_simp
  simp only [e]
  rw [integral_div, ← hv, mul_pow, pow_two (n : ℝ), mul_assoc, mul_div_mul_left _ _ hn'.ne',
    Real.sqrt_div' _ (by positivity), Real.sqrt_mul hn'.le, Real.sqrt_sq hp.le, div_div, mul_comm p]

open Classical in
/-- C99. The other numbers shown after weights `ws` have been recorded for a generator of inverse prime
`p`: the number of events is that of the weights other than zero, the prime is that of the generator, the
norm divides the sum of the weights into the cross-section, and the uncertainty of the relative variance
is that of as many weights as there are events. -/
theorem c99_numbers (hS : Counts S) (hA : Averages S) {p : ℝ} (hp : p ≠ 0) (ws : List ℝ) (h0 : ws ≠ []) :
    let R := report ((ws.map Fl.fin).foldl Accum.push (Accum.new (.fin p) : Accum S)).total
    R.count = (ws.filter fun w => w ≠ 0).length ∧ R.prime = .fin (1 / p) ∧
    (∃ N, R.norm = .fin N ∧ N = ws.length * p ∧ R.xs = .fin (ws.sum / N)) ∧
    R.relVarErr = StatsErr.relVarErr (collect (ws.map Fl.fin) : S) (ws.filter fun w => w ≠ 0).length := by
  intro R
  obtain ⟨h1, -, h3, h4⟩ := Lemmas.Generate.foldl_push (S := S) (ws.map Fl.fin) (Accum.new (.fin p))
  have e3 : ((ws.map Fl.fin).filter fun w => ¬ w.eq (.fin 0)).length = (ws.filter fun w => w ≠ 0).length := by
    rw [List.filter_map, List.length_map]
    congr 2
  have hc : ∀ l : List Fl, count (l.foldl StatsLib.push (empty : S)) = l.length := by
    intro l
    induction l using List.reverseRecOn with
    | nil => exact hS.count_empty
    | append_singleton l w ih => rw [List.foldl_append]; simp [hS.count_push, ih]
  have hn : (0 : ℝ) < ws.length := by
    exact_mod_cast List.length_pos_iff.2 h0
  have eR : R = report (Integrator.mk' (.fin p) (ws.filter fun w => w ≠ 0).length
      (collect (ws.map Fl.fin) : S)) := by
    simp only [R, Accum.total]
    rw [h1, h3, h4, e3]
    simp only [Accum.new, zero_add]
    rfl
  have hcc : count (collect (ws.map Fl.fin) : S) = ws.length := by
    rw [collect, hc, List.length_map]
  refine ⟨by rw [eR]; rfl, ?_, ⟨ws.length * p, ?_, rfl, ?_⟩, by rw [eR]; rfl⟩
  · rw [eR]
    exact Fl.div_fin _ hp
  · rw [eR]
    simp only [report, Integrator.norm, Integrator.mk', hcc, Fl.mul_fin]
  · rw [eR]
    simp only [report, Integrator.integ, Integrator.mk', hA.mean ws h0, Fl.div_fin _ hp, div_div]

-- Three draws, one of them of weight zero.
example : let R := report (([2, 0, 3].map Fl.fin).foldl Accum.push
      (Accum.new (.fin 4) : Accum Lemmas.Bag)).total
    R.count = 2 ∧ R.prime = .fin (1 / 4) ∧ R.norm = .fin 12 ∧ R.xs = .fin (5 / 12) := by
  obtain ⟨a, b, ⟨N, c, d, e⟩, -⟩ := c99_numbers (S := Lemmas.Bag) Lemmas.Bag.counts Lemmas.Bag.averages (by norm_num : (4 : ℝ) ≠ 0)
    [2, 0, 3] (by simp)
  refine ⟨by rw [a]; norm_num, b, by rw [c, d]; norm_num, by rw [e, d]; norm_num⟩

theorem foldl_push (p : Fl) (w : ℝ) (hw : w ≠ 0) (n : ℕ) :
    ((List.replicate n (Fl.fin w)).foldl Accum.push (Accum.new p : Accum S)) =
      ⟨p, n, n, collect (((List.replicate n w)).map Fl.fin)⟩ := by
  induction n with
  | zero => rfl
  | succ n ih =>
    rw [List.replicate_succ', List.foldl_append, ih]
    simp only [List.foldl_cons, List.foldl_nil, Accum.push, collect, List.replicate_succ', List.map_append,
      List.foldl_append, List.map_cons, List.map_nil]
    rw [if_pos]
    simpa [Fl.eq] using hw

/-- C100 (refuted). That the uncertainty shown for the combination of two runs is that of
the combined cross-section is not true when the generators have different primes: there are runs of two
such generators without any uncertainty, whose combination shows the same cross-section with one. -/
theorem c100_merged_refuted (hS : Counts S) (hA : Averages S) (hE : Errors S)
    (hadd : ∀ a b : List Fl, add (collect a : S) (collect b) = collect (a ++ b)) :
    ∃ n : ℕ,
      let run (p w : ℝ) : Integrator S :=
        ((List.replicate n (Fl.fin w)).foldl Accum.push (Accum.new (.fin p) : Accum S)).total
      ((report (run 2 2)).xs = .fin 1 ∧ (report (run 2 2)).xsErr = .fin 0) ∧
      ((report (run 1 1)).xs = .fin 1 ∧ (report (run 1 1)).xsErr = .fin 0) ∧
      (report ((run 2 2).add (run 1 1))).xs = .fin 1 ∧
      ∃ e, 0 < e ∧ (report ((run 2 2).add (run 1 1))).xsErr = .fin e := by
  obtain ⟨c, hc, hce⟩ := hE.mean
  obtain ⟨N, hN⟩ := (hc.eventually (lt_mem_nhds (by norm_num : (0 : ℝ) < 1))).exists_forall_of_atTop
  refine ⟨N + 2, ?_⟩
  have hn0 : ((N + 2 : ℕ) : ℝ) ≠ 0 := by positivity
  have hpos : (0 : ℝ) < ((N + 2 : ℕ) : ℝ) := by positivity
  have one : ∀ p w : ℝ, 0 < p → w ≠ 0 → ∀ run : Integrator S,
      run = ((List.replicate (N + 2) (Fl.fin w)).foldl Accum.push (Accum.new (.fin p) : Accum S)).total →
      run = ⟨.fin p, N + 2, N + 2, collect (((List.replicate (N + 2) w)).map Fl.fin)⟩ ∧
      (report run).xs = .fin (w / p) ∧ (report run).xsErr = .fin 0 := by
    rintro p w hp hw run rfl
    rw [foldl_push _ _ hw]
    have e : (Accum.total ⟨.fin p, N + 2, N + 2, collect (((List.replicate (N + 2) w)).map Fl.fin)⟩ :
        Integrator S) = ⟨.fin p, N + 2, N + 2, collect (((List.replicate (N + 2) w)).map Fl.fin)⟩ := by
      simp only [Accum.total, Integrator.mk']
      congr 1
      rw [Lemmas.Generate.count_collect hS]
      simp
    rw [e]
    refine ⟨rfl, ?_, ?_⟩
    · simp only [report, Integrator.integ]
      rw [hA.mean _ (by simp), Fl.div_fin _ hp.ne', List.sum_replicate, List.length_replicate, nsmul_eq_mul,
        mul_div_cancel_left₀ _ hn0]
    · simp only [report, Integrator.integErr]
      rw [hce _ (by simp), Fl.div_fin _ hp.ne', List.map_replicate, List.sum_replicate, List.sum_replicate,
        List.length_replicate, nsmul_eq_mul, nsmul_eq_mul, mul_div_cancel_left₀ _ hn0,
        mul_div_cancel_left₀ _ hn0]
      simp
  intro run
  obtain ⟨e1, a1, b1⟩ := one 2 2 (by norm_num) (by norm_num) (run 2 2) rfl
  obtain ⟨e2, a2, b2⟩ := one 1 1 (by norm_num) (by norm_num) (run 1 1) rfl
  rw [div_self (by norm_num)] at a1 a2
  refine ⟨⟨a1, b1⟩, ⟨a2, b2⟩, ?_⟩
  have em : (run 2 2).add (run 1 1) = (⟨.fin (3 / 2), N + 2 + (N + 2), N + 2 + (N + 2),
      collect ((List.replicate (N + 2) (2 : ℝ) ++ List.replicate (N + 2) (1 : ℝ)).map Fl.fin)⟩ : Integrator S) := by
    rw [e1, e2, Integrator.add]
    simp only [Nat.add_eq_zero_iff, OfNat.ofNat_ne_zero, and_false, if_false]
    rw [hadd, ← List.map_append, Fl.div_fin _ (by positivity)]
    simp only [Fl.sub_fin, Fl.mul_fin, Fl.add_fin]
    congr 2
    push_cast
    field_simp
    ring
  have hl : (List.replicate (N + 2) (2 : ℝ) ++ List.replicate (N + 2) 1).length = N + 2 + (N + 2) := by simp
  have hsum : (List.replicate (N + 2) (2 : ℝ) ++ List.replicate (N + 2) 1).sum =
      3 / 2 * ((N + 2 + (N + 2) : ℕ) : ℝ) := by
    simp [List.sum_append]
    ring
  have hsq : ((List.replicate (N + 2) (2 : ℝ) ++ List.replicate (N + 2) 1).map fun w => w ^ 2).sum =
      5 / 2 * ((N + 2 + (N + 2) : ℕ) : ℝ) := by
    simp [List.sum_append]
    ring
  have hm0 : ((N + 2 + (N + 2) : ℕ) : ℝ) ≠ 0 := by positivity
  rw [em]
  constructor
  · simp only [report, Integrator.integ]
    rw [hA.mean _ (by simp), Fl.div_fin _ (by norm_num), hl, hsum, mul_div_cancel_right₀ _ hm0]
    norm_num
  · simp only [report, Integrator.integErr]
    rw [hce _ (by simp; omega), Fl.div_fin _ (by norm_num), hl, hsum, hsq, mul_div_cancel_right₀ _ hm0,
      mul_div_cancel_right₀ _ hm0]
    refine ⟨_, ?_, rfl⟩
    have := hN (N + 2 + (N + 2)) (by omega)
    refine div_pos (Real.sqrt_pos.2 (div_pos (mul_pos this (by norm_num)) ?_)) (by norm_num)
    positivity

/-- The hypotheses of C99 hold. Of two generators, the first accepts half of its draws, with weight 3,
which at rejection scale 4 leaves three draws out of eight; its inverse prime is 2. -/
example :
    (∀ᵐ ω ∂exP, ∀ ε > 0, ∃ N : ℕ, ∀ (fuel : ℕ) (numEvents : ℤ)
      (s : State Lemmas.Bag (Engine Unit) Unit), N ≤ numEvents →
      generate (engine Unit) fuel (loaded [(.nrad, 2, 4), (.rad, 1, 0)]) numEvents
        (fresh (exLots ω)) = .done s →
      ∀ g₁ g₂, s.gens = [g₁, g₂] →
        (∃ e, (report g₁.integ.total).xsErr = .fin e ∧ |e * √g₁.integ.total.count - √(15 / 4) / 2| < ε) ∧
        (∃ e, (report g₂.integ.total).xsErr = .fin e ∧ |e * √g₂.integ.total.count - √12| < ε)) ∧
    (∀ᵐ ω ∂exP, ∀ ε > 0, ∃ N : ℕ, ∀ (fuel : ℕ) (numEvents : ℤ)
      (s : State Lemmas.Bag (Engine Unit) Unit), N ≤ numEvents →
      generate (engine Unit) fuel (loaded [(.nrad, 2, 4), (.rad, 1, 0)]) numEvents
        (fresh (exLots ω)) = .done s →
      ∀ g₁ g₂, s.gens = [g₁, g₂] →
        (∃ a, (report g₁.integ.total).acceptance = .fin (100 * a) ∧ |a - 3 / 8| < ε) ∧
        (∃ a, (report g₂.integ.total).acceptance = .fin (100 * a) ∧ |a - 1 / 4| < ε)) ∧
    √(∫ ω, ((∑ m ∈ Finset.range 100, recorded 4 (exLots ω 0 m).weight (exLots ω 0 m).uniform) / (100 : ℕ) / 2 -
      3 / 4) ^ 2 ∂exP) = √(15 / 4) / 2 / √(100 : ℕ) := by
  have hnn : ∀ i, ∀ᵐ w ∂exLaw i, 0 ≤ w := by
    intro i
    unfold exLaw
    split_ifs
    · exact coin_nonneg (by norm_num)
    · exact coin_nonneg (by norm_num)
  have hint : ∀ i (f : ℝ → ℝ), Integrable f (exLaw i) := by
    intro i f
    unfold exLaw
    split_ifs <;> exact coin_integrable _ _ _
  have e0 : ∀ f : ℝ → ℝ, ∫ w, f w ∂exLaw 0 = (1 - 1 / 2) * f 0 + 1 / 2 * f 3 := by
    intro f
    unfold exLaw
    rw [if_pos rfl, coin_integral (by norm_num) (by norm_num) f]
  have e1 : ∀ f : ℝ → ℝ, ∫ w, f w ∂exLaw 1 = (1 - 1 / 4) * f 0 + 1 / 4 * f 8 := by
    intro f
    unfold exLaw
    rw [if_neg one_ne_zero, coin_integral (by norm_num) (by norm_num) f]
  have m0 : meanWeight (exLaw 0) = 3 / 2 := by rw [meanWeight, e0 fun w => w]; norm_num
  have m1 : meanWeight (exLaw 1) = 2 := by rw [meanWeight, e1 fun w => w]; norm_num
  have k0 : keptPart (exLaw 0) 4 = 3 / 8 := by rw [keptPart, e0]; norm_num
  have k1 : keptPart (exLaw 1) 0 = 1 / 4 := by rw [keptPart, e1]; norm_num
  have s0 : meanSquare (exLaw 0) 4 = 6 := by rw [meanSquare, e0]; norm_num
  have s1 : meanSquare (exLaw 1) 0 = 16 := by rw [meanSquare, e1]; norm_num
  have hg : ∀ g ∈ [((EventType.nrad, 2, 4) : EventType × ℝ × ℝ), (.rad, 1, 0)],
      0 < g.2.1 ∧ 0 ≤ g.2.2 := by
    intro g hg
    simp only [List.mem_cons, List.not_mem_nil, or_false] at hg
    rcases hg with rfl | rfl <;> norm_num
  refine ⟨?_, ?_, ?_⟩
  · filter_upwards [c99_error Lemmas.Bag.counts Lemmas.Bag.averages Lemmas.Bag.rms Lemmas.Bag.errors exP
      exLots [(.nrad, 2, 4), (.rad, 1, 0)] hg exLaw (fun i _ => ⟨inferInstance, hnn i, hint i _⟩)
      fun i _ => independent_draws exLaw i] with ω h ε hε
    obtain ⟨N, hN⟩ := h ε hε
    refine ⟨N, fun fuel numEvents s hle hrun g₁ g₂ hgs => ?_⟩
    have a := hN fuel numEvents s hle hrun 0 (.nrad, 2, 4) g₁ rfl (by rw [hgs]; rfl)
    have b := hN fuel numEvents s hle hrun 1 (.rad, 1, 0) g₂ rfl (by rw [hgs]; rfl)
    rw [m0, s0] at a
    rw [m1, s1] at b
    norm_num at a b ⊢
    exact ⟨a, b⟩
  · filter_upwards [c99_acceptance Lemmas.Bag.counts Lemmas.Bag.averages Lemmas.Bag.rms exP
      exLots [(.nrad, 2, 4), (.rad, 1, 0)] hg exLaw (fun i _ => ⟨inferInstance, hnn i, hint i _⟩)
      fun i _ => independent_draws exLaw i] with ω h ε hε
    obtain ⟨N, hN⟩ := h ε hε
    refine ⟨N, fun fuel numEvents s hle hrun g₁ g₂ hgs => ?_⟩
    have a := hN fuel numEvents s hle hrun 0 (.nrad, 2, 4) g₁ rfl (by rw [hgs]; rfl)
    have b := hN fuel numEvents s hle hrun 1 (.rad, 1, 0) g₂ rfl (by rw [hgs]; rfl)
    rw [k0] at a
    rw [k1] at b
    exact ⟨a, b⟩
  · have := c99_spread exP exLots 0 (hnn 0) (hint 0 _) (independent_draws exLaw 0) (s := 4) (p := 2)
      (by norm_num) (by norm_num) (n := 100) (by norm_num)
    rw [m0, s0] at this
    norm_num at this ⊢
    exact this

/-- The law of a weight that is equally likely to be anywhere between 0 and 1. -/
noncomputable def evenLaw (_ : ℕ) : Measure ℝ := volume.restrict (Set.Ioc (0 : ℝ) 1)

instance evenLaw_prob (i : ℕ) : IsProbabilityMeasure (evenLaw i) := by
  unfold evenLaw
  exact ⟨by simp⟩

/-- The hypotheses of C99 on the efficiency hold: weights that are equally likely to be anywhere between 0
and 1 are shown with a relative variance near 1/3 and an efficiency near `√3/2`. -/
example : ∃ P : Measure (ℕ × ℕ → ℝ × ℝ), IsProbabilityMeasure P ∧
    ∀ᵐ ω ∂P, ∀ ε > 0, ∃ N : ℕ, ∀ (fuel : ℕ) (numEvents : ℤ)
      (s : State Lemmas.Bag (Engine Unit) Unit), N ≤ numEvents →
      generate (engine Unit) fuel (loaded [(.nrad, 1, 0)]) numEvents (fresh (exLots ω)) = .done s →
      ∀ g, s.gens = [g] →
        ∃ r e, (report g.integ.total).relVar = .fin r ∧ |r - 1 / 3| < ε ∧
          (report g.integ.total).efficiency = .fin (100 * e) ∧ |e - √3 / 2| < ε := by
  have hI : ∀ f : ℝ → ℝ, ∫ w, f w ∂evenLaw 0 = ∫ w in (0 : ℝ)..1, f w := by
    intro f
    rw [intervalIntegral.integral_of_le zero_le_one]
    rfl
  have hcong : ∀ f g : ℝ → ℝ, (∀ w, 0 < w → f w = g w) → ∫ w, f w ∂evenLaw 0 = ∫ w, g w ∂evenLaw 0 := by
    intro f g h
    exact setIntegral_congr_fun measurableSet_Ioc fun w hw => h w hw.1
  have m0 : meanWeight (evenLaw 0) = 1 / 2 := by
    rw [meanWeight, hI fun w => w]
    simp
  have k0 : keptPart (evenLaw 0) 0 = 1 := by
    rw [keptPart, hcong _ (fun _ => 1) fun w hw => by rw [max_eq_left hw.le, div_self hw.ne'], hI]
    simp
  have s0 : meanSquare (evenLaw 0) 0 = 1 / 3 := by
    rw [meanSquare, hcong _ (fun w => w ^ 2) fun w hw => by rw [max_eq_left hw.le, pow_two], hI]
    simp
    norm_num
  have key := c99_efficiency Lemmas.Bag.counts Lemmas.Bag.averages Lemmas.Bag.rms Lemmas.Bag.errors
    (Measure.infinitePi fun q : ℕ × ℕ => (evenLaw q.1).prod (volume.restrict (Set.Ioc (0 : ℝ) 1)))
    exLots [(.nrad, 1, 0)] (by simp) evenLaw (fun i _ => ⟨inferInstance, ?_, ?_⟩) ?_
    fun i _ => independent_draws evenLaw i
  · refine ⟨Measure.infinitePi fun q : ℕ × ℕ => (evenLaw q.1).prod (volume.restrict (Set.Ioc (0 : ℝ) 1)),
      inferInstance, ?_⟩
    filter_upwards [key] with ω h ε hε
    obtain ⟨N, hN⟩ := h ε hε
    refine ⟨N, fun fuel numEvents s hle hrun g hgs => ?_⟩
    have a := hN fuel numEvents s hle hrun 0 (.nrad, 1, 0) g rfl (by rw [hgs]; rfl)
    simp only [m0, k0, s0, div_one] at a
    have h3 : (1 / 2 : ℝ) / √(1 / 3) = √3 / 2 := by
      rw [Real.sqrt_div' _ (by norm_num), Real.sqrt_one]
      field_simp
    rw [h3] at a
    norm_num at a ⊢
    exact a
  · exact (ae_restrict_mem measurableSet_Ioc).mono fun w hw => hw.1.le
  · exact (continuous_pow 2).integrableOn_Ioc
  · intro i hi
    obtain rfl : i = 0 := by simpa using hi
    rw [m0]; norm_num

/-- The hypotheses of the refutation hold for the library that keeps all weights. -/
example : ∃ n : ℕ,
    let run (p w : ℝ) : Integrator Lemmas.Bag :=
      ((List.replicate n (Fl.fin w)).foldl Accum.push (Accum.new (.fin p) : Accum Lemmas.Bag)).total
    (report (run 2 2)).xsErr = .fin 0 ∧ (report (run 1 1)).xsErr = .fin 0 ∧
      ∃ e, 0 < e ∧ (report ((run 2 2).add (run 1 1))).xsErr = .fin e := by
  obtain ⟨n, ⟨-, h1⟩, ⟨-, h2⟩, -, h3⟩ := c100_merged_refuted Lemmas.Bag.counts Lemmas.Bag.averages
    Lemmas.Bag.errors Lemmas.Bag.add_collect
  exact ⟨n, h1, h2, h3⟩

end Sidis.Props
