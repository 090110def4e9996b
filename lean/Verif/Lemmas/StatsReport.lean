import Verif.Spec.StatsReport
import Verif.Props.Random
import Verif.Lemmas.RandomBag
import Mathlib.Probability.Moments.Variance

/-! # Limits of functions of the recorded weights -/

namespace Sidis.Lemmas.Random

open Gen StatsLib Spec Props MeasureTheory ProbabilityTheory Topology

variable {S K : Type} [StatsLib S]

theorem wr_sq (s w u : ℝ) (hw : 0 ≤ w) : wr s w u ^ 2 = max w s * wr s w u := by
  unfold wr
  split_ifs with h1 h2 h3
  · rw [h1, max_eq_left hw, pow_two]
  · simp
  · rw [max_eq_right h3.le, pow_two]
  · rw [max_eq_left (not_lt.1 h3), pow_two]

open Classical in
/-- One for a draw that is kept. -/
noncomputable def keptOne (x : ℝ) : ℝ := if x ≠ 0 then 1 else 0

theorem wr_kept (s w u : ℝ) (hs : 0 ≤ s) (hw : 0 ≤ w) : keptOne (wr s w u) = wr s w u / max w s := by
  unfold keptOne
  by_cases h : wr s w u = 0
  · simp [h]
  · rw [if_pos h]
    have h2 := wr_sq s w u hw
    rw [pow_two] at h2
    have h3 := mul_right_cancel₀ h h2
    rw [← h3, div_self h]

theorem keptOne_sum (x : ℕ → ℝ) (n : ℕ) : ∑ m ∈ Finset.range n, keptOne (x m) = acc x n := by
  classical
  induction n with
  | zero => simp [acc]
  | succ n ih =>
    rw [Finset.sum_range_succ, ih]
    unfold acc keptOne
    rw [List.range_succ, List.filter_append, List.length_append]
    by_cases h : x n = 0 <;> simp [h]

theorem measurable_keptOne : Measurable keptOne := by
  unfold keptOne
  exact Measurable.ite (measurableSet_singleton (0 : ℝ)).compl measurable_const measurable_const

section
variable {μ : Measure ℝ} [IsProbabilityMeasure μ]

theorem integral_wr_sq (s : ℝ) (hs : 0 ≤ s) (h0 : ∀ᵐ w ∂μ, 0 ≤ w)
    (h2 : Integrable (fun w : ℝ => w ^ 2) μ) :
    ∫ q, wr s q.1 q.2 ^ 2 ∂(μ.prod (volume.restrict (Set.Ioc (0 : ℝ) 1))) = meanSquare μ s := by
  rw [integral_prod _ (integrable_wr_sq s hs h0 h2)]
  refine integral_congr_ae ?_
  filter_upwards [h0] with w hw
  simp only [wr_sq s w _ hw]
  rw [integral_const_mul, wr_mean s w hs hw, mul_comm]

theorem integrable_kept (s : ℝ) :
    Integrable (fun q : ℝ × ℝ => keptOne (wr s q.1 q.2))
      (μ.prod (volume.restrict (Set.Ioc (0 : ℝ) 1))) := by
  refine (integrable_const (1 : ℝ)).mono' (measurable_keptOne.comp (measurable_wr s)).aestronglyMeasurable
    (.of_forall fun q => ?_)
  unfold keptOne
  split_ifs <;> simp

theorem integral_kept (s : ℝ) (hs : 0 ≤ s) (h0 : ∀ᵐ w ∂μ, 0 ≤ w) :
    ∫ q, keptOne (wr s q.1 q.2) ∂(μ.prod (volume.restrict (Set.Ioc (0 : ℝ) 1))) = keptPart μ s := by
  rw [integral_prod _ (integrable_kept s)]
  refine integral_congr_ae ?_
  filter_upwards [h0] with w hw
  simp only [wr_kept s w _ hs hw]
  rw [integral_div, wr_mean s w hs hw]

end

/-- A function of the recorded weights that tends to `L i` for the weights of generator `i` comes near to
`L i` when enough events are generated. -/
theorem limit_of_draws {Ω : Type} [MeasurableSpace Ω] (hS : Counts S) (hA : Averages S)
    (hR : RootMeanSquare S) (P : Measure Ω) [IsProbabilityMeasure P] (lots : Ω → ℕ → ℕ → Lot K)
    (gens : List (EventType × ℝ × ℝ)) (hgens : ∀ g ∈ gens, 0 < g.2.1 ∧ 0 ≤ g.2.2)
    (μ : ℕ → Measure ℝ) (hμ : ∀ i < gens.length, IsProbabilityMeasure (μ i) ∧
      (∀ᵐ w ∂μ i, 0 ≤ w) ∧ Integrable (fun w => w ^ 2) (μ i))
    (hind : ∀ i < gens.length, Independent P lots i (μ i))
    (ρ : ℕ → (ℕ → ℝ) → ℕ → ℝ) (L : ℕ → ℝ)
    (hlim : ∀ i < gens.length, ∀ x : ℕ → ℝ,
      Filter.Tendsto (fun n : ℕ => (∑ m ∈ Finset.range n, x m) / n) Filter.atTop
        (𝓝 (meanWeight (μ i))) →
      Filter.Tendsto (fun n : ℕ => (∑ m ∈ Finset.range n, x m ^ 2) / n) Filter.atTop
        (𝓝 (meanSquare (μ i) (scales gens i))) →
      Filter.Tendsto (fun n : ℕ => (acc x n : ℝ) / n) Filter.atTop
        (𝓝 (keptPart (μ i) (scales gens i))) →
      Filter.Tendsto (fun n => ρ i x n) Filter.atTop (𝓝 (L i))) (m : ℕ) :
    ∀ᵐ ω ∂P, ∀ ε > 0, ∃ N : ℕ, ∀ (fuel : ℕ) (numEvents : ℤ) (s : State S (Engine K) K),
      N ≤ numEvents →
      Gen.generate (engine K) fuel (loaded gens) numEvents (fresh (lots ω)) = .done s →
      ∀ (i : ℕ) (g₀ : EventType × ℝ × ℝ) (g : GenTuple S), gens[i]? = some g₀ → s.gens[i]? = some g →
        ∃ x : ℕ → ℝ, Seen g x ∧ g.integ.primeInv = .fin g₀.2.1 ∧ m ≤ g.integ.count ∧
          |ρ i x g.integ.count - L i| < ε := by
  have h1 : ∀ᵐ ω ∂P, ∀ i : ℕ, i < gens.length →
      Filter.Tendsto (fun n => ρ i (W (lots ω i) (scales gens i)) n) Filter.atTop (𝓝 (L i)) ∧
      Filter.Tendsto (fun n : ℕ => Real.sqrt (∑ m ∈ Finset.range n,
        W (lots ω i) (scales gens i) m ^ 2) / n) Filter.atTop (nhds 0) := by
    rw [ae_all_iff]
    intro i
    by_cases hi : i < gens.length
    · obtain ⟨_, h0, h2⟩ := hμ i hi
      have hs : 0 ≤ scales gens i := by
        simp only [scales, List.getElem?_eq_getElem hi]
        exact (hgens _ (List.getElem_mem hi)).2
      have hm := averages (hind i hi) (fun q => wr (scales gens i) q.1 q.2) (measurable_wr _)
        (integrable_wr _ hs h0 (integrable_of_sq h2))
      have hm2 := averages (hind i hi) (fun q => wr (scales gens i) q.1 q.2 ^ 2)
        ((measurable_wr _).pow_const 2) (integrable_wr_sq _ hs h0 h2)
      have hm3 := averages (hind i hi) (fun q => keptOne (wr (scales gens i) q.1 q.2))
        (measurable_keptOne.comp (measurable_wr _)) (integrable_kept _)
      rw [integral_wr _ hs h0 (integrable_of_sq h2)] at hm
      rw [integral_wr_sq _ hs h0 h2] at hm2
      rw [integral_kept _ hs h0] at hm3
      filter_upwards [hm, hm2, hm3] with ω ha hb hc _
      refine ⟨hlim i hi _ ha hb ?_, root_small _ _ hb⟩
      refine hc.congr fun n => ?_
      rw [← keptOne_sum]
      rfl
    · exact Filter.Eventually.of_forall fun ω h => absurd h hi
  filter_upwards [h1] with ω hω ε hε
  have hspec : ∀ (i : ℕ) (g : EventType × Fl × Fl), (loaded gens)[i]? = some g →
      g.2.1 = .fin (((gens[i]?).map fun g => g.2.1).getD 0) ∧
      0 < ((gens[i]?).map fun g => g.2.1).getD 0 ∧ g.2.2 = .fin (scales gens i) := by
    intro i g hg
    obtain ⟨g0, h0, rfl⟩ := loaded_spec gens i g hg
    simp only [h0, scales, Option.map_some, Option.getD_some, true_and, and_true]
    exact (hgens g0 (List.mem_of_getElem? h0)).1
  have hlen : (loaded gens).length = gens.length := by simp [loaded]
  have hM : ∃ M : ℕ, m ≤ M ∧ ∀ i < gens.length, ∀ n : ℕ, M ≤ n →
      |ρ i (W (lots ω i) (scales gens i)) n - L i| < ε := by
    have key : ∀ k ≤ gens.length, ∃ M : ℕ, m ≤ M ∧ ∀ i < k, ∀ n : ℕ, M ≤ n →
        |ρ i (W (lots ω i) (scales gens i)) n - L i| < ε := by
      intro k
      induction k with
      | zero => intro _; exact ⟨m, le_rfl, by simp⟩
      | succ k ih =>
        intro hk
        obtain ⟨M, hM0, hM⟩ := ih (by omega)
        obtain ⟨M', hM'⟩ := Metric.tendsto_atTop.mp (hω k (by omega)).1 ε hε
        refine ⟨max M M', by omega, fun i hi n hn => ?_⟩
        rcases Nat.lt_succ_iff_lt_or_eq.mp hi with hi | rfl
        · exact hM i hi n (by omega)
        · exact hM' n (by omega)
    exact key _ le_rfl
  obtain ⟨M, hM0, hM⟩ := hM
  obtain ⟨N, hN⟩ := counts_grow hS hA hR (loaded gens)
    (fun i => ((gens[i]?).map fun g => g.2.1).getD 0) (scales gens) hspec (by
      intro i hi
      have : gens[i]? = none := by simpa [loaded] using hi
      simp [scales, this]) (lots ω) (fun i hi => (hω i (by omega)).2) M
  refine ⟨N, fun fuel numEvents s hle hrun i g₀ g hg0 hg => ?_⟩
  obtain ⟨-, -, -, -, hdr, hf⟩ := c45_generate (engine K) fuel _ _ _ s hrun
  rw [scaleOf_loaded] at hdr
  have hseen := seen_of hf (scales gens) (lots ω) hdr hg
  have hcount := hN fuel numEvents s hle hrun i g hg
  have hpi : g.integ.primeInv = .fin g₀.2.1 := by
    have e : (loaded gens)[i]? = some (g.evType, g.integ.primeInv, g.rejScale) := by
      rw [← hf.types, List.getElem?_map, hg]; rfl
    obtain ⟨g1, h1, h2⟩ := loaded_spec gens i _ e
    rw [hg0] at h1
    simp only [Option.some.injEq] at h1
    subst h1
    simp only [Prod.mk.injEq] at h2
    exact h2.2.1
  have hi : i < gens.length := by
    by_contra hc
    rw [List.getElem?_eq_none (by omega)] at hg0
    simp at hg0
  exact ⟨_, hseen, hpi, by omega, hM i hi _ hcount⟩

end Sidis.Lemmas.Random

/-! ## Error estimates of the library that keeps all weights (used in examples only) -/

namespace Sidis.Lemmas.Bag

open Gen StatsLib Spec Filter Topology

/-- The sum of the squares of the weights. -/
noncomputable def squares (b : Bag) : ℝ := (b.val.map fun w => num w ^ 2).sum

noncomputable instance : StatsErr Bag where
  meanErr a := .fin √((a.squares / Multiset.card a.val - (a.sum / Multiset.card a.val) ^ 2) /
    Multiset.card a.val)
  relVar a n := .fin (a.squares / n / (a.sum / n) ^ 2 - 1)
  relVarErr _ _ := .fin 0

theorem errors : Errors Bag where
  mean := by
    refine ⟨fun _ => 1, tendsto_const_nhds, fun ws _ => ?_⟩
    simp only [StatsErr.meanErr, squares, sum]
    rw [collect_val]
    simp [Function.comp_def, num]
  relVar := by
    refine ⟨fun _ => 1, tendsto_const_nhds, fun ws n _ _ => ?_⟩
    simp only [StatsErr.relVar, squares, sum]
    rw [collect_val]
    simp [Function.comp_def, num]

theorem add_collect (a b : List Fl) : add (collect a : Bag) (collect b) = collect (a ++ b) := by
  show ((collect a : Bag).val + (collect b : Bag).val : Multiset Fl) = (collect (a ++ b) : Bag).val
  simp [collect_val]

end Sidis.Lemmas.Bag
