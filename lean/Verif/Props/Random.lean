import Verif.Lemmas.RandomLaw
import Mathlib.Probability.Independence.InfinitePi

/-! # The reported cross-sections over random histories: C94 -/

namespace Sidis.Props

open Gen StatsLib Spec Lemmas.Random MeasureTheory ProbabilityTheory

variable {S K : Type} [StatsLib S] {Ω : Type} [MeasurableSpace Ω]

/-- The generators of given types, inverse primes and rejection scales. -/
def loaded (gens : List (EventType × ℝ × ℝ)) : List (EventType × Fl × Fl) :=
  gens.map fun g => (g.1, .fin g.2.1, .fin g.2.2)

theorem loaded_spec (gens : List (EventType × ℝ × ℝ)) (i : ℕ) (g : EventType × Fl × Fl)
    (h : (loaded gens)[i]? = some g) : ∃ g0, gens[i]? = some g0 ∧ g = (g0.1, .fin g0.2.1, .fin g0.2.2) := by
  simp only [loaded, List.getElem?_map, Option.map_eq_some_iff] at h
  obtain ⟨g0, h0, rfl⟩ := h
  exact ⟨g0, h0, rfl⟩

/-- The rejection scales as numbers. -/
def scales (gens : List (EventType × ℝ × ℝ)) (i : ℕ) : ℝ := ((gens[i]?).map fun g => g.2.2).getD 0

theorem scaleOf_loaded (gens : List (EventType × ℝ × ℝ)) :
    scaleOf (loaded gens) = fun i => Fl.fin (scales gens i) := by
  funext i
  simp only [scaleOf, scales, loaded, List.getElem?_map]
  cases gens[i]? <;> rfl

/-- C94. The cross-section reported for every type of event tends to the true one as the number of
events grows, with probability one.  The draws from each generator are independent; the weights have
any law `μ i` on the non-negative numbers with finite variance; the generators may use rejection
sampling or not, and which generator is used next is decided by the program from the weights drawn
before.  The true cross-section is the mean weight divided by the inverse prime. -/
theorem c94_converges (hS : Counts S) (hA : Averages S) (hR : RootMeanSquare S)
    (P : Measure Ω) [IsProbabilityMeasure P] (lots : Ω → ℕ → ℕ → Lot K)
    (gens : List (EventType × ℝ × ℝ)) (hgens : ∀ g ∈ gens, 0 < g.2.1 ∧ 0 ≤ g.2.2)
    (μ : ℕ → Measure ℝ) (hμ : ∀ i < gens.length, IsProbabilityMeasure (μ i) ∧
      (∀ᵐ w ∂μ i, 0 ≤ w) ∧ Integrable (fun w => w ^ 2) (μ i))
    (hind : ∀ i < gens.length, Independent P lots i (μ i)) :
    ∀ᵐ ω ∂P, ∀ ε > 0, ∃ N : ℕ, ∀ (fuel : ℕ) (numEvents : ℤ) (s : State S (Engine K) K),
      N ≤ numEvents →
      generate (engine K) fuel (loaded gens) numEvents (fresh (lots ω)) = .done s →
      ∀ (i : ℕ) (g₀ : EventType × ℝ × ℝ) (g : GenTuple S), gens[i]? = some g₀ → s.gens[i]? = some g →
        ∃ σ, g.integ.total.integ = .fin σ ∧ |σ - (∫ w, w ∂μ i) / g₀.2.1| < ε := by
  have h1 : ∀ᵐ ω ∂P, ∀ i : ℕ, i < gens.length →
      Filter.Tendsto (fun n : ℕ => (∑ m ∈ Finset.range n, W (lots ω i) (scales gens i) m) / n)
        Filter.atTop (nhds (∫ w, w ∂μ i)) ∧
      Filter.Tendsto (fun n : ℕ => Real.sqrt (∑ m ∈ Finset.range n,
        W (lots ω i) (scales gens i) m ^ 2) / n) Filter.atTop (nhds 0) := by
    rw [ae_all_iff]
    intro i
    by_cases hi : i < gens.length
    · obtain ⟨_, h0, h2⟩ := hμ i hi
      have hs : 0 ≤ scales gens i := by
        simp only [scales, List.getElem?_eq_getElem hi]
        exact (hgens _ (List.getElem_mem hi)).2
      have hm := averages (hind i hi) (fun q => wr (scales gens i) q.1 q.2) (measurable_wr _)
        (integrable_wr _ hs h0 (integrable_of_sq h2))
      have hm2 := averages (hind i hi) (fun q => wr (scales gens i) q.1 q.2 ^ 2)
        ((measurable_wr _).pow_const 2) (integrable_wr_sq _ hs h0 h2)
      rw [integral_wr _ hs h0 (integrable_of_sq h2)] at hm
      filter_upwards [hm, hm2] with ω ha hb _
      exact ⟨ha, root_small _ _ hb⟩
    · exact Filter.Eventually.of_forall fun ω h => absurd h hi
  filter_upwards [h1] with ω hω ε hε
  have hspec : ∀ (i : ℕ) (g : EventType × Fl × Fl), (loaded gens)[i]? = some g →
      g.2.1 = .fin (((gens[i]?).map fun g => g.2.1).getD 0) ∧
      0 < ((gens[i]?).map fun g => g.2.1).getD 0 ∧ g.2.2 = .fin (scales gens i) := by
    intro i g hg
    obtain ⟨g0, h0, rfl⟩ := loaded_spec gens i g hg
    simp only [h0, scales, Option.map_some, Option.getD_some, true_and, and_true]
    exact (hgens g0 (List.mem_of_getElem? h0)).1
  have hlen : (loaded gens).length = gens.length := by simp [loaded]
  -- enough draws for every generator
  have hM : ∃ M : ℕ, 0 < M ∧ ∀ (i : ℕ) (g₀ : EventType × ℝ × ℝ), gens[i]? = some g₀ → ∀ n : ℕ, M ≤ n →
      |(∑ m ∈ Finset.range n, W (lots ω i) (scales gens i) m) / n / g₀.2.1 -
        (∫ w, w ∂μ i) / g₀.2.1| < ε := by
    have key : ∀ k ≤ gens.length, ∃ M : ℕ, 0 < M ∧ ∀ i < k, ∀ g₀ : EventType × ℝ × ℝ, gens[i]? = some g₀ →
        ∀ n : ℕ, M ≤ n →
        |(∑ m ∈ Finset.range n, W (lots ω i) (scales gens i) m) / n / g₀.2.1 -
          (∫ w, w ∂μ i) / g₀.2.1| < ε := by
      intro k
      induction k with
      | zero => intro _; exact ⟨1, one_pos, by simp⟩
      | succ k ih =>
        intro hk
        obtain ⟨M, hM0, hM⟩ := ih (by omega)
        have hlim := ((hω k (by omega)).1.div_const (gens[k]'(by omega)).2.1)
        obtain ⟨M', hM'⟩ := Metric.tendsto_atTop.mp hlim ε hε
        refine ⟨max M M', by omega, fun i hi g₀ hg n hn => ?_⟩
        rcases Nat.lt_succ_iff_lt_or_eq.mp hi with hi | rfl
        · exact hM i hi g₀ hg n (by omega)
        · rw [List.getElem?_eq_getElem (by omega)] at hg
          simp only [Option.some.injEq] at hg
          subst hg
          exact hM' n (by omega)
    obtain ⟨M, h0, h⟩ := key _ le_rfl
    refine ⟨M, h0, fun i g₀ hg => h i ?_ g₀ hg⟩
    by_contra hh
    rw [List.getElem?_eq_none (by omega)] at hg
    simp at hg
  obtain ⟨M, hM0, hM⟩ := hM
  obtain ⟨N, hN⟩ := counts_grow hS hA hR (loaded gens)
    (fun i => ((gens[i]?).map fun g => g.2.1).getD 0) (scales gens) hspec (by
      intro i hi
      have : gens[i]? = none := by simpa [loaded] using hi
      simp [scales, this]) (lots ω) (fun i hi => (hω i (by omega)).2) M
  refine ⟨N, fun fuel numEvents s hle hrun i g₀ g hg0 hg => ?_⟩
  obtain ⟨-, -, -, -, hdr, hf⟩ := c45_generate (engine K) fuel _ _ _ s hrun
  rw [scaleOf_loaded] at hdr
  have hseen := seen_of hf (scales gens) (lots ω) hdr hg
  have hcount := hN fuel numEvents s hle hrun i g hg
  have hpi : g.integ.primeInv = .fin g₀.2.1 := by
    have e : (loaded gens)[i]? = some (g.evType, g.integ.primeInv, g.rejScale) := by
      rw [← hf.types, List.getElem?_map, hg]; rfl
    obtain ⟨g1, h1, h2⟩ := loaded_spec gens i _ e
    rw [hg0] at h1
    simp only [Option.some.injEq] at h1
    subst h1
    simp only [Prod.mk.injEq] at h2
    exact h2.2.1
  refine ⟨_, report hA hseen (hgens g₀ (List.mem_of_getElem? hg0)).1 hpi (by omega), ?_⟩
  exact hM i g₀ hg0 _ hcount

/-- C94. The runs do come to an end: if the true cross-section of every type is positive, then with
probability one generation ends, however many events are asked for. -/
theorem c94_ends (hS : Counts S) (hR : RootMeanSquare S)
    (P : Measure Ω) [IsProbabilityMeasure P] (lots : Ω → ℕ → ℕ → Lot K)
    (gens : List (EventType × ℝ × ℝ)) (hne : gens ≠ []) (hgens : ∀ g ∈ gens, 0 < g.2.1 ∧ 0 ≤ g.2.2)
    (μ : ℕ → Measure ℝ) (hμ : ∀ i < gens.length, IsProbabilityMeasure (μ i) ∧
      (∀ᵐ w ∂μ i, 0 ≤ w) ∧ Integrable (fun w => w) (μ i) ∧ 0 < ∫ w, w ∂μ i)
    (hind : ∀ i < gens.length, Independent P lots i (μ i)) :
    ∀ᵐ ω ∂P, ∀ numEvents : ℤ, 0 < numEvents → ∃ (fuel : ℕ) (s : State S (Engine K) K),
      generate (engine K) fuel (loaded gens) numEvents (fresh (lots ω)) = .done s := by
  have h1 : ∀ᵐ ω ∂P, ∀ i : ℕ, i < gens.length → ∀ k, ∃ m,
      W (lots ω i) (scales gens i) (k + m) ≠ 0 := by
    rw [ae_all_iff]
    intro i
    by_cases hi : i < gens.length
    · obtain ⟨_, h0, h2, h3⟩ := hμ i hi
      have hs : 0 ≤ scales gens i := by
        simp only [scales, List.getElem?_eq_getElem hi]
        exact (hgens _ (List.getElem_mem hi)).2
      have hm := averages (hind i hi) (fun q => wr (scales gens i) q.1 q.2) (measurable_wr _)
        (integrable_wr _ hs h0 h2)
      rw [integral_wr _ hs h0 h2] at hm
      filter_upwards [hm] with ω ha _
      exact again_of_mean _ _ h3 ha
    · exact Filter.Eventually.of_forall fun ω h => absurd h hi
  filter_upwards [h1] with ω hω numEvents hn
  have hlen : (loaded gens).length = gens.length := by simp [loaded]
  obtain ⟨fuel, h⟩ := loop_ends (S := S) (loaded gens) (scales gens) (scaleOf_loaded gens) (lots ω)
    (fun i hi => hω i (by omega)) numEvents.toNat 0 ⟨load (loaded gens), fresh (lots ω), [], []⟩
    (Lemmas.Generate.load_faithful _ _) rfl
  have hdef := c45_defined hS hR (engine K) fuel (loaded gens) (by simpa [loaded] using hne) (by
    intro g hg
    obtain ⟨g0, h0, rfl⟩ := List.mem_map.mp hg
    exact ⟨g0.2.1, (hgens g0 h0).1, rfl⟩) numEvents (fresh (lots ω))
  unfold generate at hdef ⊢
  simp only [not_le.mpr hn, if_false] at hdef ⊢
  rcases h with h | ⟨s, h⟩
  · exact absurd h hdef
  · exact ⟨fuel, s, h⟩

/-- There are such draws, for all laws of the weights. -/
theorem independent_draws (μ : ℕ → Measure ℝ) [∀ i, IsProbabilityMeasure (μ i)] :
    let P : Measure (ℕ × ℕ → ℝ × ℝ) := Measure.infinitePi fun q =>
      (μ q.1).prod (volume.restrict (Set.Ioc (0 : ℝ) 1))
    ∀ i, Independent P (fun ω i n => (⟨(ω (i, n)).1, (), (ω (i, n)).2⟩ : Lot Unit)) i (μ i) := by
  intro P i
  refine ⟨fun n => ?_, fun n => ?_, ?_⟩
  · exact measurable_pi_apply (i, n)
  · exact (measurePreserving_eval_infinitePi (fun q : ℕ × ℕ =>
      (μ q.1).prod (volume.restrict (Set.Ioc (0 : ℝ) 1))) (i, n)).map_eq
  · have h := iIndepFun_infinitePi (P := fun q : ℕ × ℕ =>
      (μ q.1).prod (volume.restrict (Set.Ioc (0 : ℝ) 1))) (X := fun _ x => x)
      (fun _ => measurable_id)
    exact h.precomp (g := fun n : ℕ => (i, n)) fun a b hab => by simpa using hab

end Sidis.Props
