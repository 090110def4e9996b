import Verif.Props.Random
import Verif.Lemmas.RandomBias
import Verif.Lemmas.RandomBag

/-! # The reported cross-section is biased: C95, and examples for C94 -/

namespace Sidis.Props

open Gen StatsLib Spec Lemmas.Random MeasureTheory ProbabilityTheory

variable {S K : Type} [StatsLib S] {Ω : Type} [MeasurableSpace Ω]

/-- The law of a weight which is `w` with probability `a` and zero otherwise. -/
noncomputable def coin (a w : ℝ) : Measure ℝ :=
  ENNReal.ofReal (1 - a) • Measure.dirac 0 + ENNReal.ofReal a • Measure.dirac w

theorem coin_prob {a w : ℝ} (h0 : 0 ≤ a) (h1 : a ≤ 1) : IsProbabilityMeasure (coin a w) := by
  refine ⟨?_⟩
  simp only [coin, Measure.coe_add, Measure.coe_smul, Pi.add_apply, Pi.smul_apply, measure_univ,
    smul_eq_mul, mul_one]
  rw [← ENNReal.ofReal_add (by linarith) h0]
  simp

theorem coin_integrable (a w : ℝ) (f : ℝ → ℝ) : Integrable f (coin a w) :=
  ((integrable_dirac (by simp)).smul_measure ENNReal.ofReal_ne_top).add_measure
    ((integrable_dirac (by simp)).smul_measure ENNReal.ofReal_ne_top)

theorem coin_integral {a w : ℝ} (h0 : 0 ≤ a) (h1 : a ≤ 1) (f : ℝ → ℝ) :
    ∫ v, f v ∂coin a w = (1 - a) * f 0 + a * f w := by
  unfold coin
  rw [integral_add_measure ((integrable_dirac (by simp)).smul_measure ENNReal.ofReal_ne_top)
    ((integrable_dirac (by simp)).smul_measure ENNReal.ofReal_ne_top), integral_smul_measure,
    integral_smul_measure, integral_dirac, integral_dirac, ENNReal.toReal_ofReal (by linarith),
    ENNReal.toReal_ofReal h0]
  rfl

theorem coin_nonneg {a w : ℝ} (hw : 0 ≤ w) : ∀ᵐ v ∂coin a w, 0 ≤ v := by
  unfold coin
  rw [ae_add_measure_iff]
  refine ⟨Measure.ae_smul_measure ?_ _, Measure.ae_smul_measure ?_ _⟩
  · rw [ae_dirac_iff measurableSet_Ici]
  · rw [ae_dirac_iff measurableSet_Ici]; exact hw

/-- C95 (refuted). The reported cross-section is not an unbiased estimate of the true one.  Take a
single generator which gives events of one and the same weight and rejects a fraction of its draws,
as a generator with rejection sampling does.  Then for every number of events asked for, the reported
cross-section is too large on average, because the run always stops at an accepted event.
`rep` is what is reported, as a function of the random history. -/
theorem c95_unbiased_refuted (hS : Counts S) (hA : Averages S) (hR : RootMeanSquare S)
    (P : Measure Ω) [IsProbabilityMeasure P] (lots : Ω → ℕ → ℕ → Lot K) (t : EventType)
    (a w p : ℝ) (ha0 : 0 < a) (ha1 : a < 1) (hw : 0 < w) (hp : 0 < p)
    (hind : Independent P lots 0 (coin a w)) (N : ℕ) (hN : 0 < N) (rep : Ω → ℝ)
    (hrep : ∀ (ω : Ω) (fuel : ℕ) (s : State S (Engine K) K) (g : GenTuple S),
      generate (engine K) fuel (loaded [(t, p, 0)]) N (fresh (lots ω)) = .done s →
      s.gens = [g] → g.integ.total.integ = .fin (rep ω)) :
    (∫ v, v ∂coin a w) / p < ∫ ω, rep ω ∂P := by
  have := coin_prob ha0.le ha1.le (w := w)
  have hmu := coin_integral ha0.le ha1.le (w := w) fun v => v
  have hends := c94_ends (S := S) hS hR P lots [(t, p, 0)] (by simp) (by simp [hp])
    (fun _ => coin a w) (fun i _ => ⟨this, coin_nonneg hw.le, coin_integrable a w _, by
      rw [hmu]; simp; positivity⟩) (fun i hi => by
        have : i = 0 := by simpa using hi
        subst this; exact hind)
  -- the weights
  set x : Ω → ℕ → ℝ := fun ω n => (lots ω 0 n).weight with hx
  have hmeas : ∀ n, Measurable fun ω => x ω n := fun n => measurable_fst.comp (hind.measurable n)
  have hindep : iIndepFun (fun n ω => x ω n) P :=
    hind.indep.comp (fun _ => Prod.fst) fun _ => measurable_fst
  have hlaw : ∀ n, P.map (fun ω => x ω n) = coin a w := by
    intro n
    have h1 := congrArg (Measure.map Prod.fst) (hind.law n)
    rw [Measure.map_map measurable_fst (hind.measurable n)] at h1
    rw [show (fun ω => x ω n) = Prod.fst ∘ fun ω => ((lots ω 0 n).weight, (lots ω 0 n).uniform)
      from rfl, h1]
    exact Measure.map_fst_prod.trans (by simp)
  have hP : ∀ n, P {ω | x ω n ≠ 0} = ENNReal.ofReal a := by
    intro n
    have h1 : P {ω | x ω n ≠ 0} = P.map (fun ω => x ω n) {0}ᶜ := by
      rw [Measure.map_apply (hmeas n) (measurableSet_singleton 0).compl]; rfl
    rw [h1, hlaw, coin]
    simp [hw.ne']
  have hval : ∀ᵐ ω ∂P, ∀ n, x ω n = 0 ∨ x ω n = w := by
    rw [ae_all_iff]
    intro n
    have h1 : ∀ᵐ v ∂P.map (fun ω => x ω n), v = 0 ∨ v = w := by
      rw [hlaw, coin, ae_add_measure_iff]
      have hms : MeasurableSet {v : ℝ | v = 0 ∨ v = w} :=
        (measurableSet_singleton 0).union (measurableSet_singleton w)
      refine ⟨Measure.ae_smul_measure ?_ _, Measure.ae_smul_measure ?_ _⟩
      · rw [ae_dirac_iff hms]; exact Or.inl rfl
      · rw [ae_dirac_iff hms]; exact Or.inr rfl
    exact ae_of_ae_map (hmeas n).aemeasurable h1
  have hW : ∀ ω, W (lots ω 0) 0 = x ω := fun ω => by funext n; simp [W, wr, hx]
  have heq : ∀ᵐ ω ∂P, rep ω = w / p * (N / (duration x N ω).toReal) := by
    filter_upwards [hends, hval] with ω he hv
    obtain ⟨fuel, s, hrun⟩ := he N (by exact_mod_cast hN)
    obtain ⟨g, hg, hpi, hseen, hpos, hacc, hiff⟩ := single_run t p 0 (lots ω) fuel N hN s hrun
    rw [hW] at hseen hacc hiff
    have h1 := hrep ω fuel s g hrun hg
    rw [report hA hseen hp hpi hpos, Fl.fin.injEq] at h1
    have hsum : ∀ n, ∑ m ∈ Finset.range n, x ω m = w * acc (x ω) n := by
      intro n
      induction n with
      | zero => simp [acc]
      | succ n ih =>
        rw [Finset.sum_range_succ, ih, acc_succ]
        rcases hv n with h0 | h0
        · simp [h0]
        · simp [h0, hw.ne']; ring
    rw [← h1, hsum, hacc, duration_eq N _ ω hiff]
    simp
    ring
  rw [integral_congr_ae heq, integral_const_mul, hmu]
  have hmain := fraction_mean hmeas hindep ha0 ha1 hP N hN
  have h2 : (1 - a) * 0 + a * w = w * a := by ring
  rw [h2, mul_div_right_comm]
  exact mul_lt_mul_of_pos_left hmain (by positivity)

/-- What is reported is a function of the random history: it does not depend on the number of rounds
one is willing to wait. -/
theorem reported (hA : Averages S) (lots : Ω → ℕ → ℕ → Lot K) (t : EventType) (p : ℝ) (hp : 0 < p)
    (N : ℕ) (hN : 0 < N) : ∃ rep : Ω → ℝ, ∀ (ω : Ω) (fuel : ℕ) (s : State S (Engine K) K)
      (g : GenTuple S), generate (engine K) fuel (loaded [(t, p, 0)]) N (fresh (lots ω)) = .done s →
      s.gens = [g] → g.integ.total.integ = .fin (rep ω) := by
  refine ⟨fun ω => (∑ m ∈ Finset.range ⌊(duration (fun ω => W (lots ω 0) 0) N ω).toReal⌋₊,
    W (lots ω 0) 0 m) / ⌊(duration (fun ω => W (lots ω 0) 0) N ω).toReal⌋₊ / p,
    fun ω fuel s g hrun hg => ?_⟩
  obtain ⟨g', hg', hpi, hseen, hpos, hacc, hiff⟩ := single_run t p 0 (lots ω) fuel N hN s hrun
  obtain rfl : g = g' := by rw [hg] at hg'; simpa using hg'
  rw [report hA hseen hp hpi hpos]
  have : ⌊(duration (fun ω => W (lots ω 0) 0) N ω).toReal⌋₊ = g.integ.count := by
    rw [duration_eq (x := fun ω => W (lots ω 0) 0) N g.integ.count ω hiff]
    simp
  simp only [this]

/-! Two generators: the first accepts half of its draws, with weight 3, and has inverse prime 2 and
rejection scale 4; the second accepts a quarter of its draws, with weight 8. -/

/-- The laws of the weights. -/
noncomputable def exLaw (i : ℕ) : Measure ℝ := if i = 0 then coin (1 / 2) 3 else coin (1 / 4) 8

instance exLaw_prob (i : ℕ) : IsProbabilityMeasure (exLaw i) := by
  unfold exLaw
  split_ifs
  · exact coin_prob (by norm_num) (by norm_num)
  · exact coin_prob (by norm_num) (by norm_num)

/-- The random histories. -/
noncomputable def exP : Measure (ℕ × ℕ → ℝ × ℝ) := Measure.infinitePi fun q =>
  (exLaw q.1).prod (volume.restrict (Set.Ioc (0 : ℝ) 1))

instance : IsProbabilityMeasure exP := by unfold exP; infer_instance

/-- The draws. -/
def exLots (ω : ℕ × ℕ → ℝ × ℝ) (i n : ℕ) : Lot Unit := ⟨(ω (i, n)).1, (), (ω (i, n)).2⟩

/-- The hypotheses of C94 hold: with probability one the run ends, and the two cross-sections come
as near as one likes to 3/4 and 2. -/
example : (∀ᵐ ω ∂exP, ∀ numEvents : ℤ, 0 < numEvents →
      ∃ (fuel : ℕ) (s : State Lemmas.Bag (Engine Unit) Unit),
      generate (engine Unit) fuel (loaded [(.nrad, 2, 4), (.rad, 1, 0)]) numEvents
        (fresh (exLots ω)) = .done s) ∧
    ∀ᵐ ω ∂exP, ∀ ε > 0, ∃ N : ℕ, ∀ (fuel : ℕ) (numEvents : ℤ)
      (s : State Lemmas.Bag (Engine Unit) Unit), N ≤ numEvents →
      generate (engine Unit) fuel (loaded [(.nrad, 2, 4), (.rad, 1, 0)]) numEvents
        (fresh (exLots ω)) = .done s →
      ∀ g₁ g₂, s.gens = [g₁, g₂] →
        (∃ σ, g₁.integ.total.integ = .fin σ ∧ |σ - 3 / 4| < ε) ∧
        ∃ σ, g₂.integ.total.integ = .fin σ ∧ |σ - 2| < ε := by
  have hnn : ∀ i, ∀ᵐ w ∂exLaw i, 0 ≤ w := by
    intro i
    unfold exLaw
    split_ifs
    · exact coin_nonneg (by norm_num)
    · exact coin_nonneg (by norm_num)
  have hint : ∀ i (f : ℝ → ℝ), Integrable f (exLaw i) := by
    intro i f
    unfold exLaw
    split_ifs <;> exact coin_integrable _ _ _
  have e0 : ∫ w, w ∂exLaw 0 = 3 / 2 := by
    unfold exLaw
    rw [if_pos rfl, coin_integral (by norm_num) (by norm_num) fun v => v]
    norm_num
  have e1 : ∀ i, i ≠ 0 → ∫ w, w ∂exLaw i = 2 := by
    intro i hi
    unfold exLaw
    rw [if_neg hi, coin_integral (by norm_num) (by norm_num) fun v => v]
    norm_num
  have hg : ∀ g ∈ [((EventType.nrad, 2, 4) : EventType × ℝ × ℝ), (.rad, 1, 0)],
      0 < g.2.1 ∧ 0 ≤ g.2.2 := by
    intro g hg
    simp only [List.mem_cons, List.not_mem_nil, or_false] at hg
    rcases hg with rfl | rfl <;> norm_num
  constructor
  · refine c94_ends Lemmas.Bag.counts Lemmas.Bag.rms exP exLots _ (by simp) hg exLaw
      (fun i _ => ⟨inferInstance, hnn i, hint i _, ?_⟩) fun i _ => independent_draws exLaw i
    by_cases hi : i = 0
    · subst hi; rw [e0]; norm_num
    · rw [e1 i hi]; norm_num
  · filter_upwards [c94_converges Lemmas.Bag.counts Lemmas.Bag.averages Lemmas.Bag.rms exP exLots
      [(.nrad, 2, 4), (.rad, 1, 0)] hg exLaw (fun i _ => ⟨inferInstance, hnn i, hint i _⟩)
      fun i _ => independent_draws exLaw i] with ω h ε hε
    obtain ⟨N, hN⟩ := h ε hε
    refine ⟨N, fun fuel numEvents s hle hrun g₁ g₂ hgs => ?_⟩
    have a := hN fuel numEvents s hle hrun 0 (.nrad, 2, 4) g₁ rfl (by rw [hgs]; rfl)
    have b := hN fuel numEvents s hle hrun 1 (.rad, 1, 0) g₂ rfl (by rw [hgs]; rfl)
    rw [e0] at a
    rw [e1 1 one_ne_zero] at b
    norm_num at a b
    exact ⟨a, b⟩

/-- The hypotheses of C95 hold: when half of the draws are accepted with weight 3 and five events
are asked for, the reported cross-section is larger than 3/2 on average. -/
example : ∃ rep : (ℕ × ℕ → ℝ × ℝ) → ℝ,
    (∀ ω (fuel : ℕ) (s : State Lemmas.Bag (Engine Unit) Unit) (g : GenTuple Lemmas.Bag),
      generate (engine Unit) fuel (loaded [(.nrad, 1, 0)]) (5 : ℕ) (fresh (exLots ω)) = .done s →
      s.gens = [g] → g.integ.total.integ = .fin (rep ω)) ∧
    3 / 2 < ∫ ω, rep ω ∂exP := by
  obtain ⟨rep, hrep⟩ := reported (S := Lemmas.Bag) Lemmas.Bag.averages exLots .nrad 1 one_pos 5
    (by norm_num)
  refine ⟨rep, hrep, ?_⟩
  have hind : Independent exP exLots 0 (coin (1 / 2) 3) := by
    have := independent_draws exLaw 0
    rwa [show exLaw 0 = coin (1 / 2) 3 from if_pos rfl] at this
  have := c95_unbiased_refuted Lemmas.Bag.counts Lemmas.Bag.averages Lemmas.Bag.rms exP exLots .nrad
    (1 / 2) 3 1 (by norm_num) (by norm_num) (by norm_num) one_pos hind 5 (by norm_num) rep hrep
  rw [coin_integral (by norm_num) (by norm_num) fun v => v] at this
  norm_num at this
  exact this

end Sidis.Props
