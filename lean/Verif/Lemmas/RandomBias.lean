import Verif.Lemmas.RandomLaw

/-! # How long a run takes until the last event is accepted -/

namespace Sidis.Lemmas.Random

open Gen StatsLib Spec Lemmas.Generate Props MeasureTheory ProbabilityTheory

variable {S R K : Type} [StatsLib S]

theorem drawLoop_last (src : Source R K) (i : ℕ) (sc : Fl) (fuel : ℕ) : ∀ (a : Accum S) (r : R)
    (e : Fl × K) (a' : Accum S) (r' : R) (ds : List (Draw K)),
    drawLoop src i sc fuel a r = some (e, a', r', ds) →
    ∃ ds' d, ds = ds' ++ [d] ∧ ¬ d.weight.eq (.fin 0) := by
  induction fuel with
  | zero => intro a r e a' r' ds h; simp [drawLoop] at h
  | succ n ih =>
    intro a r e a' r' ds h
    rw [drawLoop] at h
    simp only at h
    split_ifs at h with h0
    · split at h
      · simp at h
      · rename_i e1 a1 r1 ds1 hd
        simp only [Option.some.injEq, Prod.mk.injEq] at h
        obtain ⟨ds', d, rfl, hd'⟩ := ih _ _ _ _ _ _ hd
        exact ⟨_ :: ds', d, by rw [← h.2.2.2]; rfl, hd'⟩
    · simp only [Option.some.injEq, Prod.mk.injEq] at h
      exact ⟨[], _, h.2.2.2.symm, h0⟩

/-- The last draw of a run is the last event. -/
theorem generate_last (src : Source R K) (fuel : ℕ) (gens : List (EventType × Fl × Fl))
    (numEvents : ℤ) (rnd : R) (s : State S R K)
    (h : Gen.generate src fuel gens numEvents rnd = .done s) :
    ∃ ds d, s.draws = ds ++ [d] ∧ ¬ d.weight.eq (.fin 0) := by
  unfold Gen.generate at h
  split_ifs at h with hn
  have := loop_invariant src fuel
    (fun (n : ℕ) (s : State S R K) => n = 0 ∨ ∃ ds d, s.draws = ds ++ [d] ∧ ¬ d.weight.eq (.fin 0))
    (fun n s s' _ hst => by
      right
      unfold eventStep at hst
      split at hst
      · simp at hst
      · split at hst
        · simp at hst
        · split at hst
          · simp at hst
          · rename_i e integ rnd ds hd
            simp only [Out.done.injEq] at hst
            obtain ⟨ds', d, rfl, hd'⟩ := drawLoop_last _ _ _ _ _ _ _ _ _ _ hd
            exact ⟨s.draws ++ ds', d, by rw [← hst]; simp, hd'⟩)
    _ _ _ _ (Or.inl rfl) h
  rcases this with h0 | h0
  · omega
  · exact h0

theorem acc_succ (x : ℕ → ℝ) (n : ℕ) : acc x (n + 1) = acc x n + if x n ≠ 0 then 1 else 0 := by
  classical
  unfold acc
  rw [List.range_succ, List.filter_append, List.length_append]
  congr 1
  by_cases h : x n = 0 <;> simp [h]

theorem acc_mono (x : ℕ → ℝ) : Monotone (acc x) :=
  monotone_nat_of_le_succ fun n => by rw [acc_succ]; omega

/-- A run with one generator ends at the draw that is the last event. -/
theorem single_run (t : EventType) (p sc : ℝ) (lots : ℕ → ℕ → Lot K) (fuel N : ℕ) (hN : 0 < N)
    (s : State S (Engine K) K)
    (h : Gen.generate (engine K) fuel [(t, .fin p, .fin sc)] N (fresh lots) = .done s) :
    ∃ g, s.gens = [g] ∧ g.integ.primeInv = .fin p ∧ Seen g (W (lots 0) sc) ∧
      0 < g.integ.count ∧ acc (W (lots 0) sc) g.integ.count = N ∧
      ∀ n, n < g.integ.count ↔ acc (W (lots 0) sc) n < N := by
  obtain ⟨-, -, h3, h4, hdr, hf⟩ := c45_generate (engine K) fuel _ _ _ s h
  obtain ⟨ds, d, hds, hd⟩ := generate_last (engine K) fuel _ _ _ s h
  have hlen : s.gens.length = 1 := by simpa using congrArg List.length hf.types
  obtain ⟨g, hg⟩ := List.length_eq_one_iff.mp hlen
  have hty := hf.types
  rw [hg] at hty h3 h4
  simp only [List.map_cons, List.map_nil, List.cons.injEq, Prod.mk.injEq, and_true] at hty
  have hg0 : s.gens[0]? = some g := by rw [hg]; rfl
  have hw := drawn_weights (fun i => if i = 0 then sc else 0) s.draws (fresh lots) s.rnd (by
    have : scaleOf [(t, Fl.fin p, Fl.fin sc)] = fun i => Fl.fin (if i = 0 then sc else 0) := by
      funext i; cases i <;> rfl
    rwa [this] at hdr) 0
  have hseen : Seen g (W (lots 0) sc) := by
    have := seen_of hf (fun i => if i = 0 then sc else 0) lots (by
      have : scaleOf [(t, Fl.fin p, Fl.fin sc)] = fun i => Fl.fin (if i = 0 then sc else 0) := by
        funext i; cases i <;> rfl
      rwa [this] at hdr) hg0
    simpa using this
  have hgen : ∀ d ∈ s.draws, d.gen = 0 := fun d hd => by
    have := hf.range d hd
    simpa using this
  have hall : (s.draws.filter fun d => d.gen = 0) = s.draws :=
    List.filter_eq_self.mpr fun d hd => by simpa using hgen d hd
  have hcount : g.integ.count = s.draws.length := by simpa using h4
  have hacc : acc (W (lots 0) sc) g.integ.count = N := by
    rw [← hseen.acc]
    simpa using h3
  have hpos : 0 < g.integ.count := by rw [hcount, hds]; simp
  refine ⟨g, hg, hty.2.1, hseen, hpos, hacc, fun n => ?_⟩
  -- the last draw is an event
  have hlast : W (lots 0) sc (g.integ.count - 1) ≠ 0 := by
    rw [hall] at hw
    unfold weightsOf at hw
    rw [hall] at hw
    have h1 : (s.draws.map Draw.weight)[g.integ.count - 1]? = some d.weight := by
      rw [hcount, hds]
      simp
    rw [hw] at h1
    have hlt : g.integ.count - 1 < s.draws.length := by omega
    simp only [List.getElem?_map, List.getElem?_range hlt, Option.map_some, Option.some.injEq,
      fresh, zero_add, if_true] at h1
    intro h0
    rw [h0] at h1
    rw [← h1] at hd
    exact hd rfl
  constructor
  · intro hn
    have h1 := acc_mono (W (lots 0) sc) (show n ≤ g.integ.count - 1 by omega)
    have h2 := acc_succ (W (lots 0) sc) (g.integ.count - 1)
    rw [Nat.sub_add_cancel hpos, hacc, if_pos hlast] at h2
    omega
  · intro hn
    by_contra hh
    have := acc_mono (W (lots 0) sc) (not_lt.mp hh)
    omega

section
variable {Ω : Type} [MeasurableSpace Ω] {P : Measure Ω} [IsProbabilityMeasure P]
  {x : Ω → ℕ → ℝ} {a : ℝ}

open Classical in
/-- Is draw `n` an event? -/
noncomputable def hit (x : Ω → ℕ → ℝ) (n : ℕ) (ω : Ω) : ℝ := if x ω n ≠ 0 then 1 else 0

theorem acc_hits (ω : Ω) (n : ℕ) : (acc (x ω) n : ℝ) = (∑ m ∈ Finset.range n, hit x m) ω := by
  induction n with
  | zero => simp [acc]
  | succ n ih =>
    rw [acc_succ, Finset.sum_range_succ, Pi.add_apply, ← ih]
    unfold hit
    split_ifs <;> simp

theorem measurable_hit (hx : ∀ n, Measurable fun ω => x ω n) (n : ℕ) : Measurable (hit x n) := by
  unfold hit
  refine Measurable.ite ?_ measurable_const measurable_const
  exact (hx n) (measurableSet_singleton 0).compl

/-- Fewer than `N` events in the first `n` draws. -/
def short (x : Ω → ℕ → ℝ) (N n : ℕ) : Set Ω := {ω | acc (x ω) n < N}

theorem short_eq (N n : ℕ) : short x N n = (∑ m ∈ Finset.range n, hit x m) ⁻¹' Set.Iio (N : ℝ) := by
  ext ω
  simp only [short, Set.mem_setOf_eq, Set.mem_preimage, Set.mem_Iio, ← acc_hits, Nat.cast_lt]

theorem measurable_short (hx : ∀ n, Measurable fun ω => x ω n) (N n : ℕ) :
    MeasurableSet (short x N n) := by
  rw [short_eq]
  have : Measurable (∑ m ∈ Finset.range n, hit x m) := by
    have h := Finset.measurable_sum (Finset.range n) fun m _ => measurable_hit hx m
    convert h using 1
    funext ω
    exact Finset.sum_apply ..
  exact this measurableSet_Iio

/-- The next draw does not depend on the draws before. -/
theorem short_hit (hx : ∀ n, Measurable fun ω => x ω n) (hi : iIndepFun (fun n ω => x ω n) P)
    (N n : ℕ) : P (short x N n ∩ {ω | x ω n ≠ 0}) = P (short x N n) * P {ω | x ω n ≠ 0} := by
  classical
  have hi' : iIndepFun (fun n => hit x n) P := by
    have := hi.comp (fun _ r => if r ≠ 0 then (1 : ℝ) else 0) (fun _ =>
      Measurable.ite (measurableSet_singleton (0 : ℝ)).compl measurable_const measurable_const)
    convert this using 2 with n
    funext ω
    simp [hit]
  have h := hi'.indepFun_finsetSum_of_notMem (fun n => measurable_hit hx n)
    (s := Finset.range n) (i := n) (by simp)
  have e : {ω | x ω n ≠ 0} = hit x n ⁻¹' {1} := by
    ext ω
    by_cases h0 : x ω n = 0 <;> simp [hit, h0]
  rw [short_eq, e]
  exact h.measure_inter_preimage_eq_mul _ _ measurableSet_Iio (measurableSet_singleton 1)

/-- The number of draws until there are `N` events. -/
noncomputable def duration (x : Ω → ℕ → ℝ) (N : ℕ) (ω : Ω) : ENNReal :=
  ∑' n, (short x N n).indicator 1 ω

theorem measurable_duration (hx : ∀ n, Measurable fun ω => x ω n) (N : ℕ) :
    Measurable (duration x N) :=
  Measurable.ennreal_tsum fun n => measurable_one.indicator (measurable_short hx N n)

theorem duration_eq (N c : ℕ) (ω : Ω) (h : ∀ n, n < c ↔ acc (x ω) n < N) :
    duration x N ω = c := by
  unfold duration
  rw [tsum_eq_sum (s := Finset.range c) (by
    intro n hn
    refine Set.indicator_of_notMem ?_ _
    simp only [short, Set.mem_setOf_eq, ← h]
    simpa using hn)]
  rw [Finset.sum_congr rfl fun n hn => Set.indicator_of_mem (show ω ∈ short x N n by
    simp only [short, Set.mem_setOf_eq, ← h]; simpa using hn) _]
  simp

theorem duration_ge (N : ℕ) (ω : Ω) : (N : ENNReal) ≤ duration x N ω := by
  unfold duration
  refine le_trans ?_ (ENNReal.sum_le_tsum (Finset.range N))
  rw [Finset.sum_congr rfl fun n hn => Set.indicator_of_mem (show ω ∈ short x N n by
    have := acc_le (x ω) n
    have := Finset.mem_range.mp hn
    simp only [short, Set.mem_setOf_eq]; omega) _]
  simp

/-- It takes `N / a` draws on average, at most. -/
theorem duration_mean (hx : ∀ n, Measurable fun ω => x ω n) (hi : iIndepFun (fun n ω => x ω n) P)
    (ha : 0 < a) (hP : ∀ n, P {ω | x ω n ≠ 0} = ENNReal.ofReal a) (N : ℕ) :
    ∫⁻ ω, duration x N ω ∂P ≤ ENNReal.ofReal (N / a) := by
  unfold duration
  rw [lintegral_tsum fun n => (measurable_one.indicator (measurable_short hx N n)).aemeasurable]
  have e1 : ∀ n, ∫⁻ ω, (short x N n).indicator 1 ω ∂P = P (short x N n) := fun n => by
    rw [lintegral_indicator_one (measurable_short hx N n)]
  simp only [e1]
  have ha' : ENNReal.ofReal a ≠ 0 := by simpa using ha
  have hbound : ∀ M, ENNReal.ofReal a * ∑ n ∈ Finset.range M, P (short x N n) ≤ N := by
    intro M
    have e2 : ENNReal.ofReal a * ∑ n ∈ Finset.range M, P (short x N n) =
        ∫⁻ ω, ∑ n ∈ Finset.range M, (short x N n ∩ {ω | x ω n ≠ 0}).indicator 1 ω ∂P := by
      have hms : ∀ n, MeasurableSet (short x N n ∩ {ω | x ω n ≠ 0}) := fun n =>
        (measurable_short hx N n).inter ((hx n) (measurableSet_singleton 0).compl)
      rw [lintegral_finsetSum _ fun n _ => measurable_one.indicator (hms n), Finset.mul_sum]
      refine Finset.sum_congr rfl fun n _ => ?_
      rw [lintegral_indicator_one (hms n), short_hit hx hi, hP, mul_comm]
    rw [e2]
    have hpt : ∀ ω, ∑ n ∈ Finset.range M,
        (short x N n ∩ {ω | x ω n ≠ 0}).indicator (1 : Ω → ENNReal) ω ≤ N := by
      intro ω
      have key : ∀ M, ∑ n ∈ Finset.range M,
          (short x N n ∩ {ω | x ω n ≠ 0}).indicator (1 : Ω → ENNReal) ω =
            ((min (acc (x ω) M) N : ℕ) : ENNReal) := by
        intro M
        induction M with
        | zero => simp [acc]
        | succ M ih =>
          rw [Finset.sum_range_succ, ih, acc_succ]
          by_cases h0 : x ω M = 0
          · simp [h0]
          · by_cases h1 : acc (x ω) M < N
            · rw [Set.indicator_of_mem (show ω ∈ short x N M ∩ {ω | x ω M ≠ 0} from ⟨h1, h0⟩)]
              simp only [h0, ne_eq, not_false_eq_true, if_true, Pi.one_apply]
              rw [min_eq_left h1.le, min_eq_left (by omega)]
              push_cast
              rfl
            · rw [Set.indicator_of_notMem (show ω ∉ short x N M ∩ {ω | x ω M ≠ 0} from
                fun h => h1 h.1)]
              simp only [h0, ne_eq, not_false_eq_true, if_true, add_zero]
              rw [min_eq_right (by omega), min_eq_right (by omega)]
      rw [key]
      exact_mod_cast min_le_right _ _
    calc ∫⁻ ω, ∑ n ∈ Finset.range M,
          (short x N n ∩ {ω | x ω n ≠ 0}).indicator (1 : Ω → ENNReal) ω ∂P
        ≤ ∫⁻ _, (N : ENNReal) ∂P := lintegral_mono hpt
      _ = N := by simp
  rw [ENNReal.tsum_eq_iSup_nat]
  refine iSup_le fun M => ?_
  rw [ENNReal.ofReal_div_of_pos ha, ENNReal.ofReal_natCast,
    ENNReal.le_div_iff_mul_le (Or.inl ha') (Or.inl ENNReal.ofReal_ne_top), mul_comm]
  exact hbound M

/-- The fraction of the draws that are events, at the time of event number `N`, is too large on
average. -/
theorem fraction_mean (hx : ∀ n, Measurable fun ω => x ω n) (hi : iIndepFun (fun n ω => x ω n) P)
    (ha : 0 < a) (ha1 : a < 1) (hP : ∀ n, P {ω | x ω n ≠ 0} = ENNReal.ofReal a) (N : ℕ)
    (hN : 0 < N) : a < ∫ ω, N / (duration x N ω).toReal ∂P := by
  have hmean := duration_mean hx hi ha hP N
  have hmeas := measurable_duration hx N
  have hNr : (0 : ℝ) < N := by exact_mod_cast hN
  set m : ℝ := N / a with hm
  have hm0 : 0 < m := by positivity
  have hmN : (N : ℝ) < m := by rw [hm, lt_div_iff₀ ha]; nlinarith
  have hfin : ∀ᵐ ω ∂P, duration x N ω < ⊤ :=
    ae_lt_top hmeas (ne_top_of_le_ne_top ENNReal.ofReal_ne_top hmean)
  have hti : Integrable (fun ω => (duration x N ω).toReal) P :=
    integrable_toReal_of_lintegral_ne_top hmeas.aemeasurable
      (ne_top_of_le_ne_top ENNReal.ofReal_ne_top hmean)
  have htm : ∫ ω, (duration x N ω).toReal ∂P ≤ m := by
    rw [integral_toReal hmeas.aemeasurable hfin]
    exact ENNReal.toReal_le_of_le_ofReal hm0.le hmean
  have htN : ∀ᵐ ω ∂P, (N : ℝ) ≤ (duration x N ω).toReal := by
    filter_upwards [hfin] with ω hω
    have := ENNReal.toReal_mono hω.ne (duration_ge (x := x) N ω)
    simpa using this
  have hfi : Integrable (fun ω => N / (duration x N ω).toReal) P := by
    refine (integrable_const (1 : ℝ)).mono'
      (measurable_const.div hmeas.ennreal_toReal).aestronglyMeasurable ?_
    filter_upwards [htN] with ω hω
    rw [Real.norm_eq_abs, abs_of_nonneg (by positivity)]
    exact div_le_one_of_le₀ hω (by positivity)
  -- the first `N` draws may all be events
  set B : Set Ω := ⋂ n ∈ Finset.range N, {ω | x ω n ≠ 0} with hB
  have hBm : MeasurableSet B :=
    Finset.measurableSet_biInter _ fun n _ => (hx n) (measurableSet_singleton 0).compl
  have hPB : P B = ENNReal.ofReal a ^ N := by
    have := hi.measure_inter_preimage_eq_mul (Finset.range N) (sets := fun _ => ({0} : Set ℝ)ᶜ)
      (fun _ _ => (measurableSet_singleton 0).compl)
    rw [hB]
    refine this.trans ?_
    refine (Finset.prod_congr rfl fun n _ =>
      (hP n : P ((fun ω => x ω n) ⁻¹' {0}ᶜ) = ENNReal.ofReal a)).trans ?_
    simp
  have hBt : ∀ ω ∈ B, (duration x N ω).toReal = N := by
    intro ω hω
    have hall : ∀ n < N, x ω n ≠ 0 := by
      intro n hn
      have := Set.mem_iInter₂.mp hω n (Finset.mem_range.mpr hn)
      exact this
    have hacc : ∀ n ≤ N, acc (x ω) n = n := by
      intro n hn
      induction n with
      | zero => simp [acc]
      | succ n ih => rw [acc_succ, ih (by omega), if_pos (hall n (by omega))]
    rw [duration_eq N N ω fun n => ?_]
    · simp
    · constructor
      · intro h; rw [hacc n h.le]; exact h
      · intro h; by_contra hh
        have := acc_mono (x ω) (not_lt.mp hh)
        rw [hacc N le_rfl] at this
        omega
  set c : ℝ := (N - m) ^ 2 / m ^ 2 with hc
  have hc0 : 0 < c := by
    have : (N : ℝ) - m ≠ 0 := by linarith
    positivity
  have hlow : ∫ ω, (N * (2 / m - (duration x N ω).toReal / m ^ 2) + B.indicator (fun _ => c) ω) ∂P ≤
      ∫ ω, N / (duration x N ω).toReal ∂P := by
    refine integral_mono_ae ?_ hfi ?_
    · exact (((integrable_const _).sub (hti.div_const _)).const_mul _).add
        ((integrable_const c).indicator hBm)
    · filter_upwards [htN] with ω hω
      have ht : 0 < (duration x N ω).toReal := lt_of_lt_of_le hNr hω
      by_cases hωB : ω ∈ B
      · rw [Set.indicator_of_mem hωB, hBt ω hωB, hc]
        apply le_of_eq
        field_simp
        ring
      · rw [Set.indicator_of_notMem hωB, add_zero]
        have : N / (duration x N ω).toReal - N * (2 / m - (duration x N ω).toReal / m ^ 2) =
            N * ((duration x N ω).toReal - m) ^ 2 / ((duration x N ω).toReal * m ^ 2) := by
          field_simp
          ring
        have h2 : 0 ≤ N * ((duration x N ω).toReal - m) ^ 2 / ((duration x N ω).toReal * m ^ 2) := by
          positivity
        linarith
  refine lt_of_lt_of_le ?_ hlow
  have hi1 : Integrable (fun ω => N * (2 / m - (duration x N ω).toReal / m ^ 2)) P :=
    ((integrable_const _).sub (hti.div_const _)).const_mul _
  rw [integral_add hi1 ((integrable_const c).indicator hBm), integral_const_mul,
    integral_sub (integrable_const _) (hti.div_const _), integral_indicator hBm]
  simp only [integral_const, smul_eq_mul, measureReal_restrict_apply_univ, probReal_univ, one_mul]
  have hpos : 0 < P.real B := by
    rw [Measure.real, hPB, ENNReal.toReal_pow, ENNReal.toReal_ofReal ha.le]
    positivity
  have h3 : a ≤ N * (2 / m - (∫ ω, (duration x N ω).toReal ∂P) / m ^ 2) := by
    have : (∫ ω, (duration x N ω).toReal ∂P) / m ^ 2 ≤ m / m ^ 2 :=
      div_le_div_of_nonneg_right htm (by positivity)
    have e : N * (2 / m - m / m ^ 2) = a := by
      rw [hm]; field_simp; ring
    nlinarith
  have := mul_pos hpos hc0
  rw [integral_div]
  linarith

end

end Sidis.Lemmas.Random
