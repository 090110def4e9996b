import Verif.Lemmas.Dilog
import Verif.Lemmas.SoftPhoton
import Verif.Spec.Infrared

/-! # The one-loop vertex correction with a massive photon -/

namespace Sidis.Lemmas

open Real intervalIntegral MeasureTheory Set Filter Topology Sidis.Spec Sidis.Spec.Qed

/-! ### Dominated convergence on the unit square -/

theorem tendsto_square {F : ℝ → ℝ → ℝ → ℝ} {f : ℝ → ℝ → ℝ} {C : ℝ}
    (hF : ∀ μ ∈ Ioo (0 : ℝ) 1, ContinuousOn (fun p : ℝ × ℝ => F μ p.1 p.2) (Icc 0 1 ×ˢ Icc 0 1))
    (hf : ContinuousOn (fun p : ℝ × ℝ => f p.1 p.2) (Icc 0 1 ×ˢ Icc 0 1))
    (hC : ∀ μ ∈ Ioo (0 : ℝ) 1, ∀ t ∈ Ioc (0 : ℝ) 1, ∀ w ∈ Ioc (0 : ℝ) 1, |F μ t w| ≤ C)
    (hl : ∀ t ∈ Ioc (0 : ℝ) 1, ∀ w ∈ Ioc (0 : ℝ) 1, Tendsto (fun μ => F μ t w) (𝓝[>] 0) (𝓝 (f t w))) :
    Tendsto (fun μ => ∫ t in (0 : ℝ)..1, ∫ w in (0 : ℝ)..1, F μ t w) (𝓝[>] 0)
      (𝓝 (∫ t in (0 : ℝ)..1, ∫ w in (0 : ℝ)..1, f t w)) := by
  have sub : Ioc (0 : ℝ) 1 ×ˢ Ioc (0 : ℝ) 1 ⊆ Icc 0 1 ×ˢ Icc 0 1 :=
    prod_mono Ioc_subset_Icc_self Ioc_subset_Icc_self
  have int : ∀ {g : ℝ → ℝ → ℝ}, ContinuousOn (fun p : ℝ × ℝ => g p.1 p.2) (Icc 0 1 ×ˢ Icc 0 1) →
      IntegrableOn (fun p : ℝ × ℝ => g p.1 p.2) (Ioc (0 : ℝ) 1 ×ˢ Ioc (0 : ℝ) 1) := fun h =>
    (h.integrableOn_compact (isCompact_Icc.prod isCompact_Icc)).mono_set sub
  have conv : ∀ {g : ℝ → ℝ → ℝ}, ContinuousOn (fun p : ℝ × ℝ => g p.1 p.2) (Icc 0 1 ×ˢ Icc 0 1) →
      ∫ t in (0 : ℝ)..1, ∫ w in (0 : ℝ)..1, g t w
        = ∫ p in Ioc (0 : ℝ) 1 ×ˢ Ioc (0 : ℝ) 1, g p.1 p.2 := fun {g} h => by
    simp only [integral_of_le zero_le_one]
    exact (setIntegral_prod (fun p : ℝ × ℝ => g p.1 p.2) (int h)).symm
  rw [conv hf]
  have : Tendsto (fun μ => ∫ p in Ioc (0 : ℝ) 1 ×ˢ Ioc (0 : ℝ) 1, F μ p.1 p.2) (𝓝[>] 0)
      (𝓝 (∫ p in Ioc (0 : ℝ) 1 ×ˢ Ioc (0 : ℝ) 1, f p.1 p.2)) := by
    refine MeasureTheory.tendsto_integral_filter_of_dominated_convergence (fun _ => C) ?_ ?_ ?_ ?_
    · filter_upwards [Ioo_mem_nhdsGT zero_lt_one] with μ hμ
      exact (int (hF μ hμ)).aestronglyMeasurable
    · filter_upwards [Ioo_mem_nhdsGT zero_lt_one] with μ hμ
      refine (ae_restrict_iff' (measurableSet_Ioc.prod measurableSet_Ioc)).2 (ae_of_all _ fun p hp => ?_)
      exact hC μ hμ p.1 hp.1 p.2 hp.2
    · refine integrableOn_const ?_
      rw [Measure.volume_eq_prod, Measure.prod_prod]
      simp
    · refine (ae_restrict_iff' (measurableSet_Ioc.prod measurableSet_Ioc)).2 (ae_of_all _ fun p hp => ?_)
      exact hl p.1 hp.1 p.2 hp.2
  refine this.congr' ?_
  filter_upwards [Ioo_mem_nhdsGT zero_lt_one] with μ hμ
  exact (conv (hF μ hμ)).symm

/-! ### The integrand over the unit square -/

/-- The denominator at the Feynman parameter `t`. -/
noncomputable def loopDen (Q m t : ℝ) : ℝ := m ^ 2 + Q * (t * (1 - t))

/-- The integrand of the form factor for `z = 1 - w`, `y = w t`. -/
noncomputable def vertexI (Q m μ t w : ℝ) : ℝ :=
  w * (log (m ^ 2 / loopDen Q m t)
    + (-(Q + 2 * m ^ 2) * (1 - w) + w ^ 2 * (2 * m ^ 2 - loopDen Q m t))
      / (w ^ 2 * loopDen Q m t + μ ^ 2 * (1 - w))
    - (-(2 * m ^ 2) * (1 - w) + w ^ 2 * m ^ 2) / (w ^ 2 * m ^ 2 + μ ^ 2 * (1 - w)))

theorem loopDen_ge {Q m t : ℝ} (hQ : 0 < Q) (ht : t ∈ Icc (0 : ℝ) 1) : m ^ 2 ≤ loopDen Q m t := by
  have : 0 ≤ t * (1 - t) := mul_nonneg ht.1 (by linarith [ht.2])
  have : 0 ≤ Q * (t * (1 - t)) := mul_nonneg hQ.le this
  rw [loopDen]; linarith

theorem massive_pos {D μ w : ℝ} (hD : 0 < D) (hμ : 0 < μ) (hw : w ∈ Icc (0 : ℝ) 1) :
    0 < w ^ 2 * D + μ ^ 2 * (1 - w) := by
  rcases hw.1.eq_or_lt with h | h
  · rw [← h]; simp; positivity
  · have : 0 ≤ μ ^ 2 * (1 - w) := mul_nonneg (by positivity) (by linarith [hw.2])
    have : 0 < w ^ 2 * D := by positivity
    linarith

theorem continuousOn_vertexI {Q m μ : ℝ} (hQ : 0 < Q) (hm : 0 < m) (hμ : 0 < μ) :
    ContinuousOn (fun p : ℝ × ℝ => vertexI Q m μ p.1 p.2) (Icc 0 1 ×ˢ Icc 0 1) := by
  have hm2 : 0 < m ^ 2 := by positivity
  have hD : ∀ p ∈ Icc (0 : ℝ) 1 ×ˢ Icc (0 : ℝ) 1, 0 < loopDen Q m p.1 := fun p hp =>
    lt_of_lt_of_le hm2 (loopDen_ge hQ hp.1)
  have cD : Continuous fun p : ℝ × ℝ => loopDen Q m p.1 := by unfold loopDen; fun_prop
  unfold vertexI
  refine ContinuousOn.mul continuousOn_snd (ContinuousOn.sub (ContinuousOn.add ?_ ?_) ?_)
  · refine ContinuousOn.log (continuousOn_const.div cD.continuousOn fun p hp => (hD p hp).ne')
      fun p hp => (div_pos hm2 (hD p hp)).ne'
  · refine ContinuousOn.div (by fun_prop) (by fun_prop) fun p hp => (massive_pos (hD p hp) hμ hp.2).ne'
  · refine ContinuousOn.div (by fun_prop) (by fun_prop) fun p hp => (massive_pos hm2 hμ hp.2).ne'

theorem diracFormFactor_eq {alpha Q m μ : ℝ} (hQ : 0 < Q) (hm : 0 < m) (hμ : 0 < μ) :
    diracFormFactor alpha Q m μ
      = alpha / (2 * π) * ∫ t in (0 : ℝ)..1, ∫ w in (0 : ℝ)..1, vertexI Q m μ t w := by
  have hm2 : 0 < m ^ 2 := by positivity
  rw [diracFormFactor]
  congr 1
  rw [integral_swap_continuousOn zero_le_one zero_le_one (continuousOn_vertexI hQ hm hμ)]
  set g : ℝ → ℝ → ℝ := fun z y =>
    (Real.log (m ^ 2 * (1 - z) ^ 2 / (m ^ 2 * (1 - z) ^ 2 + Q * (y * (1 - z - y))))
      + (m ^ 2 * (1 - 4 * z + z ^ 2) - Q * ((1 - (1 - z - y)) * (1 - y)))
        / (m ^ 2 * (1 - z) ^ 2 + Q * (y * (1 - z - y)) + μ ^ 2 * z)
      - m ^ 2 * (1 - 4 * z + z ^ 2) / (m ^ 2 * (1 - z) ^ 2 + μ ^ 2 * z)) with hg
  have e1 : ∫ z in (0 : ℝ)..1, ∫ y in (0 : ℝ)..(1 - z), g z y
      = ∫ w in (0 : ℝ)..1, ∫ y in (0 : ℝ)..w, g (1 - w) y := by
    have := intervalIntegral.integral_comp_sub_left (a := 0) (b := 1)
      (fun w => ∫ y in (0 : ℝ)..w, g (1 - w) y) 1
    rw [sub_self, sub_zero] at this
    rw [← this]
    refine integral_congr fun z _ => ?_
    simp
  rw [e1]
  refine integral_congr fun w hw => ?_
  have := intervalIntegral.mul_integral_comp_mul_left (a := 0) (b := 1) (f := g (1 - w)) w
  rw [mul_zero, mul_one] at this
  rw [← this, ← intervalIntegral.integral_const_mul]
  refine integral_congr fun t ht => ?_
  rw [uIcc_of_le zero_le_one] at ht
  by_cases h0 : w = 0
  · subst h0; simp [vertexI]
  · have hD : 0 < loopDen Q m t := lt_of_lt_of_le hm2 (loopDen_ge hQ ht)
    rw [vertexI, hg]
    dsimp only
    have a1 : m ^ 2 * (1 - (1 - w)) ^ 2 + Q * (w * t * (1 - (1 - w) - w * t)) = w ^ 2 * loopDen Q m t := by
      rw [loopDen]; ring
    have a2 : m ^ 2 * (1 - (1 - w)) ^ 2 / (w ^ 2 * loopDen Q m t) = m ^ 2 / loopDen Q m t := by
      field_simp; ring
    rw [a1, a2]
    congr 3
    · congr 1
      rw [loopDen]; ring
    all_goals ring

/-! ### The limit of vanishing photon mass -/

theorem massive_split {D μ w : ℝ} (hD : 0 < D) (hμ : 0 < μ) (hw : w ∈ Icc (0 : ℝ) 1) :
    w * (1 - w) / (w ^ 2 * D + μ ^ 2 * (1 - w))
      = w / (w ^ 2 * D + μ ^ 2)
        - w ^ 4 * D / ((w ^ 2 * D + μ ^ 2) * (w ^ 2 * D + μ ^ 2 * (1 - w))) := by
  have h1 := (massive_pos hD hμ hw).ne'
  have h2 : w ^ 2 * D + μ ^ 2 ≠ 0 := by positivity
  obtain ⟨A, hA⟩ : ∃ A, A = w ^ 2 * D + μ ^ 2 * (1 - w) := ⟨_, rfl⟩
  rw [← hA] at h1 ⊢
  field_simp
  rw [hA]; ring

theorem massive_p {D D₀ μ w : ℝ} (h0 : 0 < D₀) (hD : D₀ ≤ D) (hμ : 0 < μ) (hw : w ∈ Ioc (0 : ℝ) 1) :
    |w ^ 4 * D / ((w ^ 2 * D + μ ^ 2) * (w ^ 2 * D + μ ^ 2 * (1 - w)))| ≤ 1 / D₀ := by
  have hD' := lt_of_lt_of_le h0 hD
  have hw0 := hw.1
  have h1 : 0 ≤ μ ^ 2 * (1 - w) := mul_nonneg (by positivity) (by linarith [hw.2])
  have h2 : 0 < w ^ 2 * D := by positivity
  rw [abs_of_nonneg (by positivity)]
  have h3 : (w ^ 2 * D) * (w ^ 2 * D) ≤ (w ^ 2 * D + μ ^ 2) * (w ^ 2 * D + μ ^ 2 * (1 - w)) :=
    mul_le_mul (by nlinarith [sq_nonneg μ]) (by linarith) h2.le (by positivity)
  calc _ ≤ w ^ 4 * D / ((w ^ 2 * D) * (w ^ 2 * D)) := by gcongr
    _ = 1 / D := by field_simp
    _ ≤ 1 / D₀ := one_div_le_one_div_of_le h0 hD

theorem massive_h {D D₀ μ w : ℝ} (h0 : 0 < D₀) (hD : D₀ ≤ D) (hμ : 0 < μ) (hw : w ∈ Ioc (0 : ℝ) 1) :
    |w ^ 3 / (w ^ 2 * D + μ ^ 2 * (1 - w))| ≤ 1 / D₀ := by
  have hD' := lt_of_lt_of_le h0 hD
  have hw0 := hw.1
  have h1 : 0 ≤ μ ^ 2 * (1 - w) := mul_nonneg (by positivity) (by linarith [hw.2])
  have h2 : 0 < w ^ 2 * D := by positivity
  rw [abs_of_nonneg (by positivity)]
  calc _ ≤ w ^ 3 / (w ^ 2 * D) := by gcongr; linarith
    _ = w / D := by field_simp
    _ ≤ 1 / D := by gcongr; exact hw.2
    _ ≤ 1 / D₀ := one_div_le_one_div_of_le h0 hD

theorem massive_p_tendsto {D w : ℝ} (hD : 0 < D) (hw : 0 < w) :
    Tendsto (fun μ : ℝ => w ^ 4 * D / ((w ^ 2 * D + μ ^ 2) * (w ^ 2 * D + μ ^ 2 * (1 - w)))) (𝓝[>] 0)
      (𝓝 (1 / D)) := by
  have h : ContinuousAt
      (fun μ : ℝ => w ^ 4 * D / ((w ^ 2 * D + μ ^ 2) * (w ^ 2 * D + μ ^ 2 * (1 - w)))) 0 := by
    refine ContinuousAt.div (by fun_prop) (by fun_prop) ?_
    simp only [ne_eq, OfNat.ofNat_ne_zero, not_false_eq_true, zero_pow, zero_mul, add_zero]
    positivity
  have h2 := h.tendsto.mono_left (nhdsWithin_le_nhds (s := Ioi 0))
  convert h2 using 2
  field_simp
  ring

theorem massive_h_tendsto {D w : ℝ} (hD : 0 < D) (hw : 0 < w) :
    Tendsto (fun μ : ℝ => w ^ 3 / (w ^ 2 * D + μ ^ 2 * (1 - w))) (𝓝[>] 0) (𝓝 (w / D)) := by
  have h : ContinuousAt (fun μ : ℝ => w ^ 3 / (w ^ 2 * D + μ ^ 2 * (1 - w))) 0 := by
    refine ContinuousAt.div (by fun_prop) (by fun_prop) ?_
    simp only [ne_eq, OfNat.ofNat_ne_zero, not_false_eq_true, zero_pow, zero_mul, add_zero]
    positivity
  have h2 := h.tendsto.mono_left (nhdsWithin_le_nhds (s := Ioi 0))
  convert h2 using 2
  field_simp
  ring

theorem integral_massive {D μ : ℝ} (hD : 0 < D) (hμ : 0 < μ) :
    ∫ w in (0 : ℝ)..1, w / (w ^ 2 * D + μ ^ 2) = 1 / (2 * D) * (log (D + μ ^ 2) - 2 * log μ) := by
  have hp : ∀ w : ℝ, 0 < w ^ 2 * D + μ ^ 2 := fun w => by positivity
  have h := integral_eq_sub_of_hasDerivAt (a := 0) (b := 1)
    (f := fun w => 1 / (2 * D) * log (w ^ 2 * D + μ ^ 2))
    (f' := fun w => w / (w ^ 2 * D + μ ^ 2)) (fun w _ => ?_) ?_
  · rw [h]
    simp only [one_pow, one_mul, ne_eq, OfNat.ofNat_ne_zero, not_false_eq_true, zero_pow, zero_mul,
      zero_add, log_pow]
    push_cast
    ring
  · have d : HasDerivAt (fun w : ℝ => w ^ 2 * D + μ ^ 2) (2 * w * D) w := by
      simpa using ((hasDerivAt_pow 2 w).mul_const D).add_const (μ ^ 2)
    refine ((d.log (hp w).ne').const_mul (1 / (2 * D))).congr_deriv ?_
    have := (hp w).ne'
    field_simp
  · exact (Continuous.div (by fun_prop) (by fun_prop) fun w => (hp w).ne').intervalIntegrable _ _

/-- What is left of the integrand without the part that diverges. -/
noncomputable def vertexF (Q m μ t w : ℝ) : ℝ :=
  vertexI Q m μ t w + (Q + 2 * m ^ 2) * (w / (w ^ 2 * loopDen Q m t + μ ^ 2))
    - 2 * m ^ 2 * (w / (w ^ 2 * m ^ 2 + μ ^ 2))
    - (Q + 2 * m ^ 2) * (log (loopDen Q m t + μ ^ 2) / (2 * loopDen Q m t))

/-- Its limit. -/
noncomputable def vertexL (Q m t w : ℝ) : ℝ :=
  w * log (m ^ 2 / loopDen Q m t) + (Q + 2 * m ^ 2) * (1 / loopDen Q m t)
    + (2 * m ^ 2 - loopDen Q m t) * (w / loopDen Q m t) - 2 * m ^ 2 * (1 / m ^ 2) - m ^ 2 * (w / m ^ 2)
    - (Q + 2 * m ^ 2) * (log (loopDen Q m t) / (2 * loopDen Q m t))

theorem vertexF_eq {Q m μ t w : ℝ} (hQ : 0 < Q) (hm : 0 < m) (hμ : 0 < μ) (ht : t ∈ Icc (0 : ℝ) 1)
    (hw : w ∈ Icc (0 : ℝ) 1) :
    vertexF Q m μ t w = w * log (m ^ 2 / loopDen Q m t)
      + (Q + 2 * m ^ 2) * (w ^ 4 * loopDen Q m t / ((w ^ 2 * loopDen Q m t + μ ^ 2)
        * (w ^ 2 * loopDen Q m t + μ ^ 2 * (1 - w))))
      + (2 * m ^ 2 - loopDen Q m t) * (w ^ 3 / (w ^ 2 * loopDen Q m t + μ ^ 2 * (1 - w)))
      - 2 * m ^ 2 * (w ^ 4 * m ^ 2 / ((w ^ 2 * m ^ 2 + μ ^ 2) * (w ^ 2 * m ^ 2 + μ ^ 2 * (1 - w))))
      - m ^ 2 * (w ^ 3 / (w ^ 2 * m ^ 2 + μ ^ 2 * (1 - w)))
      - (Q + 2 * m ^ 2) * (log (loopDen Q m t + μ ^ 2) / (2 * loopDen Q m t)) := by
  have hm2 : 0 < m ^ 2 := by positivity
  have hD := lt_of_lt_of_le hm2 (loopDen_ge (m := m) hQ ht)
  have e1 := massive_split hD hμ hw
  have e2 := massive_split hm2 hμ hw
  rw [vertexF, vertexI]
  linear_combination (-(Q + 2 * m ^ 2)) * e1 + (2 * m ^ 2) * e2

theorem abs_log_le {a b y : ℝ} (ha : 0 < a) (h1 : a ≤ y) (h2 : y ≤ b) : |log y| ≤ |log a| + |log b| := by
  have h3 := log_le_log ha h1
  have h4 := log_le_log (lt_of_lt_of_le ha h1) h2
  rw [abs_le]
  have := neg_abs_le (log a)
  have := le_abs_self (log b)
  have := abs_nonneg (log a)
  have := abs_nonneg (log b)
  constructor <;> linarith

theorem vertexF_tendsto {Q m : ℝ} (hQ : 0 < Q) (hm : 0 < m) :
    Tendsto (fun μ => ∫ t in (0 : ℝ)..1, ∫ w in (0 : ℝ)..1, vertexF Q m μ t w) (𝓝[>] 0)
      (𝓝 (∫ t in (0 : ℝ)..1, ∫ w in (0 : ℝ)..1, vertexL Q m t w)) := by
  have hm2 : 0 < m ^ 2 := by positivity
  have hDge : ∀ t ∈ Icc (0 : ℝ) 1, m ^ 2 ≤ loopDen Q m t := fun t ht => loopDen_ge hQ ht
  have hD : ∀ t ∈ Icc (0 : ℝ) 1, 0 < loopDen Q m t := fun t ht => lt_of_lt_of_le hm2 (hDge t ht)
  have hDle : ∀ t ∈ Icc (0 : ℝ) 1, loopDen Q m t ≤ m ^ 2 + Q := fun t ht => by
    have : t * (1 - t) ≤ 1 := by nlinarith [ht.1, ht.2]
    rw [loopDen]; nlinarith
  have cD : Continuous fun p : ℝ × ℝ => loopDen Q m p.1 := by unfold loopDen; fun_prop
  refine tendsto_square (C := |log (m ^ 2 / (m ^ 2 + Q))| + |log (m ^ 2 / m ^ 2)|
      + (Q + 2 * m ^ 2) * (1 / m ^ 2) + (3 * m ^ 2 + Q) * (1 / m ^ 2) + 2 * m ^ 2 * (1 / m ^ 2)
      + m ^ 2 * (1 / m ^ 2)
      + (Q + 2 * m ^ 2) * ((|log (m ^ 2)| + |log (m ^ 2 + Q + 1)|) / (2 * m ^ 2))) ?_ ?_ ?_ ?_
  · rintro μ ⟨hμ, -⟩
    unfold vertexF
    refine ContinuousOn.sub (ContinuousOn.sub ((continuousOn_vertexI hQ hm hμ).add ?_) ?_) ?_
    · exact continuousOn_const.mul (ContinuousOn.div (by fun_prop) (by fun_prop) fun p hp => by
        have := hD p.1 hp.1; positivity)
    · exact continuousOn_const.mul (ContinuousOn.div (by fun_prop) (by fun_prop) fun p hp => by
        positivity)
    · refine continuousOn_const.mul (ContinuousOn.div (ContinuousOn.log (cD.add continuous_const).continuousOn fun p hp => ?_)
        (continuous_const.mul cD).continuousOn fun p hp => ?_)
      · have := hD p.1 hp.1; positivity
      · have := hD p.1 hp.1; positivity
  · unfold vertexL
    have hne : ∀ p ∈ Icc (0 : ℝ) 1 ×ˢ Icc (0 : ℝ) 1, loopDen Q m p.1 ≠ 0 := fun p hp => (hD p.1 hp.1).ne'
    have c1 : ContinuousOn (fun p : ℝ × ℝ => log (m ^ 2 / loopDen Q m p.1)) (Icc 0 1 ×ˢ Icc 0 1) :=
      ContinuousOn.log (continuousOn_const.div cD.continuousOn hne)
        fun p hp => (div_pos hm2 (hD p.1 hp.1)).ne'
    have c2 : ContinuousOn (fun p : ℝ × ℝ => 1 / loopDen Q m p.1) (Icc 0 1 ×ˢ Icc 0 1) :=
      continuousOn_const.div cD.continuousOn hne
    have c3 : ContinuousOn (fun p : ℝ × ℝ => p.2 / loopDen Q m p.1) (Icc 0 1 ×ˢ Icc 0 1) :=
      continuousOn_snd.div cD.continuousOn hne
    have c4 : ContinuousOn (fun p : ℝ × ℝ => log (loopDen Q m p.1) / (2 * loopDen Q m p.1))
        (Icc 0 1 ×ˢ Icc 0 1) :=
      (ContinuousOn.log cD.continuousOn hne).div (continuous_const.mul cD).continuousOn fun p hp => by
        have := hD p.1 hp.1; positivity
    exact ((((((continuousOn_snd.mul c1).add (continuousOn_const.mul c2)).add
      ((continuousOn_const.sub cD.continuousOn).mul c3)).sub continuousOn_const).sub
      (by fun_prop)).sub (continuousOn_const.mul c4))
  · rintro μ ⟨hμ, hμ1⟩ t ht w hw
    have ht' := Ioc_subset_Icc_self ht
    rw [vertexF_eq hQ hm hμ ht' (Ioc_subset_Icc_self hw)]
    have hDt := hD t ht'
    have b1 : |w * log (m ^ 2 / loopDen Q m t)| ≤ |log (m ^ 2 / (m ^ 2 + Q))| + |log (m ^ 2 / m ^ 2)| := by
      rw [abs_mul, abs_of_pos hw.1]
      refine (mul_le_of_le_one_left (abs_nonneg _) hw.2).trans (abs_log_le (by positivity) ?_ ?_)
      · exact div_le_div_of_nonneg_left hm2.le hDt (hDle t ht')
      · exact div_le_div_of_nonneg_left hm2.le hm2 (hDge t ht')
    have b2 := massive_p hm2 (hDge t ht') hμ hw
    have b3 := massive_h hm2 (hDge t ht') hμ hw
    have b4 := massive_p hm2 le_rfl hμ hw
    have b5 := massive_h hm2 le_rfl hμ hw
    have b6 : |log (loopDen Q m t + μ ^ 2) / (2 * loopDen Q m t)|
        ≤ (|log (m ^ 2)| + |log (m ^ 2 + Q + 1)|) / (2 * m ^ 2) := by
      rw [abs_div, abs_of_pos (by positivity : 0 < 2 * loopDen Q m t)]
      refine div_le_div₀ (by positivity) (abs_log_le hm2 ?_ ?_) (by positivity) ?_
      · nlinarith [hDge t ht', sq_nonneg μ]
      · nlinarith [hDle t ht']
      · linarith [hDge t ht']
    have b7 : |2 * m ^ 2 - loopDen Q m t| ≤ 3 * m ^ 2 + Q := by
      rw [abs_le]; constructor <;> linarith [hDle t ht']
    refine (abs_sub _ _).trans (add_le_add ((abs_sub _ _).trans (add_le_add ((abs_sub _ _).trans
      (add_le_add ((abs_add_le _ _).trans (add_le_add ((abs_add_le _ _).trans (add_le_add b1 ?_)) ?_))
      ?_)) ?_)) ?_)
    · rw [abs_mul, abs_of_pos (by positivity : 0 < Q + 2 * m ^ 2)]; gcongr
    · rw [abs_mul]; exact mul_le_mul b7 b3 (abs_nonneg _) (by positivity)
    · rw [abs_mul, abs_of_pos (by positivity : 0 < 2 * m ^ 2)]; gcongr
    · rw [abs_mul, abs_of_pos hm2]; gcongr
    · rw [abs_mul, abs_of_pos (by positivity : 0 < Q + 2 * m ^ 2)]; gcongr
  · intro t ht w hw
    have ht' := Ioc_subset_Icc_self ht
    have hDt := hD t ht'
    have l1 : Tendsto (fun μ : ℝ => log (loopDen Q m t + μ ^ 2) / (2 * loopDen Q m t)) (𝓝[>] 0)
        (𝓝 (log (loopDen Q m t) / (2 * loopDen Q m t))) := by
      have h : ContinuousAt (fun μ : ℝ => log (loopDen Q m t + μ ^ 2) / (2 * loopDen Q m t)) 0 := by
        refine ContinuousAt.div_const (ContinuousAt.log (by fun_prop) ?_) _
        simpa using hDt.ne'
      have h2 := h.tendsto.mono_left (nhdsWithin_le_nhds (s := Ioi 0))
      simpa using h2
    have := ((((((massive_p_tendsto hDt hw.1).const_mul (Q + 2 * m ^ 2)).const_add
      (w * log (m ^ 2 / loopDen Q m t))).add
      ((massive_h_tendsto hDt hw.1).const_mul (2 * m ^ 2 - loopDen Q m t))).sub
      ((massive_p_tendsto hm2 hw.1).const_mul (2 * m ^ 2))).sub
      ((massive_h_tendsto hm2 hw.1).const_mul (m ^ 2))).sub (l1.const_mul (Q + 2 * m ^ 2))
    refine Tendsto.congr' ?_ this
    filter_upwards [self_mem_nhdsWithin] with μ hμ
    exact (vertexF_eq hQ hm hμ ht' (Ioc_subset_Icc_self hw)).symm

/-! ### The integrals over the Feynman parameter -/

theorem loopDen_split {Q m t : ℝ} (hQ : 0 < Q) :
    loopDen Q m t = Q / 4 * ((loopD Q m + (2 * t - 1)) * (loopD Q m - (2 * t - 1))) := by
  have e := loopD_sq (Q := Q) (m := m) hQ
  rw [loopDen]
  have : (loopD Q m + (2 * t - 1)) * (loopD Q m - (2 * t - 1)) = 1 + 4 * m ^ 2 / Q - (2 * t - 1) ^ 2 := by
    rw [← e]; ring
  rw [this]; field_simp; ring

theorem integral_log_den {Q m : ℝ} (hQ : 0 < Q) (hm : 0 < m) :
    ∫ t in (0 : ℝ)..1, log (loopDen Q m t) = log (m ^ 2) - 2 + (Q + 4 * m ^ 2) * logM Q m := by
  have hd := loopD_gt hQ hm
  have hd0 : loopD Q m ≠ 0 := (by linarith : 0 < loopD Q m).ne'
  have e2 := loopD_sq (Q := Q) (m := m) hQ
  have hl := logM_eq hQ hm
  set β := loopD Q m with hβ
  have hp : ∀ t ∈ Icc (0 : ℝ) 1, 0 < β + (2 * t - 1) ∧ 0 < β - (2 * t - 1) := fun t ht =>
    ⟨by linarith [ht.1], by linarith [ht.2]⟩
  have hlog : ∀ t ∈ Icc (0 : ℝ) 1, log (loopDen Q m t)
      = log (Q / 4) + (log (β + (2 * t - 1)) + log (β - (2 * t - 1))) := fun t ht => by
    obtain ⟨h1, h2⟩ := hp t ht
    rw [loopDen_split hQ, log_mul (by positivity) (mul_pos h1 h2).ne', log_mul h1.ne' h2.ne']
  have h := integral_eq_sub_of_hasDerivAt (a := 0) (b := 1)
    (f := fun t => log (Q / 4) * t + (1 / 2 * ((β + (2 * t - 1)) * log (β + (2 * t - 1))
      - (β - (2 * t - 1)) * log (β - (2 * t - 1))) - 2 * t))
    (f' := fun t => log (loopDen Q m t)) (fun t ht => ?_) ?_
  · rw [h]
    have h0 := hlog 0 (by simp)
    have e0 : loopDen Q m 0 = m ^ 2 := by simp [loopDen]
    rw [e0] at h0
    rw [h0]
    have h1 : 0 < β - 1 := by linarith
    have h2 : 0 < β + 1 := by linarith
    rw [log_div h2.ne' h1.ne'] at hl
    have e3 : Q + 4 * m ^ 2 = Q * β ^ 2 := by rw [e2]; field_simp
    rw [e3, show Q * β ^ 2 * logM Q m = β * (Q * β * logM Q m) by ring, hl]
    norm_num
    rw [show β + -1 = β - 1 by ring]
    ring
  · rw [uIcc_of_le zero_le_one] at ht
    obtain ⟨h1, h2⟩ := hp t ht
    have d1 : HasDerivAt (fun t => β + (2 * t - 1)) 2 t := by
      simpa using (((hasDerivAt_id t).const_mul 2).sub_const 1).const_add β
    have d2 : HasDerivAt (fun t => β - (2 * t - 1)) (-2) t := by
      simpa using (((hasDerivAt_id t).const_mul 2).sub_const 1).const_sub β
    have d3 := (d1.mul (d1.log h1.ne')).sub (d2.mul (d2.log h2.ne'))
    refine (((hasDerivAt_id t).const_mul (log (Q / 4))).add ((d3.const_mul (1 / 2)).sub
      ((hasDerivAt_id t).const_mul 2))).congr_deriv ?_
    rw [hlog t ht]
    have := h1.ne'
    have := h2.ne'
    field_simp
    ring
  · refine ContinuousOn.intervalIntegrable (ContinuousOn.log ?_ fun t ht => ?_)
    · unfold loopDen; fun_prop
    · rw [uIcc_of_le zero_le_one] at ht
      have : 0 < m ^ 2 := by positivity
      exact (lt_of_lt_of_le this (loopDen_ge hQ ht)).ne'

/-- `∫ log(D) / D` in terms of the dilogarithm -/
theorem integral_log_div_den {Q m : ℝ} (hQ : 0 < Q) (hm : 0 < m) :
    ∫ t in (0 : ℝ)..1, log (loopDen Q m t) / (2 * loopDen Q m t)
      = log (m ^ 2) * logM Q m + 1 / (Q * loopD Q m) * (1 / 2 * (Q * loopD Q m * logM Q m) ^ 2
        + 2 * Li2 (2 * loopD Q m / (1 + loopD Q m)) - 1 / 2 * π ^ 2) := by
  have hd := loopD_gt hQ hm
  have hβ0 : 0 < loopD Q m := by linarith
  have hl := logM_eq hQ hm
  have hsplit := fun t => loopDen_split (m := m) (t := t) hQ
  set β := loopD Q m with hβ
  -- the variable a
  set a : ℝ → ℝ := fun t => (β + (2 * t - 1)) / (2 * β) with ha
  have ha0 : ∀ t ∈ Icc (0 : ℝ) 1, 0 < a t := fun t ht => by
    have : 0 < β + (2 * t - 1) := by linarith [ht.1]
    rw [ha]; positivity
  have ha1 : ∀ t ∈ Icc (0 : ℝ) 1, 0 < 1 - a t := fun t ht => by
    have h : 0 < β - (2 * t - 1) := by linarith [ht.2]
    have : 1 - a t = (β - (2 * t - 1)) / (2 * β) := by rw [ha]; field_simp; ring
    rw [this]; positivity
  have hden : ∀ t, loopDen Q m t = Q * β ^ 2 * (a t * (1 - a t)) := fun t => by
    rw [hsplit t, ha]; field_simp; ring
  have hlog : ∀ t ∈ Icc (0 : ℝ) 1, log (loopDen Q m t)
      = log (Q * β ^ 2) + (log (a t) + log (1 - a t)) := fun t ht => by
    rw [hden t, log_mul (by positivity) (mul_pos (ha0 t ht) (ha1 t ht)).ne',
      log_mul (ha0 t ht).ne' (ha1 t ht).ne']
  have h := integral_eq_sub_of_hasDerivAt (a := 0) (b := 1)
    (f := fun t => 1 / (2 * (Q * β)) * (log (Q * β ^ 2) * (log (a t) - log (1 - a t))
      + 1 / 2 * (log (a t) ^ 2 - log (1 - a t) ^ 2) - Li2 (a t) + Li2 (1 - a t)))
    (f' := fun t => log (loopDen Q m t) / (2 * loopDen Q m t)) (fun t ht => ?_) ?_
  · rw [h]
    have s0 := hlog 0 (by simp)
    have e0 : loopDen Q m 0 = m ^ 2 := by simp [loopDen]
    rw [e0] at s0
    have e1 : a 1 = 1 - a 0 := by rw [ha]; field_simp; ring
    have e2 : 1 - a 1 = a 0 := by rw [e1]; ring
    have p0 := ha0 0 (by simp)
    have p1 := ha1 0 (by simp)
    set b := a 0 with hb
    have r := Li2_reflect (x := 1 - b) p1 (by linarith)
    have hinv : 2 * β / (1 + β) = 1 / (1 - b) := by
      rw [← e1, ha]; field_simp; ring
    have i := Li2_inv (x := 2 * β / (1 + β)) (by rw [hinv, le_div_iff₀ p1]; linarith)
    rw [hinv, one_div_one_div, log_div one_ne_zero p1.ne', log_one] at i
    rw [show 1 - (1 - b) = b by ring] at r
    have hl' : Q * β * logM Q m = log (1 - b) - log b := by
      rw [hl, ← log_div p1.ne' p0.ne', ← e1, hb, ha]
      congr 1
      have : β - 1 ≠ 0 := by linarith |> fun (h : 0 < _) => h.ne'
      have : β + (2 * 0 - 1) ≠ 0 := by linarith |> fun (h : 0 < _) => h.ne'
      field_simp
      ring
    have hM : logM Q m = 1 / (Q * β) * (log (1 - b) - log b) := by rw [← hl']; field_simp
    rw [e2, e1, hinv, hl', hM, i, s0]
    linear_combination (1 / (Q * β)) * r
  · rw [uIcc_of_le zero_le_one] at ht
    have p0 := ha0 t ht
    have p1 := ha1 t ht
    have da : HasDerivAt a (1 / β) t := by
      have : HasDerivAt (fun t => (β + (2 * t - 1)) / (2 * β)) (2 / (2 * β)) t := by
        simpa using ((((hasDerivAt_id t).const_mul 2).sub_const 1).const_add β).div_const (2 * β)
      refine this.congr_deriv ?_
      field_simp
    have db : HasDerivAt (fun t => 1 - a t) (-(1 / β)) t := by simpa using da.const_sub 1
    have l1 := da.log p0.ne'
    have l2 := db.log p1.ne'
    have d1 : HasDerivAt (fun t => Li2 (a t)) (-(log (1 - a t) / a t) * (1 / β)) t := by
      have := (hasDerivAt_Li2 (x := a t) (by linarith |> fun (h : a t < 1) => h.ne)).comp t da
      refine this.congr_deriv ?_
      rw [li2', if_neg p0.ne']
    have d2 : HasDerivAt (fun t => Li2 (1 - a t)) (-(log (a t) / (1 - a t)) * (-(1 / β))) t := by
      have := (hasDerivAt_Li2 (x := 1 - a t) (by linarith |> fun (h : 1 - a t < 1) => h.ne)).comp t db
      refine this.congr_deriv ?_
      rw [li2', if_neg p1.ne', show 1 - (1 - a t) = a t by ring]
    refine ((((((l1.sub l2).const_mul (log (Q * β ^ 2))).add (((l1.pow 2).sub (l2.pow 2)).const_mul
      (1 / 2))).sub d1).add d2).const_mul (1 / (2 * (Q * β)))).congr_deriv ?_
    rw [hlog t ht, hden t]
    have := p0.ne'
    have := p1.ne'
    generalize log (a t) = u
    generalize log (1 - a t) = v
    generalize log (Q * β ^ 2) = c
    obtain ⟨y, hy⟩ : ∃ y, y = 1 - a t := ⟨_, rfl⟩
    rw [← hy] at this ⊢
    have hx : a t = 1 - y := by rw [hy]; ring
    field_simp
    rw [hx]
    push_cast
    ring
  · have hne : ∀ t ∈ uIcc (0 : ℝ) 1, loopDen Q m t ≠ 0 := fun t ht => by
      rw [uIcc_of_le zero_le_one] at ht
      have : 0 < m ^ 2 := by positivity
      exact (lt_of_lt_of_le this (loopDen_ge hQ ht)).ne'
    have c : Continuous (loopDen Q m) := by unfold loopDen; fun_prop
    exact (ContinuousOn.div (c.continuousOn.log hne) (continuous_const.mul c).continuousOn
      fun t ht => mul_ne_zero two_ne_zero (hne t ht)).intervalIntegrable

theorem intervalIntegrable_inner {f : ℝ → ℝ → ℝ}
    (hf : ContinuousOn (fun p : ℝ × ℝ => f p.1 p.2) (Icc 0 1 ×ˢ Icc 0 1)) :
    IntervalIntegrable (fun t => ∫ w in (0 : ℝ)..1, f t w) volume 0 1 := by
  rw [intervalIntegrable_iff_integrableOn_Ioc_of_le zero_le_one]
  simp only [integral_of_le zero_le_one]
  have h : IntegrableOn (fun p : ℝ × ℝ => f p.1 p.2) (Ioc (0 : ℝ) 1 ×ˢ Ioc (0 : ℝ) 1)
      (volume.prod volume) :=
    (hf.integrableOn_compact (isCompact_Icc.prod isCompact_Icc)).mono_set
      (prod_mono Ioc_subset_Icc_self Ioc_subset_Icc_self)
  rw [IntegrableOn, ← Measure.prod_restrict] at h
  exact h.integral_prod_left

theorem intervalIntegrable_slice {f : ℝ → ℝ → ℝ}
    (hf : ContinuousOn (fun p : ℝ × ℝ => f p.1 p.2) (Icc 0 1 ×ˢ Icc 0 1)) {t : ℝ} (ht : t ∈ Icc (0 : ℝ) 1) :
    IntervalIntegrable (f t) volume 0 1 := by
  refine ContinuousOn.intervalIntegrable ?_
  rw [uIcc_of_le zero_le_one]
  exact hf.comp (f := fun w => (t, w)) (by fun_prop) fun w hw => ⟨ht, hw⟩

theorem vertex_tendsto {Q m : ℝ} (hQ : 0 < Q) (hm : 0 < m) :
    Tendsto (fun μ => (∫ t in (0 : ℝ)..1, ∫ w in (0 : ℝ)..1, vertexI Q m μ t w)
        - 2 * ((Q + 2 * m ^ 2) * logM Q m - 1) * log μ) (𝓝[>] 0)
      (𝓝 ((3 / 2 * Q + 4 * m ^ 2) * logM Q m - 2 - ((Q + 2 * m ^ 2) * logM Q m - 1) * log (m ^ 2)
        - (Q + 2 * m ^ 2) / (Q * loopD Q m) * (1 / 2 * (Q * loopD Q m * logM Q m) ^ 2
          + 2 * Li2 (2 * loopD Q m / (1 + loopD Q m)) - 1 / 2 * π ^ 2))) := by
  have hm2 : 0 < m ^ 2 := by positivity
  have hD : ∀ t ∈ Icc (0 : ℝ) 1, 0 < loopDen Q m t := fun t ht => lt_of_lt_of_le hm2 (loopDen_ge hQ ht)
  have cD : Continuous (loopDen Q m) := by unfold loopDen; fun_prop
  have hne : ∀ t ∈ uIcc (0 : ℝ) 1, loopDen Q m t ≠ 0 := fun t ht => by
    rw [uIcc_of_le zero_le_one] at ht; exact (hD t ht).ne'
  have i1 : IntervalIntegrable (fun t => 1 / loopDen Q m t) volume 0 1 :=
    (ContinuousOn.div continuousOn_const cD.continuousOn hne).intervalIntegrable
  have i2 : IntervalIntegrable (fun t => log (loopDen Q m t)) volume 0 1 :=
    (cD.continuousOn.log hne).intervalIntegrable
  have i3 : IntervalIntegrable (fun t => log (loopDen Q m t) / (2 * loopDen Q m t)) volume 0 1 :=
    (ContinuousOn.div (cD.continuousOn.log hne) (continuous_const.mul cD).continuousOn
      fun t ht => mul_ne_zero two_ne_zero (hne t ht)).intervalIntegrable
  have v1 : ∫ t in (0 : ℝ)..1, 1 / loopDen Q m t = 2 * logM Q m := integral_denom hQ hm
  -- the limit
  have lim : ∫ t in (0 : ℝ)..1, ∫ w in (0 : ℝ)..1, vertexL Q m t w
      = (3 / 2 * Q + 4 * m ^ 2) * logM Q m - 2 - (Q + 2 * m ^ 2) * logM Q m * log (m ^ 2)
        - (Q + 2 * m ^ 2) / (Q * loopD Q m) * (1 / 2 * (Q * loopD Q m * logM Q m) ^ 2
          + 2 * Li2 (2 * loopD Q m / (1 + loopD Q m)) - 1 / 2 * π ^ 2) := by
    have inner : ∀ t ∈ Icc (0 : ℝ) 1, ∫ w in (0 : ℝ)..1, vertexL Q m t w
        = (Q + 3 * m ^ 2) * (1 / loopDen Q m t) - 1 / 2 * log (loopDen Q m t)
          + (1 / 2 * log (m ^ 2) - 3) - (Q + 2 * m ^ 2) * (log (loopDen Q m t) / (2 * loopDen Q m t)) := by
      intro t ht
      have hDt := (hD t ht).ne'
      have e : ∀ w, vertexL Q m t w = (log (m ^ 2 / loopDen Q m t)
          + (2 * m ^ 2 - loopDen Q m t) / loopDen Q m t - 1) * w
          + ((Q + 2 * m ^ 2) * (1 / loopDen Q m t) - 2
            - (Q + 2 * m ^ 2) * (log (loopDen Q m t) / (2 * loopDen Q m t))) := fun w => by
        rw [vertexL]
        have : m ≠ 0 := hm.ne'
        field_simp
        ring
      simp only [e]
      rw [intervalIntegral.integral_add (Continuous.intervalIntegrable (by fun_prop) _ _)
        (Continuous.intervalIntegrable (by fun_prop) _ _), intervalIntegral.integral_const_mul,
        integral_id, intervalIntegral.integral_const, log_div hm2.ne' hDt]
      simp only [smul_eq_mul]
      field_simp
      ring
    have : ∫ t in (0 : ℝ)..1, ∫ w in (0 : ℝ)..1, vertexL Q m t w
        = ∫ t in (0 : ℝ)..1, ((Q + 3 * m ^ 2) * (1 / loopDen Q m t) - 1 / 2 * log (loopDen Q m t)
          + (1 / 2 * log (m ^ 2) - 3)
          - (Q + 2 * m ^ 2) * (log (loopDen Q m t) / (2 * loopDen Q m t))) :=
      integral_congr fun t ht => by
        rw [uIcc_of_le zero_le_one] at ht
        exact inner t ht
    rw [this, intervalIntegral.integral_sub (((i1.const_mul _).sub (i2.const_mul _)).add
        intervalIntegrable_const) (i3.const_mul _),
      intervalIntegral.integral_add ((i1.const_mul _).sub (i2.const_mul _)) intervalIntegrable_const,
      intervalIntegral.integral_sub (i1.const_mul _) (i2.const_mul _)]
    simp only [intervalIntegral.integral_const_mul, intervalIntegral.integral_const]
    rw [v1, integral_log_den hQ hm, integral_log_div_den hQ hm]
    simp only [smul_eq_mul]
    ring
  have main : ∀ μ : ℝ, 0 < μ → (∫ t in (0 : ℝ)..1, ∫ w in (0 : ℝ)..1, vertexI Q m μ t w)
        - 2 * ((Q + 2 * m ^ 2) * logM Q m - 1) * log μ
      = (∫ t in (0 : ℝ)..1, ∫ w in (0 : ℝ)..1, vertexF Q m μ t w) + log (m ^ 2 + μ ^ 2) := by
    intro μ hμ
    have cI := continuousOn_vertexI hQ hm hμ
    have inner : ∀ t ∈ Icc (0 : ℝ) 1, ∫ w in (0 : ℝ)..1, vertexF Q m μ t w
        = (∫ w in (0 : ℝ)..1, vertexI Q m μ t w)
          - (Q + 2 * m ^ 2) * log μ * (1 / loopDen Q m t) - (log (m ^ 2 + μ ^ 2) - 2 * log μ) := by
      intro t ht
      have hDt := hD t ht
      have j1 : ∀ {D : ℝ}, 0 < D → IntervalIntegrable (fun w : ℝ => w / (w ^ 2 * D + μ ^ 2)) volume 0 1 :=
        fun {D} h => (Continuous.div (by fun_prop) (by fun_prop) fun w => by positivity).intervalIntegrable _ _
      have e : ∫ w in (0 : ℝ)..1, vertexF Q m μ t w = ∫ w in (0 : ℝ)..1, (vertexI Q m μ t w
          + (Q + 2 * m ^ 2) * (w / (w ^ 2 * loopDen Q m t + μ ^ 2))
          - 2 * m ^ 2 * (w / (w ^ 2 * m ^ 2 + μ ^ 2))
          - (Q + 2 * m ^ 2) * (log (loopDen Q m t + μ ^ 2) / (2 * loopDen Q m t))) := rfl
      have j0 := intervalIntegrable_slice cI ht
      rw [e, intervalIntegral.integral_sub ((j0.add ((j1 hDt).const_mul _)).sub ((j1 hm2).const_mul _))
          intervalIntegrable_const,
        intervalIntegral.integral_sub (j0.add ((j1 hDt).const_mul _)) ((j1 hm2).const_mul _),
        intervalIntegral.integral_add j0 ((j1 hDt).const_mul _)]
      simp only [intervalIntegral.integral_const_mul, intervalIntegral.integral_const]
      rw [integral_massive hDt hμ, integral_massive hm2 hμ]
      simp only [smul_eq_mul]
      field_simp
      ring
    have : ∫ t in (0 : ℝ)..1, ∫ w in (0 : ℝ)..1, vertexF Q m μ t w
        = ∫ t in (0 : ℝ)..1, ((∫ w in (0 : ℝ)..1, vertexI Q m μ t w)
          - (Q + 2 * m ^ 2) * log μ * (1 / loopDen Q m t) - (log (m ^ 2 + μ ^ 2) - 2 * log μ)) :=
      integral_congr fun t ht => by
        rw [uIcc_of_le zero_le_one] at ht
        exact inner t ht
    have j := intervalIntegrable_inner cI
    rw [this, intervalIntegral.integral_sub (j.sub (i1.const_mul _)) intervalIntegrable_const,
      intervalIntegral.integral_sub j (i1.const_mul _)]
    simp only [intervalIntegral.integral_const_mul, intervalIntegral.integral_const]
    rw [v1]
    simp only [smul_eq_mul]
    ring
  have h1 : Tendsto (fun μ : ℝ => log (m ^ 2 + μ ^ 2)) (𝓝[>] 0) (𝓝 (log (m ^ 2))) := by
    have h : ContinuousAt (fun μ : ℝ => log (m ^ 2 + μ ^ 2)) 0 :=
      ContinuousAt.log (by fun_prop) (by simpa using hm.ne')
    have h2 := h.tendsto.mono_left (nhdsWithin_le_nhds (s := Ioi 0))
    simpa using h2
  have h2 := (vertexF_tendsto hQ hm).add h1
  rw [lim] at h2
  have e : (3 / 2 * Q + 4 * m ^ 2) * logM Q m - 2 - ((Q + 2 * m ^ 2) * logM Q m - 1) * log (m ^ 2)
        - (Q + 2 * m ^ 2) / (Q * loopD Q m) * (1 / 2 * (Q * loopD Q m * logM Q m) ^ 2
          + 2 * Li2 (2 * loopD Q m / (1 + loopD Q m)) - 1 / 2 * π ^ 2)
      = (3 / 2 * Q + 4 * m ^ 2) * logM Q m - 2 - (Q + 2 * m ^ 2) * logM Q m * log (m ^ 2)
        - (Q + 2 * m ^ 2) / (Q * loopD Q m) * (1 / 2 * (Q * loopD Q m * logM Q m) ^ 2
          + 2 * Li2 (2 * loopD Q m / (1 + loopD Q m)) - 1 / 2 * π ^ 2) + log (m ^ 2) := by ring
  rw [e]
  refine h2.congr' ?_
  filter_upwards [self_mem_nhdsWithin] with μ hμ
  exact (main μ hμ).symm

end Sidis.Lemmas
