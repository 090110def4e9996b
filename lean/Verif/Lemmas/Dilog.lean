import Verif.Model.Dilog
import Verif.Spec.Dilog
import Mathlib.Analysis.SpecialFunctions.Integrals.Basic
import Mathlib.Analysis.SpecialFunctions.Log.Deriv
import Mathlib.MeasureTheory.Integral.IntervalIntegral.FundThmCalculus
import Mathlib.MeasureTheory.Integral.DominatedConvergence
import Mathlib.NumberTheory.ZetaValues
import Mathlib.Analysis.Calculus.MeanValue
import Mathlib.Analysis.SpecialFunctions.Log.NegMulLog
import Mathlib.Analysis.Complex.ExponentialBounds

/-! # Lemmas about the dilogarithm -/

namespace Sidis.Lemmas

open Sidis.Spec Real MeasureTheory intervalIntegral Set Filter Topology

/-! ### The integrand -/

/-- The integrand of the dilogarithm, continuous at 0. -/
noncomputable def li2' (t : ℝ) : ℝ := if t = 0 then 1 else -(log (1 - t) / t)

theorem li2'_eq_slope (t : ℝ) : li2' t = dslope (fun s => -log (1 - s)) 0 t := by
  have hd : HasDerivAt (fun s : ℝ => -log (1 - s)) 1 0 := by
    have h := ((hasDerivAt_id (0 : ℝ)).const_sub 1).log (by simp)
    refine (h.fun_neg).congr_deriv ?_
    simp
  unfold li2'
  split_ifs with h
  · subst h
    rw [dslope_same, hd.deriv]
  · rw [dslope_of_ne _ h, slope_def_field]
    simp
    ring

theorem continuousAt_li2' {t : ℝ} (ht : t ≠ 1) : ContinuousAt li2' t := by
  have e : li2' = dslope (fun s => -log (1 - s)) 0 := funext li2'_eq_slope
  rw [e]
  by_cases h : t = 0
  · subst h
    rw [continuousAt_dslope_same]
    have h := ((hasDerivAt_id (0 : ℝ)).const_sub 1).log (by simp)
    exact h.neg.differentiableAt
  · rw [continuousAt_dslope_of_ne h]
    have : (1 : ℝ) - t ≠ 0 := sub_ne_zero.2 (Ne.symm ht)
    exact ((continuousAt_const.sub continuousAt_id).log this).neg

theorem li2'_ae : ∀ᵐ t : ℝ, li2' t = -(log (1 - t) / t) := by
  have : ({0}ᶜ : Set ℝ) ∈ ae volume := by
    rw [mem_ae_iff, compl_compl]
    simp
  filter_upwards [this] with t ht
  exact if_neg (fun h => ht h)

theorem intervalIntegrable_li2' (a b : ℝ) : IntervalIntegrable li2' volume a b := by
  have key : ∀ b, IntervalIntegrable li2' volume (1 / 2) b := by
    intro b
    have h1 : IntervalIntegrable (fun t => log (1 - t)) volume (1 / 2) b := by
      have := (intervalIntegral.intervalIntegrable_log' (a := 1 - 1 / 2) (b := 1 - b)).comp_sub_left 1
      simpa using this
    by_cases hb : 1 / 4 ≤ b
    · have h2 : IntervalIntegrable (fun t => log (1 - t) * (-t⁻¹)) volume (1 / 2) b := by
        refine h1.mul_continuousOn ?_
        refine (ContinuousOn.inv₀ continuousOn_id fun t ht => ?_).neg
        have : 1 / 4 ≤ t := by
          rcases le_total (1 / 2) b with h | h
          · rw [uIcc_of_le h] at ht; have := ht.1; linarith
          · rw [uIcc_of_ge h] at ht; have := ht.1; linarith
        simp only [id]
        intro h0
        rw [h0] at this
        norm_num at this
      refine h2.congr_ae ?_
      refine ae_restrict_of_ae ?_
      filter_upwards [li2'_ae] with t ht
      rw [ht]
      ring
    · refine ContinuousOn.intervalIntegrable fun t ht => ?_
      refine (continuousAt_li2' ?_).continuousWithinAt
      rw [uIcc_of_ge (by linarith)] at ht
      have := ht.2
      intro h
      linarith
  exact (key a).symm.trans (key b)

theorem Li2_eq (x : ℝ) : Li2 x = ∫ t in (0 : ℝ)..x, li2' t := by
  unfold Li2
  rw [← intervalIntegral.integral_neg]
  refine intervalIntegral.integral_congr_ae ?_
  filter_upwards [li2'_ae] with t ht _
  rw [ht]

theorem continuous_Li2 : Continuous Li2 := by
  have e : Li2 = fun x => ∫ t in (0 : ℝ)..x, li2' t := funext Li2_eq
  rw [e]
  exact intervalIntegral.continuous_primitive intervalIntegrable_li2' 0

theorem hasDerivAt_Li2 {x : ℝ} (hx : x ≠ 1) : HasDerivAt Li2 (li2' x) x := by
  have e : Li2 = fun x => ∫ t in (0 : ℝ)..x, li2' t := funext Li2_eq
  rw [e]
  refine intervalIntegral.integral_hasDerivAt_right (intervalIntegrable_li2' _ _) ?_ (continuousAt_li2' hx)
  have hopen : IsOpen ({1}ᶜ : Set ℝ) := isOpen_compl_singleton
  exact ContinuousOn.stronglyMeasurableAtFilter hopen
    (fun t ht => (continuousAt_li2' ht).continuousWithinAt) x hx

theorem Li2_zero : Li2 0 = 0 := by simp [Li2]

/-- Two functions with the same derivative between the end points agree at both if at one. -/
theorem eq_of_deriv {f : ℝ → ℝ} {a b : ℝ} (hab : a < b) (hc : ContinuousOn f (Icc a b))
    (hd : ∀ x ∈ Ioo a b, HasDerivAt f 0 x) : f a = f b := by
  obtain ⟨c, -, h⟩ := exists_hasDerivAt_eq_slope f (fun _ => 0) hab hc hd
  have : b - a ≠ 0 := by linarith
  field_simp at h
  linarith

/-! ### The series -/

theorem Li2_hasSum {x : ℝ} (hx : |x| < 1) :
    HasSum (fun n : ℕ => x ^ (n + 1) / ((n : ℝ) + 1) ^ 2) (Li2 x) := by
  have hI : ∀ t ∈ uIoc 0 x, |t| ≤ |x| := by
    intro t ht
    rcases le_total 0 x with h | h
    · rw [uIoc_of_le h] at ht
      rw [abs_of_pos ht.1, abs_of_nonneg h]; exact ht.2
    · rw [uIoc_of_ge h] at ht
      rw [abs_of_nonpos ht.2, abs_of_nonpos h]; linarith [ht.1]
  have h := intervalIntegral.hasSum_integral_of_dominated_convergence (a := 0) (b := x) (μ := volume)
    (F := fun (n : ℕ) t => t ^ n / ((n : ℝ) + 1)) (f := li2') (fun n _ => |x| ^ n)
    (fun n => (by fun_prop : Continuous fun t : ℝ => t ^ n / ((n : ℝ) + 1)).aestronglyMeasurable)
    (fun n => ae_of_all _ fun t ht => by
      rw [norm_div, norm_pow, Real.norm_eq_abs, Real.norm_eq_abs]
      have h1 : (1 : ℝ) ≤ |(n : ℝ) + 1| := by rw [abs_of_nonneg (by positivity)]; simp
      have h2 := pow_le_pow_left₀ (abs_nonneg t) (hI t ht) n
      exact (div_le_self (by positivity) h1).trans h2)
    (ae_of_all _ fun t _ => summable_geometric_of_lt_one (abs_nonneg x) hx)
    (by simp)
    (ae_of_all _ fun t ht => by
      have ht1 : |t| < 1 := lt_of_le_of_lt (hI t ht) hx
      by_cases h0 : t = 0
      · subst h0
        rw [li2', if_pos rfl]
        have := hasSum_single (f := fun n : ℕ => (0 : ℝ) ^ n / ((n : ℝ) + 1)) 0 (fun n hn => by simp [hn])
        simpa using this
      · rw [li2', if_neg h0]
        have h := (Real.hasSum_pow_div_log_of_abs_lt_one ht1).div_const t
        have e : (fun n : ℕ => t ^ n / ((n : ℝ) + 1)) = fun n : ℕ => t ^ (n + 1) / ((n : ℝ) + 1) / t := by
          funext n
          rw [pow_succ]
          field_simp
        rw [e, ← neg_div]
        exact h)
  rw [← Li2_eq] at h
  have e : (fun n : ℕ => x ^ (n + 1) / ((n : ℝ) + 1) ^ 2) =
      fun n : ℕ => ∫ t in (0 : ℝ)..x, t ^ n / ((n : ℝ) + 1) := by
    funext n
    rw [intervalIntegral.integral_div, integral_pow]
    simp
    field_simp
  rw [e]
  exact h

theorem Li2_one : Li2 1 = π ^ 2 / 6 := by
  have hs : Summable fun n : ℕ => 1 / ((n : ℝ) + 1) ^ 2 := by
    have := (summable_nat_add_iff 1).2 (Real.summable_one_div_nat_pow.2 (by norm_num : 1 < 2))
    simpa using this
  have hcont : ContinuousOn (fun x : ℝ => ∑' n : ℕ, x ^ (n + 1) / ((n : ℝ) + 1) ^ 2) (Icc 0 1) := by
    refine continuousOn_tsum (u := fun n : ℕ => 1 / ((n : ℝ) + 1) ^ 2) (fun n => by fun_prop) hs ?_
    intro n x hx
    rw [Real.norm_eq_abs, abs_of_nonneg (by have := hx.1; positivity)]
    exact div_le_div_of_nonneg_right (pow_le_one₀ hx.1 hx.2) (by positivity)
  have h1 : Tendsto (fun x : ℝ => ∑' n : ℕ, x ^ (n + 1) / ((n : ℝ) + 1) ^ 2) (𝓝[Ico 0 1] 1)
      (𝓝 (∑' n : ℕ, (1 : ℝ) ^ (n + 1) / ((n : ℝ) + 1) ^ 2)) :=
    (hcont 1 (by simp)).mono_left (nhdsWithin_mono _ Ico_subset_Icc_self)
  have h2 : Tendsto Li2 (𝓝[Ico 0 1] 1) (𝓝 (Li2 1)) := continuous_Li2.continuousAt.continuousWithinAt
  have h3 : Tendsto Li2 (𝓝[Ico 0 1] 1) (𝓝 (∑' n : ℕ, (1 : ℝ) ^ (n + 1) / ((n : ℝ) + 1) ^ 2)) := by
    refine h1.congr' ?_
    filter_upwards [self_mem_nhdsWithin] with x hx
    exact (Li2_hasSum (by rw [abs_of_nonneg hx.1]; exact hx.2)).tsum_eq
  have hne : (𝓝[Ico 0 1] (1 : ℝ)).NeBot := by
    rw [nhdsWithin_Ico_eq_nhdsLT (by norm_num)]
    infer_instance
  rw [tendsto_nhds_unique h2 h3]
  have h4 := (hasSum_nat_add_iff' 1).2 hasSum_zeta_two
  simp only [Finset.range_one, Finset.sum_singleton, Nat.cast_zero, ne_eq, OfNat.ofNat_ne_zero,
    not_false_eq_true, zero_pow, div_zero, sub_zero] at h4
  have := h4.tsum_eq
  rw [← this]
  simp

/-! ### Functional equations -/

theorem continuousAt_log_log : ContinuousAt (fun x : ℝ => log x * log (1 - x)) 1 := by
  have h1 : Tendsto (fun x : ℝ => 2 * |(1 - x) * log (1 - x)|) (𝓝 1) (𝓝 0) := by
    have : Continuous fun x : ℝ => 2 * |(1 - x) * log (1 - x)| :=
      continuous_const.mul (continuous_mul_log.comp (continuous_const.sub continuous_id)).abs
    have h := this.tendsto 1
    simpa using h
  rw [ContinuousAt]
  simp only [log_one, zero_mul]
  refine squeeze_zero_norm' ?_ h1
  filter_upwards [Icc_mem_nhds (by norm_num : (1 / 2 : ℝ) < 1) (by norm_num : (1 : ℝ) < 2)] with x hx
  rw [norm_mul, abs_mul, Real.norm_eq_abs, Real.norm_eq_abs, ← mul_assoc]
  refine mul_le_mul_of_nonneg_right ?_ (abs_nonneg _)
  have hx0 : 0 < x := by linarith [hx.1]
  have u := Real.log_le_sub_one_of_pos hx0
  have l := Real.one_sub_inv_le_log_of_pos hx0
  rw [abs_le]
  rcases le_total x 1 with h | h
  · rw [abs_of_nonneg (by linarith)]
    have : x⁻¹ ≤ 1 + 2 * (1 - x) := by
      rw [inv_le_iff_one_le_mul₀ hx0]
      nlinarith [hx.1]
    constructor <;> linarith
  · rw [abs_of_nonpos (by linarith)]
    have : x⁻¹ ≤ 1 := inv_le_one_of_one_le₀ h
    constructor <;> linarith

/-- Euler's reflection. -/
theorem Li2_reflect {x : ℝ} (h0 : 0 < x) (h1 : x ≤ 1) :
    Li2 x + Li2 (1 - x) = π ^ 2 / 6 - log x * log (1 - x) := by
  rcases h1.eq_or_lt with rfl | h1
  · simp [Li2_zero, Li2_one]
  have h := eq_of_deriv (f := fun x => Li2 x + Li2 (1 - x) + log x * log (1 - x)) h1 ?_ ?_
  · simp only [sub_self, Li2_zero, Li2_one, log_one, log_zero, mul_zero, add_zero] at h
    linarith
  · intro y hy
    refine ContinuousAt.continuousWithinAt ?_
    refine ((continuous_Li2.add (continuous_Li2.comp (continuous_const.sub continuous_id))).continuousAt).add ?_
    rcases hy.2.eq_or_lt with rfl | hy1
    · exact continuousAt_log_log
    · have hy0 : 0 < y := lt_of_lt_of_le h0 hy.1
      exact (continuousAt_id.log hy0.ne').mul ((continuousAt_const.sub continuousAt_id).log (by
        change (1 : ℝ) - y ≠ 0
        linarith))
  · intro y hy
    have hy0 : 0 < y := h0.trans hy.1
    have hy1 : 0 < 1 - y := by linarith [hy.2]
    have d1 := hasDerivAt_Li2 (x := y) (by linarith [hy.2])
    have ds : HasDerivAt (fun z : ℝ => 1 - z) (-1) y := by simpa using (hasDerivAt_id y).const_sub 1
    have d2 := (hasDerivAt_Li2 (x := 1 - y) (by linarith)).comp y ds
    have d3 := (Real.hasDerivAt_log hy0.ne').mul (ds.log hy1.ne')
    refine ((d1.add d2).add d3).congr_deriv ?_
    rw [li2', li2', if_neg hy0.ne', if_neg hy1.ne']
    simp only [sub_sub_cancel]
    field_simp
    ring

/-- Landen's identity. -/
theorem Li2_landen {x : ℝ} (hx : x ≤ 0) : Li2 x = -Li2 (x / (x - 1)) - 1 / 2 * log (1 - x) ^ 2 := by
  rcases hx.eq_or_lt with rfl | hx
  · simp [Li2_zero]
  have h := eq_of_deriv (f := fun x => Li2 x + Li2 (x / (x - 1)) + 1 / 2 * log (1 - x) ^ 2) hx ?_ ?_
  · simp only [Li2_zero, zero_sub, zero_div, sub_zero, log_one, ne_eq, OfNat.ofNat_ne_zero, not_false_eq_true,
      zero_pow, mul_zero, add_zero] at h
    linarith
  · intro y hy
    refine ContinuousAt.continuousWithinAt ?_
    have hy1 : y - 1 ≠ 0 := by have := hy.2; linarith
    have hy2 : 1 - y ≠ 0 := by have := hy.2; linarith
    refine (continuous_Li2.continuousAt.add (ContinuousAt.comp (f := fun y => y / (y - 1))
      continuous_Li2.continuousAt ?_)).add ?_
    · exact continuousAt_id.div (continuousAt_id.sub continuousAt_const) hy1
    · exact continuousAt_const.mul (((continuousAt_const.sub continuousAt_id).log hy2).pow 2)
  · intro y hy
    have hy0 : y < 0 := hy.2
    have hyne : y ≠ 0 := hy0.ne
    have hy1 : y - 1 ≠ 0 := by linarith
    have hy2 : 1 - y ≠ 0 := by linarith
    have hq : y / (y - 1) ≠ 1 := by
      intro h
      rw [div_eq_one_iff_eq hy1] at h
      linarith
    have hq0 : y / (y - 1) ≠ 0 := div_ne_zero hy0.ne hy1
    have d1 := hasDerivAt_Li2 (x := y) (by linarith)
    have ds : HasDerivAt (fun z : ℝ => z / (z - 1)) (-1 / (y - 1) ^ 2) y := by
      refine ((hasDerivAt_id y).div ((hasDerivAt_id y).sub_const 1) hy1).congr_deriv ?_
      simp
    have d2 := (hasDerivAt_Li2 hq).comp y ds
    have d3 := (((((hasDerivAt_id y).const_sub 1).log hy2).pow 2).const_mul (1 / 2))
    refine ((d1.add d2).add d3).congr_deriv ?_
    rw [li2', li2', if_neg hy0.ne, if_neg hq0]
    have e : log (1 - y / (y - 1)) = -log (1 - y) := by
      rw [← log_inv]
      congr 1
      field_simp
      ring
    rw [e]
    simp only [id]
    field_simp
    ring

/-- Inversion. -/
theorem Li2_inv {x : ℝ} (hx : 1 ≤ x) : Li2 x = π ^ 2 / 3 - 1 / 2 * log x ^ 2 - Li2 (1 / x) := by
  rcases hx.eq_or_lt with rfl | hx
  · simp [Li2_one]; ring
  have h := eq_of_deriv (f := fun x => Li2 x + Li2 (1 / x) + 1 / 2 * log x ^ 2) hx ?_ ?_
  · simp only [Li2_one, div_one, log_one, ne_eq, OfNat.ofNat_ne_zero, not_false_eq_true, zero_pow, mul_zero,
      add_zero] at h
    linarith
  · intro y hy
    have hy0 : y ≠ 0 := by have := hy.1; linarith
    refine ContinuousAt.continuousWithinAt ?_
    refine (continuous_Li2.continuousAt.add (ContinuousAt.comp (f := fun y => 1 / y)
      continuous_Li2.continuousAt ?_)).add ?_
    · exact continuousAt_const.div continuousAt_id hy0
    · exact continuousAt_const.mul ((continuousAt_id.log hy0).pow 2)
  · intro y hy
    have hy1 : 1 < y := hy.1
    have hy0 : y ≠ 0 := by linarith
    have hi0 : 1 / y ≠ 0 := by positivity
    have hi1 : 1 / y ≠ 1 := by
      intro h
      rw [div_eq_one_iff_eq hy0] at h
      linarith
    have d1 := hasDerivAt_Li2 (x := y) hy1.ne'
    have ds : HasDerivAt (fun z : ℝ => 1 / z) (-1 / y ^ 2) y := by
      simpa [one_div, neg_div] using hasDerivAt_inv hy0
    have d2 := (hasDerivAt_Li2 hi1).comp y ds
    have d3 := (((Real.hasDerivAt_log hy0).pow 2).const_mul (1 / 2))
    refine ((d1.add d2).add d3).congr_deriv ?_
    rw [li2', li2', if_neg hy0, if_neg hi0]
    have e : log (1 - 1 / y) = log (1 - y) - log y := by
      rw [← log_neg_eq_log (1 - y), ← log_div (by linarith) hy0]
      congr 1
      field_simp
      ring
    rw [e]
    field_simp
    ring

/-! ### The reduction of the argument -/

/-- The reduced argument lies between -1/2 and 1/2 and the reduction is exact. -/
theorem dilogReduce_spec (x : ℝ) :
    |(dilogReduce x).2.2| ≤ 1 / 2 ∧ |(dilogReduce x).1| = 1 ∧
      Li2 x = (dilogReduce x).1 * Li2 (dilogReduce x).2.2 + (dilogReduce x).2.1 := by
  unfold dilogReduce
  simp only [sq, ← pow_two]
  split_ifs with h1 h2 h3 h4 h5
  · refine ⟨?_, by simp, ?_⟩
    · rw [abs_of_pos (by positivity), div_le_div_iff₀ (by linarith) (by norm_num)]
      linarith
    · rw [Li2_inv (by linarith)]
      ring
  · have hx0 : (0 : ℝ) < x := by linarith
    refine ⟨?_, by simp, ?_⟩
    · rw [abs_of_nonneg (div_nonneg (by linarith) hx0.le), div_le_div_iff₀ hx0 (by norm_num)]
      linarith
    · rw [Li2_inv (by linarith)]
      have hi : (0 : ℝ) < 1 / x := by positivity
      have hi1 : 1 / x ≤ 1 := by rw [div_le_one hx0]; linarith
      have h := Li2_reflect hi hi1
      have e1 : 1 - 1 / x = (x - 1) / x := by field_simp
      rw [e1, log_div (x := x - 1) (by linarith) hx0.ne', one_div, log_inv] at h
      rw [logLog1m, if_pos h2, one_div x]
      dsimp only
      linarith
  · refine ⟨?_, by simp, ?_⟩
    · rw [abs_of_nonneg (by linarith)]
      linarith
    · have h := Li2_reflect (x := x) (by linarith) (by linarith)
      rcases (not_lt.1 h2).eq_or_lt with rfl | hlt
      · simp [logLog1m, Li2_one, Li2_zero]
      · rw [logLog1m, if_neg h2, if_neg hlt.ne, if_pos h3, add_sub_cancel]
        linarith
  · exact ⟨abs_le.2 ⟨by linarith, by linarith⟩, by simp, by simp⟩
  · refine ⟨?_, by simp, ?_⟩
    · have e : x / (x - 1) = -x / (1 - x) := by
        rw [← neg_div_neg_eq]
        congr 1
        ring
      rw [e, abs_of_nonneg (div_nonneg (by linarith) (by linarith)),
        div_le_div_iff₀ (by linarith) (by norm_num)]
      linarith
    · rw [Li2_landen (by linarith), ← sub_eq_add_neg]
      ring
  · have hx : x ≤ -1 := not_lt.1 h5
    refine ⟨?_, by simp, ?_⟩
    · rw [abs_of_nonneg (div_nonneg (by norm_num) (by linarith)),
        div_le_div_iff₀ (by linarith) (by norm_num)]
      linarith
    · rw [Li2_landen (by linarith), ← sub_eq_add_neg]
      have e : x / (x - 1) = -x / (1 - x) := by
        rw [← neg_div_neg_eq]
        congr 1
        ring
      have hq0 : 0 < -x / (1 - x) := div_pos (by linarith) (by linarith)
      have hq1 : -x / (1 - x) ≤ 1 := by rw [div_le_one (by linarith)]; linarith
      have h := Li2_reflect hq0 hq1
      have e2 : 1 - -x / (1 - x) = 1 / (1 - x) := by
        have : (1 - x) ≠ 0 := by linarith
        field_simp
        ring
      rw [e2, log_div (x := -x) (by linarith) (by linarith), one_div, log_inv] at h
      rw [logLog1m, if_neg (by linarith), if_neg (by linarith), if_neg (by linarith), if_neg (by linarith),
        ← sub_eq_add_neg, e, one_div]
      dsimp only
      rw [one_div]
      linarith

/-! ### The number of terms -/

theorem dilogLoop_eq (x : ℝ) (turns : ℕ) : ∀ (n : ℕ) (r : ℝ), dilogLoop x turns n r (x ^ n) =
    r + ∑ i ∈ Finset.range turns, x ^ (n + i) / ((n + i : ℕ) : ℝ) ^ 2 := by
  induction turns with
  | zero => intro n r; simp [dilogLoop]
  | succ t ih =>
    intro n r
    rw [dilogLoop, ← pow_succ, ih, Finset.sum_range_succ', add_assoc]
    congr 1
    rw [add_comm]
    congr 1
    · refine Finset.sum_congr rfl fun i _ => ?_
      rw [show n + 1 + i = n + (i + 1) by ring]
    · simp [pow_two]

/-- The terms left out. -/
theorem series_tail {y : ℝ} (hy : |y| ≤ 1 / 2) (N : ℕ) :
    |Li2 y - ∑ i ∈ Finset.range N, y ^ (i + 1) / ((i : ℝ) + 1) ^ 2| ≤
      2 * |y| ^ (N + 1) / ((N : ℝ) + 1) ^ 2 := by
  have hy1 : |y| < 1 := by linarith
  have h := (hasSum_nat_add_iff' N).2 (Li2_hasSum hy1)
  have hg : HasSum (fun n : ℕ => |y| ^ n * (|y| ^ (N + 1) / ((N : ℝ) + 1) ^ 2))
      ((1 - |y|)⁻¹ * (|y| ^ (N + 1) / ((N : ℝ) + 1) ^ 2)) :=
    (hasSum_geometric_of_lt_one (abs_nonneg y) hy1).mul_right _
  have hle : |Li2 y - ∑ i ∈ Finset.range N, y ^ (i + 1) / ((i : ℝ) + 1) ^ 2| ≤
      (1 - |y|)⁻¹ * (|y| ^ (N + 1) / ((N : ℝ) + 1) ^ 2) := by
    rw [← h.tsum_eq, ← hg.tsum_eq, ← Real.norm_eq_abs]
    refine tsum_of_norm_bounded hg.summable.hasSum fun n => ?_
    rw [norm_div, norm_pow, norm_pow, Real.norm_eq_abs, Real.norm_eq_abs, mul_div_assoc', ← pow_add,
      show n + (N + 1) = n + N + 1 by ring,
      abs_of_nonneg (show (0 : ℝ) ≤ ((n + N : ℕ) : ℝ) + 1 by positivity)]
    refine div_le_div_of_nonneg_left (by positivity) (by positivity) ?_
    refine pow_le_pow_left₀ (by positivity) ?_ 2
    push_cast
    have : (0 : ℝ) ≤ n := by positivity
    linarith
  refine hle.trans ?_
  rw [mul_div_assoc]
  refine mul_le_mul_of_nonneg_right ?_ (by positivity)
  rw [inv_le_comm₀ (by linarith) (by norm_num)]
  linarith

/-- The dilogarithm is at least 3/4 of its argument near zero. -/
theorem Li2_lower {y : ℝ} (hy : |y| ≤ 1 / 2) : 3 / 4 * |y| ≤ |Li2 y| := by
  have h := series_tail hy 1
  simp only [Finset.range_one, Finset.sum_singleton, Nat.cast_zero, zero_add, pow_one, one_pow, div_one,
    Nat.cast_one] at h
  have h1 := abs_sub_abs_le_abs_sub y (Li2 y)
  rw [abs_sub_comm] at h1
  have h2 : 2 * |y| ^ (1 + 1) / (1 + 1) ^ 2 ≤ 1 / 4 * |y| := by
    nlinarith [abs_nonneg y]
  linarith

/-- One step in the list of ranges. -/
theorem piece {A B C s s₁ s₂ : ℝ} {m N : ℕ} (hs : 0 ≤ s) (hA : 0 ≤ A) (hC : 0 ≤ C) (h₁ : s₁ ≤ s) (h₂ : s ≤ s₂)
    (h₃ : s₂ ≤ 1) (hm : (m : ℝ) - 1 < A * s₁ + B) (hN : A * s + B ≤ N) (h : s₂ ^ m ≤ C * ((m : ℝ) + 1) ^ 2) :
    s ^ N ≤ C * ((N : ℝ) + 1) ^ 2 := by
  have hmN : m ≤ N := by
    have : A * s₁ ≤ A * s := mul_le_mul_of_nonneg_left h₁ hA
    have h' : (m : ℝ) < N + 1 := by linarith
    have : m < N + 1 := by exact_mod_cast h'
    omega
  calc s ^ N ≤ s ^ m := pow_le_pow_of_le_one hs (h₂.trans h₃) hmN
    _ ≤ s₂ ^ m := pow_le_pow_left₀ hs h₂ m
    _ ≤ _ := h
    _ ≤ _ := by
      refine mul_le_mul_of_nonneg_left (pow_le_pow_left₀ (by positivity) ?_ 2) hC
      have : (m : ℝ) ≤ N := by exact_mod_cast hmN
      linarith

/-- The formula for the number of terms gives enough of them, for each of the three types. -/
theorem terms_enough {d : ℕ} (hd : d = 24 ∨ d = 53 ∨ d = 64) {s : ℝ} (h0 : 0 ≤ s) (h1 : s ≤ 1 / 2) {N : ℕ}
    (hN : (1.4 * (d : ℝ) + 6 * (1 - log d)) * s + 0.3 * d ≤ N) :
    s ^ N ≤ 3 / 8 * (2 : ℝ)⁻¹ ^ d * ((N : ℝ) + 1) ^ 2 := by
  have l2 := Real.log_two_lt_d9
  rcases hd with rfl | rfl | rfl
  · have hl : log (24 : ℝ) ≤ 3.2158 := by
      have e : log (24 : ℝ) = 5 * log 2 + log (24 / 32) := by
        rw [← log_rpow (by norm_num), ← log_mul (by norm_num) (by norm_num)]
        norm_num
      have := Real.log_le_sub_one_of_pos (show (0 : ℝ) < 24 / 32 by norm_num)
      rw [e]
      linarith
    have hN' : (20.305 : ℝ) * s + 7.2 ≤ N := by
      push_cast at hN
      nlinarith
    have hC : (0 : ℝ) ≤ 3 / 8 * 2⁻¹ ^ 24 := by positivity
    rcases le_total s 0.19 with h | h
    · exact piece (m := 8) h0 (by norm_num) hC h0 h (by norm_num) (by norm_num) hN' (by norm_num)
    rcases le_total s 0.353 with h' | h'
    · exact piece (m := 12) h0 (by norm_num) hC h h' (by norm_num) (by norm_num) hN' (by norm_num)
    rcases le_total s 0.446 with h | h
    · exact piece (m := 15) h0 (by norm_num) hC h' h (by norm_num) (by norm_num) hN' (by norm_num)
    rcases le_total s 0.498 with h' | h'
    · exact piece (m := 17) h0 (by norm_num) hC h h' (by norm_num) (by norm_num) hN' (by norm_num)
    · exact piece (m := 18) h0 (by norm_num) hC h' h1 (by norm_num) (by norm_num) hN' (by norm_num)
  · have hl : log (53 : ℝ) ≤ 3.98702 := by
      have e : log (53 : ℝ) = 6 * log 2 + log (53 / 64) := by
        rw [← log_rpow (by norm_num), ← log_mul (by norm_num) (by norm_num)]
        norm_num
      have := Real.log_le_sub_one_of_pos (show (0 : ℝ) < 53 / 64 by norm_num)
      rw [e]
      linarith
    have hN' : (56.277 : ℝ) * s + 15.9 ≤ N := by
      push_cast at hN
      nlinarith
    have hC : (0 : ℝ) ≤ 3 / 8 * 2⁻¹ ^ 53 := by positivity
    rcases le_total s 0.134 with h | h
    · exact piece (m := 16) h0 (by norm_num) hC h0 h (by norm_num) (by norm_num) hN' (by norm_num)
    rcases le_total s 0.271 with h' | h'
    · exact piece (m := 24) h0 (by norm_num) hC h h' (by norm_num) (by norm_num) hN' (by norm_num)
    rcases le_total s 0.382 with h | h
    · exact piece (m := 32) h0 (by norm_num) hC h' h (by norm_num) (by norm_num) hN' (by norm_num)
    rcases le_total s 0.449 with h' | h'
    · exact piece (m := 38) h0 (by norm_num) hC h h' (by norm_num) (by norm_num) hN' (by norm_num)
    rcases le_total s 0.487 with h | h
    · exact piece (m := 42) h0 (by norm_num) hC h' h (by norm_num) (by norm_num) hN' (by norm_num)
    · exact piece (m := 44) h0 (by norm_num) hC h h1 (by norm_num) (by norm_num) hN' (by norm_num)
  · have hl : log (64 : ℝ) ≤ 4.15889 := by
      have e : log (64 : ℝ) = 6 * log 2 := by
        rw [← log_rpow (by norm_num)]
        norm_num
      rw [e]
      linarith
    have hN' : (70.646 : ℝ) * s + 19.2 ≤ N := by
      push_cast at hN
      nlinarith
    have hC : (0 : ℝ) ≤ 3 / 8 * 2⁻¹ ^ 64 := by positivity
    rcases le_total s 0.14 with h | h
    · exact piece (m := 20) h0 (by norm_num) hC h0 h (by norm_num) (by norm_num) hN' (by norm_num)
    rcases le_total s 0.277 with h' | h'
    · exact piece (m := 30) h0 (by norm_num) hC h h' (by norm_num) (by norm_num) hN' (by norm_num)
    rcases le_total s 0.377 with h | h
    · exact piece (m := 39) h0 (by norm_num) hC h' h (by norm_num) (by norm_num) hN' (by norm_num)
    rcases le_total s 0.441 with h' | h'
    · exact piece (m := 46) h0 (by norm_num) hC h h' (by norm_num) (by norm_num) hN' (by norm_num)
    rcases le_total s 0.479 with h | h
    · exact piece (m := 51) h0 (by norm_num) hC h' h (by norm_num) (by norm_num) hN' (by norm_num)
    · exact piece (m := 54) h0 (by norm_num) hC h h1 (by norm_num) (by norm_num) hN' (by norm_num)

/-- The truncated series has the relative precision of the type. -/
theorem truncated {d : ℕ} (hd : d = 24 ∨ d = 53 ∨ d = 64) {y : ℝ} (hy : |y| ≤ 1 / 2) :
    |dilogLoop y (dilogNMax d y - 1) 1 0 y - Li2 y| ≤ 2⁻¹ ^ d * |Li2 y| := by
  set N := dilogNMax d y - 1 with hNd
  have hN : (1.4 * (d : ℝ) + 6 * (1 - log d)) * |y| + 0.3 * d ≤ N := by
    rw [hNd, dilogNMax, Nat.add_sub_cancel]
    exact Nat.le_ceil _
  have hl := dilogLoop_eq y N 1 0
  rw [pow_one] at hl
  rw [hl, zero_add]
  have e : ∑ i ∈ Finset.range N, y ^ (1 + i) / ((1 + i : ℕ) : ℝ) ^ 2 =
      ∑ i ∈ Finset.range N, y ^ (i + 1) / ((i : ℝ) + 1) ^ 2 := by
    refine Finset.sum_congr rfl fun i _ => ?_
    push_cast
    rw [add_comm 1 i, add_comm (1 : ℝ)]
  rw [e, abs_sub_comm]
  refine (series_tail hy N).trans ?_
  have h1 := terms_enough hd (abs_nonneg y) hy hN
  have h2 := Li2_lower hy
  have hpos : (0 : ℝ) < ((N : ℝ) + 1) ^ 2 := by positivity
  have hp : (0 : ℝ) < 2⁻¹ ^ d := by positivity
  calc 2 * |y| ^ (N + 1) / ((N : ℝ) + 1) ^ 2
      = 2 * |y| * (|y| ^ N / ((N : ℝ) + 1) ^ 2) := by rw [pow_succ]; ring
    _ ≤ 2 * |y| * (3 / 8 * 2⁻¹ ^ d) := by
      refine mul_le_mul_of_nonneg_left ?_ (by positivity)
      rwa [div_le_iff₀ hpos]
    _ = 2⁻¹ ^ d * (3 / 4 * |y|) := by ring
    _ ≤ _ := mul_le_mul_of_nonneg_left h2 hp.le

/-- The dilogarithm of a reduced argument is at most 5/8. -/
theorem Li2_upper {y : ℝ} (hy : |y| ≤ 1 / 2) : |Li2 y| ≤ 5 / 8 := by
  have h := series_tail hy 1
  simp only [Finset.range_one, Finset.sum_singleton, Nat.cast_zero, zero_add, pow_one, one_pow, div_one,
    Nat.cast_one] at h
  have h1 := abs_sub_abs_le_abs_sub (Li2 y) y
  have h2 : 2 * |y| ^ (1 + 1) / (1 + 1) ^ 2 ≤ 1 / 8 := by
    nlinarith [abs_nonneg y]
  linarith

end Sidis.Lemmas
