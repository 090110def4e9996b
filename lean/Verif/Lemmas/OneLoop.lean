import Verif.Model.CrossSection
import Verif.Lemmas.Kinematics
import Mathlib.Analysis.SpecialFunctions.Integrals.Basic
import Mathlib.MeasureTheory.Integral.IntervalIntegral.FundThmCalculus
import Mathlib.MeasureTheory.Integral.IntervalIntegral.IntegrationByParts
import Mathlib.Analysis.SpecialFunctions.Log.Deriv

/-! # One-loop integrals -/

namespace Sidis

open Real intervalIntegral

/-- `√(1 + 4 m² / Q²)` -/
noncomputable def loopD (Q m : ℝ) : ℝ := √(1 + 4 * m ^ 2 / Q)

theorem loopD_sq {Q m : ℝ} (hQ : 0 < Q) : loopD Q m ^ 2 = 1 + 4 * m ^ 2 / Q := by
  rw [loopD, Real.sq_sqrt (by positivity)]

theorem loopD_gt {Q m : ℝ} (hQ : 0 < Q) (hm : 0 < m) : 1 < loopD Q m := by
  rw [loopD, Real.lt_sqrt (by norm_num)]
  have : 0 < 4 * m ^ 2 / Q := by positivity
  linarith

theorem logM_eq {Q m : ℝ} (hQ : 0 < Q) (hm : 0 < m) :
    Q * loopD Q m * logM Q m = log ((loopD Q m + 1) / (loopD Q m - 1)) := by
  have hd := loopD_gt hQ hm
  have e2 := loopD_sq (Q := Q) (m := m) hQ
  have es : √(Q * (Q + 4 * sq m)) = Q * loopD Q m := by
    rw [show Q * (Q + 4 * sq m) = (Q * loopD Q m) ^ 2 by
      rw [mul_pow, e2, Sidis.sq]; field_simp]
    exact Real.sqrt_sq (by have := hd; positivity)
  have ed : sqrt1p1mR ((4 * sq m) / Q) = loopD Q m - 1 := by
    rw [sqrt1p1mR_eq (by have : 0 ≤ 4 * sq m / Q := by (unfold Sidis.sq; positivity)
                         linarith), loopD, Sidis.sq, pow_two]
  simp only [logM]
  rw [es, ed]
  have : Q * loopD Q m ≠ 0 := by positivity
  rw [show 2 + (loopD Q m - 1) = loopD Q m + 1 by ring]
  field_simp

theorem denom_pos {Q m x : ℝ} (hQ : 0 < Q) (hm : 0 < m) (hx : x ∈ Set.Icc (0 : ℝ) 1) :
    0 < m ^ 2 + Q * (x * (1 - x)) := by
  have : 0 ≤ x * (1 - x) := mul_nonneg hx.1 (by linarith [hx.2])
  positivity

theorem log_deriv_d {Q m x : ℝ} (hQ : 0 < Q) (hm : 0 < m) (hx : x ∈ Set.Icc (0 : ℝ) 1) :
    HasDerivAt (fun x => log (loopD Q m + (2 * x - 1)) - log (loopD Q m - (2 * x - 1)))
      (4 * loopD Q m / (loopD Q m ^ 2 - (2 * x - 1) ^ 2)) x := by
  have hd := loopD_gt hQ hm
  have a : loopD Q m + (2 * x - 1) ≠ 0 := by linarith [hx.1] |> fun (h : 0 < _) => h.ne'
  have b : loopD Q m - (2 * x - 1) ≠ 0 := by linarith [hx.2] |> fun (h : 0 < _) => h.ne'
  have d1 : HasDerivAt (fun x => loopD Q m + (2 * x - 1)) 2 x := by
    simpa using ((hasDerivAt_id x).const_mul 2 |>.sub_const 1).const_add (loopD Q m)
  have d2 : HasDerivAt (fun x => loopD Q m - (2 * x - 1)) (-2) x := by
    simpa using ((hasDerivAt_id x).const_mul 2 |>.sub_const 1).const_sub (loopD Q m)
  refine ((d1.log a).sub (d2.log b)).congr_deriv ?_
  rw [show loopD Q m ^ 2 - (2 * x - 1) ^ 2 = (loopD Q m + (2 * x - 1)) * (loopD Q m - (2 * x - 1)) by ring]
  field_simp
  ring

/-- `∫ dx / (m² + Q² x (1 - x)) = 2 L_m` -/
theorem integral_denom {Q m : ℝ} (hQ : 0 < Q) (hm : 0 < m) :
    ∫ x in (0 : ℝ)..1, 1 / (m ^ 2 + Q * (x * (1 - x))) = 2 * logM Q m := by
  have hd := loopD_gt hQ hm
  have hd0 : loopD Q m ≠ 0 := by linarith |> fun (h : 0 < _) => h.ne'
  have e2 := loopD_sq (Q := Q) (m := m) hQ
  have hl := logM_eq hQ hm
  have key : ∀ x, m ^ 2 + Q * (x * (1 - x)) = Q / 4 * (loopD Q m ^ 2 - (2 * x - 1) ^ 2) := fun x => by
    rw [e2]; field_simp; ring
  have h := integral_eq_sub_of_hasDerivAt (a := 0) (b := 1)
    (f := fun x => (1 / (Q * loopD Q m)) * (log (loopD Q m + (2 * x - 1)) - log (loopD Q m - (2 * x - 1))))
    (f' := fun x => 1 / (m ^ 2 + Q * (x * (1 - x)))) (fun x hx => ?_) ?_
  · rw [h]
    have l : log ((loopD Q m + 1) / (loopD Q m - 1)) = log (loopD Q m + 1) - log (loopD Q m - 1) :=
      log_div (by linarith |> fun (h : 0 < _) => h.ne') (by linarith |> fun (h : 0 < _) => h.ne')
    rw [l] at hl
    have : logM Q m = 1 / (Q * loopD Q m) * (log (loopD Q m + 1) - log (loopD Q m - 1)) := by
      rw [← hl]; field_simp
    rw [this]
    norm_num
    rw [show loopD Q m + -1 = loopD Q m - 1 by ring]
    ring
  · rw [Set.uIcc_of_le zero_le_one] at hx
    refine ((log_deriv_d hQ hm hx).const_mul (1 / (Q * loopD Q m))).congr_deriv ?_
    rw [key]
    have hp := denom_pos hQ hm hx
    rw [key] at hp
    have : loopD Q m ^ 2 - (2 * x - 1) ^ 2 ≠ 0 := fun h0 => by rw [h0] at hp; simp at hp
    field_simp
  · refine ContinuousOn.intervalIntegrable fun x hx => ?_
    rw [Set.uIcc_of_le zero_le_one] at hx
    have := (denom_pos hQ hm hx).ne'
    exact ContinuousAt.continuousWithinAt (by fun_prop (disch := exact this))

/-- The Feynman parameter integral of the Pauli form factor. -/
theorem integral_pauli {Q m : ℝ} (hQ : 0 < Q) (hm : 0 < m) :
    ∫ z in (0 : ℝ)..1, ∫ y in (0 : ℝ)..(1 - z),
      2 * m ^ 2 * (z * (1 - z)) / (m ^ 2 * (1 - z) ^ 2 + Q * (y * (1 - z - y))) = 2 * m ^ 2 * logM Q m := by
  have inner : ∀ z : ℝ, z ≠ 1 → ∫ y in (0 : ℝ)..(1 - z),
      2 * m ^ 2 * (z * (1 - z)) / (m ^ 2 * (1 - z) ^ 2 + Q * (y * (1 - z - y))) =
        2 * z * (2 * m ^ 2 * logM Q m) := fun z hz => by
    have hz' : 1 - z ≠ 0 := fun h => hz (by linarith)
    have h := integral_comp_mul_left (a := 0) (b := 1) (c := 1 - z)
      (fun y => 2 * m ^ 2 * (z * (1 - z)) / (m ^ 2 * (1 - z) ^ 2 + Q * (y * (1 - z - y)))) hz'
    rw [mul_zero, mul_one, smul_eq_mul] at h
    have h' : ∫ y in (0 : ℝ)..(1 - z),
      2 * m ^ 2 * (z * (1 - z)) / (m ^ 2 * (1 - z) ^ 2 + Q * (y * (1 - z - y))) = (1 - z) *
        ∫ t in (0 : ℝ)..1, 2 * m ^ 2 * (z * (1 - z)) /
          (m ^ 2 * (1 - z) ^ 2 + Q * ((1 - z) * t * (1 - z - (1 - z) * t))) := by
      rw [h]; field_simp
    rw [h', show 2 * z * (2 * m ^ 2 * logM Q m) = 2 * z * (m ^ 2 * (2 * logM Q m)) by ring,
      ← integral_denom hQ hm]
    rw [← integral_const_mul, ← integral_const_mul, ← integral_const_mul]
    refine integral_congr fun t ht => ?_
    rw [Set.uIcc_of_le zero_le_one] at ht
    have hp := (denom_pos hQ hm ht).ne'
    rw [show m ^ 2 * (1 - z) ^ 2 + Q * ((1 - z) * t * (1 - z - (1 - z) * t)) =
      (1 - z) ^ 2 * (m ^ 2 + Q * (t * (1 - t))) by ring]
    field_simp
  have : ∫ z in (0 : ℝ)..1, ∫ y in (0 : ℝ)..(1 - z),
      2 * m ^ 2 * (z * (1 - z)) / (m ^ 2 * (1 - z) ^ 2 + Q * (y * (1 - z - y))) =
      ∫ z in (0 : ℝ)..1, 2 * z * (2 * m ^ 2 * logM Q m) := by
    refine integral_congr_ae ?_
    filter_upwards [(Set.countable_singleton (1 : ℝ)).ae_notMem MeasureTheory.volume] with z hz _
    exact inner z hz
  rw [this, integral_mul_const, integral_const_mul, integral_id]
  ring

/-- The integral of the vacuum polarisation. -/
theorem integral_vac {Q m : ℝ} (hQ : 0 < Q) (hm : 0 < m) :
    4 * ∫ x in (0 : ℝ)..1, x * (1 - x) * log (1 + Q * (x * (1 - x)) / m ^ 2) = deltaVacLepTerm Q m := by
  have hd := loopD_gt hQ hm
  have hd0 : loopD Q m ≠ 0 := by linarith |> fun (h : 0 < _) => h.ne'
  have e2 := loopD_sq (Q := Q) (m := m) hQ
  have hl := logM_eq hQ hm
  have key : ∀ x, 1 + Q * (x * (1 - x)) / m ^ 2 =
      Q / (4 * m ^ 2) * (loopD Q m ^ 2 - (2 * x - 1) ^ 2) := fun x => by
    rw [e2]; field_simp; ring
  have hpos : ∀ x ∈ Set.Icc (0 : ℝ) 1, 0 < 1 + Q * (x * (1 - x)) / m ^ 2 := fun x hx => by
    have : 0 ≤ x * (1 - x) := mul_nonneg hx.1 (by linarith [hx.2])
    positivity
  have h := integral_eq_sub_of_hasDerivAt (a := 0) (b := 1)
    (f := fun x => ((2 * x - 1) - (2 * x - 1) ^ 3 / 3) / 8 * log (1 + Q * (x * (1 - x)) / m ^ 2)
      + 1 / 4 * ((2 * x - 1) ^ 3 / 9 + (loopD Q m ^ 2 / 3 - 1) * (2 * x - 1)
        + (loopD Q m - loopD Q m ^ 3 / 3) / 2 *
          (log (loopD Q m + (2 * x - 1)) - log (loopD Q m - (2 * x - 1)))))
    (f' := fun x => x * (1 - x) * log (1 + Q * (x * (1 - x)) / m ^ 2)) (fun x hx => ?_) ?_
  · rw [h]
    have l : log ((loopD Q m + 1) / (loopD Q m - 1)) = log (loopD Q m + 1) - log (loopD Q m - 1) :=
      log_div (by linarith |> fun (h : 0 < _) => h.ne') (by linarith |> fun (h : 0 < _) => h.ne')
    rw [l] at hl
    have e3 : loopD Q m ^ 3 = loopD Q m * (1 + 4 * m ^ 2 / Q) := by rw [← e2]; ring
    simp only [deltaVacLepTerm, Sidis.sq]
    norm_num
    rw [show loopD Q m + -1 = loopD Q m - 1 by ring, e3, e2]
    have hs : log (loopD Q m + 1) = Q * loopD Q m * logM Q m + log (loopD Q m - 1) := by rw [hl]; ring
    rw [hs]
    have e2' : loopD Q m * loopD Q m = 1 + 4 * m ^ 2 / Q := by rw [← e2]; ring
    field_simp
    field_simp at e2
    linear_combination (logM Q m * (36 * Q - 72 * m ^ 2)) * e2
  · rw [Set.uIcc_of_le zero_le_one] at hx
    have hp := hpos x hx
    have d0 : HasDerivAt (fun x : ℝ => 2 * x - 1) 2 x := by
      simpa using (hasDerivAt_id x).const_mul 2 |>.sub_const 1
    have d1 : HasDerivAt (fun x : ℝ => 1 + Q * (x * (1 - x)) / m ^ 2) (Q * (1 - 2 * x) / m ^ 2) x := by
      have := ((((hasDerivAt_id x).mul ((hasDerivAt_id x).const_sub 1)).const_mul Q).div_const (m ^ 2)).const_add 1
      refine this.congr_deriv ?_
      simp; ring
    have d2 := d1.log hp.ne'
    have d3 := log_deriv_d hQ hm hx
    have d4 := (d0.sub ((d0.pow 3).div_const 3)).div_const 8
    have := (d4.mul d2).add (((((d0.pow 3).div_const 9).add (d0.const_mul (loopD Q m ^ 2 / 3 - 1))).add
      (d3.const_mul ((loopD Q m - loopD Q m ^ 3 / 3) / 2))).const_mul (1 / 4))
    refine this.congr_deriv ?_
    have hp' := hp
    rw [key] at hp'
    have hn : loopD Q m ^ 2 - (2 * x - 1) ^ 2 ≠ 0 := fun h0 => by rw [h0] at hp'; simp at hp'
    rw [key x]
    generalize log (Q / (4 * m ^ 2) * (loopD Q m ^ 2 - (2 * x - 1) ^ 2)) = lg
    simp
    field_simp
    ring
  · refine ContinuousOn.intervalIntegrable fun x hx => ?_
    rw [Set.uIcc_of_le zero_le_one] at hx
    have := (hpos x hx).ne'
    exact ContinuousAt.continuousWithinAt (by fun_prop (disch := first | exact this | positivity))

end Sidis
