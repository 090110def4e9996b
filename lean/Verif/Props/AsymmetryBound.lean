import Verif.Props.Asymmetry
import Verif.Props.Positive

/-! # C113: asymmetries of at most one -/

namespace Sidis.Props

open Spec Asym Azimuth

/-- The average of a sum of harmonics over a turn. -/
theorem average_harmonics (A B C : ℝ) (s c : Fin 5 → ℝ) (k : Fin 5 → ℤ) :
    ∫ t in -Real.pi..Real.pi, (A + B * Real.cos t + C * Real.cos (2 * t) + ∑ i, s i * Real.sin (k i * t + c i)) =
      2 * Real.pi * (A + ∑ i, if k i = 0 then s i * Real.sin (c i) else 0) := by
  have e : ∀ t : ℝ, A + B * Real.cos t + C * Real.cos (2 * t) + ∑ i, s i * Real.sin (k i * t + c i) =
      A * Real.cos ((0 : ℤ) * t + 0) + B * Real.cos ((1 : ℤ) * t + 0) + C * Real.cos ((2 : ℤ) * t + 0)
        + ∑ i, s i * Real.cos (k i * t + (c i - Real.pi / 2)) := by
    intro t
    have h : ∀ i, Real.cos (k i * t + (c i - Real.pi / 2)) = Real.sin (k i * t + c i) := fun i => by
      rw [← Real.cos_sub_pi_div_two]
      congr 1
      ring
    simp [h]
  have hc : ∀ (D : ℝ) (n : ℤ) (d : ℝ), IntervalIntegrable (fun t => D * Real.cos (n * t + d))
      MeasureTheory.volume (-Real.pi) Real.pi := fun D n d => (cos_cont n d).const_mul D
  have hs : IntervalIntegrable (fun t => ∑ i, s i * Real.cos (k i * t + (c i - Real.pi / 2)))
      MeasureTheory.volume (-Real.pi) Real.pi :=
    (by fun_prop : Continuous fun t : ℝ => ∑ i, s i * Real.cos (k i * t + (c i - Real.pi / 2))).intervalIntegrable
      _ _
  simp_rw [e]
  rw [intervalIntegral.integral_add (((hc _ _ _).add (hc _ _ _)).add (hc _ _ _)) hs,
    intervalIntegral.integral_add ((hc _ _ _).add (hc _ _ _)) (hc _ _ _),
    intervalIntegral.integral_add (hc _ _ _) (hc _ _ _), intervalIntegral.integral_finset_sum
      (fun i _ => hc _ _ _)]
  simp only [intervalIntegral.integral_const_mul, integral_cos_turn, Real.cos_sub_pi_div_two]
  simp only [if_true, Int.reduceEq, if_false, one_ne_zero, Real.cos_zero, mul_zero, add_zero, mul_one]
  rw [mul_add, Finset.mul_sum]
  congr 1
  · ring
  · refine Finset.sum_congr rfl fun i _ => ?_
    split_ifs <;> ring

/-- The five amplitudes of the transversely polarised part. -/
noncomputable def amplitudes (w : PhotonWeights) (F : SfValues) : Fin 5 → ℝ :=
  ![F.UTT_sin_h_m_S + w.long * F.UTL_sin_h_m_S, w.trans * F.UT_sin_h_p_S, w.trans * F.UT_sin_3h_m_S,
    w.mixed * F.UT_sin_S, w.mixed * F.UT_sin_2h_m_S]

theorem angular_sum (w : PhotonWeights) (F : SfValues) (t u : ℝ) :
    angular w F t u 0 0 1 = w.norm * (F.UUT + w.long * F.UUL + w.mixed * F.UU_cos_h * Real.cos t
      + w.trans * F.UU_cos_2h * Real.cos (2 * t) + ∑ i, amplitudes w F i *
        Real.sin ((![-1, 1, -1, 1, -1] i : ℝ) * u + (![1, 1, 3, 0, 2] i : ℝ) * t)) := by
  simp only [Fin.sum_univ_five, amplitudes, angular, Matrix.cons_val]
  rw [show (-1 : ℝ) * u + 1 * t = t - u by ring, show (1 : ℝ) * u + 1 * t = t + u by ring,
    show (-1 : ℝ) * u + 3 * t = 3 * t - u by ring, show (1 : ℝ) * u + 0 * t = u by ring,
    show (-1 : ℝ) * u + 2 * t = 2 * t - u by ring]
  ring

/-- In a cross-section that is nowhere negative, no amplitude is greater than the unpolarised part. -/
theorem amplitude_le (w : PhotonWeights) (F : SfValues) (hN : 0 < w.norm)
    (h : ∀ t u, 0 ≤ angular w F t u 0 0 1) (j : Fin 5) : |amplitudes w F j| ≤ F.UUT + w.long * F.UUL := by
  -- signs and coefficients of the azimuths
  let n : Fin 5 → ℤ := ![-1, 1, -1, 1, -1]
  let m : Fin 5 → ℤ := ![1, 1, 3, 0, 2]
  have key : ∀ ψ : ℝ, 0 ≤ F.UUT + w.long * F.UUL
      + ∑ i, if m i - n i * n j * m j = 0 then amplitudes w F i * Real.sin (n i * n j * ψ) else 0 := by
    intro ψ
    have hi : 0 ≤ ∫ t in -Real.pi..Real.pi, (F.UUT + w.long * F.UUL + w.mixed * F.UU_cos_h * Real.cos t
        + w.trans * F.UU_cos_2h * Real.cos (2 * t)
        + ∑ i, amplitudes w F i * Real.sin ((m i - n i * n j * m j : ℤ) * t + n i * n j * ψ)) := by
      refine intervalIntegral.integral_nonneg (by linarith [Real.pi_pos]) fun t _ => ?_
      have h1 := h t (n j * (ψ - m j * t))
      rw [angular_sum] at h1
      have h2 := nonneg_of_mul_nonneg_right h1 hN
      convert h2 using 4 with i
      congr 2
      fin_cases i <;> simp [n, m] <;> ring
    rw [average_harmonics] at hi
    have h3 := nonneg_of_mul_nonneg_right hi (by linarith [Real.pi_pos])
    exact h3
  have k1 := key (Real.pi / 2)
  have k2 := key (-(Real.pi / 2))
  rw [abs_le]
  fin_cases j <;>
    simp [Fin.sum_univ_five, n, m, Real.sin_neg] at k1 k2 ⊢ <;> constructor <;> linarith

theorem harmonic_le (w : PhotonWeights) (F : SfValues) (hN : 0 < w.norm)
    (h : ∀ t u, 0 ≤ angular w F t u 0 0 1) (a b c : ℤ) (hU : F.UUT + w.long * F.UUL ≠ 0) :
    |harmonic w F a b c| ≤ 1 := by
  have hA := amplitude_le w F hN h
  have hU0 : 0 < F.UUT + w.long * F.UUL :=
    lt_of_le_of_ne ((abs_nonneg _).trans (hA 0)) (Ne.symm hU)
  unfold harmonic
  dsimp only
  rw [abs_div, abs_of_pos hU0, div_le_one hU0, abs_mul]
  refine le_trans (mul_le_of_le_one_left (abs_nonneg _) (Real.abs_cos_le_one _)) ?_
  have h0 := hA 0
  have h1 := hA 1
  have h2 := hA 2
  have h3 := hA 3
  have h4 := hA 4
  simp only [amplitudes, Matrix.cons_val] at h0 h1 h2 h3 h4
  simp only [Prod.mk.injEq]
  split_ifs <;> first
    | omega
    | (simp only [sub_zero, zero_sub, abs_neg, abs_zero]; first | assumption | exact hU0.le)

variable (E : Env) (ps : Particles ℝ) (S x y z ph_t_sq : ℝ)

/-- C113: with an exact integrator, at a physical point, and for structure functions of positive probabilities,
every transverse asymmetry that `ut_asym` returns without radiative corrections is between -1 and 1. -/
theorem c113_born (hE : Exact E.integ) (hp : Physical ps S ⟨x, y, z, ph_t_sq, 0, 0⟩) (hm : 0 < ps.m)
    (hpt : 0 < ph_t_sq) (hpl : ph_t_sq + ps.mh ^ 2 < (z * (S * y) / (2 * ps.M)) ^ 2)
    (hα : (E.phenom (S * x * y)).alpha_qed ≠ 0)
    (hF : Realisable (.at E.sf ps.hadron x z (S * x * y) ph_t_sq)) (a b c : ℤ) :
    let w := massiveWeights (E.phenom (S * x * y)).alpha_qed ps.M ps.m S x y (S * x * y)
    let F := SfValues.at E.sf ps.hadron x z (S * x * y) ph_t_sq
    F.UUT + w.long * F.UUL ≠ 0 →
    ∃ A : ℝ, (utAsym E ps S x y z ph_t_sq a b c false).val = .fin A ∧ |A| ≤ 1 := by
  intro w F hU
  refine ⟨_, c62_harmonics E ps S x y z ph_t_sq hE hp hpt hpl hα a b c hU, ?_⟩
  refine harmonic_le _ _ (massive_norm_pos (pt := ⟨x, y, z, ph_t_sq, 0, 0⟩) hp hα) (fun t u => ?_) a b c hU
  have hp' : Physical ps S ⟨x, y, z, ph_t_sq, t, 0⟩ :=
    ⟨hp.M_pos, hp.m_nonneg, hp.beam, hp.x_pos, hp.y_pos, hp.z_pos, hp.ph_t_sq_nonneg, hp.lepton, hp.hadron⟩
  rw [← c72_textbook hp' hpt hpl (E.phenom (S * x * y)) E.sf 0 0 1 u]
  refine c92_born hp' hm hpt _ _ (by simp) ?_ hF
  simp only [eucl]
  nlinarith [Real.sin_sq_add_cos_sq (u - t)]

/-- C113: in particular the Sivers and the Collins asymmetry. -/
theorem c113_sivers_collins (hE : Exact E.integ) (hp : Physical ps S ⟨x, y, z, ph_t_sq, 0, 0⟩) (hm : 0 < ps.m)
    (hpt : 0 < ph_t_sq) (hpl : ph_t_sq + ps.mh ^ 2 < (z * (S * y) / (2 * ps.M)) ^ 2)
    (hα : (E.phenom (S * x * y)).alpha_qed ≠ 0)
    (hF : Realisable (.at E.sf ps.hadron x z (S * x * y) ph_t_sq)) :
    let w := massiveWeights (E.phenom (S * x * y)).alpha_qed ps.M ps.m S x y (S * x * y)
    let F := SfValues.at E.sf ps.hadron x z (S * x * y) ph_t_sq
    F.UUT + w.long * F.UUL ≠ 0 →
    (∃ A : ℝ, (sivers E ps S x y z ph_t_sq false).val = .fin A ∧ |A| ≤ 1) ∧
    ∃ A : ℝ, (collins E ps S x y z ph_t_sq false).val = .fin A ∧ |A| ≤ 1 := fun hU =>
  ⟨c113_born E ps S x y z ph_t_sq hE hp hm hpt hpl hα hF (-1) 1 0 hU,
    c113_born E ps S x y z ph_t_sq hE hp hm hpt hpl hα hF 1 1 0 hU⟩

/-- Structure functions with a Sivers effect. -/
noncomputable def siversSf : SfFuns where
  F_UUL _ _ _ _ _ := 0
  F_UUT _ _ _ _ _ := 1
  F_UU_cos_phih _ _ _ _ _ := 0
  F_UU_cos_2phih _ _ _ _ _ := 0
  F_UL_sin_phih _ _ _ _ _ := 0
  F_UL_sin_2phih _ _ _ _ _ := 0
  F_UTL_sin_phih_m_phis _ _ _ _ _ := 0
  F_UTT_sin_phih_m_phis _ _ _ _ _ := 1
  F_UT_sin_2phih_m_phis _ _ _ _ _ := 0
  F_UT_sin_3phih_m_phis _ _ _ _ _ := 0
  F_UT_sin_phis _ _ _ _ _ := 0
  F_UT_sin_phih_p_phis _ _ _ _ _ := 0
  F_LU_sin_phih _ _ _ _ _ := 0
  F_LL _ _ _ _ _ := 0
  F_LL_cos_phih _ _ _ _ _ := 0
  F_LT_cos_phih_m_phis _ _ _ _ _ := 0
  F_LT_cos_2phih_m_phis _ _ _ _ _ := 0
  F_LT_cos_phis _ _ _ _ _ := 0

theorem siversSf_realisable (h : Hadron) (x z Q_sq ph_t_sq : ℝ) :
    Realisable (.at siversSf h x z Q_sq ph_t_sq) := by
  intro eta he v
  have hy : eta.y ≤ 1 := by
    simp only [eucl] at he
    nlinarith [mul_self_nonneg eta.x, mul_self_nonneg eta.z, mul_self_nonneg (eta.y - 1)]
  have e : (∑ a, ∑ b, starRingEnd ℂ (v a) *
      photonMatrix (.at siversSf h x z Q_sq ph_t_sq) eta a b * v b).re =
      (1 - eta.y) * ((v 1).re ^ 2 + (v 1).im ^ 2 + (v 2).re ^ 2 + (v 2).im ^ 2) := by
    simp [Fin.sum_univ_three, photonMatrix, SfValues.at, siversSf]
    ring
  rw [e]
  exact mul_nonneg (by linarith) (by positivity)

-- Hypotheses of `c113_born`, and the bound is reached: with these structure functions the Sivers asymmetry is 1.
example : let E : Env := ⟨siversSf, fun _ => ⟨0.0073, 0⟩, exactInteg, fun _ _ => some (1, 0, 0.1, .fin 1)⟩
    let p := samplePt
    Exact E.integ ∧ Physical samplePs 20 ⟨p.x, p.y, p.z, p.ph_t_sq, 0, 0⟩ ∧ 0 < samplePs.m ∧ 0 < p.ph_t_sq ∧
    p.ph_t_sq + samplePs.mh ^ 2 < (p.z * (20 * p.y) / (2 * samplePs.M)) ^ 2 ∧
    (E.phenom (20 * p.x * p.y)).alpha_qed ≠ 0 ∧
    Realisable (.at E.sf samplePs.hadron p.x p.z (20 * p.x * p.y) p.ph_t_sq) ∧
    (sivers E samplePs 20 p.x p.y p.z p.ph_t_sq false).val = .fin 1 := by
  intro E p
  have hp : Physical samplePs 20 ⟨p.x, p.y, p.z, p.ph_t_sq, 0, 0⟩ := by
    have h := sample_physical.2
    exact ⟨h.M_pos, h.m_nonneg, h.beam, h.x_pos, h.y_pos, h.z_pos, h.ph_t_sq_nonneg, h.lepton, h.hadron⟩
  have hpt : 0 < p.ph_t_sq := by norm_num [p, samplePt]
  have hpl : p.ph_t_sq + samplePs.mh ^ 2 < (p.z * (20 * p.y) / (2 * samplePs.M)) ^ 2 := by
    norm_num [p, samplePs, samplePt, Nucleus.mass, Hadron.mass, CMath.ofReal]
  have hα : (E.phenom (20 * p.x * p.y)).alpha_qed ≠ 0 := by norm_num [E]
  refine ⟨exactInteg_exact, hp, by norm_num [samplePs, Lepton.mass, CMath.ofReal], hpt, hpl, hα,
    siversSf_realisable _ _ _ _ _, ?_⟩
  rw [c62_sivers E samplePs 20 p.x p.y p.z p.ph_t_sq exactInteg_exact hp hpt hpl hα
    (by simp [E, SfValues.at, siversSf])]
  simp [E, SfValues.at, siversSf]

end Sidis.Props
