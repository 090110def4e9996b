import Mathlib.MeasureTheory.Function.JacobianOneDim
import Mathlib.MeasureTheory.Integral.Lebesgue.Basic
import Verif.Lemmas.CutSample

/-! # Change of variables for one sampled variable -/

namespace Sidis

open Spec VarMap MeasureTheory Set
open scoped ENNReal

/-- A bound with finite ends which the map samples. -/
def Sampled (t : VarMap Fl) (b : Bound) : Prop :=
  ∃ lo hi X J, b = ⟨.fin lo, .fin hi⟩ ∧ Samples t lo hi X J

theorem sampled_of {t : VarMap Fl} {b : Bound} {l u : ℝ}
    (hs : ∀ y, b.contains y → Fl.fin l ≤ y ∧ y ≤ .fin u)
    (hsam : ∀ lo hi, lo ≤ hi → l ≤ lo → hi ≤ u → ∃ X J, Samples t lo hi X J) {x : Fl}
    (hx : b.contains x) : Sampled t b := by
  obtain ⟨lo, hi, e, k1, -, -, k2, k3⟩ := finite_ends hx hs
  obtain ⟨X, J, S⟩ := hsam lo hi k3 k1 k2
  exact ⟨lo, hi, X, J, e, S⟩

/-- Substitution for one map with finite bounds. -/
theorem samples_lintegral {t : VarMap Fl} {lo hi : ℝ} {X J : ℝ → ℝ} (S : Samples t lo hi X J)
    (g : ℝ → ℝ≥0∞) :
    ∫⁻ p in Icc (0 : ℝ) 1, ENNReal.ofReal (J p) * g (X p) = ∫⁻ v in Icc lo hi, g v := by
  have hle : lo ≤ hi := by
    rw [← S.zero, ← S.one]; exact S.mono 0 1 le_rfl zero_le_one le_rfl
  rcases hle.lt_or_eq with h | h
  · have hmono : StrictMonoOn X (Icc 0 1) := by
      refine strictMonoOn_of_deriv_pos (convex_Icc 0 1)
        (fun p hp => (S.deriv p hp.1 hp.2).continuousAt.continuousWithinAt) fun p hp => ?_
      rw [interior_Icc] at hp
      rw [(S.deriv p hp.1.le hp.2.le).deriv]
      exact S.jac_pos h p hp.1.le hp.2.le
    have himg : X '' Icc 0 1 = Icc lo hi := by
      ext v
      constructor
      · rintro ⟨p, hp, rfl⟩
        exact ⟨S.zero ▸ S.mono 0 p le_rfl hp.1 hp.2, S.one ▸ S.mono p 1 hp.1 hp.2 le_rfl⟩
      · rintro ⟨h1, h2⟩
        obtain ⟨p, a, b, e⟩ := S.onto v h1 h2
        exact ⟨p, ⟨a, b⟩, e⟩
    rw [← himg, lintegral_image_eq_lintegral_abs_deriv_mul measurableSet_Icc
      (fun p hp => (S.deriv p hp.1 hp.2).hasDerivWithinAt) hmono.injOn]
    refine setLIntegral_congr_fun measurableSet_Icc fun p hp => ?_
    rw [abs_of_nonneg (S.jac_nonneg p hp.1 hp.2)]
  · have hX : ∀ p ∈ Icc (0 : ℝ) 1, X p = lo := fun p hp =>
      le_antisymm (by rw [h, ← S.one]; exact S.mono p 1 hp.1 hp.2 le_rfl)
        (by rw [← S.zero]; exact S.mono 0 p le_rfl hp.1 hp.2)
    have hJ : ∀ p ∈ Icc (0 : ℝ) 1, J p = 0 := fun p hp => by
      have h1 : HasDerivWithinAt X (J p) (Icc 0 1) p := (S.deriv p hp.1 hp.2).hasDerivWithinAt
      have h2 : HasDerivWithinAt X 0 (Icc 0 1) p :=
        (hasDerivWithinAt_const p (Icc 0 1) lo).congr hX (hX p hp)
      exact (uniqueDiffOn_Icc zero_lt_one p hp).eq_deriv _ h1 h2
    have h1 : ∫⁻ p in Icc (0 : ℝ) 1, ENNReal.ofReal (J p) * g (X p) = 0 := by
      rw [setLIntegral_congr_fun (g := fun _ => 0) measurableSet_Icc fun p hp => by
        simp only [hJ p hp, ENNReal.ofReal_zero, zero_mul]]
      simp
    have h2 : volume (Icc lo hi) = 0 := by rw [← h]; simp
    rw [h1, setLIntegral_measure_zero _ _ h2]

/-- One level of the sampling: `Φ` is the rest of the average as a function of the variable and its
jacobian, `g` the rest of the integral, `A` the values which can be completed to a valid point. -/
theorem axis_lintegral {t : VarMap Fl} {b : Bound} {A : ℝ → Prop}
    (hA : ∀ v, A v → b.contains (.fin v) ∧ Sampled t b) {Φ : Fl → Fl → ℝ≥0∞} {g : ℝ → ℝ≥0∞}
    (hinf : ∀ x j, ¬ x.isFinite → Φ x j = 0) (hout : ∀ v j, ¬ A v → Φ (.fin v) j = 0)
    (hin : ∀ v j, A v → 0 ≤ j → Φ (.fin v) (.fin j) = ENNReal.ofReal j * g v)
    (hg : ∀ v, ¬ A v → g v = 0) :
    ∫⁻ p in Icc (0 : ℝ) 1, Φ (t.apply (.fin p) b).1 (t.apply (.fin p) b).2 = ∫⁻ v, g v := by
  classical
  by_cases h : ∃ v, A v
  · obtain ⟨v₀, h₀⟩ := h
    obtain ⟨-, lo, hi, X, J, rfl, S⟩ := hA v₀ h₀
    have e1 : ∫⁻ p in Icc (0 : ℝ) 1, Φ (t.apply (.fin p) ⟨.fin lo, .fin hi⟩).1
        (t.apply (.fin p) ⟨.fin lo, .fin hi⟩).2 = ∫⁻ p in Icc (0 : ℝ) 1, ENNReal.ofReal (J p) * g (X p) := by
      refine setLIntegral_congr_fun measurableSet_Icc fun p hp => ?_
      rw [S.eq p hp.1 hp.2]
      by_cases hX : A (X p)
      · exact hin _ _ hX (S.jac_nonneg p hp.1 hp.2)
      · simp only [hout _ _ hX, hg _ hX, mul_zero]
    rw [e1, samples_lintegral S, ← lintegral_indicator measurableSet_Icc]
    congr 1
    ext v
    by_cases hv : v ∈ Icc lo hi
    · rw [indicator_of_mem hv]
    · rw [indicator_of_notMem hv, hg]
      intro hAv
      exact hv (hA v hAv).1
  · push Not at h
    have e1 : ∀ p : ℝ, Φ (t.apply (.fin p) b).1 (t.apply (.fin p) b).2 = 0 := fun p => by
      cases hx : (t.apply (.fin p) b).1 with
      | fin v => exact hout _ _ (h v)
      | _ => exact hinf _ _ (by simp)
    have e2 : ∀ v, g v = 0 := fun v => hg v (h v)
    simp [e1, e2]

/-- The same for a variable whose bound is always sampled. -/
theorem axis_lintegral_all {t : VarMap Fl} {b : Bound} (hb : Sampled t b) {Φ : Fl → Fl → ℝ≥0∞}
    {g : ℝ → ℝ≥0∞}
    (hin : ∀ v j, b.contains (.fin v) → 0 ≤ j → Φ (.fin v) (.fin j) = ENNReal.ofReal j * g v) :
    ∫⁻ p in Icc (0 : ℝ) 1, Φ (t.apply (.fin p) b).1 (t.apply (.fin p) b).2 =
      ∫⁻ v in {v | b.contains (.fin v)}, g v := by
  obtain ⟨lo, hi, X, J, rfl, S⟩ := hb
  have e1 : ∫⁻ p in Icc (0 : ℝ) 1, Φ (t.apply (.fin p) ⟨.fin lo, .fin hi⟩).1
      (t.apply (.fin p) ⟨.fin lo, .fin hi⟩).2 = ∫⁻ p in Icc (0 : ℝ) 1, ENNReal.ofReal (J p) * g (X p) := by
    refine setLIntegral_congr_fun measurableSet_Icc fun p hp => ?_
    rw [S.eq p hp.1 hp.2]
    exact hin _ _ ⟨by rw [← S.zero]; exact S.mono 0 p le_rfl hp.1 hp.2,
      by rw [← S.one]; exact S.mono p 1 hp.1 hp.2 le_rfl⟩ (S.jac_nonneg p hp.1 hp.2)
  rw [e1, samples_lintegral S]
  rfl

end Sidis
