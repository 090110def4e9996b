import Mathlib.MeasureTheory.Function.Jacobian
import Mathlib.MeasureTheory.Measure.Lebesgue.EqHaar
import Mathlib.MeasureTheory.Constructions.Pi
import Mathlib.Analysis.Calculus.Deriv.Pi
import Mathlib.Analysis.SpecialFunctions.Log.Deriv

/-! # Change of variables for a sampler of three variables -/

namespace Sidis

open MeasureTheory

/-- Triples as functions. -/
def tripleEquiv : (Fin 3 → ℝ) ≃ᵐ ℝ × ℝ × ℝ :=
  (MeasurableEquiv.piFinSuccAbove (fun _ : Fin 3 => ℝ) 0).trans
    (MeasurableEquiv.prodCongr (.refl ℝ) MeasurableEquiv.finTwoArrow)

theorem tripleEquiv_apply (v : Fin 3 → ℝ) : tripleEquiv v = (v 0, v 1, v 2) := rfl

theorem measurePreserving_triple : MeasurePreserving tripleEquiv := by
  refine MeasurePreserving.trans (volume_preserving_piFinSuccAbove (fun _ : Fin 3 => ℝ) 0) ?_
  exact (MeasurePreserving.id volume).prod (volume_preserving_finTwoArrow ℝ)

/-- The samplers for three variables, the last depending on the first two. -/
theorem change_of_variables {X0 J0 X1 J1 : ℝ → ℝ} {X2 J2 : (Fin 3 → ℝ) → ℝ} {s : Set (Fin 3 → ℝ)}
    (hs : MeasurableSet s)
    (h0 : ∀ p ∈ s, HasDerivAt X0 (J0 (p 0)) (p 0)) (h1 : ∀ p ∈ s, HasDerivAt X1 (J1 (p 1)) (p 1))
    (h2 : ∀ p ∈ s, DifferentiableAt ℝ X2 p)
    (h2' : ∀ p ∈ s, HasDerivAt (fun t => X2 (Function.update p 2 t)) (J2 p) (p 2))
    (n0 : ∀ p ∈ s, 0 ≤ J0 (p 0)) (n1 : ∀ p ∈ s, 0 ≤ J1 (p 1)) (n2 : ∀ p ∈ s, 0 ≤ J2 p)
    (hinj : Set.InjOn (fun p => (X0 (p 0), X1 (p 1), X2 p)) s) (g : ℝ × ℝ × ℝ → ℝ) :
    (IntegrableOn g ((fun p => (X0 (p 0), X1 (p 1), X2 p)) '' s) ↔
      IntegrableOn (fun p => J0 (p 0) * J1 (p 1) * J2 p * g (X0 (p 0), X1 (p 1), X2 p)) s) ∧
    ∫ v in (fun p => (X0 (p 0), X1 (p 1), X2 p)) '' s, g v
      = ∫ p in s, J0 (p 0) * J1 (p 1) * J2 p * g (X0 (p 0), X1 (p 1), X2 p) := by
  classical
  set T : (Fin 3 → ℝ) → Fin 3 → ℝ := fun p => ![X0 (p 0), X1 (p 1), X2 p] with hT
  have eT : ∀ p, tripleEquiv (T p) = (X0 (p 0), X1 (p 1), X2 p) := fun p => rfl
  have eimg : (fun p => (X0 (p 0), X1 (p 1), X2 p)) '' s = tripleEquiv '' (T '' s) := by
    rw [Set.image_image]; rfl
  let M : (Fin 3 → ℝ) → Matrix (Fin 3) (Fin 3) ℝ := fun p =>
    !![J0 (p 0), 0, 0; 0, J1 (p 1), 0;
      fderiv ℝ X2 p (Pi.single 0 1), fderiv ℝ X2 p (Pi.single 1 1), J2 p]
  let T' : (Fin 3 → ℝ) → (Fin 3 → ℝ) →L[ℝ] (Fin 3 → ℝ) := fun p =>
    LinearMap.toContinuousLinearMap (Matrix.toLin' (M p))
  have hdet : ∀ p ∈ s, |(T' p).det| = J0 (p 0) * J1 (p 1) * J2 p := fun p hp => by
    have : (T' p).det = J0 (p 0) * J1 (p 1) * J2 p := by
      simp only [T', LinearMap.det_toContinuousLinearMap, LinearMap.det_toLin']
      simp only [M]
      rw [Matrix.det_fin_three]
      simp
    rw [this, abs_of_nonneg (mul_nonneg (mul_nonneg (n0 p hp) (n1 p hp)) (n2 p hp))]
  have hder : ∀ p ∈ s, HasFDerivWithinAt T (T' p) s p := fun p hp => by
    refine HasFDerivAt.hasFDerivWithinAt ?_
    have hsum : ∀ v : Fin 3 → ℝ, v = v 0 • Pi.single 0 1 + v 1 • Pi.single 1 1 + v 2 • Pi.single 2 1 := by
      intro v
      ext i
      fin_cases i <;> simp
    have hlast : fderiv ℝ X2 p (Pi.single 2 1) = J2 p := by
      have hu : HasDerivAt (fun t => Function.update p 2 t) (Pi.single 2 1) (p 2) := hasDerivAt_update p 2 (p 2)
      have hx : HasFDerivAt X2 (fderiv ℝ X2 p) (Function.update p 2 (p 2)) := by
        rw [Function.update_eq_self]; exact (h2 p hp).hasFDerivAt
      have := hx.comp_hasDerivAt (p 2) hu
      exact this.unique (h2' p hp)
    rw [hasFDerivAt_pi']
    intro i
    fin_cases i
    · have := (h0 p hp).comp_hasFDerivAt (f := fun q : Fin 3 → ℝ => q 0) p
        (ContinuousLinearMap.proj (R := ℝ) (φ := fun _ : Fin 3 => ℝ) 0).hasFDerivAt
      refine this.congr_fderiv ?_
      ext v
      simp [T', M, Matrix.toLin'_apply, dotProduct, Fin.sum_univ_three]
    · have := (h1 p hp).comp_hasFDerivAt (f := fun q : Fin 3 → ℝ => q 1) p
        (ContinuousLinearMap.proj (R := ℝ) (φ := fun _ : Fin 3 => ℝ) 1).hasFDerivAt
      refine this.congr_fderiv ?_
      ext v
      simp [T', M, Matrix.toLin'_apply, dotProduct, Fin.sum_univ_three]
    · refine (h2 p hp).hasFDerivAt.congr_fderiv ?_
      ext v
      conv_lhs => rw [hsum v]
      rw [map_add, map_add, map_smul, map_smul, map_smul, hlast]
      simp [T', M, Matrix.toLin'_apply, dotProduct, Fin.sum_univ_three]
      ring
  have hinj' : Set.InjOn T s := fun p hp q hq e => hinj hp hq (by
    have := congrArg tripleEquiv e
    rwa [eT, eT] at this)
  rw [eimg, measurePreserving_triple.setIntegral_image_emb tripleEquiv.measurableEmbedding]
  have key : IntegrableOn g (tripleEquiv '' (T '' s)) ↔ IntegrableOn (g ∘ tripleEquiv) (T '' s) := by
    have := measurePreserving_triple.integrableOn_image tripleEquiv.measurableEmbedding (f := g)
      (s := T '' s)
    exact this
  rw [key, integrableOn_image_iff_integrableOn_abs_det_fderiv_smul volume hs hder hinj',
    integral_image_eq_integral_abs_det_fderiv_smul volume hs hder hinj']
  constructor
  · refine integrableOn_congr_fun (fun p hp => ?_) hs
    simp only [hdet p hp, smul_eq_mul, Function.comp, eT]
  · refine setIntegral_congr_fun hs fun p hp => ?_
    simp only [hdet p hp, smul_eq_mul, eT]

end Sidis
