import Verif.Model.Asymmetry

/-! # Vocabulary for asymmetries that do not depend on normalisations -/

namespace Sidis.Spec

open Asym

/-- All structure functions times `c`. -/
def scaleSf (c : ℝ) (s : SfFuns) : SfFuns where
  F_UUL h x z q p := c * s.F_UUL h x z q p
  F_UUT h x z q p := c * s.F_UUT h x z q p
  F_UU_cos_phih h x z q p := c * s.F_UU_cos_phih h x z q p
  F_UU_cos_2phih h x z q p := c * s.F_UU_cos_2phih h x z q p
  F_UL_sin_phih h x z q p := c * s.F_UL_sin_phih h x z q p
  F_UL_sin_2phih h x z q p := c * s.F_UL_sin_2phih h x z q p
  F_UTL_sin_phih_m_phis h x z q p := c * s.F_UTL_sin_phih_m_phis h x z q p
  F_UTT_sin_phih_m_phis h x z q p := c * s.F_UTT_sin_phih_m_phis h x z q p
  F_UT_sin_2phih_m_phis h x z q p := c * s.F_UT_sin_2phih_m_phis h x z q p
  F_UT_sin_3phih_m_phis h x z q p := c * s.F_UT_sin_3phih_m_phis h x z q p
  F_UT_sin_phis h x z q p := c * s.F_UT_sin_phis h x z q p
  F_UT_sin_phih_p_phis h x z q p := c * s.F_UT_sin_phih_p_phis h x z q p
  F_LU_sin_phih h x z q p := c * s.F_LU_sin_phih h x z q p
  F_LL h x z q p := c * s.F_LL h x z q p
  F_LL_cos_phih h x z q p := c * s.F_LL_cos_phih h x z q p
  F_LT_cos_phih_m_phis h x z q p := c * s.F_LT_cos_phih_m_phis h x z q p
  F_LT_cos_2phih_m_phis h x z q p := c * s.F_LT_cos_2phih_m_phis h x z q p
  F_LT_cos_phis h x z q p := c * s.F_LT_cos_phis h x z q p

/-- An estimate and its error in units smaller by `c`. -/
noncomputable def scaleEst (c : ℝ) (e : EstErr) : EstErr := ⟨.fin c * e.val, .fin c * e.err⟩

/-- An integrator whose estimates and errors are those of the integrand in other units, if the integrand is
measured in other units: it has no absolute tolerances. -/
structure UnitFree (I : Integrator) : Prop where
  one : ∀ (c : ℝ) (f : ℝ → Fl) (a b : ℝ), 0 < c → I.one (fun t => .fin c * f t) a b = scaleEst c (I.one f a b)
  four : ∀ (c : ℝ) (f : (Fin 4 → ℝ) → Fl) (a b : Fin 4 → ℝ), 0 < c →
    I.four (fun t => .fin c * f t) a b = scaleEst c (I.four f a b)

/-- Two sets of structure functions agree on those of unpolarised beams and targets. -/
def SameUU (s t : SfFuns) : Prop :=
  s.F_UUL = t.F_UUL ∧ s.F_UUT = t.F_UUT ∧ s.F_UU_cos_phih = t.F_UU_cos_phih ∧ s.F_UU_cos_2phih = t.F_UU_cos_2phih

/-- Two sets of structure functions agree on those of longitudinally polarised targets. -/
def SameUL (s t : SfFuns) : Prop :=
  s.F_UL_sin_phih = t.F_UL_sin_phih ∧ s.F_UL_sin_2phih = t.F_UL_sin_2phih

/-- Two sets of structure functions agree on those of transversely polarised targets. -/
def SameUT (s t : SfFuns) : Prop :=
  s.F_UTL_sin_phih_m_phis = t.F_UTL_sin_phih_m_phis ∧ s.F_UTT_sin_phih_m_phis = t.F_UTT_sin_phih_m_phis ∧
    s.F_UT_sin_2phih_m_phis = t.F_UT_sin_2phih_m_phis ∧ s.F_UT_sin_3phih_m_phis = t.F_UT_sin_3phih_m_phis ∧
    s.F_UT_sin_phis = t.F_UT_sin_phis ∧ s.F_UT_sin_phih_p_phis = t.F_UT_sin_phih_p_phis

end Sidis.Spec
