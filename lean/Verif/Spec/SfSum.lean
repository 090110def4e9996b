import Verif.Model.SfMask
import Verif.Spec.CrossSection
import Verif.Spec.Photons

/-! # Vocabulary for cross-sections of sums of structure functions -/

namespace Sidis.Spec

/-- The structure functions `a s + b t`. -/
def combineSf (a b : ℝ) (s t : SfFuns) : SfFuns where
  F_UUL h x z q p := a * s.F_UUL h x z q p + b * t.F_UUL h x z q p
  F_UUT h x z q p := a * s.F_UUT h x z q p + b * t.F_UUT h x z q p
  F_UU_cos_phih h x z q p := a * s.F_UU_cos_phih h x z q p + b * t.F_UU_cos_phih h x z q p
  F_UU_cos_2phih h x z q p := a * s.F_UU_cos_2phih h x z q p + b * t.F_UU_cos_2phih h x z q p
  F_UL_sin_phih h x z q p := a * s.F_UL_sin_phih h x z q p + b * t.F_UL_sin_phih h x z q p
  F_UL_sin_2phih h x z q p := a * s.F_UL_sin_2phih h x z q p + b * t.F_UL_sin_2phih h x z q p
  F_UTL_sin_phih_m_phis h x z q p := a * s.F_UTL_sin_phih_m_phis h x z q p + b * t.F_UTL_sin_phih_m_phis h x z q p
  F_UTT_sin_phih_m_phis h x z q p := a * s.F_UTT_sin_phih_m_phis h x z q p + b * t.F_UTT_sin_phih_m_phis h x z q p
  F_UT_sin_2phih_m_phis h x z q p := a * s.F_UT_sin_2phih_m_phis h x z q p + b * t.F_UT_sin_2phih_m_phis h x z q p
  F_UT_sin_3phih_m_phis h x z q p := a * s.F_UT_sin_3phih_m_phis h x z q p + b * t.F_UT_sin_3phih_m_phis h x z q p
  F_UT_sin_phis h x z q p := a * s.F_UT_sin_phis h x z q p + b * t.F_UT_sin_phis h x z q p
  F_UT_sin_phih_p_phis h x z q p := a * s.F_UT_sin_phih_p_phis h x z q p + b * t.F_UT_sin_phih_p_phis h x z q p
  F_LU_sin_phih h x z q p := a * s.F_LU_sin_phih h x z q p + b * t.F_LU_sin_phih h x z q p
  F_LL h x z q p := a * s.F_LL h x z q p + b * t.F_LL h x z q p
  F_LL_cos_phih h x z q p := a * s.F_LL_cos_phih h x z q p + b * t.F_LL_cos_phih h x z q p
  F_LT_cos_phih_m_phis h x z q p := a * s.F_LT_cos_phih_m_phis h x z q p + b * t.F_LT_cos_phih_m_phis h x z q p
  F_LT_cos_2phih_m_phis h x z q p := a * s.F_LT_cos_2phih_m_phis h x z q p + b * t.F_LT_cos_2phih_m_phis h x z q p
  F_LT_cos_phis h x z q p := a * s.F_LT_cos_phis h x z q p + b * t.F_LT_cos_phis h x z q p

/-- A quantity is linear in the structure functions. -/
def SfLinear (xs : SfFuns → ℝ) : Prop :=
  ∀ (a b : ℝ) (s t : SfFuns), xs (combineSf a b s t) = a * xs s + b * xs t

/-- The arguments of a structure function. -/
abbrev SfArgs := Hadron × ℝ × ℝ × ℝ × ℝ

/-- The values of a set of structure functions are the numbers of `f`. -/
structure HasValues (s : SfMask.SfSet SfArgs) (f : SfFuns) : Prop where
  UUL : ∀ h x z q p, s.F_UUL (h, x, z, q, p) = .fin (f.F_UUL h x z q p)
  UUT : ∀ h x z q p, s.F_UUT (h, x, z, q, p) = .fin (f.F_UUT h x z q p)
  UU_cos_phih : ∀ h x z q p, s.F_UU_cos_phih (h, x, z, q, p) = .fin (f.F_UU_cos_phih h x z q p)
  UU_cos_2phih : ∀ h x z q p, s.F_UU_cos_2phih (h, x, z, q, p) = .fin (f.F_UU_cos_2phih h x z q p)
  UL_sin_phih : ∀ h x z q p, s.F_UL_sin_phih (h, x, z, q, p) = .fin (f.F_UL_sin_phih h x z q p)
  UL_sin_2phih : ∀ h x z q p, s.F_UL_sin_2phih (h, x, z, q, p) = .fin (f.F_UL_sin_2phih h x z q p)
  UTL_sin_phih_m_phis : ∀ h x z q p, s.F_UTL_sin_phih_m_phis (h, x, z, q, p) = .fin (f.F_UTL_sin_phih_m_phis h x z q p)
  UTT_sin_phih_m_phis : ∀ h x z q p, s.F_UTT_sin_phih_m_phis (h, x, z, q, p) = .fin (f.F_UTT_sin_phih_m_phis h x z q p)
  UT_sin_2phih_m_phis : ∀ h x z q p, s.F_UT_sin_2phih_m_phis (h, x, z, q, p) = .fin (f.F_UT_sin_2phih_m_phis h x z q p)
  UT_sin_3phih_m_phis : ∀ h x z q p, s.F_UT_sin_3phih_m_phis (h, x, z, q, p) = .fin (f.F_UT_sin_3phih_m_phis h x z q p)
  UT_sin_phis : ∀ h x z q p, s.F_UT_sin_phis (h, x, z, q, p) = .fin (f.F_UT_sin_phis h x z q p)
  UT_sin_phih_p_phis : ∀ h x z q p, s.F_UT_sin_phih_p_phis (h, x, z, q, p) = .fin (f.F_UT_sin_phih_p_phis h x z q p)
  LU_sin_phih : ∀ h x z q p, s.F_LU_sin_phih (h, x, z, q, p) = .fin (f.F_LU_sin_phih h x z q p)
  LL : ∀ h x z q p, s.F_LL (h, x, z, q, p) = .fin (f.F_LL h x z q p)
  LL_cos_phih : ∀ h x z q p, s.F_LL_cos_phih (h, x, z, q, p) = .fin (f.F_LL_cos_phih h x z q p)
  LT_cos_phih_m_phis : ∀ h x z q p, s.F_LT_cos_phih_m_phis (h, x, z, q, p) = .fin (f.F_LT_cos_phih_m_phis h x z q p)
  LT_cos_2phih_m_phis : ∀ h x z q p, s.F_LT_cos_2phih_m_phis (h, x, z, q, p) = .fin (f.F_LT_cos_2phih_m_phis h x z q p)
  LT_cos_phis : ∀ h x z q p, s.F_LT_cos_phis (h, x, z, q, p) = .fin (f.F_LT_cos_phis h x z q p)

/-- Every one of the eighteen structure functions is kept by exactly one of the masks. -/
def Partition (ms : List SfMask.Mask) : Prop :=
  ∀ i < 18, (ms.filter fun m => m.getD i false).length = 1

end Sidis.Spec
