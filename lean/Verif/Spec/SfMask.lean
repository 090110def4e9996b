import Verif.Model.SfMask
import Mathlib.Data.List.SplitOn

/-! # Specification vocabulary for structure function filters -/

namespace Sidis.Spec

open Sidis.SfMask

/-- The eighteen structure functions, in the order of the documentation of `MaskSfSet`. -/
inductive SfName where
  | UUL | UUT | UU_cos_phih | UU_cos_2phih | UL_sin_phih | UL_sin_2phih
  | UTL_sin_phih_m_phis | UTT_sin_phih_m_phis | UT_sin_2phih_m_phis | UT_sin_3phih_m_phis
  | UT_sin_phis | UT_sin_phih_p_phis | LU_sin_phih | LL | LL_cos_phih
  | LT_cos_phih_m_phis | LT_cos_2phih_m_phis | LT_cos_phis
deriving DecidableEq

namespace SfName

/-- The function of a set with a name. -/
def of {A : Type} (sf : SfSet A) : SfName → A → Fl
  | UUL => sf.F_UUL
  | UUT => sf.F_UUT
  | UU_cos_phih => sf.F_UU_cos_phih
  | UU_cos_2phih => sf.F_UU_cos_2phih
  | UL_sin_phih => sf.F_UL_sin_phih
  | UL_sin_2phih => sf.F_UL_sin_2phih
  | UTL_sin_phih_m_phis => sf.F_UTL_sin_phih_m_phis
  | UTT_sin_phih_m_phis => sf.F_UTT_sin_phih_m_phis
  | UT_sin_2phih_m_phis => sf.F_UT_sin_2phih_m_phis
  | UT_sin_3phih_m_phis => sf.F_UT_sin_3phih_m_phis
  | UT_sin_phis => sf.F_UT_sin_phis
  | UT_sin_phih_p_phis => sf.F_UT_sin_phih_p_phis
  | LU_sin_phih => sf.F_LU_sin_phih
  | LL => sf.F_LL
  | LL_cos_phih => sf.F_LL_cos_phih
  | LT_cos_phih_m_phis => sf.F_LT_cos_phih_m_phis
  | LT_cos_2phih_m_phis => sf.F_LT_cos_2phih_m_phis
  | LT_cos_phis => sf.F_LT_cos_phis

/-- The number of a structure function in the documentation (mask.hpp 80-99). -/
def number : SfName → ℕ
  | UUL => 0
  | UUT => 1
  | UU_cos_phih => 2
  | UU_cos_2phih => 3
  | UL_sin_phih => 4
  | UL_sin_2phih => 5
  | UTL_sin_phih_m_phis => 6
  | UTT_sin_phih_m_phis => 7
  | UT_sin_2phih_m_phis => 8
  | UT_sin_3phih_m_phis => 9
  | UT_sin_phis => 10
  | UT_sin_phih_p_phis => 11
  | LU_sin_phih => 12
  | LL => 13
  | LL_cos_phih => 14
  | LT_cos_phih_m_phis => 15
  | LT_cos_2phih_m_phis => 16
  | LT_cos_phis => 17

/-- Beam polarisation, `u` or `l`. -/
def beam : SfName → Char
  | UUL | UUT | UU_cos_phih | UU_cos_2phih | UL_sin_phih | UL_sin_2phih
  | UTL_sin_phih_m_phis | UTT_sin_phih_m_phis | UT_sin_2phih_m_phis | UT_sin_3phih_m_phis
  | UT_sin_phis | UT_sin_phih_p_phis => 'u'
  | _ => 'l'

/-- Target polarisation, `u`, `l` or `t`. -/
def target : SfName → Char
  | UUL | UUT | UU_cos_phih | UU_cos_2phih | LU_sin_phih => 'u'
  | UL_sin_phih | UL_sin_2phih | LL | LL_cos_phih => 'l'
  | _ => 't'

/-- Whether the documentation calls the function leading. -/
def leading : SfName → Bool
  | UUT | UU_cos_2phih | UL_sin_2phih | UTT_sin_phih_m_phis | UT_sin_3phih_m_phis
  | UT_sin_phih_p_phis | LL | LT_cos_phih_m_phis => true
  | _ => false

end SfName

/-- Polarisation letters of filter words: `x` is any, `p` is any but unpolarised. -/
def letterFits (filter actual : Char) : Prop :=
  filter = actual ∨ filter = 'x' ∨ filter = 'p' ∧ actual ≠ 'u'

/-- The filter words. -/
def IsFilter (word : List Char) : Prop :=
  word = "leading".toList ∨ word = "subleading".toList ∨
    ∃ b ∈ ['u', 'l', 'x'], ∃ t ∈ ['u', 'l', 't', 'p', 'x'], word = [b, t]

/-- The meaning of a filter word: a structure function passes. -/
def Passes (word : List Char) (n : SfName) : Prop :=
  word = "leading".toList ∧ n.leading = true ∨ word = "subleading".toList ∧ n.leading = false ∨
    ∃ b t, word = [b, t] ∧ letterFits b n.beam ∧ letterFits t n.target

/-- The words of a text, separated by white space. -/
def spacedWords (s : List Char) : List (List Char) :=
  (s.splitOnP ParamStream.isSpace).filter (· ≠ [])

end Sidis.Spec
