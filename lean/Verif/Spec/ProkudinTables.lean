import Verif.Model.ProkudinTables
import Verif.Spec.Interp

/-! # What is expected of the Prokudin sets with their tables -/

namespace Sidis.Spec

open Sidis.Interp Sidis.ProkudinTables

/-- The structure functions that a Prokudin set gives; the others are zero. -/
def Given (n : Name) : Prop := n ≠ .UUL ∧ n ≠ .UTL_sin_phih_m_phis ∧ n ≠ .LU_sin_phih

/-- The point is outside of the grid of some flavour. -/
def OffGrid (gs : List Grid) (x Q_sq : Fl) : Prop :=
  ∃ g ∈ gs, ¬ List.Forall₂ Inside g.dims [x, Q_sq]

/-- The fragmentation tables of a hadron. -/
def fragTables {P : Type} (T : LoadGrids.Tables P) : Hadron → Option (List Grid)
  | .piP => some T.D1_pi_plus
  | .piM => some T.D1_pi_minus
  | _ => none

/-- The tables of distributions used by a structure function. -/
def distTables {P : Type} (T : LoadGrids.Tables P) : Name → List (List Grid)
  | .UL_sin_phih | .UL_sin_2phih => [T.xh1LperpM1]
  | .UT_sin_2phih_m_phis | .UT_sin_3phih_m_phis => [T.g1]
  | .UT_sin_phis | .UT_sin_phih_p_phis => [T.sb]
  | .LL | .LL_cos_phih => [T.g1]
  | .LT_cos_phih_m_phis | .LT_cos_2phih_m_phis | .LT_cos_phis => [T.xgT]
  | _ => []

/-- The ranges of the tables that are installed with the library (share/sidis/sf_set/prokudin: first and last
line of each file, number of different values in the first two columns). -/
structure Shipped {P : Type} (T : LoadGrids.Tables P) : Prop where
  D1 : ∀ g ∈ T.D1_pi_plus ++ T.D1_pi_minus,
    g.dims = [⟨99, .fin 0.010098, .fin 0.989902⟩, ⟨100, .fin 1, .fin 89.11⟩]
  g1 : ∀ g ∈ T.g1 ++ T.sb, g.dims = [⟨99, .fin 0.010098, .fin 0.989902⟩, ⟨100, .fin 1, .fin 89.11⟩]
  gT : ∀ g ∈ T.xgT ++ T.xh1LperpM1, g.dims = [⟨100, .fin 0.01, .fin 0.9406⟩, ⟨100, .fin 1, .fin 49.51⟩]

/-- The point has a finite value in the tables of the first `k` flavours. -/
def OnGrid (gs : List Grid) (k : ℕ) (x Q_sq : ℝ) : Prop :=
  ∀ fl < k, ∃ r : ℝ, view id gs fl (.fin x) (.fin Q_sq) = .val (.fin r)

/-- The number a view gives; zero for anything else. -/
noncomputable def number : Res Fl → ℝ
  | .val (.fin r) => r
  | _ => 0

/-- The loaded tables as functions of real numbers. -/
noncomputable def asFunctions {P : Type} (parton : ℤ → ℝ → ℝ → ℝ) (T : LoadGrids.Tables P) : Prokudin.Tables where
  parton := parton
  D1_pi_plus fl z Q_sq := number (view id T.D1_pi_plus fl (.fin z) (.fin Q_sq))
  D1_pi_minus fl z Q_sq := number (view id T.D1_pi_minus fl (.fin z) (.fin Q_sq))
  g1 fl x Q_sq := number (view id T.g1 fl (.fin x) (.fin Q_sq))
  xgT fl x Q_sq := number (view id T.xgT fl (.fin x) (.fin Q_sq))
  xh1LperpM1 fl x Q_sq := number (view id T.xh1LperpM1 fl (.fin x) (.fin Q_sq))
  sb fl x Q_sq := number (view id T.sb fl (.fin x) (.fin Q_sq))

/-- The structure function of this name. -/
def named (F : Prokudin.Sf) : Name → Option ℝ
  | .UUL => F.F_UUL | .UUT => F.F_UUT | .UU_cos_phih => F.F_UU_cos_phih | .UU_cos_2phih => F.F_UU_cos_2phih
  | .UL_sin_phih => F.F_UL_sin_phih | .UL_sin_2phih => F.F_UL_sin_2phih
  | .UTL_sin_phih_m_phis => F.F_UTL_sin_phih_m_phis | .UTT_sin_phih_m_phis => F.F_UTT_sin_phih_m_phis
  | .UT_sin_2phih_m_phis => F.F_UT_sin_2phih_m_phis | .UT_sin_3phih_m_phis => F.F_UT_sin_3phih_m_phis
  | .UT_sin_phis => F.F_UT_sin_phis | .UT_sin_phih_p_phis => F.F_UT_sin_phih_p_phis
  | .LU_sin_phih => F.F_LU_sin_phih | .LL => F.F_LL | .LL_cos_phih => F.F_LL_cos_phih
  | .LT_cos_phih_m_phis => F.F_LT_cos_phih_m_phis | .LT_cos_2phih_m_phis => F.F_LT_cos_2phih_m_phis
  | .LT_cos_phis => F.F_LT_cos_phis

end Sidis.Spec
