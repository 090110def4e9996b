import Verif.Spec.Photons
import Verif.Model.PhotonTables

/-! # The photons for which the structure functions are known -/

namespace Sidis.Spec

open PhotonInteg

/-- The photons that lead to a scattering off the nucleon at which the structure functions are known. -/
def insidePhotons (D : Dom) (ps : Particles ℝ) (S : ℝ) (pt : PhaseSpace ℝ) : Set (ℝ × ℝ × ℝ) :=
  {v | let kr := KinematicsRad.make (.make ps S pt) v.1 v.2.1 v.2.2
    D kr.shift_x kr.shift_z kr.shift_Q_sq kr.shift_ph_t_sq}

/-- Those for which all values needed by the infrared-finite part of the cross-section are known. -/
def insidePhotonsF (D : Dom) (ps : Particles ℝ) (S : ℝ) (pt : PhaseSpace ℝ) : Set (ℝ × ℝ × ℝ) :=
  {v ∈ insidePhotons D ps S pt | ∀ delta, softStep (.make (.make ps S pt) v.1 v.2.1 v.2.2) = some delta →
    (v.1, v.2.1, delta) ∈ insidePhotons D ps S pt ∧ (v.1, v.2.1, 2 * delta) ∈ insidePhotons D ps S pt}

open Classical in
/-- Structure functions replaced by zero where they are not known. -/
noncomputable def zeroOutside (D : Dom) (sf : SfFuns) : SfFuns :=
  let f (F : Hadron → ℝ → ℝ → ℝ → ℝ → ℝ) : Hadron → ℝ → ℝ → ℝ → ℝ → ℝ :=
    fun h x z q p => if D x z q p then F h x z q p else 0
  ⟨f sf.F_UUL, f sf.F_UUT, f sf.F_UU_cos_phih, f sf.F_UU_cos_2phih, f sf.F_UL_sin_phih, f sf.F_UL_sin_2phih,
    f sf.F_UTL_sin_phih_m_phis, f sf.F_UTT_sin_phih_m_phis, f sf.F_UT_sin_2phih_m_phis, f sf.F_UT_sin_3phih_m_phis,
    f sf.F_UT_sin_phis, f sf.F_UT_sin_phih_p_phis, f sf.F_LU_sin_phih, f sf.F_LL, f sf.F_LL_cos_phih,
    f sf.F_LT_cos_phih_m_phis, f sf.F_LT_cos_2phih_m_phis, f sf.F_LT_cos_phis⟩

end Sidis.Spec
