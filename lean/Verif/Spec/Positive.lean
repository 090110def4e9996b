import Verif.Spec.Qed
import Verif.Spec.Trento

/-!
# Specification vocabulary: positivity of the hadronic tensor (C92)

The structure functions of a target with polarisation `eta` are the elements of the density matrix of
the virtual photon: the probabilities (and interferences) of absorbing a photon polarised along the
longitudinal direction (0), in the hadron plane (1) and normal to it (2).
-/

namespace Sidis.Spec

namespace Qed

/-- A tensor `W^{μν} = Σ_X J_X^μ (J_X^ν)^*` of transition probabilities: no photon polarisation has a
negative one. -/
def Positive (W : Tensor) : Prop :=
  ∀ v : Fin 4 → ℂ, 0 ≤ (∑ μ, ∑ ν, starRingEnd ℂ (v μ) * W μ ν * v ν).re

end Qed

/-- The absorption of virtual photons by a target of polarisation `eta` (`x` in the hadron plane, `y`
normal to it, `z` along the photon). -/
noncomputable def photonMatrix (F : SfValues) (eta : Vec3) : Fin 3 → Fin 3 → ℂ :=
  let d00 : ℝ := F.UUL - eta.y * F.UTL_sin_h_m_S
  let d11 : ℝ := F.UUT + F.UU_cos_2h - eta.y * (F.UTT_sin_h_m_S + F.UT_sin_3h_m_S - F.UT_sin_h_p_S)
  let d22 : ℝ := F.UUT - F.UU_cos_2h - eta.y * (F.UTT_sin_h_m_S - F.UT_sin_3h_m_S + F.UT_sin_h_p_S)
  let d01 : ℂ := ⟨-F.UU_cos_h - eta.y * (F.UT_sin_S - F.UT_sin_2h_m_S),
    -F.LU_sin_h + eta.y * (F.LT_cos_S - F.LT_cos_2h_m_S)⟩
  let d02 : ℂ := ⟨-eta.x * (F.UT_sin_S + F.UT_sin_2h_m_S) - eta.z * F.UL_sin_h,
    eta.x * (F.LT_cos_S + F.LT_cos_2h_m_S) + eta.z * F.LL_cos_h⟩
  let d12 : ℂ := ⟨eta.x * (F.UT_sin_3h_m_S + F.UT_sin_h_p_S) + eta.z * F.UL_sin_2h,
    -eta.x * F.LT_cos_h_m_S - eta.z * F.LL⟩
  ![![d00, d01, d02], ![starRingEnd ℂ d01, d11, d12], ![starRingEnd ℂ d02, starRingEnd ℂ d12, d22]]

/-- Structure functions with which no photon has a negative probability of being absorbed by a target
of any polarisation. -/
def Realisable (F : SfValues) : Prop :=
  ∀ eta : Vec3, eucl eta eta ≤ 1 → ∀ v : Fin 3 → ℂ,
    0 ≤ (∑ a, ∑ b, starRingEnd ℂ (v a) * photonMatrix F eta a b * v b).re

/-- The same for an unpolarised target: conditions on five structure functions. -/
structure RealisableU (F : SfValues) : Prop where
  long : 0 ≤ F.UUL
  trans : |F.UU_cos_2h| ≤ F.UUT
  mixed : F.UU_cos_h ^ 2 + F.LU_sin_h ^ 2 ≤ F.UUL * (F.UUT + F.UU_cos_2h)

/-- The density matrix of the virtual photons emitted by a lepton of helicity `lambda_e`, at azimuth
`phi_h` of the hadron, in the same basis. -/
noncomputable def photonDensity (w : PhotonWeights) (phi_h lambda_e : ℝ) : Fin 3 → Fin 3 → ℂ :=
  let d01 : ℂ := ⟨-w.mixed * Real.cos phi_h / 2, -lambda_e * w.circMixed * Real.sin phi_h / 2⟩
  let d02 : ℂ := ⟨-w.mixed * Real.sin phi_h / 2, lambda_e * w.circMixed * Real.cos phi_h / 2⟩
  let d12 : ℂ := ⟨w.trans * Real.sin (2 * phi_h) / 2, -lambda_e * w.circ / 2⟩
  ![![(w.long : ℂ), d01, d02],
    ![starRingEnd ℂ d01, ((1 + w.trans * Real.cos (2 * phi_h)) / 2 : ℝ), d12],
    ![starRingEnd ℂ d02, starRingEnd ℂ d12, ((1 - w.trans * Real.cos (2 * phi_h)) / 2 : ℝ)]]

end Sidis.Spec
