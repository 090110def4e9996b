import Verif.Model.HadCoeff

/-!
# The textbook cross-section of polarised semi-inclusive deep-inelastic scattering

Equation 2.7 of Bacchetta, Diehl, Goeke, Metz, Mulders and Schlegel, "Semi-inclusive deep inelastic
scattering at small transverse momentum", JHEP 02 (2007) 093, with the angles of the Trento
conventions: `phi_h` and `phi_S` are the azimuths of the hadron and of the target polarisation around
the virtual photon, measured from the lepton plane.  The published formula is for a massless lepton;
the same formula for a lepton of mass `m` follows from the decomposition of the lepton tensor into
photon polarisations.
-/

namespace Sidis.Spec

/-- Values of the eighteen structure functions at one point. -/
structure SfValues where
  (UUT UUL UU_cos_h UU_cos_2h : ℝ)
  (UL_sin_h UL_sin_2h : ℝ)
  (UTT_sin_h_m_S UTL_sin_h_m_S UT_sin_h_p_S UT_sin_3h_m_S UT_sin_S UT_sin_2h_m_S : ℝ)
  (LU_sin_h LL LL_cos_h LT_cos_h_m_S LT_cos_S LT_cos_2h_m_S : ℝ)

/-- The values of a set of structure functions for a hadron at a point. -/
def SfValues.at (sf : SfFuns) (h : Hadron) (x z Q_sq ph_t_sq : ℝ) : SfValues where
  UUT := sf.F_UUT h x z Q_sq ph_t_sq
  UUL := sf.F_UUL h x z Q_sq ph_t_sq
  UU_cos_h := sf.F_UU_cos_phih h x z Q_sq ph_t_sq
  UU_cos_2h := sf.F_UU_cos_2phih h x z Q_sq ph_t_sq
  UL_sin_h := sf.F_UL_sin_phih h x z Q_sq ph_t_sq
  UL_sin_2h := sf.F_UL_sin_2phih h x z Q_sq ph_t_sq
  UTT_sin_h_m_S := sf.F_UTT_sin_phih_m_phis h x z Q_sq ph_t_sq
  UTL_sin_h_m_S := sf.F_UTL_sin_phih_m_phis h x z Q_sq ph_t_sq
  UT_sin_h_p_S := sf.F_UT_sin_phih_p_phis h x z Q_sq ph_t_sq
  UT_sin_3h_m_S := sf.F_UT_sin_3phih_m_phis h x z Q_sq ph_t_sq
  UT_sin_S := sf.F_UT_sin_phis h x z Q_sq ph_t_sq
  UT_sin_2h_m_S := sf.F_UT_sin_2phih_m_phis h x z Q_sq ph_t_sq
  LU_sin_h := sf.F_LU_sin_phih h x z Q_sq ph_t_sq
  LL := sf.F_LL h x z Q_sq ph_t_sq
  LL_cos_h := sf.F_LL_cos_phih h x z Q_sq ph_t_sq
  LT_cos_h_m_S := sf.F_LT_cos_phih_m_phis h x z Q_sq ph_t_sq
  LT_cos_S := sf.F_LT_cos_phis h x z Q_sq ph_t_sq
  LT_cos_2h_m_S := sf.F_LT_cos_2phih_m_phis h x z Q_sq ph_t_sq

/-- What the lepton side contributes: the overall factor and the weights of the photon polarisations
(relative to transverse photons): longitudinal photons, transverse interference, longitudinal-transverse
interference; and, odd in the beam helicity, circular polarisation and its interference with
longitudinal photons. -/
structure PhotonWeights where
  (norm long trans mixed circ circMixed : ℝ)

open Real in
/-- The angular structure of the cross-section. -/
noncomputable def angular (w : PhotonWeights) (F : SfValues) (phi_h phi_S lambda_e S_L S_T : ℝ) : ℝ :=
  w.norm * (
    F.UUT + w.long * F.UUL + w.mixed * cos phi_h * F.UU_cos_h + w.trans * cos (2 * phi_h) * F.UU_cos_2h
    + lambda_e * w.circMixed * sin phi_h * F.LU_sin_h
    + S_L * (w.mixed * sin phi_h * F.UL_sin_h + w.trans * sin (2 * phi_h) * F.UL_sin_2h)
    + S_L * lambda_e * (w.circ * F.LL + w.circMixed * cos phi_h * F.LL_cos_h)
    + S_T * (sin (phi_h - phi_S) * (F.UTT_sin_h_m_S + w.long * F.UTL_sin_h_m_S)
      + w.trans * sin (phi_h + phi_S) * F.UT_sin_h_p_S
      + w.trans * sin (3 * phi_h - phi_S) * F.UT_sin_3h_m_S
      + w.mixed * sin phi_S * F.UT_sin_S
      + w.mixed * sin (2 * phi_h - phi_S) * F.UT_sin_2h_m_S)
    + S_T * lambda_e * (w.circ * cos (phi_h - phi_S) * F.LT_cos_h_m_S
      + w.circMixed * cos phi_S * F.LT_cos_S
      + w.circMixed * cos (2 * phi_h - phi_S) * F.LT_cos_2h_m_S))

/-- The weights of equation 2.7 for a massless lepton, in terms of the ratio `ε` of longitudinal and
transverse photon flux. -/
noncomputable def masslessWeights (alpha M x y Q_sq : ℝ) : PhotonWeights :=
  let γ_sq := 4 * M ^ 2 * x ^ 2 / Q_sq
  let ε := (1 - y - γ_sq * y ^ 2 / 4) / (1 - y + y ^ 2 / 2 + γ_sq * y ^ 2 / 4)
  { norm := alpha ^ 2 / (x * y * Q_sq) * (y ^ 2 / (2 * (1 - ε))) * (1 + γ_sq / (2 * x))
    long := ε
    trans := ε
    mixed := √(2 * ε * (1 + ε))
    circ := √(1 - ε ^ 2)
    circMixed := √(2 * ε * (1 - ε)) }

/-- The weights for a lepton of mass `m`.  In the frame where photon and target are collinear, the sum
`P` of the lepton momenta has transverse part `P_T` and projection `P_0` on the longitudinal photon
polarisation; a transverse photon has weight proportional to `P_T²/2 + Q²`.  The beam helicity is that
in the target rest frame. -/
noncomputable def massiveWeights (alpha M m S x y Q_sq : ℝ) : PhotonWeights :=
  let γ_sq := 4 * M ^ 2 * x ^ 2 / Q_sq
  let P_T_sq := 4 * Q_sq * (1 - y - γ_sq * y ^ 2 / 4) / (y ^ 2 * (1 + γ_sq)) - 4 * m ^ 2
  let P_0 := √(P_T_sq + Q_sq + 4 * m ^ 2)
  let P_T := √P_T_sq
  let K := P_T_sq / 2 + Q_sq
  let β := √(1 - 4 * M ^ 2 * m ^ 2 / S ^ 2)
  { norm := alpha ^ 2 / (x * y * Q_sq) * (y ^ 2 / 2 * (K / Q_sq)) * (1 + γ_sq / (2 * x)) / β ^ 2
    long := (P_T_sq / 2 + 2 * m ^ 2) / K
    trans := P_T_sq / 2 / K
    mixed := P_0 * P_T / K
    circ := (P_0 * √Q_sq - 2 * m ^ 2 * y * √(1 + γ_sq)) / (β * K)
    circMixed := P_T * √Q_sq / (β * K) }

end Sidis.Spec
