import Verif.Model.Tmd
import Mathlib.MeasureTheory.Integral.Prod
import Mathlib.MeasureTheory.Measure.Haar.OfBasis

/-!
# The published structure functions in terms of transverse momentum distributions

A. Bacchetta et al., JHEP 02 (2007) 093, equations (4.1)-(4.20), to order 1/Q. The transverse plane is
`ℝ × ℝ` with the first axis along the transverse momentum of the hadron.
-/

namespace Sidis.Spec.Tmd
open MeasureTheory

abbrev Vec := ℝ × ℝ

def dot (a b : Vec) : ℝ := a.1 * b.1 + a.2 * b.2

/-- The unit vector along the transverse momentum of the hadron. -/
def hhat : Vec := (1, 0)

/-- The distributions `x f(x, p_T²)` and fragmentation functions `D(z, z² k_T²)` of each flavour, at a
fixed `x`, `z`, `Q²` and for a fixed hadron, with the charges of the flavours. -/
structure Dist where
  flavors : ℕ
  charge : ℕ → ℝ
  f : TmdName → ℕ → ℝ → ℝ
  D : FfName → ℕ → ℝ → ℝ

/-- Those of a `TmdSet`, as its interface gives them. -/
def distOf (s : TmdSet) (h : Hadron) (x z Q_sq : ℝ) : Dist :=
  ⟨s.flavorCount, s.charge, fun n fl k => s.tmd n fl x Q_sq k, fun n fl k => s.ff n h fl z Q_sq k⟩

/-- Equation (4.1): the convolution `C[w f D] = x Σ_a e_a² ∫ d²p_T d²k_T δ²(p_T - k_T - P_h/z) w f D`, with
the quark momentum `p_T` in the region `R` (the whole plane in the publication). -/
noncomputable def conv (R : Set Vec) (d : Dist) (z ph_t : ℝ) (w : Vec → Vec → ℝ) (f : TmdName)
    (D : FfName) : ℝ :=
  ∫ p in R, let k := p - (1 / z) • ph_t • hhat
    ∑ a ∈ Finset.range d.flavors, d.charge a ^ 2 * w p k * d.f f a (dot p p) * d.D D a (z ^ 2 * dot k k)

/-- The disc of radius `r`. -/
def disc (r : ℝ) : Set Vec := {p | dot p p < r ^ 2}

/-- The structure functions (4.2)-(4.20), given the convolution `C[w f D]`. Those with a longitudinally
polarised photon vanish to this order. -/
noncomputable def published (C : (Vec → Vec → ℝ) → TmdName → FfName → ℝ) (M Mh x z Q : ℝ) : SfVals :=
  -- `C[w (x f D + s (M_h/M) f' D'/z)]`
  let P (w : Vec → Vec → ℝ) (f : TmdName) (D : FfName) (s : ℝ) (f' : TmdName) (D' : FfName) : ℝ :=
    x * C w f D + s * (Mh / M) * (C w f' D' / z)
  let hk : Vec → Vec → ℝ := fun _ k => dot hhat k / Mh
  let hp : Vec → Vec → ℝ := fun p _ => dot hhat p / M
  let kp : Vec → Vec → ℝ := fun p k => dot k p / (2 * M * Mh)
  let hhp : Vec → Vec → ℝ := fun p _ => (2 * dot hhat p ^ 2 - dot p p) / (2 * M ^ 2)
  let hkp : Vec → Vec → ℝ := fun p k => (2 * dot hhat k * dot hhat p - dot k p) / (2 * M * Mh)
  { F_UUT := C (fun _ _ => 1) .f1 .D1
    F_UUL := 0
    F_UU_cos_phih := 2 * M / Q * (-P hk .h .H1perp 1 .f1 .Dperp_tilde
      - P hp .fperp .D1 1 .h1perp .H_tilde)
    F_UU_cos_2phih :=
      C (fun p k => -(2 * dot hhat k * dot hhat p - dot k p) / (M * Mh)) .h1perp .H1perp
    F_LU_sin_phih := 2 * M / Q * (-P hk .e .H1perp 1 .f1 .Gperp_tilde
      + P hp .gperp .D1 1 .h1perp .E_tilde)
    F_UL_sin_phih := 2 * M / Q * (-P hk .hL .H1perp 1 .g1 .Gperp_tilde
      + P hp .fLperp .D1 (-1) .h1Lperp .H_tilde)
    F_UL_sin_2phih :=
      C (fun p k => -(2 * dot hhat k * dot hhat p - dot k p) / (M * Mh)) .h1Lperp .H1perp
    F_LL := C (fun _ _ => 1) .g1 .D1
    F_LL_cos_phih := 2 * M / Q * (P hk .eL .H1perp (-1) .g1 .Dperp_tilde
      - P hp .gLperp .D1 1 .h1Lperp .E_tilde)
    F_UTT_sin_phih_m_phis := C (fun p _ => -(dot hhat p / M)) .f1Tperp .D1
    F_UTL_sin_phih_m_phis := 0
    F_UT_sin_phih_p_phis := C (fun _ k => -(dot hhat k / Mh)) .h1 .H1perp
    F_UT_sin_3phih_m_phis := C (fun p k => (2 * dot hhat p * dot p k + dot p p * dot hhat k
      - 4 * dot hhat p ^ 2 * dot hhat k) / (2 * M ^ 2 * Mh)) .h1Tperp .H1perp
    F_UT_sin_phis := 2 * M / Q * (P (fun _ _ => 1) .fT .D1 (-1) .h1 .H_tilde
      - (P kp .hT .H1perp 1 .g1Tperp .Gperp_tilde
        - P kp .hTperp .H1perp (-1) .f1Tperp .Dperp_tilde))
    F_UT_sin_2phih_m_phis := 2 * M / Q * (P hhp .fTperp .D1 (-1) .h1Tperp .H_tilde
      - (P hkp .hT .H1perp 1 .g1Tperp .Gperp_tilde
        + P hkp .hTperp .H1perp (-1) .f1Tperp .Dperp_tilde))
    F_LT_cos_phih_m_phis := C (fun p _ => dot hhat p / M) .g1Tperp .D1
    F_LT_cos_phis := 2 * M / Q * (-P (fun _ _ => 1) .gT .D1 1 .h1 .E_tilde
      + (P kp .eT .H1perp (-1) .g1Tperp .Dperp_tilde
        + P kp .eTperp .H1perp 1 .f1Tperp .Gperp_tilde))
    F_LT_cos_2phih_m_phis := 2 * M / Q * (-P hhp .gTperp .D1 1 .h1Tperp .E_tilde
      + (P hkp .eT .H1perp (-1) .g1Tperp .Dperp_tilde
        - P hkp .eTperp .H1perp 1 .f1Tperp .Gperp_tilde)) }

/-- A cubature that returns the integral over the rectangle. -/
def Exact (cub : Cubature2) : Prop :=
  ∀ (f : ℝ × ℝ → ℝ) (lo hi : ℝ × ℝ),
    cub f lo hi = ∫ q in Set.Ioo lo.1 hi.1 ×ˢ Set.Ioo lo.2 hi.2, f q

end Sidis.Spec.Tmd
