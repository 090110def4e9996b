import Verif.Model.Asymmetry
import Verif.Spec.Trento
import Mathlib.MeasureTheory.Integral.IntervalIntegral.Basic

/-!
# What an azimuthal asymmetry is

For a target polarised transversely at azimuth `phi_S`, in the frame of the hadron produced at azimuth
`phi_h`, the polarisation vector is `(cos (phi_S - phi_h), sin (phi_S - phi_h), 0)`.  A moment of a
cross-section is its polarised part, weighted with a sine of the two azimuths and integrated over both.
-/

namespace Sidis.Spec

open Real

/-- A unit transverse polarisation at azimuth `phi_S`, in the frame of a hadron at azimuth `phi_h`. -/
noncomputable def transverse (phi_h phi_S : ℝ) : Vec3 := ⟨cos (phi_S - phi_h), sin (phi_S - phi_h), 0⟩

/-- The average over the azimuth of the target polarisation of the polarised part of a cross-section,
weighted with `sin (a phi_S + b phi_h + c π/2)`. -/
noncomputable def targetMoment (σ : Vec3 → ℝ) (a b c : ℤ) (phi_h : ℝ) : ℝ :=
  1 / (2 * π) * ∫ phi_S in -π..π,
    sin (a * phi_S + b * phi_h + c * (π / 2)) * (σ (transverse phi_h phi_S) - σ .zero)

/-- The number in an `Fl` (zero if there is none). -/
def realOf : Fl → ℝ
  | .fin r => r
  | _ => 0

/-- An integrator that is exact for continuous functions of one variable. -/
def Exact (I : Asym.Integrator) : Prop :=
  ∀ f : ℝ → ℝ, Continuous f → ∀ a b : ℝ, (I.one (fun t => .fin (f t)) a b).val = .fin (∫ t in a..b, f t)

open Classical in
/-- The moment `(a, b, c)` of the transversely polarised part of the textbook cross-section, relative to
its unpolarised part: the amplitude of the harmonic `sin (a phi_S + b phi_h)`, `cos (c π/2)` times. -/
noncomputable def harmonic (w : PhotonWeights) (F : SfValues) (a b c : ℤ) : ℝ :=
  let amplitude (a b : ℤ) : ℝ :=
    if (a, b) = (-1, 1) then F.UTT_sin_h_m_S + w.long * F.UTL_sin_h_m_S
    else if (a, b) = (1, 1) then w.trans * F.UT_sin_h_p_S
    else if (a, b) = (-1, 3) then w.trans * F.UT_sin_3h_m_S
    else if (a, b) = (1, 0) then w.mixed * F.UT_sin_S
    else if (a, b) = (-1, 2) then w.mixed * F.UT_sin_2h_m_S
    else 0
  cos (c * (π / 2)) * (amplitude a b - amplitude (-a) (-b)) / (F.UUT + w.long * F.UUL)

end Sidis.Spec
