import Verif.Spec.Kinematics
import Mathlib.Analysis.SpecialFunctions.Log.Basic
import Mathlib.Analysis.SpecialFunctions.Trigonometric.Basic
import Mathlib.MeasureTheory.Integral.IntervalIntegral.Basic

/-!
# Specification vocabulary: infrared divergences of quantum electrodynamics

Both quantities are regularised by a mass `mu` of the photon, and both diverge as `mu` vanishes.  They
are textbook quantities, written independently of the code.
-/

namespace Sidis.Spec

/-- The momentum of the undetected system, what the target and the virtual photon leave beside the detected
hadron. -/
noncomputable def momX (k : Kinematics ℝ) : Vec4 := momP k + momQ k - momH k

end Sidis.Spec

namespace Sidis.Spec.Qed

/-- The Dirac form factor at one loop, less one, for a momentum transfer `Q² = -(k₂ - k₁)²`, a lepton of
mass `m` and a photon of mass `mu`: the integral over the Feynman parameters `x = 1 - z - y`, `y`, `z`
of the vertex diagram, renormalised so that it vanishes at `Q² = 0`. -/
noncomputable def diracFormFactor (alpha Q_sq m mu : ℝ) : ℝ :=
  alpha / (2 * Real.pi) * ∫ z in (0 : ℝ)..1, ∫ y in (0 : ℝ)..(1 - z),
    (Real.log (m ^ 2 * (1 - z) ^ 2 / (m ^ 2 * (1 - z) ^ 2 + Q_sq * (y * (1 - z - y))))
      + (m ^ 2 * (1 - 4 * z + z ^ 2) - Q_sq * ((1 - (1 - z - y)) * (1 - y)))
        / (m ^ 2 * (1 - z) ^ 2 + Q_sq * (y * (1 - z - y)) + mu ^ 2 * z)
      - m ^ 2 * (1 - 4 * z + z ^ 2) / (m ^ 2 * (1 - z) ^ 2 + mu ^ 2 * z))

/-- The momentum of a photon of mass `mu`, given the length of its momentum, the cosine of the polar
angle and the azimuth. -/
noncomputable def photon (mu r c phi : ℝ) : Vec4 :=
  ⟨√(r ^ 2 + mu ^ 2), r * √(1 - c ^ 2) * Real.cos phi, r * √(1 - c ^ 2) * Real.sin phi, r * c⟩

/-- The classical current `k₁ / (k₁·k) - k₂ / (k₂·k)` of a charge that is scattered from `k₁` to `k₂`. -/
noncomputable def current (k1 k2 k : Vec4) : Vec4 :=
  (1 / mink k1 k) • k1 - (1 / mink k2 k) • k2

/-- The probability of emitting a photon of mass `mu` with a momentum shorter than `r_max`, in the soft
photon approximation: `-(alpha / 4π²) ∫ d³k / ω (k₁ / (k₁·k) - k₂ / (k₂·k))²`. -/
noncomputable def softEmission (alpha : ℝ) (k1 k2 : Vec4) (mu r_max : ℝ) : ℝ :=
  -(alpha / (4 * Real.pi ^ 2)) * ∫ r in (0 : ℝ)..r_max, ∫ c in (-1 : ℝ)..1,
    ∫ phi in (-Real.pi)..Real.pi, r ^ 2 / √(r ^ 2 + mu ^ 2) *
      mink (current k1 k2 (photon mu r c phi)) (current k1 k2 (photon mu r c phi))

end Sidis.Spec.Qed
