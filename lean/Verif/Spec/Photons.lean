import Verif.Spec.Cut
import Verif.Model.CrossSection
import Verif.Model.PhotonInteg
import Mathlib.MeasureTheory.Integral.Bochner.Set
import Mathlib.MeasureTheory.Constructions.Pi
import Mathlib.MeasureTheory.Measure.Lebesgue.Basic

/-! # Photon phase space: vocabulary for C85 - C87 -/

namespace Sidis.Spec

variable (ps : Particles ℝ) (S : ℝ) (pt : PhaseSpace ℝ)

/-- The photons `(tau, phi_k, R)` that may accompany the scattering at `pt`, each direction once. -/
def photons : Set (ℝ × ℝ × ℝ) :=
  {v | AcceptedRad ps S pt v.1 v.2.1 v.2.2 ∧ -Real.pi ≤ v.2.1 ∧ v.2.1 ≤ Real.pi}

/-- The photon energy in the rest frame of the undetected state (see C17). -/
noncomputable def energyBar (v : ℝ × ℝ × ℝ) : ℝ :=
  (KinematicsRad.make (.make ps S pt) v.1 v.2.1 v.2.2).k_0_bar

/-- The largest photon energy. -/
noncomputable def energyMax : ℝ :=
  ((Kinematics.make ps S pt).mx_sq - ps.Mth ^ 2) / (2 * √(Kinematics.make ps S pt).mx_sq)

/-- Photons with an energy of at most `k_0_bar`. -/
def softPhotons (k_0_bar : ℝ) : Set (ℝ × ℝ × ℝ) :=
  {v ∈ photons ps S pt | energyBar ps S pt v ≤ k_0_bar}

/-- Photons with an energy above `k_0_bar`. -/
def hardPhotons (k_0_bar : ℝ) : Set (ℝ × ℝ × ℝ) :=
  {v ∈ photons ps S pt | k_0_bar < energyBar ps S pt v}

/-- An integrator over the unit cube with an error of at most `ε`: for every integrand that is a finite
number everywhere on the cube and is integrable there. -/
def Accurate (I : PhotonInteg.Integrator3) (ε : ℝ) : Prop :=
  ∀ (f : (Fin 3 → ℝ) → Fl) (g : (Fin 3 → ℝ) → ℝ),
    (∀ p, (∀ i, 0 ≤ p i ∧ p i ≤ 1) → f p = .fin (g p)) →
    MeasureTheory.IntegrableOn g {p | ∀ i, 0 ≤ p i ∧ p i ≤ 1} →
    ∃ v : ℝ, (I f (fun _ => 0) fun _ => 1).val = .fin v ∧
      |v - ∫ p in {p | ∀ i, 0 ≤ p i ∧ p i ≤ 1}, g p| ≤ ε

end Sidis.Spec
