import Verif.Spec.Symmetry
import Verif.Spec.Cut
import Verif.Model.PhotonInteg
import Mathlib.MeasureTheory.Integral.IntervalIntegral.Basic

/-! # Vocabulary for the symmetries of the cross-sections integrated over the photon -/

namespace Sidis.Spec

open PhotonInteg Asym

/-- The unit cube reflected along its second axis, that of the azimuth of the photon. -/
def reflectCube (x : Fin 3 → ℝ) : Fin 3 → ℝ := ![x 0, 1 - x 1, x 2]

/-- An integrator that makes no difference between an integrand and its reflection, as does the integral
itself. -/
def EvenHanded (I : Integrator3) : Prop :=
  ∀ f, I (fun x => f (reflectCube x)) (fun _ => 0) (fun _ => 1) = I f (fun _ => 0) (fun _ => 1)

/-- The integral, of the numbers among the values. -/
noncomputable def exactCube : Integrator3 := fun f lo hi =>
  let val : Fl → ℝ := fun v => match v with | .fin r => r | _ => 0
  ⟨.fin (∫ a in lo 0..hi 0, ∫ b in lo 1..hi 1, ∫ c in lo 2..hi 2, val (f ![a, b, c])), .fin 0⟩

/-- A cross-section integrated over the photon, at a point of the phase space and for a target polarisation
given in the target frame, computed as by the programs. -/
noncomputable def integAtTarget (xs : Kinematics Fl → Kinematics ℝ → ℝ → Vec3 → EstErr) (ps : Particles ℝ)
    (S : ℝ) (pt : PhaseSpace ℝ) (lambda_e : ℝ) (target_pol : Vec3) : EstErr :=
  xs (.make (finPs ps) (.fin S) (finPt pt)) (.make ps S pt) lambda_e
    ((Frame.hadronFromTarget (.make ps S pt)).apply target_pol)

end Sidis.Spec
