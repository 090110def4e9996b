import Verif.Spec.Symmetry
import Mathlib.Algebra.BigOperators.Group.Finset.Basic
import Mathlib.Data.Real.Basic

/-! # Vocabulary for mixtures of polarisation states (C125) -/

namespace Sidis.Spec

/-- The shares of the states in a mixture. -/
def Shares {ι : Type} [Fintype ι] (w : ι → ℝ) : Prop := (∀ i, 0 ≤ w i) ∧ ∑ i, w i = 1

/-- The polarisation of a beam in which the helicity `l i` has the share `w i`. -/
def meanBeam {ι : Type} [Fintype ι] (w l : ι → ℝ) : ℝ := ∑ i, w i * l i

/-- The polarisation of a target in which the polarisation `P j` has the share `v j`. -/
def meanTarget {κ : Type} [Fintype κ] (v : κ → ℝ) (P : κ → Vec3) : Vec3 :=
  ⟨∑ j, v j * (P j).x, ∑ j, v j * (P j).y, ∑ j, v j * (P j).z⟩

/-- A function of the two polarisations is, for every mixture of states of the beam and every mixture of states of the
target, the average over the states. -/
def AveragesStates (f : ℝ → Vec3 → ℝ) : Prop :=
  ∀ {ι κ : Type} [Fintype ι] [Fintype κ] (w l : ι → ℝ) (v : κ → ℝ) (P : κ → Vec3), Shares w → Shares v →
    f (meanBeam w l) (meanTarget v P) = ∑ i, ∑ j, w i * v j * f (l i) (P j)

end Sidis.Spec
