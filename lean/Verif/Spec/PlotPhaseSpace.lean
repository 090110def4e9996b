import Verif.Spec.Example
import Verif.Model.PlotPhaseSpace

/-! # What plot_phase_space should show -/

namespace Sidis.Spec

/-- The quantity with a given name, at a point of the phase space with the photon `tau`, `phi_k`, `R`. -/
inductive Quantity (S : ℝ) (pt : PhaseSpace ℝ) (t f r : ℝ) : String → ℝ → Prop
  | x : Quantity S pt t f r "x" pt.x
  | y : Quantity S pt t f r "y" pt.y
  | Q_sq : Quantity S pt t f r "Q_sq" (S * pt.x * pt.y)
  | z : Quantity S pt t f r "z" pt.z
  | ph_t (v : ℝ) : 0 ≤ v → v ^ 2 = pt.ph_t_sq → Quantity S pt t f r "ph_t" v
  | ph_t_sq : Quantity S pt t f r "ph_t_sq" pt.ph_t_sq
  | phi_h : Quantity S pt t f r "phi_h" pt.phi_h
  | phi : Quantity S pt t f r "phi" pt.phi
  | tau : Quantity S pt t f r "tau" t
  | phi_k : Quantity S pt t f r "phi_k" f
  | R : Quantity S pt t f r "R" r

/-- The names of the quantities that do not need a photon, and of those that do. -/
def plainNames : List (List Char) :=
  ["x", "y", "Q_sq", "z", "ph_t", "ph_t_sq", "phi_h", "phi"].map String.toList
@[inherit_doc plainNames] def photonNames : List (List Char) :=
  ["tau", "phi_k", "R"].map String.toList

/-- The words for the phase space with a photon and without. -/
def radWords : List (List Char) := ["true", "on", "rad"].map String.toList
@[inherit_doc radWords] def nradWords : List (List Char) := ["false", "off", "nrad"].map String.toList

/-- `lo` and `hi` are the least and the greatest of the values. -/
def Extremes (values : List ℝ) (lo hi : ℝ) : Prop :=
  lo ∈ values ∧ hi ∈ values ∧ ∀ v ∈ values, lo ≤ v ∧ v ≤ hi

/-- A value is in the `k`th of a hundred equal parts of the range from `lo` to `hi`. -/
def InPart (lo hi : ℝ) (k : ℕ) (v : ℝ) : Prop :=
  k < 100 ∧ lo + k * ((hi - lo) / 100) ≤ v ∧ v < lo + (k + 1) * ((hi - lo) / 100)

end Sidis.Spec
