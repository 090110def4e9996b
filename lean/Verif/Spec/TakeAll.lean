import Verif.Spec.Cut

/-! # What sampling without cuts should do -/

namespace Sidis.Spec

/-- The beam and the target together are heavy enough to make a scattered lepton, the hadron and the
lightest undetected system: `(k₁ + p)² ≥ (m + M_th + m_h)²`. -/
def Reaches (ps : Particles ℝ) (S : ℝ) : Prop :=
  (ps.m + ps.Mth + ps.mh) ^ 2 ≤ S + ps.M ^ 2 + ps.m ^ 2

/-- The same with energy to spare. -/
def Exceeds (ps : Particles ℝ) (S : ℝ) : Prop :=
  (ps.m + ps.Mth + ps.mh) ^ 2 < S + ps.M ^ 2 + ps.m ^ 2

end Sidis.Spec
