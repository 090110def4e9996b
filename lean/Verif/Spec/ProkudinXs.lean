import Verif.Model.Prokudin
import Verif.Spec.Trento

/-! # The supplied structure functions in a cross-section -/

namespace Sidis.Spec

/-- The unpolarised structure functions for a hadron are those of `ProkudinSfSet` with some tables. -/
structure SuppliedBy (T : Prokudin.Tables) (sf : SfFuns) (h : Hadron) : Prop where
  UUL : ∀ x z Q_sq ph_t_sq, (Prokudin.sf T h x z Q_sq ph_t_sq).F_UUL = some (sf.F_UUL h x z Q_sq ph_t_sq)
  UUT : ∀ x z Q_sq ph_t_sq, (Prokudin.sf T h x z Q_sq ph_t_sq).F_UUT = some (sf.F_UUT h x z Q_sq ph_t_sq)
  UU_cos_h : ∀ x z Q_sq ph_t_sq,
    (Prokudin.sf T h x z Q_sq ph_t_sq).F_UU_cos_phih = some (sf.F_UU_cos_phih h x z Q_sq ph_t_sq)
  UU_cos_2h : ∀ x z Q_sq ph_t_sq,
    (Prokudin.sf T h x z Q_sq ph_t_sq).F_UU_cos_2phih = some (sf.F_UU_cos_2phih h x z Q_sq ph_t_sq)

end Sidis.Spec
