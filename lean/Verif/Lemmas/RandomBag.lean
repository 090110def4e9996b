import Verif.Spec.Random
import Verif.Lemmas.StatsExample

/-! # A statistics library that averages exactly (used in examples only) -/

namespace Sidis.Lemmas.Bag

open Gen StatsLib Spec

theorem collect_val (ws : List Fl) : (collect ws : Bag).val = (ws : Multiset Fl) := by
  have key : ∀ (ws : List Fl) (b : Bag), (ws.foldl push b).val = b.val + (ws : Multiset Fl) := by
    intro ws
    induction ws with
    | nil => intro b; simp
    | cons w ws ih =>
      intro b
      rw [List.foldl_cons, ih]
      change (w ::ₘ b.val) + (ws : Multiset Fl) = _
      rw [← Multiset.cons_coe, Multiset.cons_add, Multiset.add_cons]
  rw [collect, key]
  exact zero_add _

theorem averages : Averages Bag where
  mean ws _ := by
    have hf : (collect (ws.map Fl.fin) : Bag).Fin := by
      intro w hw
      obtain ⟨r, _, rfl⟩ := List.mem_map.mp ((mem_collect _ w).mp hw)
      trivial
    refine (if_pos hf : mean (collect (ws.map Fl.fin) : Bag) = _).trans ?_
    unfold sum
    rw [collect_val]
    simp [Function.comp_def, num]
  square ws n _ := by
    have hf : (collect (ws.map Fl.fin) : Bag).Fin := by
      intro w hw
      obtain ⟨r, _, rfl⟩ := List.mem_map.mp ((mem_collect _ w).mp hw)
      trivial
    refine (if_pos hf : sqrtM2 (collect (ws.map Fl.fin) : Bag) n = _).trans ?_
    rw [collect_val]
    simp [Function.comp_def, num]

end Sidis.Lemmas.Bag
