import Verif.Spec.Integ
import Mathlib.Algebra.BigOperators.Group.Multiset.Basic
import Mathlib.Algebra.Order.BigOperators.Group.Multiset
import Mathlib.Tactic.Positivity

/-! # Two statistics libraries that meet the assumptions (used in examples only) -/

namespace Sidis.Lemmas

open Gen StatsLib Spec

/-- The library that keeps all weights. -/
def Bag : Type := Multiset Fl

namespace Bag

/-- The multiset. -/
def val (b : Bag) : Multiset Fl := b

/-- All weights are finite. -/
def Fin (b : Bag) : Prop := ∀ w ∈ b.val, w.isFinite

/-- The sum of the weights. -/
noncomputable def sum (b : Bag) : ℝ := (b.val.map num).sum

open Classical in
noncomputable instance : StatsLib Bag where
  empty := (0 : Multiset Fl)
  add a b := a.val + b.val
  push a w := w ::ₘ a.val
  count a := Multiset.card a.val
  mean a := if a.Fin then .fin (a.sum / Multiset.card a.val) else .nan
  sqrtM2 a n := if a.Fin then .fin (Real.sqrt ((a.val.map fun w => num w ^ 2).sum / n)) else .nan
  ratio _ _ := .fin 0
  max1 _ := .fin 0
  ofMoments _ _ _ := (0 : Multiset Fl)

theorem counts : Counts Bag where
  add_comm a b := add_comm a.val b.val
  add_assoc a b c := add_assoc a.val b.val c.val
  empty_add a := zero_add a.val
  count_empty := Multiset.card_zero
  count_add a b := Multiset.card_add a.val b.val
  count_push a w := Multiset.card_cons w a.val

theorem hasSum : HasSum Fin sum where
  empty := by intro w hw; exact absurd hw (Multiset.notMem_zero w)
  add a b ha hb := by
    refine ⟨?_, ?_⟩
    · intro w hw
      rcases Multiset.mem_add.mp (show w ∈ a.val + b.val from hw) with h | h
      · exact ha w h
      · exact hb w h
    · change ((a.val + b.val).map num).sum = _
      rw [Multiset.map_add, Multiset.sum_add]; rfl
  mean a ha _ := by
    exact if_pos ha

theorem mem_collect (ws : List Fl) (w : Fl) : w ∈ (collect ws : Bag).val ↔ w ∈ ws := by
  have key : ∀ (ws : List Fl) (b : Bag), w ∈ (ws.foldl push b).val ↔ w ∈ b.val ∨ w ∈ ws := by
    intro ws
    induction ws with
    | nil => intro b; simp
    | cons x ws ih =>
      intro b
      rw [List.foldl_cons, ih, List.mem_cons]
      change w ∈ x ::ₘ b.val ∨ _ ↔ _
      rw [Multiset.mem_cons]
      tauto
  rw [collect, key]
  change w ∈ (0 : Multiset Fl) ∨ _ ↔ _
  simp

theorem rms : RootMeanSquare Bag where
  pos ws n hfin hne hn := by
    have hf : (collect ws : Bag).Fin := fun w hw => hfin w ((mem_collect ws w).mp hw)
    refine ⟨_, ?_, (if_pos hf : sqrtM2 (collect ws : Bag) n = _)⟩
    obtain ⟨w, hw, h0⟩ := hne
    have hw' := (mem_collect ws w).mpr hw
    have h2 : 0 < num w ^ 2 := by
      have := hfin w hw
      cases w with
      | fin r =>
        have hr : r ≠ 0 := h0
        have := sq_nonneg r
        exact lt_of_le_of_ne this (by simpa [num] using Ne.symm (pow_ne_zero 2 hr))
      | _ => exact absurd this (by simp)
    have : num w ^ 2 ≤ (((collect ws : Bag).val.map fun w => num w ^ 2)).sum :=
      Multiset.single_le_sum (fun x hx => by
        obtain ⟨y, _, rfl⟩ := Multiset.mem_map.mp hx; positivity) _
        (Multiset.mem_map_of_mem (fun w => num w ^ 2) hw')
    have hn' : (0 : ℝ) < n := by exact_mod_cast hn
    apply Real.sqrt_pos.mpr
    exact div_pos (lt_of_lt_of_le h2 this) hn'
  special ws n hne hn := by
    obtain ⟨w, hw, h0⟩ := hne
    have hf : ¬ (collect ws : Bag).Fin := fun h => h0 (h w ((mem_collect ws w).mpr hw))
    have e : sqrtM2 (collect ws : Bag) n = .nan := if_neg hf
    rw [e]
    simp

end Bag

/-- The library that keeps the moments. -/
structure Moments where
  ratio : _root_.Fin 4 → Fl
  max1 : Fl
  count : ℕ

instance : StatsLib Moments where
  empty := ⟨fun _ => .fin 0, .fin 0, 0⟩
  add a b := ⟨a.ratio, a.max1, a.count + b.count⟩
  push a _ := ⟨a.ratio, a.max1, a.count + 1⟩
  count a := a.count
  mean a := a.ratio 0
  sqrtM2 a _ := a.ratio 1
  ratio a := a.ratio
  max1 a := a.max1
  ofMoments r m c := ⟨r, m, c⟩

end Sidis.Lemmas
