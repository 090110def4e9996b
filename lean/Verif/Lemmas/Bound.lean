import Verif.Spec.Bound

namespace Sidis

open Fl

namespace Fl

theorem le_trans' {a b c : Fl} (h1 : a ≤ b) (h2 : b ≤ c) : a ≤ c := by
  cases a <;> cases b <;> cases c <;> simp_all <;> linarith

theorem fmax_le {a b c : Fl} (ha : ¬ a.isNaN) (hb : ¬ b.isNaN) :
    fmax a b ≤ c ↔ a ≤ c ∧ b ≤ c := by
  cases a <;> cases b <;> cases c <;> simp_all [fmax] <;> split_ifs <;> simp_all <;>
    intros <;> linarith

theorem le_fmin {a b c : Fl} (ha : ¬ a.isNaN) (hb : ¬ b.isNaN) :
    c ≤ fmin a b ↔ c ≤ a ∧ c ≤ b := by
  cases a <;> cases b <;> cases c <;> simp_all [fmin] <;> split_ifs <;> simp_all <;>
    intros <;> linarith

theorem le_fmax {a b : Fl} (ha : ¬ a.isNaN) (hb : ¬ b.isNaN) : a ≤ fmax a b ∧ b ≤ fmax a b := by
  cases a <;> cases b <;> simp_all [fmax] <;> split_ifs <;> simp_all <;>
    linarith

theorem fmin_le {a b : Fl} (ha : ¬ a.isNaN) (hb : ¬ b.isNaN) : fmin a b ≤ a ∧ fmin a b ≤ b := by
  cases a <;> cases b <;> simp_all [fmin] <;> split_ifs <;> simp_all <;>
    linarith

theorem not_isNaN_of_le {a b : Fl} (h : a ≤ b) : ¬ a.isNaN ∧ ¬ b.isNaN := by
  cases a <;> cases b <;> simp_all

theorem le_refl' {a : Fl} (h : ¬ a.isNaN) : a ≤ a := by
  cases a <;> simp_all

theorem fmax_not_nan {a b : Fl} (ha : ¬ a.isNaN) : ¬ (fmax a b).isNaN := by
  cases a <;> cases b <;> simp_all [fmax] <;> split_ifs <;> simp_all

theorem fmin_not_nan {a b : Fl} (ha : ¬ a.isNaN) : ¬ (fmin a b).isNaN := by
  cases a <;> cases b <;> simp_all [fmin] <;> split_ifs <;> simp_all

theorem isNaN_iff {a : Fl} : a.isNaN ↔ a = nan := by cases a <;> simp_all

theorem add_le_add_right {a b s : Fl} (h : a ≤ b) :
    a + s ≤ b + s ∨ (a + s).isNaN ∨ (b + s).isNaN := by
  cases a <;> cases b <;> cases s <;> simp_all

theorem sub_le_sub_right {a b s : Fl} (h : a ≤ b) :
    a - s ≤ b - s ∨ (a - s).isNaN ∨ (b - s).isNaN := by
  cases a <;> cases b <;> cases s <;> simp_all

theorem infTimes_cases (a : ℝ) : (0 < a ∧ infTimes a = pinf) ∨ (a < 0 ∧ infTimes a = ninf) ∨
    (a = 0 ∧ infTimes a = nan) := by
  rcases lt_trichotomy 0 a with h | h | h
  · exact Or.inl ⟨h, infTimes_pos h⟩
  · exact Or.inr (Or.inr ⟨h.symm, by rw [← h]; simp⟩)
  · exact Or.inr (Or.inl ⟨h, infTimes_neg h⟩)

theorem mul_le_mul_right {a b s : Fl} (h : a ≤ b) (hs : ¬ s < fin 0) :
    a * s ≤ b * s ∨ (a * s).isNaN ∨ (b * s).isNaN := by
  cases s with
  | nan => simp
  | ninf => simp at hs
  | pinf =>
    cases a <;> cases b <;> simp_all
    · rename_i r; rcases infTimes_cases r with h | h | h <;> simp [h]
    · rename_i r r'
      rcases infTimes_cases r with h | h | h <;> rcases infTimes_cases r' with h' | h' | h' <;>
        simp [h, h'] <;> linarith [h.1, h'.1]
    · rename_i r; rcases infTimes_cases r with h | h | h <;> simp [h]
  | fin s =>
    simp at hs
    cases a <;> cases b <;> simp_all
    · rcases infTimes_cases (-s) with h | h | h <;> simp [h]
    · rcases infTimes_cases (-s) with h | h | h <;> simp [h]; linarith [h.1]
    · rcases infTimes_cases (-s) with h | h | h <;> rcases infTimes_cases (s) with h' | h' | h' <;>
        simp [h, h'] ; linarith [h.1]
    · exact mul_le_mul_of_nonneg_right h hs
    · rcases infTimes_cases s with h | h | h <;> simp [h]; linarith [h.1]
    · rcases infTimes_cases s with h | h | h <;> simp [h]

theorem div_le_div_right {a b s : Fl} (h : a ≤ b) (hs : ¬ s ≤ fin 0) :
    a / s ≤ b / s ∨ (a / s).isNaN ∨ (b / s).isNaN := by
  cases s with
  | nan => simp
  | ninf => simp at hs
  | pinf => cases a <;> cases b <;> simp_all
  | fin s =>
    simp at hs
    cases a <;> cases b <;>
      simp_all [div_fin _ hs.ne', pinf_div_fin hs.le, ninf_div_fin hs.le]
    exact div_le_div_of_nonneg_right h hs.le

end Fl

namespace Bound

theorem not_valid_invalid : ¬ invalid.valid := by simp [invalid, valid]

theorem not_contains_of_isNaN {b : Bound} (h : b.min.isNaN ∨ b.max.isNaN) (x : Fl) :
    ¬ b.contains x := by
  rcases h with h | h <;> rw [isNaN_iff] at h <;> simp [contains, h]

/-- Ordered, or one end NaN. -/
def Inv (b : Bound) : Prop := b.min ≤ b.max ∨ b.min.isNaN ∨ b.max.isNaN

theorem inv_invalid : Inv invalid := Or.inr (Or.inl trivial)

theorem inv_mk' (a b : Fl) : Inv (mk' a b) := by
  unfold mk'; split_ifs with h
  · exact Or.inl h
  · exact inv_invalid

theorem inv_inter (a b : Bound) : Inv (a.inter b) := by
  unfold inter; split_ifs with h
  · exact inv_invalid
  · dsimp only; split_ifs with h'
    · exact Or.inl h'
    · exact inv_invalid

theorem inv_union {a b : Bound} (ha : Inv a) : Inv (a.union b) := by
  unfold union; split_ifs with h
  · exact inv_invalid
  · push Not at h
    rcases ha with ha | ha | ha
    · exact Or.inl (le_trans' (fmin_le h.1 h.2.1).1 (le_trans' ha (le_fmax h.2.2.1 h.2.2.2).1))
    · exact absurd ha h.1
    · exact absurd ha h.2.2.1

theorem inv_shift {a : Bound} (s : Fl) (ha : Inv a) : Inv (a.shift s) := by
  rcases ha with ha | ha | ha
  · exact Fl.add_le_add_right ha
  · rw [isNaN_iff] at ha; simp [Inv, shift, ha]
  · rw [isNaN_iff] at ha; simp [Inv, shift, ha]

theorem inv_unshift {a : Bound} (s : Fl) (ha : Inv a) : Inv (a.unshift s) := by
  rcases ha with ha | ha | ha
  · exact Fl.sub_le_sub_right ha
  · rw [isNaN_iff] at ha; simp [Inv, unshift, ha]
  · rw [isNaN_iff] at ha; simp [Inv, unshift, ha]

theorem inv_scale {a : Bound} (s : Fl) (ha : Inv a) : Inv (a.scale s) := by
  unfold scale; split_ifs with h
  · exact inv_invalid
  · rcases ha with ha | ha | ha
    · exact Fl.mul_le_mul_right ha h
    · rw [isNaN_iff] at ha; simp [Inv, ha]
    · rw [isNaN_iff] at ha; simp [Inv, ha]

theorem inv_unscale {a : Bound} (s : Fl) (ha : Inv a) : Inv (a.unscale s) := by
  unfold unscale; split_ifs with h
  · exact inv_invalid
  · rcases ha with ha | ha | ha
    · exact Fl.div_le_div_right ha h
    · rw [isNaN_iff] at ha; simp [Inv, ha]
    · rw [isNaN_iff] at ha; simp [Inv, ha]

theorem inv_run (p : Spec.Prog) : Inv p.run := by
  induction p with
  | default => exact inv_invalid
  | ctor a b => exact inv_mk' a b
  | inter a b _ _ => exact inv_inter _ _
  | union a b iha _ => exact inv_union iha
  | shift a s ih => exact inv_shift s ih
  | unshift a s ih => exact inv_unshift s ih
  | scale a s ih => exact inv_scale s ih
  | unscale a s ih => exact inv_unscale s ih

theorem isNaN_of_inv {b : Bound} (h : Inv b) (hv : ¬ b.valid) : b.min.isNaN ∨ b.max.isNaN := by
  rcases h with h | h
  · exact absurd h hv
  · exact h

theorem not_valid_of_isNaN {b : Bound} (h : b.min.isNaN ∨ b.max.isNaN) : ¬ b.valid := by
  rcases h with h | h <;> rw [isNaN_iff] at h <;> simp [valid, h]

theorem inter_not_valid_left {a b : Bound} (h : a.min.isNaN ∨ a.max.isNaN) : ¬ (a.inter b).valid := by
  have : a.min.isNaN ∨ b.min.isNaN ∨ a.max.isNaN ∨ b.max.isNaN := by tauto
  simp [inter, this, not_valid_invalid]

theorem inter_not_valid_right {a b : Bound} (h : b.min.isNaN ∨ b.max.isNaN) : ¬ (a.inter b).valid := by
  have : a.min.isNaN ∨ b.min.isNaN ∨ a.max.isNaN ∨ b.max.isNaN := by tauto
  simp [inter, this, not_valid_invalid]

theorem union_not_valid_left {a b : Bound} (h : a.min.isNaN ∨ a.max.isNaN) : ¬ (a.union b).valid := by
  have : a.min.isNaN ∨ b.min.isNaN ∨ a.max.isNaN ∨ b.max.isNaN := by tauto
  simp [union, this, not_valid_invalid]

theorem union_not_valid_right {a b : Bound} (h : b.min.isNaN ∨ b.max.isNaN) : ¬ (a.union b).valid := by
  have : a.min.isNaN ∨ b.min.isNaN ∨ a.max.isNaN ∨ b.max.isNaN := by tauto
  simp [union, this, not_valid_invalid]

theorem uses_not_valid {p q : Spec.Prog} (hu : p.Uses q) (hq : ¬ q.run.valid) : ¬ p.run.valid := by
  induction hu with
  | refl p => exact hq
  | interL _ ih => exact inter_not_valid_left (isNaN_of_inv (inv_run _) (ih hq))
  | interR _ ih => exact inter_not_valid_right (isNaN_of_inv (inv_run _) (ih hq))
  | unionL _ ih => exact union_not_valid_left (isNaN_of_inv (inv_run _) (ih hq))
  | unionR _ ih => exact union_not_valid_right (isNaN_of_inv (inv_run _) (ih hq))
  | shift _ ih =>
    have h := isNaN_of_inv (inv_run _) (ih hq)
    apply not_valid_of_isNaN
    rcases h with h | h <;> rw [isNaN_iff] at h <;> simp [Spec.Prog.run, Bound.shift, h]
  | unshift _ ih =>
    have h := isNaN_of_inv (inv_run _) (ih hq)
    apply not_valid_of_isNaN
    rcases h with h | h <;> rw [isNaN_iff] at h <;> simp [Spec.Prog.run, Bound.unshift, h]
  | scale _ ih =>
    have h := isNaN_of_inv (inv_run _) (ih hq)
    apply not_valid_of_isNaN
    rcases h with h | h <;> rw [isNaN_iff] at h <;> simp only [Spec.Prog.run, Bound.scale] <;>
      split_ifs <;> simp [h, invalid]
  | unscale _ ih =>
    have h := isNaN_of_inv (inv_run _) (ih hq)
    apply not_valid_of_isNaN
    rcases h with h | h <;> rw [isNaN_iff] at h <;> simp only [Spec.Prog.run, Bound.unscale] <;>
      split_ifs <;> simp [h, invalid]

end Bound
end Sidis
