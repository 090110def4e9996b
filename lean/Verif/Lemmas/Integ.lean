import Verif.Spec.Integ
import Mathlib.Tactic.FieldSimp
import Mathlib.Tactic.Ring
import Mathlib.Tactic.LinearCombination
import Mathlib.Tactic.Positivity
import Mathlib.Algebra.BigOperators.Group.List.Basic
import Mathlib.Data.List.Perm.Basic

/-! # Lemmas about integrators -/

namespace Sidis.Lemmas.Integ

open Gen StatsLib Spec

variable {S : Type} [StatsLib S]

/-- The combination of a list of non-empty integrators, in one formula. -/
noncomputable def canon (l : List (Integrator S)) : Integrator S :=
  ⟨.fin ((l.map fun a => (a.count : ℝ) * num a.primeInv).sum / (l.map Integrator.count).sum),
    (l.map Integrator.count).sum, (l.map Integrator.countAcc).sum,
    l.foldr (fun a w => StatsLib.add a.weights w) empty⟩

theorem add_empty (hS : Counts S) (a : S) : StatsLib.add a empty = a := by
  rw [hS.add_comm, hS.empty_add]

theorem foldr_append (hS : Counts S) (l₁ l₂ : List (Integrator S)) :
    (l₁ ++ l₂).foldr (fun a w => StatsLib.add a.weights w) empty =
      StatsLib.add (l₁.foldr (fun a w => StatsLib.add a.weights w) empty)
        (l₂.foldr (fun a w => StatsLib.add a.weights w) empty) := by
  induction l₁ with
  | nil => simp [hS.empty_add]
  | cons a l ih => simp only [List.cons_append, List.foldr_cons, ih, hS.add_assoc]

theorem canon_singleton (hS : Counts S) {a : Integrator S} (ha : Sound a) (h0 : a.count ≠ 0) :
    canon [a] = a := by
  obtain ⟨r, hr⟩ := ha.prime (Nat.pos_of_ne_zero h0)
  have : (a.count : ℝ) ≠ 0 := by exact_mod_cast h0
  cases a
  simp only at hr this
  simp only [canon, List.map_cons, List.map_nil, List.sum_cons, List.sum_nil, add_zero, hr, num,
    List.foldr_cons, List.foldr_nil, add_empty hS, Integrator.mk.injEq, Fl.fin.injEq, and_true]
  field_simp

theorem canon_add (hS : Counts S) (l₁ l₂ : List (Integrator S))
    (h₁ : (l₁.map Integrator.count).sum ≠ 0) (h₂ : (l₂.map Integrator.count).sum ≠ 0) :
    (canon l₁).add (canon l₂) = canon (l₁ ++ l₂) := by
  have e₁ : (((l₁.map Integrator.count).sum : ℕ) : ℝ) ≠ 0 := by exact_mod_cast h₁
  have e₂ : (((l₂.map Integrator.count).sum : ℕ) : ℝ) ≠ 0 := by exact_mod_cast h₂
  have e₃ : (((l₁.map Integrator.count).sum + (l₂.map Integrator.count).sum : ℕ) : ℝ) ≠ 0 := by
    exact_mod_cast (by omega : _ ≠ 0)
  simp only [Integrator.add, canon, h₁, h₂, if_false, Fl.div_fin _ e₃, Fl.sub_fin, Fl.mul_fin,
    Fl.add_fin, foldr_append hS, List.map_append, List.sum_append, Integrator.mk.injEq,
    Fl.fin.injEq, and_true]
  rw [Nat.cast_add] at e₃ ⊢
  generalize (((l₁.map Integrator.count).sum : ℕ) : ℝ) = n₁ at *
  generalize (((l₂.map Integrator.count).sum : ℕ) : ℝ) = n₂ at *
  field_simp
  ring

theorem sum_ne {l : List (Integrator S)} (hne : l ≠ []) (hl : ∀ a ∈ l, a.count ≠ 0) :
    (l.map Integrator.count).sum ≠ 0 := by
  cases l with
  | nil => exact absurd rfl hne
  | cons a l =>
    have := hl a (by simp)
    simp only [List.map_cons, List.sum_cons]
    omega

/-- The non-empty leaves. -/
noncomputable def full (t : Merge S) : List (Integrator S) := t.leaves.filter fun a => a.count ≠ 0

theorem full_ne {t : Merge S} : ∀ a ∈ full t, a.count ≠ 0 := by
  intro a ha
  simpa using (List.mem_filter.mp ha).2

theorem value_count (t : Merge S) : full t = [] → t.value.count = 0 := by
  induction t with
  | leaf a => simp [full, Merge.leaves, Merge.value]
  | node l r ihl ihr =>
    intro h
    simp only [full, Merge.leaves, List.filter_append, List.append_eq_nil_iff] at h
    simp only [Merge.value, Integrator.add, ihl h.1, if_true, ihr h.2]

theorem value_eq (hS : Counts S) (t : Merge S) (hs : ∀ a ∈ t.leaves, Sound a) :
    full t ≠ [] → t.value = canon (full t) := by
  induction t with
  | leaf a =>
    intro h
    have h0 : a.count ≠ 0 := by
      intro h0; exact h (by simp [full, Merge.leaves, h0])
    rw [show full (Merge.leaf a) = [a] by simp [full, Merge.leaves, h0],
      canon_singleton hS (hs a (by simp [Merge.leaves])) h0]
    rfl
  | node l r ihl ihr =>
    intro h
    have hf : full (Merge.node l r) = full l ++ full r := by
      simp [full, Merge.leaves, List.filter_append]
    have il := ihl fun a ha => hs a (by simp [Merge.leaves, ha])
    have ir := ihr fun a ha => hs a (by simp [Merge.leaves, ha])
    rw [hf]
    by_cases hl : full l = []
    · have hr : full r ≠ [] := by
        intro hr; exact h (by rw [hf, hl, hr]; rfl)
      simp only [Merge.value, Integrator.add, value_count l hl, if_true, hl, List.nil_append]
      exact ir hr
    · have cl : l.value.count ≠ 0 := by
        rw [il hl]; exact sum_ne hl full_ne
      by_cases hr : full r = []
      · simp only [Merge.value, Integrator.add, cl, value_count r hr, if_true, if_false, hr,
          List.append_nil]
        exact il hl
      · rw [Merge.value, il hl, ir hr, canon_add hS _ _ (sum_ne hl full_ne) (sum_ne hr full_ne)]

theorem canon_perm (hS : Counts S) {l₁ l₂ : List (Integrator S)} (h : l₁.Perm l₂) :
    canon l₁ = canon l₂ := by
  have hw : l₁.foldr (fun a w => StatsLib.add a.weights w) empty =
      l₂.foldr (fun a w => StatsLib.add a.weights w) empty := by
    haveI : LeftCommutative fun (a : Integrator S) (w : S) => StatsLib.add a.weights w :=
      ⟨fun a b w => by
        simp only [← hS.add_assoc]
        rw [hS.add_comm a.weights b.weights]⟩
    exact h.foldr_eq _
  simp only [canon, hw, (h.map fun a => (a.count : ℝ) * num a.primeInv).sum_eq,
    (h.map Integrator.count).sum_eq, (h.map Integrator.countAcc).sum_eq]

theorem sum_empty {Finite : S → Prop} {sum : S → ℝ} (hS : Counts S) (h : HasSum Finite sum) :
    sum empty = 0 := by
  have := (h.add empty empty h.empty h.empty).2
  rw [hS.empty_add] at this
  linarith

theorem sum_foldr {Finite : S → Prop} {sum : S → ℝ} (hS : Counts S) (h : HasSum Finite sum)
    (l : List (Integrator S)) (hl : ∀ a ∈ l, Finite a.weights) :
    Finite (l.foldr (fun a w => StatsLib.add a.weights w) empty) ∧
    sum (l.foldr (fun a w => StatsLib.add a.weights w) empty) =
      (l.map fun a => sum a.weights).sum := by
  induction l with
  | nil => exact ⟨h.empty, by simpa using sum_empty hS h⟩
  | cons a l ih =>
    obtain ⟨i1, i2⟩ := ih fun b hb => hl b (by simp [hb])
    obtain ⟨j1, j2⟩ := h.add a.weights _ (hl a (by simp)) i1
    exact ⟨j1, by simp [j2, i2]⟩

theorem count_foldr (hS : Counts S) (l : List (Integrator S)) (hl : ∀ a ∈ l, Sound a) :
    StatsLib.count (l.foldr (fun a w => StatsLib.add a.weights w) empty) =
      (l.map Integrator.count).sum := by
  induction l with
  | nil => simpa using hS.count_empty
  | cons a l ih =>
    simp [hS.count_add, ih fun b hb => hl b (by simp [hb]), (hl a (by simp)).count]

theorem sum_filter_count (l : List (Integrator S)) :
    ((l.filter fun a => a.count ≠ 0).map Integrator.count).sum = (l.map Integrator.count).sum := by
  induction l with
  | nil => rfl
  | cons a l ih =>
    by_cases h : a.count = 0
    · simp [h] at ih ⊢; exact ih
    · simp [h] at ih ⊢; exact ih

theorem sum_filter_acc (l : List (Integrator S)) (hl : ∀ a ∈ l, Sound a) :
    ((l.filter fun a => a.count ≠ 0).map Integrator.countAcc).sum =
      (l.map Integrator.countAcc).sum := by
  induction l with
  | nil => rfl
  | cons a l ih =>
    have ih := ih fun b hb => hl b (by simp [hb])
    by_cases h : a.count = 0
    · have := (hl a (by simp)).acc
      have h0 : a.countAcc = 0 := by omega
      simp [h, h0] at ih ⊢; exact ih
    · simp [h] at ih ⊢; exact ih

/-- Merging files one after another, for one event type. -/
theorem mergeFiles_map (first : IntegratorArray S) (rest : List (IntegratorArray S))
    (k : Fin numEventTypes) :
    ∃ t : Merge S, t.leaves = (first :: rest).map (·.map k) ∧
      (IntegratorArray.mergeFiles (first :: rest)).map k = t.value := by
  have key : ∀ (rest : List (IntegratorArray S)) (a : IntegratorArray S) (t : Merge S),
      a.map k = t.value → ∃ t' : Merge S, t'.leaves = t.leaves ++ rest.map (·.map k) ∧
        (rest.foldl IntegratorArray.add a).map k = t'.value := by
    intro rest
    induction rest with
    | nil => intro a t h; exact ⟨t, by simp, h⟩
    | cons b rest ih =>
      intro a t h
      obtain ⟨t', h1, h2⟩ := ih (a.add b) (.node t (.leaf (b.map k)))
        (by simp [IntegratorArray.add, Merge.value, h])
      exact ⟨t', by simp [h1, Merge.leaves], h2⟩
  exact key rest first (.leaf (first.map k)) rfl

end Sidis.Lemmas.Integ
