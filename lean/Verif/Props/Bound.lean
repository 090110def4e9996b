import Verif.Lemmas.Bound

/-! # C01-C05: `Bound` and `clamp` -/

namespace Sidis.Props

open Sidis Fl

/-- C01. Intersection of Bounds is intersection of the sets of contained numbers, for all ends
(NaN and infinities included) and all query points. -/
theorem c01_inter_contains (a b : Bound) (x : Fl) :
    (a.inter b).contains x ↔ a.contains x ∧ b.contains x := by
  unfold Bound.inter
  split_ifs with h
  · constructor
    · intro hx; exact absurd hx (Bound.not_contains_of_isNaN (b := Bound.invalid) (Or.inl trivial) x)
    · rintro ⟨h1, h2⟩
      rcases h with h | h | h | h
      · exact absurd h1 (Bound.not_contains_of_isNaN (Or.inl h) x)
      · exact absurd h2 (Bound.not_contains_of_isNaN (Or.inl h) x)
      · exact absurd h1 (Bound.not_contains_of_isNaN (Or.inr h) x)
      · exact absurd h2 (Bound.not_contains_of_isNaN (Or.inr h) x)
  · push Not at h
    obtain ⟨h1, h2, h3, h4⟩ := h
    dsimp only
    have key : (fmax a.min b.min ≤ x ∧ x ≤ fmin a.max b.max) ↔ a.contains x ∧ b.contains x := by
      rw [fmax_le h1 h2, le_fmin h3 h4]; unfold Bound.contains; tauto
    split_ifs with h'
    · exact key
    · constructor
      · intro hx; exact absurd hx (Bound.not_contains_of_isNaN (b := Bound.invalid) (Or.inl trivial) x)
      · intro hx; rw [← key] at hx; exact absurd (le_trans' hx.1 hx.2) h'

example : (Bound.mk' (.fin 0) (.fin 2)).contains (.fin 1) ∧
    (Bound.mk' (.fin 1) .pinf).contains (.fin 1) := by
  simp [Bound.mk', Bound.contains]

/-- C01. The intersection of two Bounds is valid exactly when they share a number. -/
theorem c01_inter_valid (a b : Bound) :
    (a.inter b).valid ↔ ∃ x, a.contains x ∧ b.contains x := by
  constructor
  · intro h
    refine ⟨(a.inter b).min, (c01_inter_contains a b _).mp ⟨le_refl' (not_isNaN_of_le h).1, h⟩⟩
  · rintro ⟨x, hx⟩
    rw [← c01_inter_contains] at hx
    exact le_trans' hx.1 hx.2

example : ∃ x, (Bound.mk' (.fin 0) (.fin 2)).contains x ∧ (Bound.mk' (.fin 1) .pinf).contains x :=
  ⟨.fin 1, by simp [Bound.mk', Bound.contains]⟩

/-- C01. Disjoint Bounds intersect to the canonical invalid Bound (both ends NaN), as documented. -/
theorem c01_inter_disjoint (a b : Bound) (h : ∀ x, ¬ (a.contains x ∧ b.contains x)) :
    a.inter b = Bound.invalid := by
  have h' : ¬ (a.inter b).valid := by rw [c01_inter_valid]; push Not; simpa using h
  unfold Bound.inter at h' ⊢
  split_ifs at h' ⊢ with h1
  · rfl
  · dsimp only at h' ⊢
    split_ifs at h' ⊢ with h2
    · exact absurd h2 h'
    · rfl

example : ∀ x, ¬ ((Bound.mk' (.fin 0) (.fin 1)).contains x ∧
    (Bound.mk' (.fin 2) (.fin 3)).contains x) := by
  rintro (_ | _ | x | _) <;> simp [Bound.mk', Bound.contains, show ¬ ((1:ℝ) < 0) by norm_num,
    show ¬ ((3:ℝ) < 2) by norm_num]
  intros; linarith

/-- C02. The union of valid Bounds is valid and contains every number of both. -/
theorem c02_union_contains (a b : Bound) (ha : a.valid) (hb : b.valid) :
    (a.union b).valid ∧ ∀ x, a.contains x ∨ b.contains x → (a.union b).contains x := by
  have na := not_isNaN_of_le ha
  have nb := not_isNaN_of_le hb
  have h : ¬ (a.min.isNaN ∨ b.min.isNaN ∨ a.max.isNaN ∨ b.max.isNaN) := by tauto
  have l1 := fmin_le na.1 nb.1
  have l2 := le_fmax na.2 nb.2
  have he : a.union b = ⟨fmin a.min b.min, fmax a.max b.max⟩ := by
    unfold Bound.union; rw [if_neg h]
  rw [he]
  refine ⟨le_trans' l1.1 (le_trans' ha l2.1), ?_⟩
  rintro x (hx | hx)
  · exact ⟨le_trans' l1.1 hx.1, le_trans' hx.2 l2.1⟩
  · exact ⟨le_trans' l1.2 hx.1, le_trans' hx.2 l2.2⟩

example : (Bound.mk' (.fin 0) (.fin 1)).valid ∧ (Bound.mk' (.fin 2) .pinf).valid := by
  simp [Bound.mk', Bound.valid]

/-- C02. The union is the smallest such Bound: it is included in every Bound including both. -/
theorem c02_union_least (a b c : Bound) (ha : a.valid) (hb : b.valid)
    (hc : ∀ x, a.contains x ∨ b.contains x → c.contains x) :
    ∀ x, (a.union b).contains x → c.contains x := by
  have na := not_isNaN_of_le ha
  have nb := not_isNaN_of_le hb
  have h : ¬ (a.min.isNaN ∨ b.min.isNaN ∨ a.max.isNaN ∨ b.max.isNaN) := by tauto
  have he : a.union b = ⟨fmin a.min b.min, fmax a.max b.max⟩ := by
    unfold Bound.union; rw [if_neg h]
  have c1 := hc a.min (Or.inl ⟨le_refl' na.1, ha⟩)
  have c2 := hc a.max (Or.inl ⟨ha, le_refl' na.2⟩)
  have c3 := hc b.min (Or.inr ⟨le_refl' nb.1, hb⟩)
  have c4 := hc b.max (Or.inr ⟨hb, le_refl' nb.2⟩)
  intro x hx
  rw [he] at hx
  constructor
  · exact le_trans' ((le_fmin na.1 nb.1).mpr ⟨c1.1, c3.1⟩) hx.1
  · exact le_trans' hx.2 ((fmax_le na.2 nb.2).mpr ⟨c2.2, c4.2⟩)

example : ∃ c : Bound, ∀ x, (Bound.mk' (.fin 0) (.fin 1)).contains x ∨
    (Bound.mk' (.fin 2) (.fin 3)).contains x → c.contains x :=
  ⟨⟨.fin 0, .fin 3⟩, by
    rintro (_ | _ | x | _) <;> simp [Bound.mk', Bound.contains, show ¬ ((1:ℝ) < 0) by norm_num,
      show ¬ ((3:ℝ) < 2) by norm_num]
    rintro (⟨h1, h2⟩ | ⟨h1, h2⟩) <;> constructor <;> linarith⟩

/-- C02. For Bounds obtainable from the interface, an invalid operand makes the union invalid and
empty. -/
theorem c02_union_invalid (p q : Spec.Prog) (h : ¬ p.run.valid ∨ ¬ q.run.valid) :
    ¬ (Spec.Prog.union p q).run.valid ∧ ∀ x, ¬ (Spec.Prog.union p q).run.contains x := by
  have hv : ¬ (Spec.Prog.union p q).run.valid := by
    rcases h with h | h
    · exact Bound.uses_not_valid (.unionL (.refl p)) h
    · exact Bound.uses_not_valid (.unionR (.refl q)) h
  exact ⟨hv, Bound.not_contains_of_isNaN (Bound.isNaN_of_inv (Bound.inv_run _) hv)⟩

example : ¬ (Spec.Prog.ctor (.fin 2) (.fin 1)).run.valid := by
  simp [Spec.Prog.run, Bound.mk', Bound.valid, Bound.invalid]

/-- C03. Whatever sequence of operations produced it, a Bound is ordered or it is empty. -/
theorem c03_ordered_or_empty (p : Spec.Prog) :
    (p.run.min ≤ p.run.max) ∨ (¬ p.run.valid ∧ ∀ x, ¬ p.run.contains x) := by
  by_cases h : p.run.valid
  · exact Or.inl h
  · exact Or.inr ⟨h, Bound.not_contains_of_isNaN (Bound.isNaN_of_inv (Bound.inv_run _) h)⟩

/-- C03. Once a Bound is invalid, nothing computed from it is ever valid again. -/
theorem c03_invalid_absorbing (p q : Spec.Prog) (hu : p.Uses q) (hq : ¬ q.run.valid) :
    ¬ p.run.valid ∧ ∀ x, ¬ p.run.contains x := by
  have hv := Bound.uses_not_valid hu hq
  exact ⟨hv, Bound.not_contains_of_isNaN (Bound.isNaN_of_inv (Bound.inv_run _) hv)⟩

example : (Spec.Prog.union (.scale (.ctor (.fin 1) (.fin 0)) (.fin 2)) (.ctor .ninf .pinf)).Uses
    (.ctor (.fin 1) (.fin 0)) ∧ ¬ (Spec.Prog.ctor (.fin 1) (.fin 0)).run.valid :=
  ⟨.unionL (.scale (.refl _)), by simp [Spec.Prog.run, Bound.mk', Bound.valid, Bound.invalid]⟩

/-- C03. The constructor keeps ordered ends unchanged and the result is then valid. -/
theorem c03_ctor (a b : Fl) :
    (a ≤ b → Bound.mk' a b = ⟨a, b⟩ ∧ (Bound.mk' a b).valid) ∧
    (¬ a ≤ b → ¬ (Bound.mk' a b).valid) := by
  constructor
  · intro h; simp [Bound.mk', h, Bound.valid]
  · intro h; simp [Bound.mk', h, Bound.valid, Bound.invalid]

example : Fl.fin 1 ≤ .pinf ∧ ¬ (Fl.fin 1 ≤ .nan) := by simp

/-- C04. Shifting by a finite amount moves exactly the contained points. -/
theorem c04_shift (b : Bound) (x : Fl) (s : ℝ) :
    ((b.shift (.fin s)).contains (x + .fin s) ↔ b.contains x) ∧
    ((b.unshift (.fin s)).contains (x - .fin s) ↔ b.contains x) := by
  obtain ⟨mn, mx⟩ := b
  constructor <;> cases mn <;> cases mx <;> cases x <;>
    simp [Bound.shift, Bound.unshift, Bound.contains]

/-- C04. Scaling by a finite positive factor moves exactly the contained points. -/
theorem c04_scale (b : Bound) (x : Fl) (s : ℝ) (hs : 0 < s) :
    ((b.scale (.fin s)).contains (x * .fin s) ↔ b.contains x) ∧
    ((b.unscale (.fin s)).contains (x / .fin s) ↔ b.contains x) := by
  obtain ⟨mn, mx⟩ := b
  have h1 : ¬ (Fl.fin s < .fin 0) := by simp [hs.le]
  have h2 : ¬ (Fl.fin s ≤ .fin 0) := by simp [hs]
  have hn : -s < 0 := by linarith
  simp only [Bound.scale, Bound.unscale, if_neg h1, if_neg h2]
  constructor <;> cases mn <;> cases mx <;> cases x <;>
    simp [Bound.contains, infTimes_pos hs, infTimes_neg hn, div_fin _ hs.ne', pinf_div_fin hs.le,
      ninf_div_fin hs.le, mul_le_mul_iff_left₀ hs, div_le_div_iff_of_pos_right hs]

example : (0 : ℝ) < 2 := by norm_num

/-- C04. Scaling by a negative number, or dividing by a non-positive one, invalidates. -/
theorem c04_scale_neg (b : Bound) (s : Fl) :
    (s < .fin 0 → ¬ (b.scale s).valid) ∧ (s ≤ .fin 0 → ¬ (b.unscale s).valid) := by
  constructor <;> intro h
  · simp [Bound.scale, h, Bound.valid, Bound.invalid]
  · simp [Bound.unscale, h, Bound.valid, Bound.invalid]

example : Fl.ninf < .fin 0 ∧ Fl.fin 0 ≤ .fin 0 := by simp

/-- C04. On a valid finite Bound `lerp` maps the unit interval monotonically into the Bound and
hits both ends. -/
theorem c04_lerp (lo hi t u : ℝ) (h : lo ≤ hi) (ht : 0 ≤ t) (htu : t ≤ u) (hu : u ≤ 1) :
    let b := Bound.mk' (.fin lo) (.fin hi)
    b.contains (b.lerp (.fin t)) ∧ b.lerp (.fin t) ≤ b.lerp (.fin u) ∧
    b.lerp (.fin 0) = .fin lo ∧ b.lerp (.fin 1) = .fin hi := by
  have hv : (Fl.fin lo ≤ .fin hi) := h
  simp only [Bound.mk', not_true_eq_false, if_false, hv, Bound.contains, Bound.lerp]
  simp
  refine ⟨⟨?_, ?_⟩, ?_⟩ <;> nlinarith

example : ∃ lo hi t u : ℝ, lo ≤ hi ∧ 0 ≤ t ∧ t ≤ u ∧ u ≤ 1 ∧ lo < hi ∧ t < u :=
  ⟨0, 1, 1/4, 1/2, by norm_num⟩

/-- C05. `clamp` always lands in the range, also for NaN and infinite inputs. -/
theorem c05_clamp_range (lo x hi : Fl) (h : lo ≤ hi) :
    lo ≤ MathUtil.clamp lo x hi ∧ MathUtil.clamp lo x hi ≤ hi := by
  unfold MathUtil.clamp
  cases lo <;> cases x <;> cases hi <;> simp_all <;> grind

/-- C05. `clamp` is the identity inside the range, hence idempotent. -/
theorem c05_clamp_id (lo x hi : Fl) (h1 : lo ≤ x) (h2 : x ≤ hi) : MathUtil.clamp lo x hi = x := by
  unfold MathUtil.clamp
  cases lo <;> cases x <;> cases hi <;> simp_all <;> grind

/-- C05. `clamp` sends NaN to the lower limit, smaller values to the lower limit and larger values
to the upper limit. -/
theorem c05_clamp_outside (lo x hi : Fl) (h : lo ≤ hi) :
    (x.isNaN → MathUtil.clamp lo x hi = lo) ∧ (x ≤ lo → MathUtil.clamp lo x hi = lo) ∧
    (hi ≤ x → MathUtil.clamp lo x hi = hi) := by
  unfold MathUtil.clamp
  cases lo <;> cases x <;> cases hi <;> simp_all <;> grind

/-- C05. `clamp` is monotone. -/
theorem c05_clamp_mono (lo x y hi : Fl) (h : lo ≤ hi) (hxy : x ≤ y) :
    MathUtil.clamp lo x hi ≤ MathUtil.clamp lo y hi := by
  unfold MathUtil.clamp
  cases lo <;> cases x <;> cases y <;> cases hi <;> simp_all <;> grind

example : Fl.fin 0 ≤ .fin 1 ∧ Fl.fin 0 ≤ .fin (1/2) ∧ Fl.fin (1/2) ≤ .fin 1 ∧ Fl.ninf ≤ .pinf := by
  norm_num [Fl.le_fin]

end Sidis.Props
