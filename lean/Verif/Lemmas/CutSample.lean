import Verif.Lemmas.CutBounds
import Verif.Props.Map

/-! # Sampling inside the bounds -/

namespace Sidis

open Spec VarMap

section
variable {ps : Particles ℝ}

theorem fl_add_infTimes (a : Fl) (r : ℝ) : ¬ (a + .pinf * Fl.infTimes r).isFinite := by
  rcases Fl.infTimes_cases r with h | h | h <;> rw [h.2] <;> cases a <;> simp

theorem fl_div_pinf {a : Fl} (h : ¬ a.isFinite) : a / .pinf = .nan := by
  cases a <;> simp_all

/-- `valid` rejects every infinite or NaN input. -/
theorem valid_finite (hm : Massive ps) {S : Fl} {P : PhaseSpace Fl}
    (h : Cut.valid (.make (finPs ps) S P) = true) : ∃ S' pt, S = .fin S' ∧ P = finPt pt := by
  rw [valid_iff_and] at h
  obtain ⟨hS, ⟨hx, hx1⟩, ⟨hy, hy1⟩, ⟨hz, hz1⟩, ht, hph, hp, -, -, -, hql, -, hpl, hp0⟩ := h
  obtain ⟨x, y, z, t, ph, p⟩ := P
  change (0 : Fl) ≤ x at hx
  change x ≤ (1 : Fl) at hx1
  change (0 : Fl) ≤ y at hy
  change y ≤ (1 : Fl) at hy1
  change (0 : Fl) ≤ z at hz
  change z ≤ (1 : Fl) at hz1
  change (0 : Fl) ≤ t at ht
  change (0 : Fl) < S at hS
  change ph.isFinite at hph
  change p.isFinite at hp
  rw [fl_zero] at hx hy hz ht hS
  rw [fl_one] at hx1 hy1 hz1
  have hM := hm.M_pos
  have d1 : 2 * ps.M ≠ 0 := by positivity
  cases x <;> simp at hx hx1
  cases y <;> simp at hy hy1
  cases z <;> simp at hz hz1
  cases ph <;> simp at hph
  cases p <;> simp at hp
  rename_i x y z ph p
  cases S with
  | nan => simp at hS
  | ninf => simp at hS
  | pinf =>
    exfalso
    simp only [Kinematics.make, finPs, sq, fl_two, fl_four, Fl.mul_fin, Fl.pinf_mul_pinf,
      Fl.pinf_sub_fin] at hql
    change (_ / (_ * Fl.sqrt .pinf) : Fl).isFinite at hql
    rw [Fl.sqrt_pinf, Fl.fin_mul_pinf, Fl.infTimes_pos (by positivity), Fl.pinf_mul_fin y,
      fl_div_pinf (fl_add_infTimes _ _)] at hql
    exact hql
  | fin S =>
    rw [Fl.lt_fin] at hS
    cases t with
    | nan => simp at ht
    | ninf => simp at ht
    | pinf =>
      exfalso
      have e0 : (Kinematics.make (finPs ps) (.fin S) ⟨.fin x, .fin y, .fin z, .pinf, .fin ph,
          .fin p⟩).ph_0 = .fin (z * (S * y) / (2 * ps.M)) := by
        simp only [Kinematics.make, finPs, fl_two, Fl.mul_fin, Fl.div_fin _ d1]
      rw [e0] at hp0
      change ps.mh ≤ _ at hp0
      have hp : 0 < z * (S * y) / (2 * ps.M) := lt_of_lt_of_le hm.mh_pos hp0
      simp only [Kinematics.make, finPs, sq, fl_one, fl_two, Fl.mul_fin, Fl.div_fin _ d1,
        Fl.div_fin _ hp.ne', Fl.pinf_div_fin (mul_self_nonneg _), Fl.pinf_add_fin,
        Fl.fin_sub_pinf] at hpl
      change (_ * Fl.sqrt .ninf : Fl).isFinite at hpl
      simp at hpl
    | fin t => exact ⟨S, ⟨x, y, z, t, ph, p⟩, rfl, rfl⟩

end

/-- A non-empty bound inside a finite interval has finite ends. -/
theorem finite_ends {b : Bound} {x : Fl} {l u : ℝ} (h : b.contains x)
    (hs : ∀ y, b.contains y → Fl.fin l ≤ y ∧ y ≤ .fin u) :
    ∃ lo hi, b = ⟨.fin lo, .fin hi⟩ ∧ l ≤ lo ∧ .fin lo ≤ x ∧ x ≤ .fin hi ∧ hi ≤ u ∧ lo ≤ hi := by
  obtain ⟨mn, mx⟩ := b
  obtain ⟨h1, h2⟩ := h
  have hv : mn ≤ mx := Fl.le_trans' h1 h2
  have a := hs mn ⟨Fl.le_refl' (Fl.not_isNaN_of_le hv).1, hv⟩
  have c := hs mx ⟨hv, Fl.le_refl' (Fl.not_isNaN_of_le hv).2⟩
  cases mn <;> simp at a
  cases mx <;> simp at c
  exact ⟨_, _, rfl, a.1, h1, h2, c.2, hv⟩

/-- `apply_map` of a bound with a NaN end is NaN, for the maps used by the samplers. -/
theorem apply_nan {t : VarMap Fl} (hu : t.u .nan = .nan) (hx : t.x .nan = .nan) {b : Bound}
    (hb : b.min.isNaN ∨ b.max.isNaN) (p : Fl) : (t.apply p b).1 = .nan := by
  have : Bound.mk' (t.u b.min) (t.u b.max) = .invalid := by
    unfold Bound.mk'
    rw [if_pos]
    rcases hb with h | h
    · have e : b.min = .nan := by cases hh : b.min <;> simp_all
      rw [e, hu]; simp
    · have e : b.max = .nan := by cases hh : b.max <;> simp_all
      rw [e, hu]; simp
  simp [VarMap.apply, this, Bound.invalid, Bound.lerp, hx]

theorem inverse_nan (o : Fl) : (inverse o).u .nan = .nan ∧ (inverse o).x .nan = .nan := by
  simp [inverse]
theorem linear_nan : (linear : VarMap Fl).u .nan = .nan ∧ (linear : VarMap Fl).x .nan = .nan := by
  simp [linear]
theorem decay_nan (l : Fl) : (decay l).u .nan = .nan ∧ (decay l).x .nan = .nan := by
  have e1 : (CMap.expm1 (Fl.nan) : Fl) = .nan := rfl
  have e2 : (CMap.log1p (Fl.nan) : Fl) = .nan := rfl
  simp [decay, e1, e2]


/-- Ordered or with a NaN end. -/
def Bound.Normal (b : Bound) : Prop := b.min.isNaN ∨ b.valid

theorem Bound.inter_normal (a b : Bound) : (a.inter b).Normal := by
  unfold Bound.inter
  simp only
  split_ifs with h1 h2
  · exact Or.inl trivial
  · exact Or.inr h2
  · exact Or.inl trivial

theorem fl_le_refl {a b : Fl} (h : a ≤ b) : a ≤ a ∧ b ≤ b := by
  cases a <;> cases b <;> simp_all

/-- A variable sampled with a finite result from a normal bound. -/
theorem axis_of_finite {t : VarMap Fl} (hn : t.u .nan = .nan ∧ t.x .nan = .nan) {b : Bound}
    (hb : b.Normal) {l u : ℝ} (hs : ∀ y, b.contains y → Fl.fin l ≤ y ∧ y ≤ .fin u)
    (hsam : ∀ lo hi, lo ≤ hi → l ≤ lo → hi ≤ u → ∃ X J, Samples t lo hi X J) {p : ℝ} (h0 : 0 ≤ p)
    (h1 : p ≤ 1) {x : ℝ} (hx : (t.apply (.fin p) b).1 = .fin x) :
    ∃ j, Axis t b p x j ∧ 0 ≤ j ∧ t.apply (.fin p) b = (.fin x, .fin j) := by
  rcases hb with hb | hb
  · rw [apply_nan hn.1 hn.2 (Or.inl hb)] at hx
    simp at hx
  · obtain ⟨lo, hi, rfl, k1, -, -, k2, k3⟩ :=
      finite_ends (x := b.min) ⟨(fl_le_refl hb).1, hb⟩ hs
    obtain ⟨X, J, S⟩ := hsam lo hi k3 k1 k2
    have e := S.eq p h0 h1
    rw [e] at hx
    simp only [Fl.fin.injEq] at hx
    exact ⟨J p, ⟨lo, hi, X, J, rfl, S, hx, rfl⟩, S.jac_nonneg p h0 h1, by rw [e, hx]⟩

/-- Every value of a bound is reached. -/
theorem axis_onto {t : VarMap Fl} {b : Bound} {l u : ℝ}
    (hs : ∀ y, b.contains y → Fl.fin l ≤ y ∧ y ≤ .fin u)
    (hsam : ∀ lo hi, lo ≤ hi → l ≤ lo → hi ≤ u → ∃ X J, Samples t lo hi X J) {x : ℝ}
    (hx : b.contains (.fin x)) :
    ∃ p j, 0 ≤ p ∧ p ≤ 1 ∧ 0 ≤ j ∧ Axis t b p x j ∧ t.apply (.fin p) b = (.fin x, .fin j) := by
  obtain ⟨lo, hi, rfl, k1, k4, k5, k2, k3⟩ := finite_ends hx hs
  obtain ⟨X, J, S⟩ := hsam lo hi k3 k1 k2
  obtain ⟨p, h0, h1, e⟩ := S.onto x k4 k5
  refine ⟨p, J p, h0, h1, S.jac_nonneg p h0 h1, ⟨lo, hi, X, J, rfl, S, e, rfl⟩, ?_⟩
  rw [S.eq p h0 h1, e]

theorem inter_sub {a b : Bound} {y : Fl} (h : (a.inter b).contains y) : a.contains y :=
  ((Props.c01_inter_contains _ _ _).1 h).1

theorem unit_sub {b : Bound} {y : Fl} (h : (Bound.unit.inter b).contains y) :
    Fl.fin 0 ≤ y ∧ y ≤ .fin 1 := (Bound.mk'_contains _ _ _).1 (inter_sub h)

section
variable {cut : Cut} {PS : Particles Fl} {s x y z : Fl}

theorem xBoundCut_normal : (Cut.xBoundCut cut PS s).Normal := by
  unfold Cut.xBoundCut
  simp only
  split_ifs
  all_goals exact Bound.inter_normal _ _

theorem yBoundCut_normal : (Cut.yBoundCut cut PS s x).Normal := by
  unfold Cut.yBoundCut
  simp only
  split_ifs
  all_goals exact Bound.inter_normal _ _

theorem zBoundCut_normal : (Cut.zBoundCut cut PS s x y).Normal := by
  unfold Cut.zBoundCut
  simp only
  split_ifs
  all_goals exact Bound.inter_normal _ _

theorem phTSqBoundCut_normal : (Cut.phTSqBoundCut cut PS s x y z).Normal := by
  unfold Cut.phTSqBoundCut
  simp only
  split_ifs
  all_goals exact Bound.inter_normal _ _

theorem xBoundCut_sub {v : Fl} (h : (Cut.xBoundCut cut PS s).contains v) :
    (Cut.xBound PS s).contains v := by
  unfold Cut.xBoundCut at h
  simp only at h
  split_ifs at h
  all_goals try simp only [Props.c01_inter_contains] at h
  all_goals grind

theorem yBoundCut_sub {v : Fl} (h : (Cut.yBoundCut cut PS s x).contains v) :
    (Cut.yBound PS s x).contains v := by
  unfold Cut.yBoundCut at h
  simp only at h
  split_ifs at h
  all_goals try simp only [Props.c01_inter_contains] at h
  all_goals grind

theorem zBoundCut_sub {v : Fl} (h : (Cut.zBoundCut cut PS s x y).contains v) :
    (Cut.zBound PS s x y).contains v := by
  unfold Cut.zBoundCut at h
  simp only at h
  split_ifs at h
  all_goals try simp only [Props.c01_inter_contains] at h
  all_goals grind

theorem phTSqBoundCut_sub {v : Fl} (h : (Cut.phTSqBoundCut cut PS s x y z).contains v) :
    (Cut.phTSqBound PS s x y z).contains v := by
  unfold Cut.phTSqBoundCut at h
  simp only at h
  split_ifs at h
  all_goals try simp only [Props.c01_inter_contains] at h
  all_goals grind

end

section
variable {ps : Particles ℝ} {S : ℝ} {pt : PhaseSpace ℝ}

theorem yBound_low (hm : Massive ps) {S x : ℝ} (hS : 0 < S) (hx : x < 1) {v : Fl}
    (h : (Cut.yBound (finPs ps) (.fin S) (.fin x)).contains v) :
    .fin (((ps.Mth + ps.mh) ^ 2 - ps.M ^ 2) / ((1 - x) * S)) ≤ v ∧ v ≤ .fin 1 := by
  have d1 : 0 < (1 - x) * S := mul_pos (by linarith) hS
  have h1 := unit_sub h
  obtain ⟨-, h2⟩ := (Props.c01_inter_contains _ _ _).1 h
  rw [Bound.mk'_contains] at h2
  refine ⟨?_, h1.2⟩
  have := h2.1
  simp only [finPs, sq, fl_one, Fl.mul_fin, Fl.add_fin, Fl.sub_fin, Fl.div_fin _ d1.ne'] at this
  simpa only [pow_two] using this

theorem phTSqBound_high (hm : Massive ps) {S x y z : ℝ} (hS : 0 < S) (hx : 0 ≤ x) (hy : 0 < y)
    {v : Fl}
    (h : (Cut.phTSqBound (finPs ps) (.fin S) (.fin x) (.fin y) (.fin z)).contains v) :
    .fin 0 ≤ v ∧ v ≤ .fin ((z * (S * y) / (2 * ps.M)) ^ 2) := by
  have hM := hm.M_pos
  have d1 : 2 * ps.M ≠ 0 := by positivity
  have d2 : 2 * (ps.M * ps.M) ≠ 0 := by positivity
  have hlY : 0 < S * y * (S * y) + 4 * (ps.M * ps.M) * (S * x * y) := by positivity
  simp only [Cut.phTSqBound, finPs, sq, fl_zero, fl_one, fl_two, fl_four, Fl.mul_fin, Fl.add_fin,
    Fl.sub_fin, Fl.div_fin _ d1, Fl.div_fin _ d2, Fl.div_fin _ hlY.ne', Fl.lt_fin] at h
  rw [Props.c01_inter_contains, Bound.mk'_contains] at h
  refine ⟨h.2.1, Fl.le_trans' h.2.2 ?_⟩
  split_ifs with hc
  · simp only [Fl.mul_fin, Fl.sub_fin, Fl.le_fin]
    nlinarith [mul_self_nonneg ps.mh]
  · simp only [Fl.mul_fin, Fl.sub_fin, Fl.le_fin]
    have : 0 ≤ ps.M * ps.M / (S * y * (S * y) + 4 * (ps.M * ps.M) * (S * x * y)) *
      (((S * y + 2 * (ps.M * ps.M)) * (S * y) / (2 * (ps.M * ps.M)) * z -
        ((1 - x) * (S * y) + ps.M * ps.M) + ps.Mth * ps.Mth - ps.mh * ps.mh) *
      ((S * y + 2 * (ps.M * ps.M)) * (S * y) / (2 * (ps.M * ps.M)) * z -
        ((1 - x) * (S * y) + ps.M * ps.M) + ps.Mth * ps.Mth - ps.mh * ps.mh)) :=
      mul_nonneg (by positivity) (mul_self_nonneg _)
    nlinarith [mul_self_nonneg ps.mh]

/-- Sampling an angle uniformly. -/
theorem linear_ends {b : Bound} (hb : b.valid) {p x : ℝ}
    (hx : ((linear : VarMap Fl).apply (.fin p) b).1 = .fin x) :
    ∃ lo hi, b = ⟨.fin lo, .fin hi⟩ ∧ lo ≤ hi := by
  obtain ⟨mn, mx⟩ := b
  change mn ≤ mx at hb
  have e : Bound.mk' mn mx = ⟨mn, mx⟩ := by simp [Bound.mk', hb]
  simp only [VarMap.apply, linear, e, Bound.lerp, Fl.sub_fin] at hx
  cases mn with
  | nan => simp at hb
  | ninf =>
    exfalso
    rw [Fl.fin_mul_ninf] at hx
    cases mx with
    | nan => simp at hb
    | ninf =>
      rcases Fl.infTimes_cases (-(1 - p)) with h | h | h <;>
      rcases Fl.infTimes_cases (-p) with h' | h' | h' <;> simp [-neg_sub, h.2, h'.2] at hx
    | pinf =>
      rcases Fl.infTimes_cases (-(1 - p)) with h | h | h <;>
      rcases Fl.infTimes_cases p with h' | h' | h' <;> simp [-neg_sub, h.2, h'.2] at hx
    | fin b =>
      rcases Fl.infTimes_cases (-(1 - p)) with h | h | h <;> simp [-neg_sub, h.2] at hx
  | pinf =>
    exfalso
    cases mx <;> simp at hb
    rcases Fl.infTimes_cases (1 - p) with h | h | h <;>
      rcases Fl.infTimes_cases p with h' | h' | h' <;> simp [-neg_sub, h.2, h'.2] at hx
  | fin a =>
    cases mx with
    | nan => simp at hb
    | ninf => simp at hb
    | pinf =>
      exfalso
      rcases Fl.infTimes_cases p with h' | h' | h' <;> simp [h'.2] at hx
    | fin b => exact ⟨a, b, rfl, hb⟩

theorem axis_angle {b : Bound} (hb : b.valid) {p x : ℝ} (h0 : 0 ≤ p) (h1 : p ≤ 1)
    (hx : ((linear : VarMap Fl).apply (.fin p) b).1 = .fin x) :
    ∃ j, Axis linear b p x j ∧ 0 ≤ j ∧ (linear : VarMap Fl).apply (.fin p) b = (.fin x, .fin j) := by
  obtain ⟨lo, hi, rfl, hle⟩ := linear_ends hb hx
  refine axis_of_finite linear_nan (l := lo) (u := hi) (Or.inr hb) (fun y hy => hy) ?_ h0 h1 hx
  intro l h hl _ _
  exact (Props.c28_apply_map hl).1

theorem fullCircle_eq : Cut.fullCircle = ⟨.fin (-Real.pi), .fin Real.pi⟩ := by
  have : Cut.fullCircle = Bound.mk' (.fin (-Real.pi)) (.fin Real.pi) := rfl
  rw [this, Bound.mk', if_neg]
  simp only [Fl.le_fin, not_le, not_lt]
  linarith [Real.pi_pos]

theorem fullCircle_valid : Cut.fullCircle.valid := by
  rw [fullCircle_eq]
  change -Real.pi ≤ Real.pi
  linarith [Real.pi_pos]

end
end Sidis
