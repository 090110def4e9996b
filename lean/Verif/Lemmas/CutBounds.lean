import Verif.Lemmas.CutLimits

/-! # The bounds computed by the code contain accepted points -/

namespace Sidis

open Spec VarMap

theorem Bound.mk'_contains (a b x : Fl) : (Bound.mk' a b).contains x ↔ a ≤ x ∧ x ≤ b := by
  unfold Bound.mk'
  split_ifs with h
  · rfl
  · constructor
    · intro hx; exact absurd hx (Bound.not_contains_of_isNaN (b := Bound.invalid) (Or.inl trivial) x)
    · rintro ⟨h1, h2⟩; exact absurd (Fl.le_trans' h1 h2) h

theorem Bound.unit_contains (x : ℝ) : Bound.unit.contains (.fin x) ↔ 0 ≤ x ∧ x ≤ 1 := by
  unfold Bound.unit; rw [Bound.mk'_contains]; rfl

section
variable {ps : Particles ℝ} {S : ℝ} {pt : PhaseSpace ℝ}

theorem A_pos (hm : Massive ps) (h : Accepted ps S pt) {w : ℝ} (hw : ps.M ^ 2 ≤ w) :
    0 < S ^ 2 - 4 * ps.M ^ 2 * ps.m ^ 2 + ps.M ^ 2 * (w - ps.M ^ 2) := by
  have := h.beam
  have := mul_nonneg (sq_nonneg ps.M) (sub_nonneg.2 hw)
  linarith

theorem x_mem (hm : Massive ps) (h : Accepted ps S pt) :
    (Cut.xBound (finPs ps) (.fin S)).contains (.fin pt.x) := by
  have hD := D_pos hm
  have hA := A_pos hm h (w := (ps.Mth + ps.mh) ^ 2) (by linarith)
  obtain ⟨h1, h2, h3⟩ := quad_roots hA (x_limits h (W_sq_ge hm h))
  rw [x_disc] at h1 h2 h3
  have e : (S ^ 2 - 4 * ps.M ^ 2 * ps.m ^ 2) * ((S - ((ps.Mth + ps.mh) ^ 2 - ps.M ^ 2)) ^ 2 -
      4 * ps.m ^ 2 * (ps.Mth + ps.mh) ^ 2) =
    (S * S - 4 * (ps.M * ps.M) * (ps.m * ps.m)) *
      (S - ((ps.Mth + ps.mh) * (ps.Mth + ps.mh) - ps.M * ps.M) - 2 * ps.m * (ps.Mth + ps.mh)) *
      (S - ((ps.Mth + ps.mh) * (ps.Mth + ps.mh) - ps.M * ps.M) + 2 * ps.m * (ps.Mth + ps.mh)) := by
    ring
  rw [e] at h1 h2 h3
  have hd : 2 * (S * S - 4 * (ps.M * ps.M) * (ps.m * ps.m) +
      ps.M * ps.M * ((ps.Mth + ps.mh) * (ps.Mth + ps.mh) - ps.M * ps.M)) ≠ 0 := by
    have : 2 * (S * S - 4 * (ps.M * ps.M) * (ps.m * ps.m) +
      ps.M * ps.M * ((ps.Mth + ps.mh) * (ps.Mth + ps.mh) - ps.M * ps.M)) =
      2 * (S ^ 2 - 4 * ps.M ^ 2 * ps.m ^ 2 + ps.M ^ 2 * ((ps.Mth + ps.mh) ^ 2 - ps.M ^ 2)) := by
      ring
    rw [this]; positivity
  simp only [Cut.xBound, finPs, sq, fl_two, fl_four, Fl.mul_fin, Fl.add_fin, Fl.sub_fin,
    sqrt_fl h1, Fl.div_fin _ hd]
  rw [Props.c01_inter_contains, Bound.unit_contains, Bound.mk'_contains, Fl.le_fin, Fl.le_fin]
  simp only [← pow_two] at h2 h3 ⊢
  exact ⟨⟨h.x_nonneg, h.x_le⟩, h2, h3⟩

theorem y_mem (hm : Massive ps) (h : Accepted ps S pt) (hx : 0 < pt.x) :
    (Cut.yBound (finPs ps) (.fin S) (.fin pt.x)).contains (.fin pt.y) := by
  have hx1 := x_lt_one hm h
  have hS := h.S_pos
  have d1 : 0 < (1 - pt.x) * S := mul_pos (by linarith) hS
  have d2 : 0 < S * (ps.M * pt.x * (ps.M * pt.x) + S * pt.x + ps.m * ps.m) := by
    have := hm.M_pos; have := hm.m_nonneg; positivity
  have h1 := W_sq_ge hm h
  have h2 := angle_le h
  simp only [Cut.yBound, finPs, sq, fl_one, fl_two, fl_four, Fl.mul_fin, Fl.add_fin, Fl.sub_fin,
    Fl.div_fin _ d1.ne', Fl.div_fin _ d2.ne']
  rw [Props.c01_inter_contains, Bound.unit_contains, Bound.mk'_contains, Fl.le_fin, Fl.le_fin,
    div_le_iff₀ d1, le_div_iff₀ d2]
  exact ⟨⟨h.y_pos.le, h.y_le⟩, by linarith, by linarith⟩

theorem z_mem (hm : Massive ps) (h : Accepted ps S pt) :
    (Cut.zBound (finPs ps) (.fin S) (.fin pt.x) (.fin pt.y)).contains (.fin pt.z) := by
  have hx := h.x_nonneg
  have hx1 := x_lt_one hm h
  have hS := h.S_pos
  have hy := h.y_pos
  have hz := h.z_pos
  have hM := hm.M_pos
  have hmh := hm.mh_pos
  have hMth : 0 < ps.Mth := hM.trans_le hm.Mth_ge
  have hSx : 0 < S * pt.y := mul_pos hS hy
  have hW := W_sq_ge hm h
  have hL : 0 < (1 - pt.x) * (S * pt.y) + ps.M ^ 2 :=
    lt_of_lt_of_le (by positivity) hW
  have hβ : 0 < (1 - pt.x) * (S * pt.y) + ps.M ^ 2 - ps.Mth ^ 2 + ps.mh ^ 2 := by nlinarith
  have hQ : 0 ≤ S * pt.x * pt.y := by positivity
  have hlY : 0 ≤ (S * pt.y) ^ 2 + 4 * ps.M ^ 2 * (S * pt.x * pt.y) := by positivity
  -- the argument of the square root
  have hb : 0 ≤ ((S * pt.y) ^ 2 + 4 * ps.M ^ 2 * (S * pt.x * pt.y)) *
      ((1 - pt.x) * (S * pt.y) + ps.M ^ 2 - (ps.Mth - ps.mh) ^ 2) *
      ((1 - pt.x) * (S * pt.y) + ps.M ^ 2 - (ps.Mth + ps.mh) ^ 2) := by
    refine mul_nonneg (mul_nonneg hlY ?_) (by linarith)
    nlinarith
  have hb' : 0 ≤ (S * pt.y * (S * pt.y) + 4 * (ps.M * ps.M) * (S * pt.x * pt.y)) *
      ((1 - pt.x) * (S * pt.y) + ps.M * ps.M - (ps.Mth - ps.mh) * (ps.Mth - ps.mh)) *
      ((1 - pt.x) * (S * pt.y) + ps.M * ps.M - (ps.Mth + ps.mh) * (ps.Mth + ps.mh)) := by
    simpa only [← pow_two] using hb
  have d1 : 0 < 2 * (S * pt.y) * ((1 - pt.x) * (S * pt.y) + ps.M * ps.M) := by
    rw [← pow_two]; positivity
  have d2 : 0 < S * pt.y * (S * pt.y + 2 * (ps.M * ps.M)) := by positivity
  -- the threshold of the hadron energy
  have hz0 : 2 * ps.M * ps.mh / (S * pt.y) ≤ pt.z := by
    rw [div_le_iff₀ hSx]
    have h1 := h.hadron
    have h2 := h.ph_t_sq_nonneg
    have h3 : ps.mh ≤ pt.z * (S * pt.y) / (2 * ps.M) := by
      have : 0 < pt.z * (S * pt.y) / (2 * ps.M) := by positivity
      nlinarith
    rw [le_div_iff₀ (by positivity)] at h3
    linarith
  have hα : 0 < (S * pt.y + 2 * ps.M ^ 2) * (S * pt.y) / (2 * ps.M ^ 2) := by positivity
  -- above the crossover
  have hroots : 0 ≤ (S * pt.y + 2 * ps.M ^ 2) * (S * pt.y) / (2 * ps.M ^ 2) * pt.z -
      ((1 - pt.x) * (S * pt.y) + ps.M ^ 2) + ps.Mth ^ 2 - ps.mh ^ 2 →
      ((S * pt.y + 2 * ps.M ^ 2) * ((1 - pt.x) * (S * pt.y) + ps.M ^ 2 - ps.Mth ^ 2 + ps.mh ^ 2) -
        √(((S * pt.y) ^ 2 + 4 * ps.M ^ 2 * (S * pt.x * pt.y)) *
          ((1 - pt.x) * (S * pt.y) + ps.M ^ 2 - (ps.Mth - ps.mh) ^ 2) *
          ((1 - pt.x) * (S * pt.y) + ps.M ^ 2 - (ps.Mth + ps.mh) ^ 2))) /
        (2 * (S * pt.y) * ((1 - pt.x) * (S * pt.y) + ps.M ^ 2)) ≤ pt.z ∧
      pt.z ≤ ((S * pt.y + 2 * ps.M ^ 2) *
        ((1 - pt.x) * (S * pt.y) + ps.M ^ 2 - ps.Mth ^ 2 + ps.mh ^ 2) +
        √(((S * pt.y) ^ 2 + 4 * ps.M ^ 2 * (S * pt.x * pt.y)) *
          ((1 - pt.x) * (S * pt.y) + ps.M ^ 2 - (ps.Mth - ps.mh) ^ 2) *
          ((1 - pt.x) * (S * pt.y) + ps.M ^ 2 - (ps.Mth + ps.mh) ^ 2))) /
        (2 * (S * pt.y) * ((1 - pt.x) * (S * pt.y) + ps.M ^ 2)) := by
    intro hd
    obtain ⟨-, q2, q3⟩ := quad_roots hL (z_quad hm h hd)
    rw [z_disc _ _ _ _ _ (S * pt.x * pt.y) (by ring)] at q2 q3
    rw [div_le_iff₀ (by positivity)] at q2 ⊢
    rw [le_div_iff₀ (by positivity)] at q3 ⊢
    exact ⟨by linarith, by linarith⟩
  set b := √(((S * pt.y) ^ 2 + 4 * ps.M ^ 2 * (S * pt.x * pt.y)) *
          ((1 - pt.x) * (S * pt.y) + ps.M ^ 2 - (ps.Mth - ps.mh) ^ 2) *
          ((1 - pt.x) * (S * pt.y) + ps.M ^ 2 - (ps.Mth + ps.mh) ^ 2)) with hbd
  have hb0 : 0 ≤ b := Real.sqrt_nonneg _
  have hcross : ∀ r : ℝ, 2 * ps.M ^ 2 * ((1 - pt.x) * (S * pt.y) + ps.M ^ 2 - ps.Mth ^ 2 +
      ps.mh ^ 2) / (S * pt.y * (S * pt.y + 2 * ps.M ^ 2)) ≤ r ↔
      0 ≤ (S * pt.y + 2 * ps.M ^ 2) * (S * pt.y) / (2 * ps.M ^ 2) * r -
      ((1 - pt.x) * (S * pt.y) + ps.M ^ 2) + ps.Mth ^ 2 - ps.mh ^ 2 := by
    intro r
    rw [div_le_iff₀ (by positivity)]
    have e : (S * pt.y + 2 * ps.M ^ 2) * (S * pt.y) / (2 * ps.M ^ 2) * r -
      ((1 - pt.x) * (S * pt.y) + ps.M ^ 2) + ps.Mth ^ 2 - ps.mh ^ 2 =
      (r * (S * pt.y * (S * pt.y + 2 * ps.M ^ 2)) - 2 * ps.M ^ 2 * ((1 - pt.x) * (S * pt.y) +
        ps.M ^ 2 - ps.Mth ^ 2 + ps.mh ^ 2)) / (2 * ps.M ^ 2) := by
      field_simp
      ring
    rw [e]
    constructor
    · intro hr; exact div_nonneg (by linarith) (by positivity)
    · intro hr
      have : 0 < 2 * ps.M ^ 2 := by positivity
      rw [le_div_iff₀ this] at hr
      linarith
  simp only [Cut.zBound, finPs, sq, fl_one, fl_two, fl_four, Fl.mul_fin, Fl.add_fin, Fl.sub_fin,
    Fl.div_fin _ d1.ne', Fl.div_fin _ d2.ne', Fl.div_fin _ hSx.ne', sqrt_fl hb', Fl.lt_fin]
  rw [Props.c01_inter_contains, Bound.unit_contains, Bound.mk'_contains]
  refine ⟨⟨hz.le, h.z_le⟩, ?_, ?_⟩
  · simp only [← pow_two] at hroots ⊢
    split_ifs with hc
    · exact hz0
    · rw [Fl.le_fin]
      rw [not_lt] at hc
      exact (hroots ((hcross _).1 (hc.trans hz0))).1
  · rw [Fl.le_fin]
    simp only [← pow_two] at hroots ⊢
    by_cases hd : 0 ≤ (S * pt.y + 2 * ps.M ^ 2) * (S * pt.y) / (2 * ps.M ^ 2) * pt.z -
      ((1 - pt.x) * (S * pt.y) + ps.M ^ 2) + ps.Mth ^ 2 - ps.mh ^ 2
    · exact (hroots hd).2
    · rw [← hcross, not_le] at hd
      refine hd.le.trans ?_
      rw [div_le_div_iff₀ (by positivity) (by positivity)]
      have k1 : 4 * ps.M ^ 2 * ((1 - pt.x) * (S * pt.y) + ps.M ^ 2) ≤
          (S * pt.y + 2 * ps.M ^ 2) ^ 2 := by nlinarith
      have k2 := mul_le_mul_of_nonneg_left k1 (mul_nonneg hβ.le hSx.le)
      have k3 : 0 ≤ b * (S * pt.y * (S * pt.y + 2 * ps.M ^ 2)) := by positivity
      nlinarith

theorem ph_t_sq_mem (hm : Massive ps) (h : Accepted ps S pt) :
    (Cut.phTSqBound (finPs ps) (.fin S) (.fin pt.x) (.fin pt.y) (.fin pt.z)).contains
      (.fin pt.ph_t_sq) := by
  have hx := h.x_nonneg
  have hS := h.S_pos
  have hy := h.y_pos
  have hM := hm.M_pos
  have d1 : 2 * ps.M ≠ 0 := by positivity
  have d2 : 2 * (ps.M * ps.M) ≠ 0 := by positivity
  have hlY : 0 < S * pt.y * (S * pt.y) + 4 * (ps.M * ps.M) * (S * pt.x * pt.y) := by positivity
  simp only [Cut.phTSqBound, finPs, sq, fl_zero, fl_one, fl_two, fl_four, Fl.mul_fin, Fl.add_fin,
    Fl.sub_fin, Fl.div_fin _ d1, Fl.div_fin _ d2, Fl.div_fin _ hlY.ne', Fl.lt_fin]
  rw [Props.c01_inter_contains, Bound.positive, Bound.mk'_contains, Bound.mk'_contains]
  refine ⟨⟨h.ph_t_sq_nonneg, trivial⟩, h.ph_t_sq_nonneg, ?_⟩
  have h1 := h.hadron
  split_ifs with hc
  · simp only [Fl.mul_fin, Fl.sub_fin, Fl.le_fin]
    linarith
  · simp only [Fl.mul_fin, Fl.sub_fin, Fl.le_fin]
    rw [not_lt] at hc
    simp only [← pow_two] at hc hlY ⊢
    have h2 := pt_limit hm h (by linarith)
    have h3 : ps.M ^ 2 / ((S * pt.y) ^ 2 + 4 * ps.M ^ 2 * (S * pt.x * pt.y)) *
        ((S * pt.y + 2 * ps.M ^ 2) * (S * pt.y) / (2 * ps.M ^ 2) * pt.z -
        ((1 - pt.x) * (S * pt.y) + ps.M ^ 2) + ps.Mth ^ 2 - ps.mh ^ 2) ^ 2 ≤
        (pt.z * (S * pt.y) / (2 * ps.M)) ^ 2 - ps.mh ^ 2 - pt.ph_t_sq := by
      rw [div_mul_eq_mul_div, div_le_iff₀ hlY]
      linarith
    linarith


theorem x_mem_W (hm : Massive ps) (h : Accepted ps S pt) {w : ℝ}
    (hw : w ≤ (1 - pt.x) * (S * pt.y) + ps.M ^ 2)
    (hA : 0 < S ^ 2 - 4 * ps.M ^ 2 * ps.m ^ 2 + ps.M ^ 2 * (w - ps.M ^ 2)) :
    let lambda_S : Fl := sq (.fin S) - 4 * sq (.fin ps.M) * sq (.fin ps.m)
    let L : Fl := .fin S - (.fin w - sq (.fin ps.M))
    let denom : Fl := 2 * (lambda_S + sq (.fin ps.M) * (.fin w - sq (.fin ps.M)))
    let a : Fl := lambda_S - .fin S * (.fin w - sq (.fin ps.M))
    let b : Fl := CMath.sqrt (lambda_S * (sq L - 4 * sq (.fin ps.m) * .fin w))
    (Bound.mk' ((a - b) / denom) ((a + b) / denom)).contains (.fin pt.x) := by
  obtain ⟨h1, h2, h3⟩ := quad_roots hA (x_limits h hw)
  rw [x_disc] at h1 h2 h3
  have hd : 2 * (S * S - 4 * (ps.M * ps.M) * (ps.m * ps.m) +
      ps.M * ps.M * (w - ps.M * ps.M)) ≠ 0 := by
    simp only [← pow_two]; positivity
  have h1' : 0 ≤ (S * S - 4 * (ps.M * ps.M) * (ps.m * ps.m)) *
      ((S - (w - ps.M * ps.M)) * (S - (w - ps.M * ps.M)) - 4 * (ps.m * ps.m) * w) := by
    simpa only [← pow_two] using h1
  simp only [sq, fl_two, fl_four, Fl.mul_fin, Fl.add_fin, Fl.sub_fin,
    sqrt_fl h1', Fl.div_fin _ hd]
  rw [Bound.mk'_contains, Fl.le_fin, Fl.le_fin]
  simp only [← pow_two]
  exact ⟨h2, h3⟩

theorem x_mem_cut (hm : Massive ps) (h : Accepted ps S pt) (cut : Cut) (hx : 0 < pt.x)
    (hcx : cut.x.valid → cut.x.contains (.fin pt.x))
    (hQ : cut.Q_sq.valid → cut.Q_sq.contains (.fin (S * pt.x * pt.y)))
    (hQ' : cut.Q_sq.valid → cut.Q_sq.max ≠ .pinf)
    (hW : cut.W_sq.valid → ∃ w : ℝ, cut.W_sq.min = .fin w ∧
      w ≤ (1 - pt.x) * (S * pt.y) + ps.M ^ 2 ∧
      0 < S ^ 2 - 4 * ps.M ^ 2 * ps.m ^ 2 + ps.M ^ 2 * (w - ps.M ^ 2)) :
    (Cut.xBoundCut cut (finPs ps) (.fin S)).contains (.fin pt.x) := by
  have h0 := x_mem hm h
  have hS := h.S_pos
  have hy := h.y_pos
  have hQ0 : 0 < S * pt.x * pt.y := by positivity
  unfold Cut.xBoundCut
  extract_lets r1 r2 Q r3 w M m lS L den a b x1 x2 W
  have c2 : r2.contains (.fin pt.x) := by
    simp only [r2]
    split_ifs with hc
    · exact (Props.c01_inter_contains _ _ _).2 ⟨h0, hcx hc⟩
    · exact h0
  have c3 : r3.contains (.fin pt.x) := by
    simp only [r3]
    split_ifs with hc
    · refine (Props.c01_inter_contains _ _ _).2 ⟨c2, ?_⟩
      simp only [Q]
      rw [Bound.mk'_contains]
      obtain ⟨q1, q2⟩ := hQ hc
      have q3 := hQ' hc
      constructor
      · cases hq : cut.Q_sq.min with
        | nan => rw [hq] at q1; simp at q1
        | pinf => rw [hq] at q1; simp at q1
        | ninf => rw [Fl.ninf_div_fin hS.le]; trivial
        | fin q =>
          rw [hq, Fl.le_fin] at q1
          rw [Fl.div_fin _ hS.ne', Fl.le_fin, div_le_iff₀ hS]
          nlinarith [h.y_le, mul_pos hS hx]
      · cases hq : cut.Q_sq.max with
        | nan => rw [hq] at q2; simp at q2
        | pinf => exact absurd hq q3
        | ninf => rw [hq] at q2; simp at q2
        | fin q =>
          rw [hq, Fl.le_fin] at q2
          have hD := D_pos hm
          have hW := W_sq_ge hm h
          have hd : 0 < q + (ps.Mth + ps.mh) * (ps.Mth + ps.mh) - ps.M * ps.M := by nlinarith
          simp only [finPs, sq, Fl.mul_fin, Fl.add_fin, Fl.sub_fin, Fl.div_fin _ hd.ne', Fl.le_fin]
          rw [le_div_iff₀ hd]
          have e1 : pt.x * ((ps.Mth + ps.mh) ^ 2 - ps.M ^ 2) ≤
              pt.x * ((1 - pt.x) * (S * pt.y)) := mul_le_mul_of_nonneg_left (by linarith) hx.le
          have e2 : (1 - pt.x) * (S * pt.x * pt.y) ≤ (1 - pt.x) * q :=
            mul_le_mul_of_nonneg_left q2 (by linarith [h.x_le])
          nlinarith
    · exact c2
  split_ifs with hc
  · refine (Props.c01_inter_contains _ _ _).2 ⟨c3, ?_⟩
    obtain ⟨w', e, hw1, hw2⟩ := hW hc
    have := x_mem_W hm h hw1 hw2
    simp only [W, x1, x2, a, b, den, L, lS, w, e, finPs, M, m]
    exact this
  · exact c3

theorem unscale_contains {b : Bound} {x s : ℝ} (hs : 0 < s) (h : b.contains (.fin (s * x))) :
    (b.unscale (.fin s)).contains (.fin x) := by
  have hn : ¬ (Fl.fin s ≤ Fl.fin 0) := not_le.2 hs
  unfold Bound.unscale
  rw [if_neg hn]
  obtain ⟨h1, h2⟩ := h
  constructor
  · change b.min / .fin s ≤ .fin x
    cases hb : b.min with
    | nan => rw [hb] at h1; simp at h1
    | pinf => rw [hb] at h1; simp at h1
    | ninf => rw [Fl.ninf_div_fin hs.le]; trivial
    | fin a =>
      rw [hb, Fl.le_fin] at h1
      rw [Fl.div_fin _ hs.ne', Fl.le_fin, div_le_iff₀ hs]
      linarith
  · change .fin x ≤ b.max / .fin s
    cases hb : b.max with
    | nan => rw [hb] at h2; simp at h2
    | ninf => rw [hb] at h2; simp at h2
    | pinf => rw [Fl.pinf_div_fin hs.le]; trivial
    | fin a =>
      rw [hb, Fl.le_fin] at h2
      rw [Fl.div_fin _ hs.ne', Fl.le_fin, le_div_iff₀ hs]
      linarith

theorem y_mem_cut (hm : Massive ps) (h : Accepted ps S pt) (cut : Cut) (hx : 0 < pt.x)
    (hcy : cut.y.valid → cut.y.contains (.fin pt.y))
    (hQ : cut.Q_sq.valid → cut.Q_sq.contains (.fin (S * pt.x * pt.y)))
    (hW : cut.W_sq.valid → cut.W_sq.contains (.fin ((1 - pt.x) * (S * pt.y) + ps.M ^ 2))) :
    (Cut.yBoundCut cut (finPs ps) (.fin S) (.fin pt.x)).contains (.fin pt.y) := by
  have h0 := y_mem hm h hx
  have hS := h.S_pos
  have hx1 := x_lt_one hm h
  have d1 : 0 < (1 - pt.x) * S := mul_pos (by linarith) hS
  unfold Cut.yBoundCut
  extract_lets r1 r2 Q r3 W
  have c2 : r2.contains (.fin pt.y) := by
    simp only [r2]
    split_ifs with hc
    · exact (Props.c01_inter_contains _ _ _).2 ⟨h0, hcy hc⟩
    · exact h0
  have c3 : r3.contains (.fin pt.y) := by
    simp only [r3]
    split_ifs with hc
    · refine (Props.c01_inter_contains _ _ _).2 ⟨c2, ?_⟩
      exact unscale_contains (mul_pos hS hx) (hQ hc)
    · exact c2
  split_ifs with hc
  · refine (Props.c01_inter_contains _ _ _).2 ⟨c3, ?_⟩
    have e : (1 : Fl) - .fin pt.x = .fin (1 - pt.x) := Fl.sub_fin _ _
    simp only [W, e, Fl.mul_fin]
    refine unscale_contains d1 ?_
    have := (Props.c04_shift cut.W_sq (.fin ((1 - pt.x) * (S * pt.y) + ps.M ^ 2))
      (ps.M * ps.M)).2.2 (hW hc)
    rw [Fl.sub_fin] at this
    convert this using 2
    · exact congrArg Fl.fin (by ring)
    · ring
  · exact c3

theorem z_mem_cut (hm : Massive ps) (h : Accepted ps S pt) (cut : Cut)
    (hc : cut.z.valid → cut.z.contains (.fin pt.z)) :
    (Cut.zBoundCut cut (finPs ps) (.fin S) (.fin pt.x) (.fin pt.y)).contains (.fin pt.z) := by
  unfold Cut.zBoundCut
  extract_lets r
  split_ifs with hc'
  · exact (Props.c01_inter_contains _ _ _).2 ⟨z_mem hm h, hc hc'⟩
  · exact z_mem hm h

theorem ph_t_sq_mem_cut (hm : Massive ps) (h : Accepted ps S pt) (cut : Cut)
    (hc : cut.ph_t_sq.valid → cut.ph_t_sq.contains (.fin pt.ph_t_sq)) :
    (Cut.phTSqBoundCut cut (finPs ps) (.fin S) (.fin pt.x) (.fin pt.y) (.fin pt.z)).contains
      (.fin pt.ph_t_sq) := by
  unfold Cut.phTSqBoundCut
  extract_lets r
  split_ifs with hc'
  · exact (Props.c01_inter_contains _ _ _).2 ⟨ph_t_sq_mem hm h, hc hc'⟩
  · exact ph_t_sq_mem hm h

end
end Sidis
