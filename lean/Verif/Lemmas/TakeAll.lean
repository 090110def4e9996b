import Verif.Spec.TakeAll
import Verif.Lemmas.CutBounds
import Verif.Lemmas.CutSample
import Verif.Lemmas.CutRad
import Mathlib.Analysis.Calculus.Deriv.MeanValue

/-! # Points inside the kinematic limits are in the phase space -/

namespace Sidis

open Spec VarMap

section
variable {ps : Particles ℝ} {S x y z t : ℝ}

/-- The condition on `x` under which some `y` is possible. -/
def XQuad (ps : Particles ℝ) (S x : ℝ) : ℝ :=
  (S ^ 2 - 4 * ps.M ^ 2 * ps.m ^ 2 + ps.M ^ 2 * ((ps.Mth + ps.mh) ^ 2 - ps.M ^ 2)) * x ^ 2 -
    (S ^ 2 - 4 * ps.M ^ 2 * ps.m ^ 2 - S * ((ps.Mth + ps.mh) ^ 2 - ps.M ^ 2)) * x +
    ps.m ^ 2 * ((ps.Mth + ps.mh) ^ 2 - ps.M ^ 2)

/-- Between the roots of a quadratic. -/
theorem quad_of_roots {A a c x : ℝ} (hA : 0 < A) (hd : 0 ≤ a ^ 2 - 4 * A * c)
    (h1 : (a - √(a ^ 2 - 4 * A * c)) / (2 * A) ≤ x) (h2 : x ≤ (a + √(a ^ 2 - 4 * A * c)) / (2 * A)) :
    A * x ^ 2 - a * x + c ≤ 0 := by
  rw [div_le_iff₀ (by positivity)] at h1
  rw [le_div_iff₀ (by positivity)] at h2
  have hs := Real.sq_sqrt hd
  set s := √(a ^ 2 - 4 * A * c)
  have : (2 * A * x - a) ^ 2 ≤ s ^ 2 := sq_le_sq' (by linarith) (by linarith)
  rw [hs] at this
  have h4 : 4 * A * (A * x ^ 2 - a * x + c) ≤ 0 := by nlinarith
  by_contra hc
  push Not at hc
  have := mul_pos (mul_pos (by norm_num : (0:ℝ) < 4) hA) hc
  linarith

/-- A quadratic which is not positive at two points is negative between them. -/
theorem quad_between {A a c u v w : ℝ} (hA : 0 < A) (hu : A * u ^ 2 - a * u + c ≤ 0)
    (hw : A * w ^ 2 - a * w + c ≤ 0) (h1 : u < v) (h2 : v < w) : A * v ^ 2 - a * v + c < 0 := by
  have e : (w - u) * (A * v ^ 2 - a * v + c) = (w - v) * (A * u ^ 2 - a * u + c) +
      (v - u) * (A * w ^ 2 - a * w + c) - A * ((v - u) * (w - v) * (w - u)) := by ring
  have k0 : 0 < w - u := by linarith
  have k1 : 0 < v - u := by linarith
  have k2 : 0 < w - v := by linarith
  have k3 := mul_nonpos_of_nonneg_of_nonpos k2.le hu
  have k4 := mul_nonpos_of_nonneg_of_nonpos k1.le hw
  have k5 : 0 < A * ((v - u) * (w - v) * (w - u)) := by positivity
  by_contra hn
  push Not at hn
  have k6 := mul_nonneg k0.le hn
  linarith

theorem reaches_iff : Reaches ps S ↔
    ((ps.Mth + ps.mh) ^ 2 - ps.M ^ 2) + 2 * ps.m * (ps.Mth + ps.mh) ≤ S := by
  unfold Reaches
  constructor <;> intro h <;> nlinarith

theorem exceeds_iff : Exceeds ps S ↔
    ((ps.Mth + ps.mh) ^ 2 - ps.M ^ 2) + 2 * ps.m * (ps.Mth + ps.mh) < S := by
  unfold Exceeds
  constructor <;> intro h <;> nlinarith

/-- `S_min` is the threshold. -/
theorem SMin_le_iff : Cut.SMin (finPs ps) ≤ .fin S ↔ Reaches ps S := by
  rw [reaches_iff]
  simp only [Cut.SMin, finPs, sq, fl_two, Fl.mul_fin, Fl.add_fin, Fl.sub_fin, Fl.le_fin]
  constructor <;> intro h <;> nlinarith

theorem beam_of_reaches (hm : Massive ps) (h : Reaches ps S) :
    0 < S ∧ 2 * ps.M * ps.m < S ∧ 4 * ps.M ^ 2 * ps.m ^ 2 < S ^ 2 := by
  rw [reaches_iff] at h
  have hD := D_pos hm
  have hM := hm.M_pos
  have hmm := hm.m_nonneg
  have h1 : ps.m * ps.M ≤ ps.m * (ps.Mth + ps.mh) :=
    mul_le_mul_of_nonneg_left (by linarith [hm.Mth_ge, hm.mh_pos]) hmm
  have h2 : 2 * ps.M * ps.m < S := by linarith
  have h3 : 0 ≤ 2 * ps.M * ps.m := by positivity
  refine ⟨by linarith, h2, ?_⟩
  have := pow_lt_pow_left₀ h2 h3 two_ne_zero
  linarith [show (2 * ps.M * ps.m) ^ 2 = 4 * ps.M ^ 2 * ps.m ^ 2 by ring]

theorem x_radicand (hm : Massive ps) (h : Reaches ps S) :
    0 ≤ (S ^ 2 - 4 * ps.M ^ 2 * ps.m ^ 2) * ((S - ((ps.Mth + ps.mh) ^ 2 - ps.M ^ 2)) ^ 2 -
      4 * ps.m ^ 2 * (ps.Mth + ps.mh) ^ 2) := by
  obtain ⟨-, -, h2⟩ := beam_of_reaches hm h
  rw [reaches_iff] at h
  refine mul_nonneg (by linarith) ?_
  have h0 : 0 ≤ 2 * ps.m * (ps.Mth + ps.mh) := by
    have := hm.m_nonneg; have := hm.mh_pos; have := hm.M_pos; have := hm.Mth_ge
    exact mul_nonneg (by linarith) (by linarith)
  have := pow_le_pow_left₀ h0 (show 2 * ps.m * (ps.Mth + ps.mh) ≤
    S - ((ps.Mth + ps.mh) ^ 2 - ps.M ^ 2) by linarith) 2
  nlinarith

/-- What `x_bound` contains. -/
theorem xBound_iff (hm : Massive ps) (h : Reaches ps S) (x : ℝ) :
    (Cut.xBound (finPs ps) (.fin S)).contains (.fin x) ↔
      (0 ≤ x ∧ x ≤ 1) ∧ XQuad ps S x ≤ 0 := by
  obtain ⟨-, -, hb⟩ := beam_of_reaches hm h
  have hD := D_pos hm
  have hA : 0 < S ^ 2 - 4 * ps.M ^ 2 * ps.m ^ 2 +
      ps.M ^ 2 * ((ps.Mth + ps.mh) ^ 2 - ps.M ^ 2) := by
    have := mul_nonneg (sq_nonneg ps.M) hD.le
    linarith
  have hr := x_radicand hm h
  have e : (S ^ 2 - 4 * ps.M ^ 2 * ps.m ^ 2) * ((S - ((ps.Mth + ps.mh) ^ 2 - ps.M ^ 2)) ^ 2 -
      4 * ps.m ^ 2 * (ps.Mth + ps.mh) ^ 2) =
    (S * S - 4 * (ps.M * ps.M) * (ps.m * ps.m)) *
      (S - ((ps.Mth + ps.mh) * (ps.Mth + ps.mh) - ps.M * ps.M) - 2 * ps.m * (ps.Mth + ps.mh)) *
      (S - ((ps.Mth + ps.mh) * (ps.Mth + ps.mh) - ps.M * ps.M) + 2 * ps.m * (ps.Mth + ps.mh)) := by
    ring
  have hr' := hr
  rw [e] at hr'
  have hd : 2 * (S * S - 4 * (ps.M * ps.M) * (ps.m * ps.m) +
      ps.M * ps.M * ((ps.Mth + ps.mh) * (ps.Mth + ps.mh) - ps.M * ps.M)) ≠ 0 := by
    simp only [← pow_two]; positivity
  have hdisc := x_disc ps.M ps.m S ((ps.Mth + ps.mh) ^ 2)
  simp only [Cut.xBound, finPs, sq, fl_two, fl_four, Fl.mul_fin, Fl.add_fin, Fl.sub_fin,
    sqrt_fl hr', Fl.div_fin _ hd]
  rw [Props.c01_inter_contains, Bound.unit_contains, Bound.mk'_contains, Fl.le_fin, Fl.le_fin, ← e]
  simp only [← pow_two]
  refine and_congr_right fun _ => ⟨fun ⟨h1, h2⟩ => ?_, fun hq => ?_⟩
  · refine quad_of_roots hA (by rw [hdisc]; exact hr) ?_ ?_
    · rw [hdisc]; exact h1
    · rw [hdisc]; exact h2
  · obtain ⟨-, q1, q2⟩ := quad_roots hA hq
    rw [hdisc] at q1 q2
    exact ⟨q1, q2⟩

/-- There is room for `x`: the middle of the limits. -/
theorem x_middle (hm : Massive ps) (hl : 0 < ps.m) (h : Reaches ps S) :
    ∃ x, 0 < x ∧ x < 1 ∧ XQuad ps S x ≤ 0 ∧ (Exceeds ps S → XQuad ps S x < 0) := by
  obtain ⟨hS, hb1, hb⟩ := beam_of_reaches hm h
  have hD := D_pos hm
  have hM := hm.M_pos
  have hs : ps.M < ps.Mth + ps.mh := by linarith [hm.Mth_ge, hm.mh_pos]
  have hA : 0 < S ^ 2 - 4 * ps.M ^ 2 * ps.m ^ 2 +
      ps.M ^ 2 * ((ps.Mth + ps.mh) ^ 2 - ps.M ^ 2) := by
    have := mul_nonneg (sq_nonneg ps.M) hD.le
    linarith
  have hr := x_radicand hm h
  have hdisc := x_disc ps.M ps.m S ((ps.Mth + ps.mh) ^ 2)
  have ha : 0 < S ^ 2 - 4 * ps.M ^ 2 * ps.m ^ 2 - S * ((ps.Mth + ps.mh) ^ 2 - ps.M ^ 2) := by
    have h' := reaches_iff.1 h
    have k : 2 * ps.m * ps.M < 2 * ps.m * (ps.Mth + ps.mh) := by nlinarith
    have k1 : 2 * ps.M * ps.m * (2 * ps.m * ps.M) < S * (2 * ps.m * (ps.Mth + ps.mh)) :=
      mul_lt_mul'' hb1 k (by positivity) (by positivity)
    nlinarith [mul_le_mul_of_nonneg_left h' hS.le]
  set D := (ps.Mth + ps.mh) ^ 2 - ps.M ^ 2 with hDd
  set A := S ^ 2 - 4 * ps.M ^ 2 * ps.m ^ 2 + ps.M ^ 2 * D with hAd
  set a := S ^ 2 - 4 * ps.M ^ 2 * ps.m ^ 2 - S * D with had
  have hq : 4 * A * XQuad ps S (a / (2 * A)) = -(a ^ 2 - 4 * A * (ps.m ^ 2 * D)) := by
    unfold XQuad
    rw [← hDd, ← hAd, ← had]
    field_simp
    ring
  refine ⟨a / (2 * A), by positivity, ?_, ?_, fun hx => ?_⟩
  · rw [div_lt_one (by positivity), hAd, had]
    nlinarith [mul_pos hS hD, mul_pos (pow_pos hM 2) hD]
  · by_contra hc
    push Not at hc
    have := mul_pos (mul_pos (by norm_num : (0:ℝ) < 4) hA) hc
    rw [hq, hdisc] at this
    linarith
  · by_contra hc
    push Not at hc
    have := mul_nonneg (mul_pos (by norm_num : (0:ℝ) < 4) hA).le hc
    rw [hq, hdisc] at this
    have hx' := exceeds_iff.1 hx
    have h0 : 0 ≤ 2 * ps.m * (ps.Mth + ps.mh) := by
      have := hm.m_nonneg
      exact mul_nonneg (by linarith) (by linarith)
    have k := pow_lt_pow_left₀ (show 2 * ps.m * (ps.Mth + ps.mh) < S - D by linarith) h0 two_ne_zero
    have k2 : 0 < (S ^ 2 - 4 * ps.M ^ 2 * ps.m ^ 2) * ((S - D) ^ 2 -
        4 * ps.m ^ 2 * (ps.Mth + ps.mh) ^ 2) := mul_pos (by linarith) (by nlinarith)
    linarith

/-- Every `x` within the limits is strictly between zero and one. -/
theorem x_strict (hm : Massive ps) (hl : 0 < ps.m) (h : Reaches ps S) (h0 : 0 ≤ x) (h1 : x ≤ 1)
    (hq : XQuad ps S x ≤ 0) : 0 < x ∧ x < 1 := by
  obtain ⟨hS, -, -⟩ := beam_of_reaches hm h
  have hD := D_pos hm
  have hM := hm.M_pos
  unfold XQuad at hq
  constructor
  · rcases h0.lt_or_eq with h | h
    · exact h
    · rw [← h] at hq
      nlinarith [mul_pos (pow_pos hl 2) hD]
  · rcases h1.lt_or_eq with h | h
    · exact h
    · rw [h] at hq
      nlinarith [mul_pos (pow_pos hl 2) hD, mul_pos hS hD, mul_pos (pow_pos hM 2) hD]

/-- What `y_bound` contains. -/
theorem yBound_iff (hM : 0 < ps.M) (hS : 0 < S) (hx : 0 < x) (hx1 : x < 1) (y : ℝ) :
    (Cut.yBound (finPs ps) (.fin S) (.fin x)).contains (.fin y) ↔
      (0 ≤ y ∧ y ≤ 1) ∧ (ps.Mth + ps.mh) ^ 2 - ps.M ^ 2 ≤ (1 - x) * (S * y) ∧
      S * y * ((ps.M * x) ^ 2 + S * x + ps.m ^ 2) ≤ x * (S ^ 2 - 4 * ps.M ^ 2 * ps.m ^ 2) := by
  have d1 : 0 < (1 - x) * S := mul_pos (by linarith) hS
  have d2 : 0 < S * (ps.M * x * (ps.M * x) + S * x + ps.m * ps.m) :=
    mul_pos hS (add_pos_of_pos_of_nonneg (by positivity) (mul_self_nonneg _))
  simp only [Cut.yBound, finPs, sq, fl_one, fl_two, fl_four, Fl.mul_fin, Fl.add_fin, Fl.sub_fin,
    Fl.div_fin _ d1.ne', Fl.div_fin _ d2.ne']
  rw [Props.c01_inter_contains, Bound.unit_contains, Bound.mk'_contains, Fl.le_fin, Fl.le_fin,
    div_le_iff₀ d1, le_div_iff₀ d2]
  refine and_congr_right fun _ => and_congr ?_ ?_ <;> constructor <;> intro h <;> nlinarith

/-- The smallest and the largest `y`. -/
theorem y_ends (hm : Massive ps) (hl : 0 < ps.m) (h : Reaches ps S) (hx : 0 < x) (hx1 : x < 1)
    (hq : XQuad ps S x ≤ 0) :
    ∃ lo hi, 0 < lo ∧ hi ≤ 1 ∧ lo ≤ hi ∧ (XQuad ps S x < 0 → lo < hi) ∧
      (1 - x) * (S * lo) = (ps.Mth + ps.mh) ^ 2 - ps.M ^ 2 ∧
      S * hi * ((ps.M * x) ^ 2 + S * x + ps.m ^ 2) = x * (S ^ 2 - 4 * ps.M ^ 2 * ps.m ^ 2) := by
  obtain ⟨hS, -, hb⟩ := beam_of_reaches hm h
  have hD := D_pos hm
  have hM := hm.M_pos
  set D := (ps.Mth + ps.mh) ^ 2 - ps.M ^ 2 with hDd
  have hx1' : 0 < 1 - x := by linarith
  have d1 : 0 < (1 - x) * S := mul_pos hx1' hS
  have hG : 0 < (ps.M * x) ^ 2 + S * x + ps.m ^ 2 := by positivity
  have d2 : 0 < S * ((ps.M * x) ^ 2 + S * x + ps.m ^ 2) := by positivity
  have eq : (1 - x) * S * (x * (S ^ 2 - 4 * ps.M ^ 2 * ps.m ^ 2)) -
      D * (S * ((ps.M * x) ^ 2 + S * x + ps.m ^ 2)) = -(S * XQuad ps S x) := by
    unfold XQuad
    rw [← hDd]
    ring
  refine ⟨D / ((1 - x) * S), x * (S ^ 2 - 4 * ps.M ^ 2 * ps.m ^ 2) /
    (S * ((ps.M * x) ^ 2 + S * x + ps.m ^ 2)), by positivity, ?_, ?_, fun hq' => ?_, ?_, ?_⟩
  · rw [div_le_one d2]
    nlinarith [mul_nonneg hx.le (mul_nonneg (sq_nonneg ps.M) (sq_nonneg ps.m)),
      mul_nonneg hS.le (sq_nonneg (ps.M * x)), mul_nonneg hS.le (sq_nonneg ps.m)]
  · rw [div_le_div_iff₀ d1 d2]
    nlinarith [mul_nonneg hS.le (neg_nonneg.2 hq)]
  · rw [div_lt_div_iff₀ d1 d2]
    nlinarith [mul_pos hS (neg_pos.2 hq')]
  · field_simp
  · field_simp

/-- The quantity which is positive where the threshold limits the transverse momentum. -/
noncomputable def ZDet (M mh Mth Sx Q z : ℝ) : ℝ :=
  (Sx + 2 * M ^ 2) * Sx / (2 * M ^ 2) * z - (Sx - Q + M ^ 2) + Mth ^ 2 - mh ^ 2

/-- The largest transverse momentum squared. -/
noncomputable def PtMax (M mh Mth Sx Q z : ℝ) : ℝ :=
  (z * Sx / (2 * M)) ^ 2 - mh ^ 2 - M ^ 2 / (Sx ^ 2 + 4 * M ^ 2 * Q) * (max (ZDet M mh Mth Sx Q z) 0) ^ 2

/-- The quadratic whose roots limit `z`. -/
def ZQuad (M mh Mth Sx Q z : ℝ) : ℝ :=
  (Sx - Q + M ^ 2) * (Sx * z) ^ 2 -
    (Sx + 2 * M ^ 2) * (Sx - Q + M ^ 2 - Mth ^ 2 + mh ^ 2) * (Sx * z) +
    (mh ^ 2 * (Sx ^ 2 + 4 * M ^ 2 * Q) + M ^ 2 * (Sx - Q + M ^ 2 - Mth ^ 2 + mh ^ 2) ^ 2)

theorem zquad_eq {M mh Mth Sx Q z : ℝ} (hM : 0 < M) :
    ZQuad M mh Mth Sx Q z = M ^ 2 * (ZDet M mh Mth Sx Q z) ^ 2 -
      (Sx ^ 2 + 4 * M ^ 2 * Q) * ((z * Sx / (2 * M)) ^ 2 - mh ^ 2) := by
  unfold ZQuad ZDet
  field_simp
  ring

theorem PtMax_nonneg {M mh Mth Sx Q z : ℝ} (hM : 0 < M) (hmh : 0 < mh) (hSx : 0 < Sx) (hQ : 0 ≤ Q)
    (h0 : 2 * M * mh ≤ z * Sx) (hd : 0 < ZDet M mh Mth Sx Q z → ZQuad M mh Mth Sx Q z ≤ 0) :
    0 ≤ PtMax M mh Mth Sx Q z := by
  have hY : 0 < Sx ^ 2 + 4 * M ^ 2 * Q := by positivity
  have h1 : mh ≤ z * Sx / (2 * M) := by rw [le_div_iff₀ (by positivity)]; linarith
  unfold PtMax
  rcases le_or_gt (ZDet M mh Mth Sx Q z) 0 with h | h
  · rw [max_eq_right h]
    have := pow_le_pow_left₀ hmh.le h1 2
    simp only [ne_eq, OfNat.ofNat_ne_zero, not_false_eq_true, zero_pow, mul_zero]
    linarith
  · rw [max_eq_left h.le]
    have := hd h
    rw [zquad_eq hM] at this
    rw [div_mul_eq_mul_div, sub_nonneg, div_le_iff₀ hY]
    linarith

theorem PtMax_pos {M mh Mth Sx Q z : ℝ} (hM : 0 < M) (hmh : 0 < mh) (hSx : 0 < Sx) (hQ : 0 ≤ Q)
    (h0 : 2 * M * mh < z * Sx) (hd : 0 < ZDet M mh Mth Sx Q z → ZQuad M mh Mth Sx Q z < 0) :
    0 < PtMax M mh Mth Sx Q z := by
  have hY : 0 < Sx ^ 2 + 4 * M ^ 2 * Q := by positivity
  have h1 : mh < z * Sx / (2 * M) := by rw [lt_div_iff₀ (by positivity)]; linarith
  unfold PtMax
  rcases le_or_gt (ZDet M mh Mth Sx Q z) 0 with h | h
  · rw [max_eq_right h]
    have := pow_lt_pow_left₀ h1 hmh.le two_ne_zero
    simp only [ne_eq, OfNat.ofNat_ne_zero, not_false_eq_true, zero_pow, mul_zero]
    linarith
  · rw [max_eq_left h.le]
    have := hd h
    rw [zquad_eq hM] at this
    rw [div_mul_eq_mul_div, sub_pos, div_lt_iff₀ hY]
    linarith

/-- What `ph_t_sq_bound` contains. -/
theorem phTSqBound_iff (hM : 0 < ps.M) (hS : 0 < S) (hx : 0 ≤ x) (hy : 0 < y) (z t : ℝ) :
    (Cut.phTSqBound (finPs ps) (.fin S) (.fin x) (.fin y) (.fin z)).contains (.fin t) ↔
      0 ≤ t ∧ t ≤ PtMax ps.M ps.mh ps.Mth (S * y) (S * x * y) z := by
  have d1 : 2 * ps.M ≠ 0 := by positivity
  have d2 : 2 * (ps.M * ps.M) ≠ 0 := by positivity
  have hlY : 0 < S * y * (S * y) + 4 * (ps.M * ps.M) * (S * x * y) := by positivity
  have e : (S * y + 2 * (ps.M * ps.M)) * (S * y) / (2 * (ps.M * ps.M)) * z -
      ((1 - x) * (S * y) + ps.M * ps.M) + ps.Mth * ps.Mth - ps.mh * ps.mh =
      ZDet ps.M ps.mh ps.Mth (S * y) (S * x * y) z := by unfold ZDet; ring
  simp only [Cut.phTSqBound, finPs, sq, fl_zero, fl_one, fl_two, fl_four, Fl.mul_fin, Fl.add_fin,
    Fl.sub_fin, Fl.div_fin _ d1, Fl.div_fin _ d2, Fl.div_fin _ hlY.ne', Fl.lt_fin, e]
  rw [Props.c01_inter_contains, Bound.positive, Bound.mk'_contains, Bound.mk'_contains]
  have key : (if ZDet ps.M ps.mh ps.Mth (S * y) (S * x * y) z < 0 then Fl.fin 0 else
      Fl.fin (ZDet ps.M ps.mh ps.Mth (S * y) (S * x * y) z)) =
      .fin (max (ZDet ps.M ps.mh ps.Mth (S * y) (S * x * y) z) 0) := by
    split_ifs with hc
    · rw [max_eq_right hc.le]
    · rw [max_eq_left (not_lt.1 hc)]
  rw [key]
  simp only [Fl.mul_fin, Fl.sub_fin, Fl.le_fin]
  have e2 : z * (S * y) / (2 * ps.M) * (z * (S * y) / (2 * ps.M)) - ps.mh * ps.mh -
      ps.M * ps.M / (S * y * (S * y) + 4 * (ps.M * ps.M) * (S * x * y)) *
      (max (ZDet ps.M ps.mh ps.Mth (S * y) (S * x * y) z) 0 *
        max (ZDet ps.M ps.mh ps.Mth (S * y) (S * x * y) z) 0) =
      PtMax ps.M ps.mh ps.Mth (S * y) (S * x * y) z := by
    unfold PtMax
    simp only [pow_two]
  rw [e2]
  constructor
  · rintro ⟨⟨h1, -⟩, -, h2⟩; exact ⟨h1, h2⟩
  · rintro ⟨h1, h2⟩; exact ⟨⟨h1, trivial⟩, h1, h2⟩

theorem zdet_pos {M mh Mth Sx Q z : ℝ} (hM : 0 < M) (hSx : 0 < Sx) :
    0 < ZDet M mh Mth Sx Q z ↔
      2 * M ^ 2 * (Sx - Q + M ^ 2 - Mth ^ 2 + mh ^ 2) / (Sx * (Sx + 2 * M ^ 2)) < z := by
  have e : ZDet M mh Mth Sx Q z = (z * (Sx * (Sx + 2 * M ^ 2)) -
      2 * M ^ 2 * (Sx - Q + M ^ 2 - Mth ^ 2 + mh ^ 2)) / (2 * M ^ 2) := by
    unfold ZDet; field_simp; ring
  rw [e, div_lt_iff₀ (by positivity)]
  constructor
  · intro h
    have := (div_pos_iff_of_pos_right (by positivity : (0:ℝ) < 2 * M ^ 2)).1 h
    linarith
  · intro h
    exact div_pos (by linarith) (by positivity)

/-- The ends of `z_bound`. -/
noncomputable def ZRoot (M mh Mth Sx Q : ℝ) (σ : ℝ) : ℝ :=
  ((Sx + 2 * M ^ 2) * (Sx - Q + M ^ 2 - Mth ^ 2 + mh ^ 2) + σ *
    √((Sx ^ 2 + 4 * M ^ 2 * Q) * (Sx - Q + M ^ 2 - (Mth - mh) ^ 2) *
      (Sx - Q + M ^ 2 - (Mth + mh) ^ 2))) / (2 * Sx * (Sx - Q + M ^ 2))

theorem z_radicand {M mh Mth Sx Q : ℝ} (hmh : 0 < mh) (hMth : 0 < Mth) (hQ : 0 ≤ Q)
    (hL : (Mth + mh) ^ 2 ≤ Sx - Q + M ^ 2) :
    0 ≤ (Sx ^ 2 + 4 * M ^ 2 * Q) * (Sx - Q + M ^ 2 - (Mth - mh) ^ 2) *
      (Sx - Q + M ^ 2 - (Mth + mh) ^ 2) := by
  refine mul_nonneg (mul_nonneg (by positivity) ?_) (by linarith)
  nlinarith [mul_pos hmh hMth]

/-- What `z_bound` contains. -/
theorem zBound_iff (hm : Massive ps) (hS : 0 < S) (hx : 0 ≤ x) (hy : 0 < y)
    (hL : (ps.Mth + ps.mh) ^ 2 ≤ S * y - S * x * y + ps.M ^ 2) (z : ℝ) :
    (Cut.zBound (finPs ps) (.fin S) (.fin x) (.fin y)).contains (.fin z) ↔
      (0 ≤ z ∧ z ≤ 1) ∧
      (if 2 * ps.M * ps.mh / (S * y) < 2 * ps.M ^ 2 * (S * y - S * x * y + ps.M ^ 2 - ps.Mth ^ 2 +
          ps.mh ^ 2) / (S * y * (S * y + 2 * ps.M ^ 2)) then 2 * ps.M * ps.mh / (S * y)
        else ZRoot ps.M ps.mh ps.Mth (S * y) (S * x * y) (-1)) ≤ z ∧
      z ≤ ZRoot ps.M ps.mh ps.Mth (S * y) (S * x * y) 1 := by
  have hM := hm.M_pos
  have hmh := hm.mh_pos
  have hMth : 0 < ps.Mth := hM.trans_le hm.Mth_ge
  have hSx : 0 < S * y := mul_pos hS hy
  have hL0 : 0 < S * y - S * x * y + ps.M ^ 2 := lt_of_lt_of_le (by positivity) hL
  have hb := z_radicand (M := ps.M) hmh hMth (show 0 ≤ S * x * y by positivity) hL
  have eL : (1 - x) * (S * y) + ps.M * ps.M = S * y - S * x * y + ps.M ^ 2 := by ring
  have d1 : 0 < 2 * (S * y) * (S * y - S * x * y + ps.M ^ 2) := by positivity
  have d2 : 0 < S * y * (S * y + 2 * (ps.M * ps.M)) := by positivity
  have hb' : 0 ≤ (S * y * (S * y) + 4 * (ps.M * ps.M) * (S * x * y)) *
      (S * y - S * x * y + ps.M ^ 2 - (ps.Mth - ps.mh) * (ps.Mth - ps.mh)) *
      (S * y - S * x * y + ps.M ^ 2 - (ps.Mth + ps.mh) * (ps.Mth + ps.mh)) := by
    simpa only [← pow_two] using hb
  simp only [Cut.zBound, finPs, sq, fl_one, fl_two, fl_four, Fl.mul_fin, Fl.add_fin, Fl.sub_fin, eL,
    Fl.div_fin _ d1.ne', Fl.div_fin _ d2.ne', Fl.div_fin _ hSx.ne', sqrt_fl hb', Fl.lt_fin]
  rw [Props.c01_inter_contains, Bound.unit_contains, Bound.mk'_contains]
  simp only [← pow_two, ZRoot, neg_one_mul, one_mul, ← sub_eq_add_neg]
  split_ifs with hc <;> simp only [Fl.le_fin]

theorem zquad_roots {M mh Mth Sx Q : ℝ} (hmh : 0 < mh) (hMth : 0 < Mth) (hQ : 0 ≤ Q) (hSx : 0 < Sx)
    (hL : (Mth + mh) ^ 2 ≤ Sx - Q + M ^ 2) (z : ℝ) :
    ZQuad M mh Mth Sx Q z ≤ 0 ↔ ZRoot M mh Mth Sx Q (-1) ≤ z ∧ z ≤ ZRoot M mh Mth Sx Q 1 := by
  have hL0 : 0 < Sx - Q + M ^ 2 := lt_of_lt_of_le (by positivity) hL
  have hb := z_radicand (M := M) hmh hMth hQ hL
  have hdisc := z_disc M mh Mth Sx _ Q rfl
  have d : 0 < 2 * Sx * (Sx - Q + M ^ 2) := by positivity
  have d' : 0 < 2 * (Sx - Q + M ^ 2) := by positivity
  unfold ZRoot
  simp only [neg_one_mul, one_mul, ← sub_eq_add_neg]
  rw [div_le_iff₀ d, le_div_iff₀ d]
  constructor
  · intro h
    obtain ⟨-, h1, h2⟩ := quad_roots hL0 h
    rw [hdisc] at h1 h2
    rw [div_le_iff₀ d'] at h1
    rw [le_div_iff₀ d'] at h2
    exact ⟨by linarith, by linarith⟩
  · rintro ⟨h1, h2⟩
    refine quad_of_roots (x := Sx * z) hL0 (by rw [hdisc]; exact hb) ?_ ?_
    · rw [hdisc, div_le_iff₀ d']; linarith
    · rw [hdisc, le_div_iff₀ d']; linarith

/-- A point of `z_bound` leaves room for the hadron. -/
theorem z_room (hm : Massive ps) (hS : 0 < S) (hx : 0 ≤ x) (hy : 0 < y)
    (hL : (ps.Mth + ps.mh) ^ 2 ≤ S * y - S * x * y + ps.M ^ 2) {z : ℝ}
    (hz : (Cut.zBound (finPs ps) (.fin S) (.fin x) (.fin y)).contains (.fin z)) :
    (0 ≤ z ∧ z ≤ 1) ∧ 2 * ps.M * ps.mh ≤ z * (S * y) ∧
      (0 < ZDet ps.M ps.mh ps.Mth (S * y) (S * x * y) z →
        ZQuad ps.M ps.mh ps.Mth (S * y) (S * x * y) z ≤ 0) := by
  have hM := hm.M_pos
  have hmh := hm.mh_pos
  have hMth : 0 < ps.Mth := hM.trans_le hm.Mth_ge
  have hSx : 0 < S * y := mul_pos hS hy
  have hQ : 0 ≤ S * x * y := by positivity
  have hY : 0 < (S * y) ^ 2 + 4 * ps.M ^ 2 * (S * x * y) := by positivity
  obtain ⟨hu, h1, h2⟩ := (zBound_iff hm hS hx hy hL z).1 hz
  refine ⟨hu, ?_⟩
  split_ifs at h1 with hc
  · refine ⟨by rwa [div_le_iff₀ hSx] at h1, fun hd => ?_⟩
    rw [zquad_roots hmh hMth hQ hSx hL]
    refine ⟨?_, h2⟩
    rw [zdet_pos hM hSx] at hd
    refine le_trans ?_ hd.le
    refine ((zquad_roots hmh hMth hQ hSx hL _).1 ?_).1
    rw [zquad_eq hM]
    set zc := 2 * ps.M ^ 2 * (S * y - S * x * y + ps.M ^ 2 - ps.Mth ^ 2 + ps.mh ^ 2) /
      (S * y * (S * y + 2 * ps.M ^ 2)) with hzc
    have e0 : ZDet ps.M ps.mh ps.Mth (S * y) (S * x * y) zc = 0 := by
      unfold ZDet; rw [hzc]; field_simp; ring
    rw [e0]
    rw [div_lt_iff₀ hSx] at hc
    have : ps.mh ≤ zc * (S * y) / (2 * ps.M) := by rw [le_div_iff₀ (by positivity)]; linarith
    have := pow_le_pow_left₀ hmh.le this 2
    nlinarith
  · have hq := (zquad_roots hmh hMth hQ hSx hL z).2 ⟨h1, h2⟩
    refine ⟨?_, fun _ => hq⟩
    rw [zquad_eq hM] at hq
    have k : 0 ≤ ((S * y) ^ 2 + 4 * ps.M ^ 2 * (S * x * y)) *
        ((z * (S * y) / (2 * ps.M)) ^ 2 - ps.mh ^ 2) := by
      have := mul_nonneg (sq_nonneg ps.M) (sq_nonneg (ZDet ps.M ps.mh ps.Mth (S * y) (S * x * y) z))
      linarith
    have k2 := nonneg_of_mul_nonneg_right k hY
    have k3 : 0 ≤ z * (S * y) / (2 * ps.M) := by have := hu.1; positivity
    have k4 : ps.mh ≤ z * (S * y) / (2 * ps.M) := by
      apply le_of_sq_le_sq _ k3
      linarith
    rw [le_div_iff₀ (by positivity)] at k4
    linarith

theorem z_mid_le {M mh Mth Sx Q : ℝ} (hM : 0 < M) (hmh : 0 < mh) (hge : M ≤ Mth) (hQ : 0 ≤ Q)
    (hL : (Mth + mh) ^ 2 ≤ Sx - Q + M ^ 2) :
    (Sx + 2 * M ^ 2) * (Sx - Q + M ^ 2 - Mth ^ 2 + mh ^ 2) ≤ 2 * Sx * (Sx - Q + M ^ 2) := by
  obtain ⟨L, hLe⟩ : ∃ L, L = Sx - Q + M ^ 2 := ⟨_, rfl⟩
  have eS : Sx = L + Q - M ^ 2 := by linarith
  rw [← hLe] at hL ⊢
  rw [eS]
  obtain ⟨e, he⟩ : ∃ e, e = L - (Mth + mh) ^ 2 := ⟨_, rfl⟩
  have he0 : 0 ≤ e := by linarith
  have eL : L = (Mth + mh) ^ 2 + e := by linarith
  obtain ⟨f, hf⟩ : ∃ f, f = Mth - M := ⟨_, rfl⟩
  have hf0 : 0 ≤ f := by linarith
  have eM : Mth = M + f := by linarith
  rw [eL, eM]
  have : 0 ≤ 2 * ((M + f + mh) ^ 2 + e + Q - M ^ 2) * ((M + f + mh) ^ 2 + e) -
    ((M + f + mh) ^ 2 + e + Q - M ^ 2 + 2 * M ^ 2) *
      ((M + f + mh) ^ 2 + e - (M + f) ^ 2 + mh ^ 2) := by
    ring_nf
    positivity
  linarith

set_option maxHeartbeats 1000000 in
/-- There is a point in `z_bound`, and more than one where the undetected mass is not at its
threshold. -/
theorem z_exists (hm : Massive ps) (hS : 0 < S) (hx : 0 ≤ x) (hy : 0 < y)
    (hL : (ps.Mth + ps.mh) ^ 2 ≤ S * y - S * x * y + ps.M ^ 2) :
    ∃ z z', (Cut.zBound (finPs ps) (.fin S) (.fin x) (.fin y)).contains (.fin z) ∧
      (Cut.zBound (finPs ps) (.fin S) (.fin x) (.fin y)).contains (.fin z') ∧
      ((ps.Mth + ps.mh) ^ 2 < S * y - S * x * y + ps.M ^ 2 → z < z') := by
  have hM := hm.M_pos
  have hmh := hm.mh_pos
  have hMth : 0 < ps.Mth := hM.trans_le hm.Mth_ge
  have hSx : 0 < S * y := mul_pos hS hy
  have hQ : 0 ≤ S * x * y := by positivity
  have hL0 : 0 < S * y - S * x * y + ps.M ^ 2 := lt_of_lt_of_le (by positivity) hL
  have hb := z_radicand (M := ps.M) hmh hMth hQ hL
  have hmid := z_mid_le hM hmh hm.Mth_ge hQ hL
  have hβ : 0 < S * y - S * x * y + ps.M ^ 2 - ps.Mth ^ 2 + ps.mh ^ 2 := by nlinarith
  have hdisc := z_disc ps.M ps.mh ps.Mth (S * y) _ (S * x * y) rfl
  have hSx1 : 2 * ps.M * ps.mh ≤ S * y := by nlinarith [hm.Mth_ge]
  simp only [zBound_iff hm hS hx hy hL]
  set Sx := S * y with hSxd
  set Q := S * x * y with hQd
  set L := Sx - Q + ps.M ^ 2 with hLd
  set b := √((Sx ^ 2 + 4 * ps.M ^ 2 * Q) * (L - (ps.Mth - ps.mh) ^ 2) *
      (L - (ps.Mth + ps.mh) ^ 2)) with hbd
  have hb0 : 0 ≤ b := Real.sqrt_nonneg _
  have hb2 : b ^ 2 = _ := Real.sq_sqrt hb
  set a := (Sx + 2 * ps.M ^ 2) * (L - ps.Mth ^ 2 + ps.mh ^ 2) with had
  have ha0 : 0 < a := by positivity
  have d : 0 < 2 * Sx * L := by positivity
  have r1 : ZRoot ps.M ps.mh ps.Mth Sx Q (-1) = (a - b) / (2 * Sx * L) := by
    unfold ZRoot; rw [neg_one_mul, ← sub_eq_add_neg]
  have r2 : ZRoot ps.M ps.mh ps.Mth Sx Q 1 = (a + b) / (2 * Sx * L) := by
    unfold ZRoot; rw [one_mul]
  rw [r1, r2]
  set zc := 2 * ps.M ^ 2 * (L - ps.Mth ^ 2 + ps.mh ^ 2) / (Sx * (Sx + 2 * ps.M ^ 2)) with hzc
  have hzc2 : zc ≤ (a + b) / (2 * Sx * L) := by
    rw [hzc, div_le_div_iff₀ (by positivity) d]
    have k1 : 4 * ps.M ^ 2 * L ≤ (Sx + 2 * ps.M ^ 2) ^ 2 := by
      rw [hLd]; nlinarith [mul_nonneg (sq_nonneg ps.M) hQ]
    have k2 := mul_le_mul_of_nonneg_left k1 (mul_nonneg hβ.le hSx.le)
    have k3 : 0 ≤ b * (Sx * (Sx + 2 * ps.M ^ 2)) := by positivity
    rw [had]
    linarith
  have hzc1 : zc ≤ 1 := by
    rw [hzc, div_le_one (by positivity)]
    have k : (2 * ps.M * ps.mh) ^ 2 ≤ Sx ^ 2 := pow_le_pow_left₀ (by positivity) hSx1 2
    have k2 : ps.M ^ 2 * ps.M ^ 2 ≤ ps.M ^ 2 * ps.Mth ^ 2 :=
      mul_le_mul_of_nonneg_left (pow_le_pow_left₀ hM.le hm.Mth_ge 2) (sq_nonneg _)
    have k3 := mul_nonneg (sq_nonneg ps.M) hQ
    have k4 := sq_nonneg (ps.M * ps.mh)
    rw [hLd]
    linarith
  by_cases hc : 2 * ps.M * ps.mh / Sx < zc
  · have hz0 : 0 ≤ 2 * ps.M * ps.mh / Sx := by positivity
    rw [if_pos hc]
    exact ⟨2 * ps.M * ps.mh / Sx, zc, ⟨⟨hz0, hc.le.trans hzc1⟩, le_rfl, hc.le.trans hzc2⟩,
      ⟨⟨hz0.trans hc.le, hzc1⟩, hc.le, hzc2⟩, fun _ => hc⟩
  · rw [if_neg hc]
    have hab : b ≤ a := by
      apply le_of_sq_le_sq _ ha0.le
      rw [hb2, ← hdisc]
      have : 0 ≤ 4 * L * (ps.mh ^ 2 * (Sx ^ 2 + 4 * ps.M ^ 2 * Q) +
        ps.M ^ 2 * (L - ps.Mth ^ 2 + ps.mh ^ 2) ^ 2) := by positivity
      linarith
    have hm1 : a / (2 * Sx * L) ≤ 1 := by rw [div_le_one d]; exact hmid
    have l1 : (a - b) / (2 * Sx * L) ≤ a / (2 * Sx * L) :=
      div_le_div_of_nonneg_right (by linarith) d.le
    have l2 : a / (2 * Sx * L) ≤ (a + b) / (2 * Sx * L) :=
      div_le_div_of_nonneg_right (by linarith) d.le
    refine ⟨(a - b) / (2 * Sx * L), a / (2 * Sx * L),
      ⟨⟨div_nonneg (by linarith) d.le, l1.trans hm1⟩, le_rfl, l1.trans l2⟩,
      ⟨⟨by positivity, hm1⟩, l1, l2⟩, fun hst => ?_⟩
    have : 0 < b := by
      refine Real.sqrt_pos.2 (mul_pos (mul_pos (by positivity) ?_) (by linarith))
      have k := mul_pos hmh hMth
      linarith
    exact div_lt_div_of_pos_right (by linarith) d

/-- Strictly inside `z_bound` there is room for transverse momentum. -/
theorem z_inside (hm : Massive ps) (hS : 0 < S) (hx : 0 ≤ x) (hy : 0 < y)
    (hL : (ps.Mth + ps.mh) ^ 2 ≤ S * y - S * x * y + ps.M ^ 2) {z z1 z2 : ℝ}
    (h1 : (Cut.zBound (finPs ps) (.fin S) (.fin x) (.fin y)).contains (.fin z1))
    (h2 : (Cut.zBound (finPs ps) (.fin S) (.fin x) (.fin y)).contains (.fin z2))
    (hz1 : z1 < z) (hz2 : z < z2) :
    0 < PtMax ps.M ps.mh ps.Mth (S * y) (S * x * y) z := by
  have hM := hm.M_pos
  have hmh := hm.mh_pos
  have hMth : 0 < ps.Mth := hM.trans_le hm.Mth_ge
  have hSx : 0 < S * y := mul_pos hS hy
  have hQ : 0 ≤ S * x * y := by positivity
  have hL0 : 0 < S * y - S * x * y + ps.M ^ 2 := lt_of_lt_of_le (by positivity) hL
  obtain ⟨-, a1, b1⟩ := z_room hm hS hx hy hL h1
  obtain ⟨-, a2, b2⟩ := z_room hm hS hx hy hL h2
  refine PtMax_pos hM hmh hSx hQ (a1.trans_lt (by nlinarith)) fun hd => ?_
  -- the quadratic is not positive at a point below `z` and at `z2`
  have hd' := (zdet_pos (Q := S * x * y) (mh := ps.mh) (Mth := ps.Mth) hM hSx).1 hd
  have q2 := b2 ((zdet_pos hM hSx).2 (hd'.trans hz2))
  obtain ⟨w, hw, qw⟩ : ∃ w, w < z ∧ ZQuad ps.M ps.mh ps.Mth (S * y) (S * x * y) w ≤ 0 := by
    by_cases hc : 0 < ZDet ps.M ps.mh ps.Mth (S * y) (S * x * y) z1
    · exact ⟨z1, hz1, b1 hc⟩
    · refine ⟨_, hd', ?_⟩
      rw [zdet_pos hM hSx, not_lt] at hc
      rw [zquad_eq hM]
      set zc := 2 * ps.M ^ 2 * (S * y - S * x * y + ps.M ^ 2 - ps.Mth ^ 2 + ps.mh ^ 2) /
        (S * y * (S * y + 2 * ps.M ^ 2)) with hzc
      have e0 : ZDet ps.M ps.mh ps.Mth (S * y) (S * x * y) zc = 0 := by
        unfold ZDet; rw [hzc]; field_simp; ring
      rw [e0]
      have : 2 * ps.M * ps.mh ≤ zc * (S * y) := a1.trans (by nlinarith)
      have : ps.mh ≤ zc * (S * y) / (2 * ps.M) := by rw [le_div_iff₀ (by positivity)]; linarith
      have := pow_le_pow_left₀ hmh.le this 2
      have hY : 0 ≤ (S * y) ^ 2 + 4 * ps.M ^ 2 * (S * x * y) := by positivity
      nlinarith
  exact quad_between hL0 qw q2 (by nlinarith) (by nlinarith)

set_option maxHeartbeats 1000000 in
/-- The conditions on the four variables make a point of the phase space. -/
theorem accepted_of (hm : Massive ps) (h : Reaches ps S) (pt : PhaseSpace ℝ)
    (hx : 0 < pt.x) (hx1 : pt.x < 1) (hy : 0 < pt.y) (hy1 : pt.y ≤ 1)
    (hW : (ps.Mth + ps.mh) ^ 2 - ps.M ^ 2 ≤ (1 - pt.x) * (S * pt.y))
    (hang : S * pt.y * ((ps.M * pt.x) ^ 2 + S * pt.x + ps.m ^ 2) ≤
      pt.x * (S ^ 2 - 4 * ps.M ^ 2 * ps.m ^ 2))
    (hz1 : pt.z ≤ 1) (hz : 2 * ps.M * ps.mh ≤ pt.z * (S * pt.y)) (ht0 : 0 ≤ pt.ph_t_sq)
    (ht : pt.ph_t_sq ≤ PtMax ps.M ps.mh ps.Mth (S * pt.y) (S * pt.x * pt.y) pt.z) :
    Accepted ps S pt ∧ (pt.ph_t_sq < PtMax ps.M ps.mh ps.Mth (S * pt.y) (S * pt.x * pt.y) pt.z →
      ps.Mth ^ 2 < (Kinematics.make ps S pt).mx_sq) := by
  obtain ⟨hS, -, hb⟩ := beam_of_reaches hm h
  have hM := hm.M_pos
  have hmh := hm.mh_pos
  have hMth : 0 < ps.Mth := hM.trans_le hm.Mth_ge
  have hSx : 0 < S * pt.y := mul_pos hS hy
  have hQ : 0 ≤ S * pt.x * pt.y := by positivity
  have hY : 0 < (S * pt.y) ^ 2 + 4 * ps.M ^ 2 * (S * pt.x * pt.y) := by positivity
  have hz0 : 0 < pt.z := by
    by_contra hc
    have := mul_nonpos_of_nonpos_of_nonneg (not_lt.1 hc) hSx.le
    nlinarith [mul_pos hM hmh]
  set d := max (ZDet ps.M ps.mh ps.Mth (S * pt.y) (S * pt.x * pt.y) pt.z) 0 with hd
  have hd0 : 0 ≤ d := le_max_right _ _
  have hpen : 0 ≤ ps.M ^ 2 / ((S * pt.y) ^ 2 + 4 * ps.M ^ 2 * (S * pt.x * pt.y)) * d ^ 2 := by
    positivity
  have hpm : PtMax ps.M ps.mh ps.Mth (S * pt.y) (S * pt.x * pt.y) pt.z =
    (pt.z * (S * pt.y) / (2 * ps.M)) ^ 2 - ps.mh ^ 2 -
      ps.M ^ 2 / ((S * pt.y) ^ 2 + 4 * ps.M ^ 2 * (S * pt.x * pt.y)) * d ^ 2 := rfl
  have hh : pt.ph_t_sq + ps.mh ^ 2 ≤ (pt.z * (S * pt.y) / (2 * ps.M)) ^ 2 := by
    rw [hpm] at ht; linarith
  obtain ⟨p0, p2, -, -, l2, l0, hV⟩ := real_hadron hM hS hx.le hy hz0 hh
  have emx : (Kinematics.make ps S pt).mx_sq = ps.Mth ^ 2 -
      ZDet ps.M ps.mh ps.Mth (S * pt.y) (S * pt.x * pt.y) pt.z +
      (Kinematics.make ps S pt).lambda_Y_sqrt / ps.M * (Kinematics.make ps S pt).ph_l := by
    have e : (Kinematics.make ps S pt).mx_sq = ps.M * ps.M + (ps.mh * ps.mh - S * pt.x * pt.y -
      2 * (Kinematics.make ps S pt).V_m) + (1 - pt.z) * (S * pt.y) := rfl
    rw [e, hV]
    unfold ZDet
    field_simp
    ring
  set l := (Kinematics.make ps S pt).lambda_Y_sqrt
  set p := (Kinematics.make ps S pt).ph_l
  set mx2 := (Kinematics.make ps S pt).mx_sq
  have hsq : (l / ps.M * p) ^ 2 = ((S * pt.y) ^ 2 + 4 * ps.M ^ 2 * (S * pt.x * pt.y)) / ps.M ^ 2 *
      (PtMax ps.M ps.mh ps.Mth (S * pt.y) (S * pt.x * pt.y) pt.z - pt.ph_t_sq) + d ^ 2 := by
    rw [mul_pow, div_pow, l2, p2, hpm]
    field_simp
    ring
  have hlp : 0 ≤ l / ps.M * p := mul_nonneg (div_nonneg l0.le hM.le) p0
  have hYM : 0 < ((S * pt.y) ^ 2 + 4 * ps.M ^ 2 * (S * pt.x * pt.y)) / ps.M ^ 2 := by positivity
  have hdle : ZDet ps.M ps.mh ps.Mth (S * pt.y) (S * pt.x * pt.y) pt.z ≤ d := le_max_left _ _
  have hmiss : ps.Mth ^ 2 ≤ mx2 := by
    have : d ≤ l / ps.M * p := by
      apply le_of_sq_le_sq _ hlp
      rw [hsq]
      have := mul_nonneg hYM.le (sub_nonneg.2 ht)
      linarith
    linarith
  refine ⟨⟨hS, hx.le, hx1.le, hy, hy1, hz0, hz1, ht0, hb, ?_, hh, hmiss, ?_⟩, fun hlt => ?_⟩
  · have := mul_le_mul_of_nonneg_left hang hSx.le
    nlinarith
  · -- the undetected mass is largest for a hadron at rest in the centre of mass
    have hL : ps.mh ^ 2 ≤ S * pt.y - S * pt.x * pt.y + ps.M ^ 2 := by nlinarith
    have key := masses_le (a := S * pt.y + 2 * ps.M ^ 2) (b := pt.z * (S * pt.y) / (2 * ps.M))
      (m1 := 2 * ps.M * ps.mh) (m2 := ps.mh) (u := l) (u' := p) (v := 0) (v' := 0)
      (by positivity) (by positivity)
      (by rw [l2]; linarith [mul_le_mul_of_nonneg_left hL (sq_nonneg ps.M)])
      (by rw [p2]; linarith)
    have e1 : l / ps.M * p = (l * p) / ps.M := by ring
    have e2 : (S * pt.y + 2 * ps.M ^ 2) * (S * pt.y) / (2 * ps.M ^ 2) * pt.z =
        ((S * pt.y + 2 * ps.M ^ 2) * (pt.z * (S * pt.y) / (2 * ps.M))) / ps.M := by
      field_simp
    have k : (l * p) / ps.M + 2 * ps.mh ^ 2 ≤
        ((S * pt.y + 2 * ps.M ^ 2) * (pt.z * (S * pt.y) / (2 * ps.M))) / ps.M := by
      rw [le_div_iff₀ hM, add_mul, div_mul_cancel₀ _ hM.ne']
      linarith
    have k2 : S * pt.y - S * pt.x * pt.y ≤ S := by nlinarith
    change mx2 ≤ _
    rw [emx, e1]
    unfold ZDet
    rw [e2]
    linarith
  · have : d < l / ps.M * p := by
      by_contra hc
      push Not at hc
      have k := pow_le_pow_left₀ hlp hc 2
      rw [hsq] at k
      have := mul_pos hYM (sub_pos.2 hlt)
      linarith
    linarith

/-- Sampling a bound which is not empty. -/
theorem axis_inside {t : VarMap Fl} {b : Bound} {l u v : ℝ}
    (hs : ∀ y, b.contains y → Fl.fin l ≤ y ∧ y ≤ .fin u)
    (hsam : ∀ lo hi, lo ≤ hi → l ≤ lo → hi ≤ u → ∃ X J, Samples t lo hi X J)
    (hv : b.contains (.fin v)) {p : ℝ} (h0 : 0 ≤ p) (h1 : p ≤ 1) :
    ∃ x j, Axis t b p x j ∧ 0 ≤ j ∧ t.apply (.fin p) b = (.fin x, .fin j) ∧ b.contains (.fin x) ∧
      (∀ v', b.contains (.fin v') → v < v' → 0 < p → p < 1 →
        0 < j ∧ ∃ a c, b.contains (.fin a) ∧ b.contains (.fin c) ∧ a < x ∧ x < c) := by
  obtain ⟨lo, hi, rfl, k1, k2, k3, k4, k5⟩ := finite_ends hv hs
  obtain ⟨X, J, Sm⟩ := hsam lo hi k5 k1 k4
  have hin : lo ≤ X p ∧ X p ≤ hi := by
    have a := Sm.mono 0 p le_rfl h0 h1
    have b := Sm.mono p 1 h0 h1 le_rfl
    rw [Sm.zero] at a
    rw [Sm.one] at b
    exact ⟨a, b⟩
  refine ⟨X p, J p, ⟨lo, hi, X, J, rfl, Sm, rfl, rfl⟩, Sm.jac_nonneg p h0 h1, Sm.eq p h0 h1, hin,
    fun v' hv' hlt hp0 hp1 => ?_⟩
  have k2' : lo ≤ v := k2
  have hv2 : v' ≤ hi := hv'.2
  have hlh : lo < hi := by linarith
  have hmono : StrictMonoOn X (Set.Icc 0 1) := by
    refine strictMonoOn_of_deriv_pos (convex_Icc 0 1) ?_ ?_
    · intro q hq
      exact (Sm.deriv q hq.1 hq.2).continuousAt.continuousWithinAt
    · intro q hq
      rw [interior_Icc] at hq
      rw [(Sm.deriv q hq.1.le hq.2.le).deriv]
      exact Sm.jac_pos hlh q hq.1.le hq.2.le
  refine ⟨Sm.jac_pos hlh p h0 h1, lo, hi, ⟨le_refl lo, k5⟩, ⟨k5, le_refl hi⟩, ?_, ?_⟩
  · rw [← Sm.zero]
    exact hmono ⟨le_rfl, zero_le_one⟩ ⟨h0, h1⟩ hp0
  · rw [← Sm.one]
    exact hmono ⟨h0, h1⟩ ⟨zero_le_one, le_rfl⟩ hp1

end
end Sidis
