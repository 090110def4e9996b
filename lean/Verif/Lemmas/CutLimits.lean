import Verif.Lemmas.CutFin
import Verif.Props.Bound

/-! # The kinematic limits of accepted points, in exact arithmetic -/

namespace Sidis

open Spec VarMap

/-- A point between the roots of a quadratic. -/
theorem quad_roots {A a c x : ℝ} (hA : 0 < A) (h : A * x ^ 2 - a * x + c ≤ 0) :
    0 ≤ a ^ 2 - 4 * A * c ∧ (a - √(a ^ 2 - 4 * A * c)) / (2 * A) ≤ x ∧
      x ≤ (a + √(a ^ 2 - 4 * A * c)) / (2 * A) := by
  have h1 : (2 * A * x - a) ^ 2 ≤ a ^ 2 - 4 * A * c := by nlinarith
  have h2 := Real.abs_le_sqrt h1
  rw [abs_le] at h2
  refine ⟨(sq_nonneg _).trans h1, ?_, ?_⟩
  · rw [div_le_iff₀ (by positivity)]; linarith
  · rw [le_div_iff₀ (by positivity)]; linarith

/-- The product of two time-like momenta is at least that of their masses. -/
theorem masses_le {a b m1 m2 u u' v v' : ℝ} (ha : 0 ≤ a) (hb : 0 ≤ b)
    (h1 : m1 ^ 2 + u ^ 2 + v ^ 2 ≤ a ^ 2) (h2 : m2 ^ 2 + u' ^ 2 + v' ^ 2 ≤ b ^ 2) :
    m1 * m2 + u * u' + v * v' ≤ a * b := by
  apply le_of_sq_le_sq _ (mul_nonneg ha hb)
  have hc : (m1 * m2 + u * u' + v * v') ^ 2 ≤
      (m1 ^ 2 + u ^ 2 + v ^ 2) * (m2 ^ 2 + u' ^ 2 + v' ^ 2) := by
    nlinarith [sq_nonneg (m1 * u' - u * m2), sq_nonneg (m1 * v' - v * m2),
      sq_nonneg (u * v' - v * u')]
  calc _ ≤ _ := hc
    _ ≤ a ^ 2 * b ^ 2 := mul_le_mul h1 h2 (by positivity) (by positivity)
    _ = _ := by ring

section
variable {ps : Particles ℝ} {S : ℝ} {pt : PhaseSpace ℝ}

/-- The missing mass in terms of the hadron. -/
theorem mx_sq_eq (hm : Massive ps) (h : Accepted ps S pt) :
    (Kinematics.make ps S pt).mx_sq = (1 - pt.x) * (S * pt.y) + ps.M ^ 2 + ps.mh ^ 2 -
      (S * pt.y + 2 * ps.M ^ 2) * (S * pt.y) / (2 * ps.M ^ 2) * pt.z +
      (Kinematics.make ps S pt).lambda_Y_sqrt / ps.M * (Kinematics.make ps S pt).ph_l := by
  obtain ⟨-, -, -, -, -, -, hV⟩ :=
    real_hadron hm.M_pos h.S_pos h.x_nonneg h.y_pos h.z_pos h.hadron
  have hM := hm.M_pos.ne'
  have e : (Kinematics.make ps S pt).mx_sq = ps.M * ps.M + (ps.mh * ps.mh - S * pt.x * pt.y -
    2 * (Kinematics.make ps S pt).V_m) + (1 - pt.z) * (S * pt.y) := rfl
  rw [e, hV]
  field_simp
  ring

/-- `W² ≥ (M_th + m_h)²`. -/
theorem W_sq_ge (hm : Massive ps) (h : Accepted ps S pt) :
    (ps.Mth + ps.mh) ^ 2 ≤ (1 - pt.x) * (S * pt.y) + ps.M ^ 2 := by
  have e := mx_sq_eq hm h
  obtain ⟨hp1, hp2, -, -, hl, hl', -⟩ :=
    real_hadron hm.M_pos h.S_pos h.x_nonneg h.y_pos h.z_pos h.hadron
  have hmiss := h.missing
  have hM := hm.M_pos
  have hS := h.S_pos
  have hy := h.y_pos
  have hz := h.z_pos
  have hMth : 0 ≤ ps.Mth := hM.le.trans hm.Mth_ge
  set l := (Kinematics.make ps S pt).lambda_Y_sqrt
  set p := (Kinematics.make ps S pt).ph_l
  set mx2 := (Kinematics.make ps S pt).mx_sq
  have hmx : 0 ≤ mx2 := (sq_nonneg _).trans hmiss
  set E := ps.M + S * pt.y / (2 * ps.M) with hE
  set P := l / (2 * ps.M) with hP
  set ph0 := pt.z * (S * pt.y) / (2 * ps.M) with hph
  have hL : E ^ 2 - P ^ 2 = (1 - pt.x) * (S * pt.y) + ps.M ^ 2 := by
    rw [hE, hP, div_pow, hl]; field_simp; ring
  have hmxE : mx2 = E ^ 2 - P ^ 2 + ps.mh ^ 2 - 2 * (E * ph0 - P * p) := by
    rw [hL, e, hE, hP, hph]; field_simp; ring
  have hz1 := h.z_le
  have hEe : 0 ≤ E - ph0 := by
    have : E - ph0 = ps.M + (1 - pt.z) * (S * pt.y / (2 * ps.M)) := by rw [hE, hph]; ring
    rw [this]
    have : 0 ≤ (1 - pt.z) * (S * pt.y / (2 * ps.M)) := mul_nonneg (by linarith) (by positivity)
    linarith
  have hph0 : 0 ≤ ph0 := by positivity
  have ht := h.ph_t_sq_nonneg
  have key := masses_le (a := E - ph0) (b := ph0) (m1 := √mx2) (m2 := ps.mh) (u := P - p) (u' := p)
    (v := √pt.ph_t_sq) (v' := -√pt.ph_t_sq) hEe hph0
    (by rw [Real.sq_sqrt hmx, Real.sq_sqrt ht]; nlinarith)
    (by rw [neg_sq, Real.sq_sqrt ht]; nlinarith)
  have hs := Real.mul_self_sqrt ht
  have hge : ps.Mth ≤ √mx2 := Real.le_sqrt_of_sq_le hmiss
  have hs2 := Real.sq_sqrt hmx
  have hmh := hm.mh_pos
  rw [← hL]
  nlinarith [mul_nonneg (sub_nonneg.2 hge) hmh.le]

/-- The threshold `D = (M_th + m_h)² - M²` is positive. -/
theorem D_pos (hm : Massive ps) : 0 < (ps.Mth + ps.mh) ^ 2 - ps.M ^ 2 := by
  have := hm.M_pos; have := hm.mh_pos; have := hm.Mth_ge
  nlinarith

theorem x_lt_one (hm : Massive ps) (h : Accepted ps S pt) : pt.x < 1 := by
  have h1 := W_sq_ge hm h
  have h2 := D_pos hm
  by_contra hc
  have : 1 - pt.x ≤ 0 := by linarith
  nlinarith [mul_pos h.S_pos h.y_pos, mul_nonneg (sub_nonneg.2 (not_lt.1 hc)) (mul_pos h.S_pos h.y_pos).le]

/-- The real-angle condition, divided by `S y`. -/
theorem angle_le (h : Accepted ps S pt) :
    S * pt.y * ((ps.M * pt.x) ^ 2 + S * pt.x + ps.m ^ 2) ≤
      pt.x * (S ^ 2 - 4 * ps.M ^ 2 * ps.m ^ 2) := by
  have h1 := h.lepton
  have hSx := mul_pos h.S_pos h.y_pos
  have h2 : 0 ≤ (S * pt.y) * (pt.x * (S ^ 2 - 4 * ps.M ^ 2 * ps.m ^ 2) -
    S * pt.y * ((ps.M * pt.x) ^ 2 + S * pt.x + ps.m ^ 2)) := by nlinarith
  have := nonneg_of_mul_nonneg_right h2 hSx
  linarith

/-- Limits of `x` when `W² ≥ w`. -/
theorem x_limits (h : Accepted ps S pt) {w : ℝ}
    (hw : w ≤ (1 - pt.x) * (S * pt.y) + ps.M ^ 2) :
    (S ^ 2 - 4 * ps.M ^ 2 * ps.m ^ 2 + ps.M ^ 2 * (w - ps.M ^ 2)) * pt.x ^ 2 -
      (S ^ 2 - 4 * ps.M ^ 2 * ps.m ^ 2 - S * (w - ps.M ^ 2)) * pt.x + ps.m ^ 2 * (w - ps.M ^ 2)
      ≤ 0 := by
  have h1 := angle_le h
  have hx := h.x_nonneg
  have hx1 := h.x_le
  have hS := h.S_pos
  have hG : 0 ≤ (ps.M * pt.x) ^ 2 + S * pt.x + ps.m ^ 2 := by positivity
  nlinarith [mul_le_mul_of_nonneg_left h1 (sub_nonneg.2 hx1), mul_le_mul_of_nonneg_right hw hG]

theorem x_disc (M m S w : ℝ) :
    (S ^ 2 - 4 * M ^ 2 * m ^ 2 - S * (w - M ^ 2)) ^ 2 -
      4 * (S ^ 2 - 4 * M ^ 2 * m ^ 2 + M ^ 2 * (w - M ^ 2)) * (m ^ 2 * (w - M ^ 2)) =
    (S ^ 2 - 4 * M ^ 2 * m ^ 2) * ((S - (w - M ^ 2)) ^ 2 - 4 * m ^ 2 * w) := by ring

/-- `√λ_Y ph_l / M` is at least the determinant of the threshold condition. -/
theorem det_le (hm : Massive ps) (h : Accepted ps S pt) :
    (S * pt.y + 2 * ps.M ^ 2) * (S * pt.y) / (2 * ps.M ^ 2) * pt.z -
      ((1 - pt.x) * (S * pt.y) + ps.M ^ 2) + ps.Mth ^ 2 - ps.mh ^ 2 ≤
    (Kinematics.make ps S pt).lambda_Y_sqrt / ps.M * (Kinematics.make ps S pt).ph_l := by
  have e := mx_sq_eq hm h
  have := h.missing
  linarith

/-- The threshold on the missing mass limits the transverse momentum. -/
theorem pt_limit (hm : Massive ps) (h : Accepted ps S pt)
    (hd : 0 ≤ (S * pt.y + 2 * ps.M ^ 2) * (S * pt.y) / (2 * ps.M ^ 2) * pt.z -
      ((1 - pt.x) * (S * pt.y) + ps.M ^ 2) + ps.Mth ^ 2 - ps.mh ^ 2) :
    ps.M ^ 2 * ((S * pt.y + 2 * ps.M ^ 2) * (S * pt.y) / (2 * ps.M ^ 2) * pt.z -
      ((1 - pt.x) * (S * pt.y) + ps.M ^ 2) + ps.Mth ^ 2 - ps.mh ^ 2) ^ 2 ≤
    ((S * pt.y) ^ 2 + 4 * ps.M ^ 2 * (S * pt.x * pt.y)) *
      ((pt.z * (S * pt.y) / (2 * ps.M)) ^ 2 - ps.mh ^ 2 - pt.ph_t_sq) := by
  have h1 := det_le hm h
  obtain ⟨hp1, hp2, -, -, hl, hl', -⟩ :=
    real_hadron hm.M_pos h.S_pos h.x_nonneg h.y_pos h.z_pos h.hadron
  have h2 := pow_le_pow_left₀ hd h1 2
  have hM := hm.M_pos
  rw [mul_pow, div_pow, hl, hp2] at h2
  have h3 := mul_le_mul_of_nonneg_left h2 (sq_nonneg ps.M)
  refine h3.trans (le_of_eq ?_)
  field_simp
  ring

theorem z_quad (hm : Massive ps) (h : Accepted ps S pt)
    (hd : 0 ≤ (S * pt.y + 2 * ps.M ^ 2) * (S * pt.y) / (2 * ps.M ^ 2) * pt.z -
      ((1 - pt.x) * (S * pt.y) + ps.M ^ 2) + ps.Mth ^ 2 - ps.mh ^ 2) :
    ((1 - pt.x) * (S * pt.y) + ps.M ^ 2) * (S * pt.y * pt.z) ^ 2 -
      (S * pt.y + 2 * ps.M ^ 2) * ((1 - pt.x) * (S * pt.y) + ps.M ^ 2 - ps.Mth ^ 2 + ps.mh ^ 2) *
        (S * pt.y * pt.z) +
      (ps.mh ^ 2 * ((S * pt.y) ^ 2 + 4 * ps.M ^ 2 * (S * pt.x * pt.y)) + ps.M ^ 2 *
        ((1 - pt.x) * (S * pt.y) + ps.M ^ 2 - ps.Mth ^ 2 + ps.mh ^ 2) ^ 2) ≤ 0 := by
  have h1 := pt_limit hm h hd
  have hM := hm.M_pos
  have hlY : 0 ≤ (S * pt.y) ^ 2 + 4 * ps.M ^ 2 * (S * pt.x * pt.y) := by
    have := h.S_pos; have := h.x_nonneg; have := h.y_pos; positivity
  have h2 : ps.M ^ 2 * ((S * pt.y + 2 * ps.M ^ 2) * (S * pt.y) / (2 * ps.M ^ 2) * pt.z -
      ((1 - pt.x) * (S * pt.y) + ps.M ^ 2) + ps.Mth ^ 2 - ps.mh ^ 2) ^ 2 ≤
    ((S * pt.y) ^ 2 + 4 * ps.M ^ 2 * (S * pt.x * pt.y)) *
      ((pt.z * (S * pt.y) / (2 * ps.M)) ^ 2 - ps.mh ^ 2) := by
    have := mul_nonneg hlY h.ph_t_sq_nonneg
    linarith
  have e : ps.M ^ 2 * ((S * pt.y + 2 * ps.M ^ 2) * (S * pt.y) / (2 * ps.M ^ 2) * pt.z -
      ((1 - pt.x) * (S * pt.y) + ps.M ^ 2) + ps.Mth ^ 2 - ps.mh ^ 2) ^ 2 -
      ((S * pt.y) ^ 2 + 4 * ps.M ^ 2 * (S * pt.x * pt.y)) *
      ((pt.z * (S * pt.y) / (2 * ps.M)) ^ 2 - ps.mh ^ 2) =
      ((1 - pt.x) * (S * pt.y) + ps.M ^ 2) * (S * pt.y * pt.z) ^ 2 -
      (S * pt.y + 2 * ps.M ^ 2) * ((1 - pt.x) * (S * pt.y) + ps.M ^ 2 - ps.Mth ^ 2 + ps.mh ^ 2) *
        (S * pt.y * pt.z) +
      (ps.mh ^ 2 * ((S * pt.y) ^ 2 + 4 * ps.M ^ 2 * (S * pt.x * pt.y)) + ps.M ^ 2 *
        ((1 - pt.x) * (S * pt.y) + ps.M ^ 2 - ps.Mth ^ 2 + ps.mh ^ 2) ^ 2) := by
    field_simp
    ring
  linarith

theorem z_disc (M mh Mth Sx L : ℝ) (Q : ℝ) (hL : L = Sx - Q + M ^ 2) :
    ((Sx + 2 * M ^ 2) * (L - Mth ^ 2 + mh ^ 2)) ^ 2 -
      4 * L * (mh ^ 2 * (Sx ^ 2 + 4 * M ^ 2 * Q) + M ^ 2 * (L - Mth ^ 2 + mh ^ 2) ^ 2) =
    (Sx ^ 2 + 4 * M ^ 2 * Q) * (L - (Mth - mh) ^ 2) * (L - (Mth + mh) ^ 2) := by
  subst hL; ring

end
end Sidis
