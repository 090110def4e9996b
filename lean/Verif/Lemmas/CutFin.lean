import Verif.Spec.Cut
import Verif.Lemmas.Map
import Verif.Lemmas.Kinematics

/-! # Kinematics over `Fl` at finite points agree with exact kinematics -/

namespace Sidis

open Spec VarMap

theorem fl_pi : (CMath.pi : Fl) = .fin Real.pi := rfl

section
variable {ps : Particles ℝ} {S : ℝ} {pt : PhaseSpace ℝ}

/-- The part of the hadron and photon kinematics which holds even for `x = 0`. -/
theorem real_hadron (hM : 0 < ps.M) (hS : 0 < S) (hx : 0 ≤ pt.x) (hy : 0 < pt.y) (hz : 0 < pt.z)
    (hh : pt.ph_t_sq + ps.mh ^ 2 ≤ (pt.z * (S * pt.y) / (2 * ps.M)) ^ 2) :
    let K := Kinematics.make ps S pt
    0 ≤ K.ph_l ∧ K.ph_l ^ 2 = (pt.z * (S * pt.y) / (2 * ps.M)) ^ 2 - pt.ph_t_sq - ps.mh ^ 2 ∧
    pt.ph_t_sq / (K.ph_0 * K.ph_0) + ps.mh / K.ph_0 * (ps.mh / K.ph_0) ≤ 1 ∧
    -1 ≤ 4 * (ps.M * ps.M) * (S * pt.x * pt.y) / ((S * pt.y) * (S * pt.y)) -
      (pt.ph_t_sq / (K.ph_0 * K.ph_0) + ps.mh / K.ph_0 * (ps.mh / K.ph_0)) *
      (1 + 4 * (ps.M * ps.M) * (S * pt.x * pt.y) / ((S * pt.y) * (S * pt.y))) ∧
    K.lambda_Y_sqrt ^ 2 = (S * pt.y) ^ 2 + 4 * ps.M ^ 2 * (S * pt.x * pt.y) ∧
    0 < K.lambda_Y_sqrt ∧
    K.V_m = S * pt.y / (2 * ps.M) * (pt.z * (S * pt.y) / (2 * ps.M)) -
      K.lambda_Y_sqrt / (2 * ps.M) * K.ph_l := by
  intro K
  have hSx : 0 < S * pt.y := mul_pos hS hy
  have hQ : 0 ≤ S * pt.x * pt.y := mul_nonneg (mul_nonneg hS.le hx) hy.le
  have hph0 : 0 < pt.z * (S * pt.y) / (2 * ps.M) := by positivity
  have eph0 : K.ph_0 = pt.z * (S * pt.y) / (2 * ps.M) := rfl
  have elY : K.lambda_Y = (S * pt.y) * (S * pt.y) + 4 * (ps.M * ps.M) * (S * pt.x * pt.y) := rfl
  have hlY : 0 < K.lambda_Y := by rw [elY]; positivity
  set r := pt.ph_t_sq / (K.ph_0 * K.ph_0) + ps.mh / K.ph_0 * (ps.mh / K.ph_0) with hr
  have hr1 : r * K.ph_0 ^ 2 = pt.ph_t_sq + ps.mh ^ 2 := by
    rw [hr, eph0]; field_simp
  have hr2 : r ≤ 1 := by
    by_contra hc
    push Not at hc
    rw [← eph0] at hh hph0
    nlinarith [sq_nonneg K.ph_0, pow_pos hph0 2]
  have epl : K.ph_l = K.ph_0 * √(1 - r) := rfl
  have hpl2 : K.ph_l ^ 2 = K.ph_0 ^ 2 - pt.ph_t_sq - ps.mh ^ 2 := by
    rw [epl, mul_pow, Real.sq_sqrt (by linarith)]; linarith
  have e1Y : K.lambda_Y_sqrt = √K.lambda_Y := rfl
  set ρ := 4 * (ps.M * ps.M) * (S * pt.x * pt.y) / ((S * pt.y) * (S * pt.y)) with hρ
  have eVm : K.V_m = -(K.ph_0 * (S * pt.y)) / (2 * ps.M) * sqrt1p1mR (ρ - r * (1 + ρ)) := rfl
  have hρ0 : 0 ≤ ρ := by rw [hρ]; positivity
  have hfac : 1 + (ρ - r * (1 + ρ)) = (1 + ρ) * (1 - r) := by ring
  have hle : -1 ≤ ρ - r * (1 + ρ) := by
    have : 0 ≤ (1 + ρ) * (1 - r) := mul_nonneg (by linarith) (by linarith)
    linarith
  have hVm : K.V_m = S * pt.y / (2 * ps.M) * K.ph_0 - K.lambda_Y_sqrt / (2 * ps.M) * K.ph_l := by
    have hsY : K.lambda_Y_sqrt = S * pt.y * √(1 + ρ) := by
      rw [e1Y, elY, show S * pt.y * (S * pt.y) + 4 * (ps.M * ps.M) * (S * pt.x * pt.y) =
        (S * pt.y) ^ 2 * (1 + ρ) by rw [hρ]; field_simp, Real.sqrt_mul (sq_nonneg _),
        Real.sqrt_sq hSx.le]
    rw [eVm, sqrt1p1mR_eq hle, hfac, Real.sqrt_mul (by linarith), hsY, epl]
    field_simp
    ring
  refine ⟨by rw [epl, eph0]; positivity, hpl2, hr2, hle, ?_, ?_, hVm⟩
  · rw [e1Y, Real.sq_sqrt hlY.le, elY]; ring
  · rw [e1Y]; exact Real.sqrt_pos.2 hlY

end

/-- A floating-point kinematics agrees with an exact one, except for the two members that need not
be finite at a valid point. -/
structure Agree (K : Kinematics Fl) (k : Kinematics ℝ) : Prop where
  target : K.target = k.target
  beam : K.beam = k.beam
  hadron : K.hadron = k.hadron
  S : K.S = .fin k.S
  M : K.M = .fin k.M
  m : K.m = .fin k.m
  mh : K.mh = .fin k.mh
  Mth : K.Mth = .fin k.Mth
  x : K.x = .fin k.x
  y : K.y = .fin k.y
  z : K.z = .fin k.z
  ph_t_sq : K.ph_t_sq = .fin k.ph_t_sq
  phi_h : K.phi_h = .fin k.phi_h
  phi : K.phi = .fin k.phi
  Q_sq : K.Q_sq = .fin k.Q_sq
  Q : K.Q = .fin k.Q
  t : K.t = .fin k.t
  W_sq : K.W_sq = .fin k.W_sq
  X : K.X = .fin k.X
  S_x : K.S_x = .fin k.S_x
  S_p : K.S_p = .fin k.S_p
  V_1 : K.V_1 = .fin k.V_1
  V_2 : K.V_2 = .fin k.V_2
  V_m : K.V_m = .fin k.V_m
  V_p : K.V_p = .fin k.V_p
  lambda_S : K.lambda_S = .fin k.lambda_S
  lambda_X : K.lambda_X = .fin k.lambda_X
  lambda_Y : K.lambda_Y = .fin k.lambda_Y
  lambda_1 : K.lambda_1 = .fin k.lambda_1
  lambda_2 : K.lambda_2 = .fin k.lambda_2
  lambda_3 : K.lambda_3 = .fin k.lambda_3
  lambda_S_sqrt : K.lambda_S_sqrt = .fin k.lambda_S_sqrt
  lambda_X_sqrt : K.lambda_X_sqrt = .fin k.lambda_X_sqrt
  lambda_Y_sqrt : K.lambda_Y_sqrt = .fin k.lambda_Y_sqrt
  lambda_1_sqrt : K.lambda_1_sqrt = .fin k.lambda_1_sqrt
  lambda_2_sqrt : K.lambda_2_sqrt = .fin k.lambda_2_sqrt
  mx_sq : K.mx_sq = .fin k.mx_sq
  mx : K.mx = .fin k.mx
  vol_phi_h : K.vol_phi_h = .fin k.vol_phi_h
  ph_0 : K.ph_0 = .fin k.ph_0
  ph_t : K.ph_t = .fin k.ph_t
  ph_l : K.ph_l = .fin k.ph_l
  cos_phi_h : K.cos_phi_h = .fin k.cos_phi_h
  sin_phi_h : K.sin_phi_h = .fin k.sin_phi_h
  q_0 : K.q_0 = .fin k.q_0
  q_t : K.q_t = .fin k.q_t
  q_l : K.q_l = .fin k.q_l
  phi_q : K.phi_q = .fin k.phi_q
  cos_phi_q : K.cos_phi_q = .fin k.cos_phi_q
  sin_phi_q : K.sin_phi_q = .fin k.sin_phi_q
  k2_0 : K.k2_0 = .fin k.k2_0
  k2_t : K.k2_t = .fin k.k2_t
  k2_l : K.k2_l = .fin k.k2_l
  k1_t : K.k1_t = .fin k.k1_t
  cos_phi : K.cos_phi = .fin k.cos_phi
  sin_phi : K.sin_phi = .fin k.sin_phi

section
variable {ps : Particles ℝ} {S : ℝ} {pt : PhaseSpace ℝ}

theorem sqrt_fl {a : ℝ} (h : 0 ≤ a) : CMath.sqrt (Fl.fin a) = .fin (√a) := Fl.sqrt_fin h

theorem s1_fl {a : ℝ} (h : -1 ≤ a) : CMath.sqrt1p_1m (Fl.fin a) = .fin (sqrt1p1mR a) :=
  if_neg (not_lt.2 h)
theorem cos_fl (a : ℝ) : CMath.cos (Fl.fin a) = .fin (CMath.cos a) := rfl
theorem sin_fl (a : ℝ) : CMath.sin (Fl.fin a) = .fin (CMath.sin a) := rfl

theorem make_agree (hM : 0 < ps.M) (hS : 0 < S) (hx : 0 ≤ pt.x) (hy : 0 < pt.y) (hz : 0 < pt.z)
    (ht : 0 ≤ pt.ph_t_sq)
    (hlS : 0 < S * S - 4 * (ps.M * ps.M) * (ps.m * ps.m))
    (hlX : 0 ≤ (1 - pt.y) * S * ((1 - pt.y) * S) - 4 * (ps.M * ps.M) * (ps.m * ps.m))
    (hl1 : 0 ≤ S * pt.x * pt.y * (S * ((1 - pt.y) * S) - ps.M * ps.M * (S * pt.x * pt.y)) -
      ps.m * ps.m * (S * pt.y * (S * pt.y) + 4 * (ps.M * ps.M) * (S * pt.x * pt.y)))
    (hh : pt.ph_t_sq + ps.mh ^ 2 ≤ (pt.z * (S * pt.y) / (2 * ps.M)) ^ 2)
    (hmx : 0 ≤ (Kinematics.make ps S pt).mx_sq) :
    Agree (.make (finPs ps) (.fin S) (finPt pt)) (.make ps S pt) := by
  obtain ⟨-, -, h1, h2, -, -, -⟩ := real_hadron hM hS hx hy hz hh
  have hSx : 0 < S * pt.y := mul_pos hS hy
  have hQ : 0 ≤ S * pt.x * pt.y := mul_nonneg (mul_nonneg hS.le hx) hy.le
  have hp : 0 < pt.z * (S * pt.y) / (2 * ps.M) := by positivity
  have hlY : 0 < S * pt.y * (S * pt.y) + 4 * (ps.M * ps.M) * (S * pt.x * pt.y) := by positivity
  have hYs := Real.sqrt_pos.2 hlY
  have hSs := Real.sqrt_pos.2 hlS
  have h1' : 0 ≤ 1 - (pt.ph_t_sq / ((Kinematics.make ps S pt).ph_0 *
      (Kinematics.make ps S pt).ph_0) + ps.mh / (Kinematics.make ps S pt).ph_0 *
      (ps.mh / (Kinematics.make ps S pt).ph_0)) := by linarith
  have e1 : (CMath.sqrt : ℝ → ℝ) = Real.sqrt := rfl
  have e2 : (CMath.sqrt1p_1m : ℝ → ℝ) = sqrt1p1mR := rfl
  have d1 : 2 * ps.M ≠ 0 := by positivity
  have d2 : pt.z * (S * pt.y) / (2 * ps.M) ≠ 0 := hp.ne'
  have d3 := hSs.ne'
  have d4 := hYs.ne'
  have d5 := hSx.ne'
  have d6 := hM.ne'
  simp only [Kinematics.make, sq, e1, e2] at h1' h2 hmx
  have hlam2 : ∀ a : ℝ, 0 ≤ a * a + ps.mh * ps.mh * (S * pt.x * pt.y) := fun a =>
    add_nonneg (mul_self_nonneg _) (mul_nonneg (mul_self_nonneg _) hQ)
  constructor
  case phi_q =>
    have hp2 : (2 : ℝ) * Real.pi ≠ 0 := by positivity
    have ef : (CMath.fmod : Fl → Fl → Fl) = Fl.fmod := rfl
    have er : (CMath.fmod : ℝ → ℝ → ℝ) = fmodR := rfl
    have ep : (CMath.pi : ℝ) = Real.pi := rfl
    simp only [Kinematics.make, finPt, wrapPhiQ, fl_pi, fl_two, Fl.mul_fin, Fl.sub_fin, ef, er, ep,
      Fl.fmod, if_neg hp2, Fl.lt_fin, Fl.neg_fin, Fl.add_fin]
    split_ifs <;> rfl
  all_goals first
    | rfl
    | (simp only [Kinematics.make, finPs, finPt, sq, e1, e2, fl_one, fl_two, fl_four,
        Fl.mul_fin, Fl.add_fin, Fl.sub_fin, Fl.neg_fin,
        Fl.div_fin _ d1, Fl.div_fin _ d2, Fl.div_fin _ d3, Fl.div_fin _ d4, Fl.div_fin _ d6,
        Fl.div_fin _ (mul_ne_zero d2 d2), Fl.div_fin _ (mul_ne_zero d1 d3),
        Fl.div_fin _ (mul_ne_zero d6 d4), Fl.div_fin _ (mul_ne_zero d5 d5),
        Fl.div_fin _ (two_ne_zero (α := ℝ)),
        sqrt_fl hQ, sqrt_fl hlS.le, sqrt_fl hlX, sqrt_fl hlY.le, sqrt_fl hl1, sqrt_fl ht,
        sqrt_fl h1', s1_fl h2, sqrt_fl hmx, cos_fl, sin_fl, sqrt_fl (hlam2 _)] <;> done)

theorem mx_sq_agree (hM : 0 < ps.M) (hS : 0 < S) (hx : 0 ≤ pt.x) (hy : 0 < pt.y) (hz : 0 < pt.z)
    (hh : pt.ph_t_sq + ps.mh ^ 2 ≤ (pt.z * (S * pt.y) / (2 * ps.M)) ^ 2) :
    (Kinematics.make (finPs ps) (.fin S) (finPt pt)).mx_sq = .fin (Kinematics.make ps S pt).mx_sq := by
  obtain ⟨-, -, h1, h2, -, -, -⟩ := real_hadron hM hS hx hy hz hh
  have hSx : 0 < S * pt.y := mul_pos hS hy
  have hp : 0 < pt.z * (S * pt.y) / (2 * ps.M) := by positivity
  have e2 : (CMath.sqrt1p_1m : ℝ → ℝ) = sqrt1p1mR := rfl
  have d1 : 2 * ps.M ≠ 0 := by positivity
  have d2 : pt.z * (S * pt.y) / (2 * ps.M) ≠ 0 := hp.ne'
  have d5 := hSx.ne'
  simp only [Kinematics.make, sq, e2] at h2
  simp only [Kinematics.make, finPs, finPt, sq, e2, fl_one, fl_two, fl_four,
    Fl.mul_fin, Fl.add_fin, Fl.sub_fin, Fl.neg_fin, Fl.div_fin _ d1, Fl.div_fin _ d2,
    Fl.div_fin _ (mul_ne_zero d2 d2), Fl.div_fin _ (mul_ne_zero d5 d5), s1_fl h2]

theorem lambda_X_nonneg {M m S y Q : ℝ} (hl : 0 < S * S - 4 * (M * M) * (m * m))
    (h1 : 0 ≤ Q * (S * ((1 - y) * S) - M * M * Q) -
      m * m * (S * y * (S * y) + 4 * (M * M) * Q)) :
    0 ≤ (1 - y) * S * ((1 - y) * S) - 4 * (M * M) * (m * m) := by
  have : 0 ≤ (S * S - 4 * (M * M) * (m * m)) *
      ((1 - y) * S * ((1 - y) * S) - 4 * (M * M) * (m * m)) := by
    have e : (S * S - 4 * (M * M) * (m * m)) *
      ((1 - y) * S * ((1 - y) * S) - 4 * (M * M) * (m * m)) =
      (S * ((1 - y) * S) - 2 * M ^ 2 * Q - 4 * M ^ 2 * m ^ 2) ^ 2 + 4 * M ^ 2 *
      (Q * (S * ((1 - y) * S) - M * M * Q) - m * m * (S * y * (S * y) + 4 * (M * M) * Q)) := by
      ring
    rw [e]
    exact add_nonneg (sq_nonneg _) (mul_nonneg (by positivity) h1)
  exact nonneg_of_mul_nonneg_right this hl

theorem Spec.Accepted.agree (hm : Massive ps) (h : Accepted ps S pt) :
    Agree (.make (finPs ps) (.fin S) (finPt pt)) (.make ps S pt) := by
  have hl : 0 < S * S - 4 * (ps.M * ps.M) * (ps.m * ps.m) := by linarith [h.beam]
  have h1 : 0 ≤ S * pt.x * pt.y * (S * ((1 - pt.y) * S) - ps.M * ps.M * (S * pt.x * pt.y)) -
      ps.m * ps.m * (S * pt.y * (S * pt.y) + 4 * (ps.M * ps.M) * (S * pt.x * pt.y)) := by
    linarith [h.lepton]
  exact make_agree hm.M_pos h.S_pos h.x_nonneg h.y_pos h.z_pos h.ph_t_sq_nonneg hl
    (lambda_X_nonneg hl h1) h1 h.hadron (le_trans (sq_nonneg _) h.missing)

theorem ite_not_iff {p : Prop} [Decidable p] {b : Bool} :
    (if ¬ p then false else b) = true ↔ p ∧ b = true := by
  by_cases h : p <;> simp [h]

theorem ite_cut_iff {p q : Prop} [Decidable (p ∧ ¬ q)] {b : Bool} :
    (if p ∧ ¬ q then false else b) = true ↔ (p → q) ∧ b = true := by
  by_cases h : p <;> by_cases h' : q <;> simp [h, h']

theorem valid_iff_and (k : Kinematics Fl) : Cut.valid k = true ↔
    0 < k.S ∧ (0 ≤ k.x ∧ k.x ≤ 1) ∧ (0 ≤ k.y ∧ k.y ≤ 1) ∧ (0 ≤ k.z ∧ k.z ≤ 1) ∧ 0 ≤ k.ph_t_sq ∧
    k.phi_h.isFinite ∧ k.phi.isFinite ∧ k.Mth ≤ k.mx ∧ k.mx_sq ≤ k.S + sq k.M - sq k.mh ∧
    0 ≤ k.q_t ∧ k.q_l.isFinite ∧ 0 ≤ k.ph_t ∧ k.ph_l.isFinite ∧ k.mh ≤ k.ph_0 := by
  unfold Cut.valid
  simp only [ite_not_iff, and_true]

theorem valid_iff (hm : Massive ps) :
    Cut.valid (.make (finPs ps) (.fin S) (finPt pt)) = true ↔ Accepted ps S pt := by
  rw [valid_iff_and]
  have hM := hm.M_pos
  have d1 : 2 * ps.M ≠ 0 := by positivity
  constructor
  · rintro ⟨hS, ⟨hx, hx1⟩, ⟨hy, hy1⟩, ⟨hz, hz1⟩, ht, -, -, hmx, hmx2, hqt, hql, -, hpl, hp0⟩
    change (0 : ℝ) < S at hS
    change (0 : ℝ) ≤ pt.x at hx
    change pt.x ≤ (1 : ℝ) at hx1
    change (0 : ℝ) ≤ pt.y at hy
    change pt.y ≤ (1 : ℝ) at hy1
    change (0 : ℝ) ≤ pt.z at hz
    change pt.z ≤ (1 : ℝ) at hz1
    change (0 : ℝ) ≤ pt.ph_t_sq at ht
    have e0 : (Kinematics.make (finPs ps) (.fin S) (finPt pt)).ph_0 =
        .fin (pt.z * (S * pt.y) / (2 * ps.M)) := by
      simp only [Kinematics.make, finPs, finPt, fl_two, Fl.mul_fin, Fl.div_fin _ d1]
    rw [e0] at hp0
    change ps.mh ≤ _ at hp0
    have hp : 0 < pt.z * (S * pt.y) / (2 * ps.M) := lt_of_lt_of_le hm.mh_pos hp0
    have hyp : 0 < pt.y := by
      rcases hy.lt_or_eq with h | h
      · exact h
      · rw [← h] at hp; simp at hp
    have hzp : 0 < pt.z := by
      rcases hz.lt_or_eq with h | h
      · exact h
      · rw [← h] at hp; simp at hp
    have d2 := hp.ne'
    have hh : pt.ph_t_sq + ps.mh ^ 2 ≤ (pt.z * (S * pt.y) / (2 * ps.M)) ^ 2 := by
      by_contra hc
      push Not at hc
      have : 1 - (pt.ph_t_sq / (pt.z * (S * pt.y) / (2 * ps.M) *
        (pt.z * (S * pt.y) / (2 * ps.M))) + ps.mh / (pt.z * (S * pt.y) / (2 * ps.M)) *
        (ps.mh / (pt.z * (S * pt.y) / (2 * ps.M)))) < 0 := by
        have e : pt.ph_t_sq / (pt.z * (S * pt.y) / (2 * ps.M) *
          (pt.z * (S * pt.y) / (2 * ps.M))) + ps.mh / (pt.z * (S * pt.y) / (2 * ps.M)) *
          (ps.mh / (pt.z * (S * pt.y) / (2 * ps.M))) =
          (pt.ph_t_sq + ps.mh ^ 2) / (pt.z * (S * pt.y) / (2 * ps.M)) ^ 2 := by
          field_simp
        rw [e, sub_neg, lt_div_iff₀ (by positivity)]
        linarith
      simp only [Kinematics.make, finPs, finPt, sq, fl_one, fl_two, Fl.mul_fin, Fl.add_fin,
        Fl.sub_fin, Fl.div_fin _ d1, Fl.div_fin _ d2, Fl.div_fin _ (mul_ne_zero d2 d2)] at hpl
      have es := Fl.sqrt_fin_neg this
      change (_ * Fl.sqrt _ : Fl).isFinite at hpl
      rw [es] at hpl
      simp at hpl
    have hl : 0 < S * S - 4 * (ps.M * ps.M) * (ps.m * ps.m) := by
      by_contra hc
      simp only [Kinematics.make, finPs, finPt, sq, fl_two, fl_four, Fl.mul_fin, Fl.add_fin,
        Fl.sub_fin] at hql
      change (_ / (_ * Fl.sqrt _) : Fl).isFinite at hql
      rcases lt_or_eq_of_le (not_lt.1 hc) with h | h
      · rw [Fl.sqrt_fin_neg h] at hql
        simp at hql
      · rw [h, Fl.sqrt_fin le_rfl, Real.sqrt_zero, Fl.mul_fin, mul_zero, Fl.div_fin_zero,
          Fl.infTimes_pos (by positivity)] at hql
        simp at hql
    have hl1 : 0 ≤ S * pt.x * pt.y * (S * ((1 - pt.y) * S) - ps.M * ps.M * (S * pt.x * pt.y)) -
        ps.m * ps.m * (S * pt.y * (S * pt.y) + 4 * (ps.M * ps.M) * (S * pt.x * pt.y)) := by
      by_contra hc
      push Not at hc
      simp only [Kinematics.make, finPs, finPt, sq, fl_one, fl_two, fl_four, Fl.mul_fin, Fl.add_fin,
        Fl.sub_fin] at hqt
      change 0 ≤ (Fl.sqrt _ / Fl.sqrt _ : Fl) at hqt
      rw [Fl.sqrt_fin_neg hc] at hqt
      simp at hqt
    have emx := mx_sq_agree hM hS hx hyp hzp hh
    have hmiss : ps.Mth ^ 2 ≤ (Kinematics.make ps S pt).mx_sq := by
      change Fl.fin ps.Mth ≤ Fl.sqrt (Kinematics.make (finPs ps) (.fin S) (finPt pt)).mx_sq at hmx
      rw [emx] at hmx
      by_cases hn : 0 ≤ (Kinematics.make ps S pt).mx_sq
      · rw [Fl.sqrt_fin hn] at hmx
        change ps.Mth ≤ _ at hmx
        exact (Real.le_sqrt (hM.le.trans hm.Mth_ge) hn).1 hmx
      · rw [Fl.sqrt_fin_neg (not_le.1 hn)] at hmx
        simp at hmx
    rw [emx] at hmx2
    change _ ≤ S + ps.M * ps.M + -(ps.mh * ps.mh) at hmx2
    exact ⟨hS, hx, hx1, hyp, hy1, hzp, hz1, ht, by linarith, by linarith, hh, hmiss, by linarith⟩
  · intro h
    have hA := h.agree hm
    have hl : 0 < S * S - 4 * (ps.M * ps.M) * (ps.m * ps.m) := by linarith [h.beam]
    have hSs := Real.sqrt_pos.2 hl
    obtain ⟨hp1, hp2, -, -, -, -, -⟩ :=
      real_hadron hM h.S_pos h.x_nonneg h.y_pos h.z_pos h.hadron
    have hp : 0 < pt.z * (S * pt.y) / (2 * ps.M) := by
      have := h.z_pos; have := h.y_pos; have := h.S_pos; positivity
    refine ⟨h.S_pos, ⟨h.x_nonneg, h.x_le⟩, ⟨h.y_pos.le, h.y_le⟩, ⟨h.z_pos.le, h.z_le⟩,
      h.ph_t_sq_nonneg, trivial, trivial, ?_, ?_, ?_, ?_, ?_, ?_, ?_⟩
    · rw [hA.mx]
      exact Real.le_sqrt_of_sq_le h.missing
    · rw [hA.mx_sq]
      change _ ≤ S + ps.M * ps.M + -(ps.mh * ps.mh)
      linarith [h.missing_le]
    · rw [hA.q_t]
      exact div_nonneg (Real.sqrt_nonneg _) (Real.sqrt_nonneg _)
    · rw [hA.q_l]; trivial
    · rw [hA.ph_t]; exact Real.sqrt_nonneg _
    · rw [hA.ph_l]; trivial
    · rw [hA.ph_0]
      change ps.mh ≤ pt.z * (S * pt.y) / (2 * ps.M)
      nlinarith [h.hadron, h.ph_t_sq_nonneg, hm.mh_pos]

end
end Sidis
