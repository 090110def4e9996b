import Verif.Lemmas.CutSample

/-! # Limits of the radiative variables -/

namespace Sidis

open Spec VarMap

/-- A null future-directed vector has a positive product with a time-like future-directed one. -/
theorem null_time_pos {a b c A B C t : ℝ} (h : a ^ 2 = b ^ 2 + c ^ 2) (ha : 0 < a) (hA : 0 < A)
    (hT : B ^ 2 + C ^ 2 < A ^ 2) (ht : t ^ 2 ≤ 1) : 0 < a * A - b * B + c * (C * t) := by
  have h1 : (b * B - c * (C * t)) ^ 2 ≤ a ^ 2 * (B ^ 2 + C ^ 2) := by
    have e : a ^ 2 * (B ^ 2 + C ^ 2) - (b * B - c * (C * t)) ^ 2 =
        (b * (C * t) + c * B) ^ 2 + a ^ 2 * (C ^ 2 * (1 - t ^ 2)) := by rw [h]; ring
    have : 0 ≤ a ^ 2 * (C ^ 2 * (1 - t ^ 2)) := by
      have : 0 ≤ 1 - t ^ 2 := by linarith
      positivity
    nlinarith [sq_nonneg (b * (C * t) + c * B)]
  have h2 : (b * B - c * (C * t)) ^ 2 < (a * A) ^ 2 := by
    have := pow_pos ha 2
    nlinarith
  have := abs_lt_of_sq_lt_sq h2 (by positivity)
  rw [abs_lt] at this
  linarith

theorem fl_between {a : Fl} {l u : ℝ} (h1 : .fin l ≤ a) (h2 : a ≤ .fin u) : ∃ r, a = .fin r := by
  cases a <;> simp at h1 h2
  exact ⟨_, rfl⟩

section
variable {ps : Particles ℝ} {S : ℝ} {pt : PhaseSpace ℝ}

theorem tau_root (k : Kinematics ℝ) {M Q s : ℝ} (hM : 0 < M) (hY : 0 < k.lambda_Y_sqrt)
    (hY2 : k.lambda_Y_sqrt ^ 2 = s ^ 2 + 4 * M ^ 2 * Q) (tau : ℝ) :
    M ^ 2 * ((tau - (s - k.lambda_Y_sqrt) / (2 * M ^ 2)) *
      ((s + k.lambda_Y_sqrt) / (2 * M ^ 2) - tau)) = s * tau + Q - M ^ 2 * tau ^ 2 := by
  field_simp
  linear_combination hY2

theorem tau_range (k : Kinematics ℝ) {M Q s : ℝ} (hM : 0 < M) (hY : 0 < k.lambda_Y_sqrt)
    (hY2 : k.lambda_Y_sqrt ^ 2 = s ^ 2 + 4 * M ^ 2 * Q) (tau : ℝ) :
    ((s - k.lambda_Y_sqrt) / (2 * M ^ 2) ≤ tau ∧ tau ≤ (s + k.lambda_Y_sqrt) / (2 * M ^ 2)) ↔
      M ^ 2 * tau ^ 2 ≤ s * tau + Q := by
  have h := tau_root k hM hY hY2 tau
  have hM2 := pow_pos hM 2
  constructor
  · rintro ⟨h1, h2⟩
    have := mul_nonneg (sub_nonneg.2 h1) (sub_nonneg.2 h2)
    nlinarith
  · intro h3
    have h4 : 0 ≤ (tau - (s - k.lambda_Y_sqrt) / (2 * M ^ 2)) *
      ((s + k.lambda_Y_sqrt) / (2 * M ^ 2) - tau) := by
      by_contra hc
      push Not at hc
      nlinarith
    have h5 : (s - k.lambda_Y_sqrt) / (2 * M ^ 2) < (s + k.lambda_Y_sqrt) / (2 * M ^ 2) := by
      apply div_lt_div_of_pos_right _ (by positivity)
      linarith
    constructor <;> by_contra hc <;> push Not at hc <;> nlinarith

theorem mu_pos (hm : Massive ps) (h : Accepted ps S pt) {tau phi_k R : ℝ}
    (ht : ps.M ^ 2 * tau ^ 2 ≤ S * pt.y * tau + S * pt.x * pt.y) :
    0 < 1 + tau - (KinematicsRad.make (.make ps S pt) tau phi_k R).mu := by
  have hM := hm.M_pos
  have hSx : 0 < S * pt.y := mul_pos h.S_pos h.y_pos
  obtain ⟨l0, l2, -, -, Y2, Y0, eV⟩ :=
    real_hadron hM h.S_pos h.x_nonneg h.y_pos h.z_pos h.hadron
  set k := Kinematics.make ps S pt with hk
  have hr := tau_root k hM Y0 Y2 tau
  set g := (tau - (S * pt.y - k.lambda_Y_sqrt) / (2 * ps.M ^ 2)) *
      ((S * pt.y + k.lambda_Y_sqrt) / (2 * ps.M ^ 2) - tau) with hg
  have g0 : 0 ≤ g := by
    have := pow_pos hM 2
    by_contra hc
    push Not at hc
    nlinarith
  have et : k.ph_t ^ 2 = pt.ph_t_sq := Real.sq_sqrt h.ph_t_sq_nonneg
  have emx : k.mx_sq = ps.M * ps.M + (ps.mh * ps.mh - S * pt.x * pt.y - 2 * k.V_m) +
    (1 - pt.z) * (S * pt.y) := rfl
  have hmx : 0 < k.mx_sq := by
    have := h.missing
    have h2 : 0 < ps.Mth := lt_of_lt_of_le hM hm.Mth_ge
    exact lt_of_lt_of_le (by positivity) this
  have hA : 0 < ps.M + S * pt.y / (2 * ps.M) - pt.z * (S * pt.y) / (2 * ps.M) := by
    have e : ps.M + S * pt.y / (2 * ps.M) - pt.z * (S * pt.y) / (2 * ps.M) =
      ps.M + (1 - pt.z) * (S * pt.y / (2 * ps.M)) := by ring
    rw [e]
    have : 0 ≤ 1 - pt.z := by linarith [h.z_le]
    positivity
  have key := null_time_pos (a := 1 / (2 * ps.M))
    (b := (S * pt.y - 2 * ps.M ^ 2 * tau) / (2 * ps.M * k.lambda_Y_sqrt))
    (c := ps.M * √g / k.lambda_Y_sqrt)
    (A := ps.M + S * pt.y / (2 * ps.M) - pt.z * (S * pt.y) / (2 * ps.M))
    (B := k.lambda_Y_sqrt / (2 * ps.M) - k.ph_l) (C := k.ph_t)
    (t := Real.cos (pt.phi_h - phi_k)) ?_ (by positivity) hA ?_ (Real.cos_sq_le_one _)
  · have e : 1 + tau - (KinematicsRad.make k tau phi_k R).mu =
        1 + tau - (pt.z * (S * pt.y) / (2 * ps.M) / ps.M + 1 / k.lambda_Y_sqrt * (
      (2 * tau * (ps.M * ps.M) - S * pt.y) * k.ph_l / ps.M
      - 2 * ps.M * k.ph_t * Real.cos (pt.phi_h - phi_k) *
        √((tau - (S * pt.y - k.lambda_Y_sqrt) / (2 * (ps.M * ps.M))) *
      ((S * pt.y + k.lambda_Y_sqrt) / (2 * (ps.M * ps.M)) - tau)))) := rfl
    rw [e]
    simp only [← pow_two, ← hg]
    refine lt_of_lt_of_eq (mul_pos two_pos key) ?_
    field_simp
    ring
  · rw [show (ps.M * √g / k.lambda_Y_sqrt) ^ 2 = ps.M ^ 2 * g / k.lambda_Y_sqrt ^ 2 by
      rw [div_pow, mul_pow, Real.sq_sqrt g0], hr]
    field_simp
    linear_combination Y2
  · rw [et]
    have : (ps.M + S * pt.y / (2 * ps.M) - pt.z * (S * pt.y) / (2 * ps.M)) ^ 2 -
      ((k.lambda_Y_sqrt / (2 * ps.M) - k.ph_l) ^ 2 + pt.ph_t_sq) = k.mx_sq := by
      rw [emx, eV]
      have l2' : k.ph_l ^ 2 = (pt.z * (S * pt.y) / (2 * ps.M)) ^ 2 - pt.ph_t_sq - ps.mh ^ 2 := l2
      have e : (k.lambda_Y_sqrt / (2 * ps.M) - k.ph_l) ^ 2 =
        ((S * pt.y) ^ 2 + 4 * ps.M ^ 2 * (S * pt.x * pt.y)) / (4 * ps.M ^ 2) -
          k.lambda_Y_sqrt / ps.M * k.ph_l + ((pt.z * (S * pt.y) / (2 * ps.M)) ^ 2 - pt.ph_t_sq -
          ps.mh ^ 2) := by
        rw [← l2', ← Y2]; field_simp; ring
      rw [e]
      field_simp
      ring
    linarith

/-- The photon takes its share from the missing mass. -/
theorem shift_mx_eq (hm : Massive ps) (h : Accepted ps S pt) (tau phi_k R : ℝ) :
    (KinematicsRad.make (.make ps S pt) tau phi_k R).shift_mx_sq =
      (Kinematics.make ps S pt).mx_sq -
        R * (1 + tau - (KinematicsRad.make (.make ps S pt) tau phi_k R).mu) := by
  have hM := hm.M_pos
  obtain ⟨-, -, -, -, Y2, Y0, -⟩ :=
    real_hadron hM h.S_pos h.x_nonneg h.y_pos h.z_pos h.hadron
  set k := Kinematics.make ps S pt with hk
  have e : (KinematicsRad.make k tau phi_k R).mu =
        pt.z * (S * pt.y) / (2 * ps.M) / ps.M + 1 / k.lambda_Y_sqrt * (
      (2 * tau * (ps.M * ps.M) - S * pt.y) * k.ph_l / ps.M
      - 2 * ps.M * k.ph_t * Real.cos (pt.phi_h - phi_k) *
        √((tau - (S * pt.y - k.lambda_Y_sqrt) / (2 * (ps.M * ps.M))) *
      ((S * pt.y + k.lambda_Y_sqrt) / (2 * (ps.M * ps.M)) - tau))) := rfl
  have e2 : (KinematicsRad.make k tau phi_k R).shift_mx_sq =
      k.mx_sq - R * (1 + tau) + (pt.z * R * (S * pt.y) - 2 * ps.M / k.lambda_Y_sqrt *
        (2 * (ps.M * ps.M) * R * k.ph_t *
        √((tau - (S * pt.y - k.lambda_Y_sqrt) / (2 * (ps.M * ps.M))) *
      ((S * pt.y + k.lambda_Y_sqrt) / (2 * (ps.M * ps.M)) - tau)) * Real.cos (pt.phi_h - phi_k)
        + R * (S * pt.y - 2 * (ps.M * ps.M) * tau) * k.ph_l)) / (2 * (ps.M * ps.M)) := rfl
  rw [e, e2]
  generalize √_ = r
  field_simp
  ring

theorem project_make' (kin : Kinematics Fl) (tau phi_k R : Fl) :
    (KinematicsRad.make kin tau phi_k R).project = kin := rfl

/-- `tau_bound` at an accepted point. -/
theorem tauBound_fin (hm : Massive ps) (h : Accepted ps S pt) :
    Cut.tauBound (.make (finPs ps) (.fin S) (finPt pt)) =
      ⟨.fin ((S * pt.y - (Kinematics.make ps S pt).lambda_Y_sqrt) / (2 * ps.M ^ 2)),
       .fin ((S * pt.y + (Kinematics.make ps S pt).lambda_Y_sqrt) / (2 * ps.M ^ 2))⟩ := by
  have hM := hm.M_pos
  obtain ⟨-, -, -, -, Y2, Y0, -⟩ :=
    real_hadron hM h.S_pos h.x_nonneg h.y_pos h.z_pos h.hadron
  have A := h.agree hm
  have d : 2 * (ps.M * ps.M) ≠ 0 := by positivity
  have hlt : (S * pt.y - (Kinematics.make ps S pt).lambda_Y_sqrt) / (2 * (ps.M * ps.M)) ≤
      (S * pt.y + (Kinematics.make ps S pt).lambda_Y_sqrt) / (2 * (ps.M * ps.M)) := by
    apply div_le_div_of_nonneg_right _ (by positivity)
    linarith
  have e1 : (Kinematics.make ps S pt).M = ps.M := rfl
  have e2 : (Kinematics.make ps S pt).S_x = S * pt.y := rfl
  simp only [Cut.tauBound, A.S_x, A.lambda_Y_sqrt, A.M, e1, e2, sq, fl_two, Fl.mul_fin, Fl.sub_fin,
    Fl.add_fin, Fl.div_fin _ d]
  simp [Bound.mk', Bound.full, Bound.inter, Fl.fmax, Fl.fmin, hlt, pow_two]

/-- `mu` as the limits compute it. -/
theorem muOf_fin (hm : Massive ps) (h : Accepted ps S pt) {tau : ℝ} (phi_k R : ℝ)
    (ht : ps.M ^ 2 * tau ^ 2 ≤ S * pt.y * tau + S * pt.x * pt.y) :
    Cut.muOf (.make (finPs ps) (.fin S) (finPt pt)) (.fin tau) (.fin phi_k)
      (Cut.tauBound (.make (finPs ps) (.fin S) (finPt pt))).min
      (Cut.tauBound (.make (finPs ps) (.fin S) (finPt pt))).max =
      .fin (KinematicsRad.make (.make ps S pt) tau phi_k R).mu := by
  have hM := hm.M_pos
  obtain ⟨-, -, -, -, Y2, Y0, -⟩ :=
    real_hadron hM h.S_pos h.x_nonneg h.y_pos h.z_pos h.hadron
  have A := h.agree hm
  have g0 : 0 ≤ (tau - (S * pt.y - (Kinematics.make ps S pt).lambda_Y_sqrt) / (2 * ps.M ^ 2)) *
      ((S * pt.y + (Kinematics.make ps S pt).lambda_Y_sqrt) / (2 * ps.M ^ 2) - tau) := by
    obtain ⟨h1, h2⟩ := (tau_range _ hM Y0 Y2 tau).2 ht
    exact mul_nonneg (sub_nonneg.2 h1) (sub_nonneg.2 h2)
  rw [tauBound_fin hm h]
  have e1 : (Kinematics.make ps S pt).M = ps.M := rfl
  have e2 : (Kinematics.make ps S pt).S_x = S * pt.y := rfl
  have e3 : (Kinematics.make ps S pt).phi_h = pt.phi_h := rfl
  simp only [Cut.muOf, A.ph_0, A.M, A.lambda_Y_sqrt, A.S_x, A.ph_l, A.ph_t, A.phi_h, e1, e2, e3, sq,
    fl_one, fl_two, Fl.mul_fin, Fl.sub_fin, Fl.add_fin, Fl.div_fin _ hM.ne', Fl.div_fin _ Y0.ne',
    sqrt_fl g0, cos_fl]
  simp only [pow_two]
  rfl

/-- `R_bound` at an accepted point. -/
theorem RBound_fin (hm : Massive ps) (h : Accepted ps S pt) {tau : ℝ} (phi_k R : ℝ)
    (ht : ps.M ^ 2 * tau ^ 2 ≤ S * pt.y * tau + S * pt.x * pt.y) :
    Cut.RBound (.make (finPs ps) (.fin S) (finPt pt)) (.fin tau) (.fin phi_k) =
      ⟨.fin 0, .fin (1 / (1 + tau - (KinematicsRad.make (.make ps S pt) tau phi_k R).mu) *
        ((Kinematics.make ps S pt).mx_sq - ps.Mth ^ 2))⟩ := by
  have A := h.agree hm
  have hp := mu_pos (phi_k := phi_k) (R := R) hm h ht
  have e4 : (Kinematics.make ps S pt).Mth = ps.Mth := rfl
  have h0 : 0 ≤ 1 / (1 + tau - (KinematicsRad.make (.make ps S pt) tau phi_k R).mu) *
        ((Kinematics.make ps S pt).mx_sq - ps.Mth ^ 2) :=
    mul_nonneg (by positivity) (sub_nonneg.2 h.missing)
  simp only [Cut.RBound, muOf_fin hm h phi_k R ht, A.mx_sq, A.Mth, e4, sq, fl_zero, fl_one,
    Fl.mul_fin, Fl.sub_fin, Fl.add_fin, Fl.div_fin _ hp.ne', ← pow_two]
  simp only [Bound.mk', Fl.le_fin, h0, not_true, if_false]

theorem validRad_iff_and (k : KinematicsRad Fl) : Cut.validRad k = true ↔
    Cut.valid k.project = true ∧ (k.tau_min ≤ k.tau ∧ k.tau ≤ k.tau_max) ∧ k.phi_k.isFinite ∧
    (0 ≤ k.R ∧ k.R ≤ (Cut.RBound k.project k.tau k.phi_k).max) := by
  unfold Cut.validRad
  simp only [ite_not_iff, and_true]

theorem R_le_iff (hm : Massive ps) (h : Accepted ps S pt) {tau phi_k R : ℝ}
    (ht : ps.M ^ 2 * tau ^ 2 ≤ S * pt.y * tau + S * pt.x * pt.y) :
    R ≤ 1 / (1 + tau - (KinematicsRad.make (.make ps S pt) tau phi_k R).mu) *
        ((Kinematics.make ps S pt).mx_sq - ps.Mth ^ 2) ↔
    ps.Mth ^ 2 ≤ (KinematicsRad.make (Kinematics.make ps S pt) tau phi_k R).shift_mx_sq := by
  have hp := mu_pos (phi_k := phi_k) (R := R) hm h ht
  rw [shift_mx_eq hm h, one_div_mul_eq_div, le_div_iff₀ hp]
  constructor <;> intro <;> linarith

theorem tau_ends (hm : Massive ps) (h : Accepted ps S pt) (tau phi_k R : Fl) :
    let k := KinematicsRad.make (Kinematics.make (finPs ps) (.fin S) (finPt pt)) tau phi_k R
    k.tau_min = .fin ((S * pt.y - (Kinematics.make ps S pt).lambda_Y_sqrt) / (2 * ps.M ^ 2)) ∧
    k.tau_max = .fin ((S * pt.y + (Kinematics.make ps S pt).lambda_Y_sqrt) / (2 * ps.M ^ 2)) := by
  intro k
  have A := h.agree hm
  have hM := hm.M_pos
  have d : 2 * (ps.M * ps.M) ≠ 0 := by positivity
  have e1 : (Kinematics.make ps S pt).M = ps.M := rfl
  have e2 : (Kinematics.make ps S pt).S_x = S * pt.y := rfl
  constructor <;>
    simp only [k, KinematicsRad.make, A.M, A.lambda_Y_sqrt, A.S_x, e1, e2, sq, fl_two, Fl.mul_fin,
      Fl.sub_fin, Fl.add_fin, Fl.div_fin _ d, pow_two]

/-- What `valid(kin_rad)` decides. -/
theorem validRad_iff (hm : Massive ps) (tau phi_k R : Fl) :
    Cut.validRad (.make (.make (finPs ps) (.fin S) (finPt pt)) tau phi_k R) = true ↔
      ∃ t p r : ℝ, tau = .fin t ∧ phi_k = .fin p ∧ R = .fin r ∧ AcceptedRad ps S pt t p r := by
  have hM := hm.M_pos
  rw [validRad_iff_and]
  constructor
  · rintro ⟨hv, ⟨h1, h2⟩, hp, h3, h4⟩
    rw [project_make'] at hv h4
    have h := (valid_iff hm).1 hv
    obtain ⟨-, -, -, -, Y2, Y0, -⟩ :=
      real_hadron hM h.S_pos h.x_nonneg h.y_pos h.z_pos h.hadron
    obtain ⟨t1, t2⟩ := tau_ends hm h tau phi_k R
    rw [t1] at h1
    rw [t2] at h2
    change _ ≤ tau at h1
    change tau ≤ _ at h2
    change phi_k.isFinite at hp
    change 0 ≤ R at h3
    rw [fl_zero] at h3
    change R ≤ (Cut.RBound _ tau phi_k).max at h4
    obtain ⟨t, rfl⟩ := fl_between h1 h2
    cases phi_k <;> simp at hp
    rename_i p
    rw [Fl.le_fin] at h1 h2
    have ht := (tau_range _ hM Y0 Y2 t).1 ⟨h1, h2⟩
    have key := fun r => RBound_fin hm h p r ht
    rw [key 0] at h4
    obtain ⟨r, rfl⟩ := fl_between h3 h4
    refine ⟨t, p, r, rfl, rfl, rfl, h, ht, h3, ?_⟩
    exact (R_le_iff hm h ht).1 h4
  · rintro ⟨t, p, r, rfl, rfl, rfl, h, ht, hr, hx⟩
    obtain ⟨-, -, -, -, Y2, Y0, -⟩ :=
      real_hadron hM h.S_pos h.x_nonneg h.y_pos h.z_pos h.hadron
    obtain ⟨t1, t2⟩ := tau_ends hm h (.fin t) (.fin p) (.fin r)
    obtain ⟨h1, h2⟩ := (tau_range _ hM Y0 Y2 t).2 ht
    refine ⟨(valid_iff hm).2 h, ⟨?_, ?_⟩, trivial, ?_, ?_⟩
    · rw [t1]; exact h1
    · rw [t2]; exact h2
    · rw [fl_zero]; exact hr
    · change Fl.fin r ≤ (Cut.RBound (.make (finPs ps) (.fin S) (finPt pt)) (.fin t) (.fin p)).max
      rw [RBound_fin hm h p r ht]
      exact (R_le_iff hm h ht).2 hx

theorem Spec.Samplable.y_lt (hm : Massive ps) (h : Accepted ps S pt) (hs : Samplable ps S pt) :
    pt.y < 1 := by
  by_contra hc
  have e : pt.y = 1 := le_antisymm h.y_le (not_lt.1 hc)
  have := hs.angle
  have hM := hm.M_pos
  have h0 := h.x_nonneg
  have h1 := h.S_pos
  rw [e] at this
  have a : 0 ≤ ps.m ^ 2 * ((S * 1) ^ 2 + 4 * ps.M ^ 2 * (S * pt.x * 1)) := by positivity
  have b : 0 ≤ ps.M ^ 2 * (S * pt.x * 1) ^ 2 := by positivity
  nlinarith

theorem photon_maps (hm : Massive ps) (h : Accepted ps S pt) (hs : Samplable ps S pt) :
    let K := Kinematics.make (finPs ps) (.fin S) (finPt pt)
    (∃ c w cr wr : ℝ, Cut.tauMap K = sigmoid2 (.fin c) (.fin w) (.fin cr) (.fin wr) ∧ 0 < w ∧ 0 < wr) ∧
    (∃ w : ℝ, Cut.phiKMap K = sigmoid (.fin 0) (.fin w) ∧ 0 < w) ∧
    (∃ o : ℝ, Cut.RMap K = logarithm (.fin o) ∧ 0 < o) := by
  intro K
  have A : Agree K _ := h.agree hm
  have hM := hm.M_pos
  have hy := hs.y_lt hm h
  have hS := h.S_pos
  have hmp := hs.m_pos
  obtain ⟨l0, l2, -, -, Y2, Y0, -⟩ :=
    real_hadron hM hS h.x_nonneg h.y_pos h.z_pos h.hadron
  set k := Kinematics.make ps S pt with hk
  have hX : 0 < k.X := mul_pos (by linarith) hS
  have eX : k.X = (1 - pt.y) * S := rfl
  have em : k.m = ps.m := rfl
  have ey : k.y = pt.y := rfl
  have eM : k.M = ps.M := rfl
  have eMth : k.Mth = ps.Mth := rfl
  have eSx : k.S_x = S * pt.y := rfl
  have h1 : 0 < k.lambda_1_sqrt := by
    refine Real.sqrt_pos.2 ?_
    change 0 < S * pt.x * pt.y * (S * ((1 - pt.y) * S) - ps.M * ps.M * (S * pt.x * pt.y)) -
      ps.m * ps.m * (S * pt.y * (S * pt.y) + 4 * (ps.M * ps.M) * (S * pt.x * pt.y))
    linarith [hs.angle]
  have hX2 : k.X * k.X ≠ 0 := by positivity
  have h2 : (0 : ℝ) < √2 := by positivity
  refine ⟨⟨k.Q_sq / k.X, √2 * k.lambda_1_sqrt * ps.m / (k.X * k.X), -(1 - pt.y),
    (1 - pt.y) * (1 - pt.y), ?_, by positivity, ?_⟩, ⟨k.lambda_Y_sqrt / k.lambda_1_sqrt / √2 * ps.m,
    ?_, by positivity⟩, ⟨(k.mx_sq - ps.Mth * ps.Mth) / (1 + S * pt.y / (ps.M * ps.M) - k.ph_l / ps.M)
      / 128, ?_, ?_⟩⟩
  · simp only [Cut.tauMap, A.Q_sq, A.X, A.y, A.lambda_1_sqrt, A.m, sq, fl_one, Fl.sub_fin, Fl.neg_fin,
      Fl.mul_fin, Fl.div_fin _ hX.ne', Fl.div_fin _ hX2, em, ey]
  · have : 0 < 1 - pt.y := by linarith
    positivity
  · simp only [Cut.phiKMap, A.lambda_Y_sqrt, A.lambda_1_sqrt, A.m, Fl.div_fin _ h1.ne',
      Fl.div_fin _ h2.ne', Fl.mul_fin, em, fl_zero]
  all_goals
    have hd : 0 < 1 + S * pt.y / (ps.M * ps.M) - k.ph_l / ps.M := by
      have a : k.ph_l ≤ pt.z * (S * pt.y) / (2 * ps.M) := by
        apply le_of_sq_le_sq _ (by have := h.z_pos; have := h.y_pos; positivity)
        have e : k.ph_l ^ 2 = (pt.z * (S * pt.y) / (2 * ps.M)) ^ 2 - pt.ph_t_sq - ps.mh ^ 2 := l2
        rw [e]
        nlinarith [h.ph_t_sq_nonneg, sq_nonneg ps.mh]
      have b : pt.z * (S * pt.y) / (2 * ps.M) / ps.M ≤ S * pt.y / (ps.M * ps.M) := by
        rw [div_div, div_le_div_iff₀ (by positivity) (by positivity)]
        have := h.z_le
        have h3 : 0 < S * pt.y := mul_pos hS h.y_pos
        have h4 : 0 < S * pt.y * (ps.M * ps.M) := by positivity
        nlinarith
      have c : k.ph_l / ps.M ≤ pt.z * (S * pt.y) / (2 * ps.M) / ps.M :=
        div_le_div_of_nonneg_right a hM.le
      linarith
  · have hMM : ps.M * ps.M ≠ 0 := by positivity
    simp only [Cut.RMap, A.mx_sq, A.Mth, A.S_x, A.M, A.ph_l, sq, fl_one, Fl.mul_fin, Fl.sub_fin,
      Fl.add_fin, eM, eMth, eSx, Fl.div_fin _ hM.ne', Fl.div_fin _ hMM, Fl.div_fin _ hd.ne',
      Fl.div_fin _ (show (128 : ℝ) ≠ 0 by norm_num)]
  · have := hs.room
    have : 0 < k.mx_sq - ps.Mth * ps.Mth := by linarith
    positivity

end
end Sidis
