import Verif.Lemmas.CutSample
import Verif.Props.KinRad

/-! # Properties of cuts, kinematic limits and phase-space sampling (C23-C26, C66-C68) -/

namespace Sidis.Props

open Spec VarMap

/-! ## C23: what a cut means -/

/-- C23: a point is accepted under cuts exactly when it is kinematically valid and inside every
valid cut. -/
theorem c23_cut (cut : Cut) (kin : Kinematics Fl) :
    Cut.validCut cut kin = true ↔ Cut.valid kin = true ∧ Satisfies (cutTable cut kin) := by
  unfold Cut.validCut
  simp only [ite_not_iff, ite_cut_iff, and_true, Satisfies, cutTable, List.forall_mem_cons,
    List.not_mem_nil, false_implies, implies_true]

/-- C23: the radiative cuts. -/
theorem c23_cut_rad (cut : CutRad) (kin : KinematicsRad Fl) :
    Cut.validCutRad cut kin = true ↔
      Cut.validRad kin = true ∧ Satisfies (cutRadTable cut kin) := by
  unfold Cut.validCutRad
  simp only [ite_not_iff, ite_cut_iff, and_true, Satisfies, cutRadTable, List.forall_mem_cons,
    List.not_mem_nil, false_implies, implies_true]

/-- C23: both kinds of cuts together. -/
theorem c23_cuts (cut : Cut) (cut_rad : CutRad) (kin : KinematicsRad Fl) :
    Cut.validCuts cut cut_rad kin = true ↔
      Cut.validCut cut kin.project = true ∧ Cut.validCutRad cut_rad kin = true := by
  unfold Cut.validCuts
  simp only [ite_not_iff, and_true]

theorem satisfies_narrow {bs' bs : List Bound} (h : List.Forall₂ Narrower bs' bs) (qs : List Fl)
    (hs : Satisfies (bs'.zip qs)) : Satisfies (bs.zip qs) := by
  induction h generalizing qs with
  | nil => simp [Satisfies]
  | cons hab _ ih =>
    cases qs with
    | nil => simp [Satisfies]
    | cons q qs =>
      simp only [Satisfies, List.zip_cons_cons, List.forall_mem_cons] at hs ⊢
      refine ⟨fun hv => ?_, ih qs hs.2⟩
      obtain ⟨h1, h2⟩ := hab hv
      exact h2 _ (hs.1 h1)

/-- C23: adding or narrowing cuts never turns a rejected point into an accepted one. -/
theorem c23_narrow {cut' cut : Cut} (h : List.Forall₂ Narrower (cutBounds cut') (cutBounds cut))
    (kin : Kinematics Fl) (hv : Cut.validCut cut' kin = true) : Cut.validCut cut kin = true := by
  rw [c23_cut] at hv ⊢
  refine ⟨hv.1, ?_⟩
  have := satisfies_narrow h ((cutTable cut kin).map Prod.snd)
  exact this hv.2

/-- C23: the same for radiative cuts. -/
theorem c23_narrow_rad {cut' cut : CutRad}
    (h : List.Forall₂ Narrower (cutRadBounds cut') (cutRadBounds cut))
    (kin : KinematicsRad Fl) (hv : Cut.validCutRad cut' kin = true) :
    Cut.validCutRad cut kin = true := by
  rw [c23_cut_rad] at hv ⊢
  refine ⟨hv.1, ?_⟩
  have := satisfies_narrow h ((cutRadTable cut kin).map Prod.snd)
  exact this hv.2

/-- An invalid cut is narrowed by any cut; a valid one by a sub-interval. -/
example : Narrower ⟨.fin 2, .fin 3⟩ .invalid ∧ Narrower ⟨.fin 2, .fin 3⟩ ⟨.fin 1, .pinf⟩ ∧
    ¬ Narrower .invalid ⟨.fin 1, .pinf⟩ := by
  refine ⟨fun h => absurd h ?_, fun _ => ⟨?_, ?_⟩, fun h => ?_⟩
  · simp [Bound.valid, Bound.invalid]
  · change (2 : ℝ) ≤ 3; norm_num
  · rintro x ⟨h1, h2⟩
    cases x <;> simp_all [Bound.contains]
    linarith
  · have := (h trivial).1
    simp [Bound.valid, Bound.invalid] at this

section
variable {ps : Particles ℝ} {S : ℝ} {pt : PhaseSpace ℝ}

theorem Massive.of_make {target : Nucleus} {beam : Lepton} {hadron : Hadron} {Mth : ℝ}
    (h : Particles.make target beam hadron Mth = some ps) : Massive ps := by
  obtain ⟨-, -, -, -, -, -, -, h1, -, h2, h3, h4⟩ := c15_fields h
  exact ⟨h2, h3, h4, h1⟩

/-- C66: for finite input `valid` decides membership in the phase space of the process. -/
theorem c66_valid (hm : Massive ps) :
    Cut.valid (.make (finPs ps) (.fin S) (finPt pt)) = true ↔ Accepted ps S pt := valid_iff hm

theorem accepted_physical (hm : Massive ps) (h : Accepted ps S pt) (hx : 0 < pt.x) :
    Physical ps S pt := by
  refine ⟨hm.M_pos, hm.m_nonneg, ?_, hx, h.y_pos, h.z_pos, h.ph_t_sq_nonneg, h.lepton, h.hadron⟩
  have := h.beam
  have := h.S_pos
  have := mul_nonneg hm.M_pos.le hm.m_nonneg
  nlinarith

/-- C66: an accepted point with `x > 0` is physical, and the floating-point kinematics computed
there are the exact ones. -/
theorem c66_accepted (hm : Massive ps) (h : Accepted ps S pt) (hx : 0 < pt.x) :
    Physical ps S pt ∧ Agree (.make (finPs ps) (.fin S) (finPt pt)) (.make ps S pt) ∧
    ps.Mth ≤ (Kinematics.make ps S pt).mx ∧
    (ps.Mth + ps.mh) ^ 2 ≤ (Kinematics.make ps S pt).W_sq := by
  refine ⟨accepted_physical hm h hx, h.agree hm, Real.le_sqrt_of_sq_le h.missing, ?_⟩
  have := W_sq_ge hm h
  change _ ≤ ps.M * ps.M + S * pt.y - S * pt.x * pt.y
  linarith

/-- C66: a massive lepton is never accepted with `x = 0`. -/
theorem c66_x_pos (hm : Massive ps) (h : Accepted ps S pt) (hl : 0 < ps.m) : 0 < pt.x := by
  rcases h.x_nonneg.lt_or_eq with h' | h'
  · exact h'
  · have := h.lepton
    rw [← h'] at this
    have := h.y_pos
    have := h.S_pos
    have : 0 < ps.m ^ 2 * (S * pt.y) ^ 2 := by positivity
    simp at *
    linarith

theorem sqrt_length {l M : ℝ} (hM : 0 < M) {v : Vec3} (h : l = 4 * M ^ 2 * eucl v v) :
    √l = 2 * M * length v := by
  rw [h, ← length_sq, show 4 * M ^ 2 * length v ^ 2 = (2 * M * length v) ^ 2 by ring]
  exact Real.sqrt_sq (mul_nonneg (by positivity) (Real.sqrt_nonneg _))

theorem acos_fl {a b : ℝ} (h1 : -1 ≤ a) (h2 : a ≤ 1) (h : b = Real.arccos a) :
    CMap.acos (Fl.fin a) = .fin b := by
  rw [h]
  change (if a < -1 ∨ 1 < a then Fl.nan else .fin (Real.arccos a)) = _
  rw [if_neg]
  rintro (h | h) <;> linarith

theorem cos_range (a b : Vec3) : -1 ≤ eucl a b / (length a * length b) ∧
    eucl a b / (length a * length b) ≤ 1 := by
  have h : eucl a b ^ 2 ≤ (length a * length b) ^ 2 := by
    have := cross_sq a b
    have h2 : 0 ≤ eucl (a.cross b) (a.cross b) := by unfold eucl; nlinarith [mul_self_nonneg (a.cross b).x, mul_self_nonneg (a.cross b).y, mul_self_nonneg (a.cross b).z]
    rw [mul_pow, length_sq, length_sq]
    linarith
  have h0 : 0 ≤ length a * length b := mul_nonneg (Real.sqrt_nonneg _) (Real.sqrt_nonneg _)
  have := abs_le_of_sq_le_sq h h0
  rcases h0.lt_or_eq with h | h
  · rw [le_div_iff₀ h, div_le_one h]
    exact ⟨by linarith [abs_le.1 this], (abs_le.1 this).2⟩
  · rw [← h]; norm_num

theorem acos_angle {M c num den : ℝ} (hM : 0 < M) {a b : Vec3} (hl : 0 < length a * length b)
    (hn : num = 4 * M ^ 2 * eucl a b) (hd : den = 4 * M ^ 2 * (length a * length b))
    (hc : c = num / den) : CMap.acos (Fl.fin c) = .fin (angle a b) := by
  have e : c = eucl a b / (length a * length b) := by
    rw [hc, hn, hd]
    field_simp
  obtain ⟨h1, h2⟩ := cos_range a b
  rw [← e] at h1 h2
  exact acos_fl h1 h2 (by rw [angle, e])

/-- C23: the quantities of the additional cuts at an accepted point are the documented lab-frame
momenta and angles with the beam, and the ratio of the transverse momenta. -/
theorem c23_quantities (hm : Massive ps) (h : Accepted ps S pt) (hx : 0 < pt.x) :
    let K := Kinematics.make (finPs ps) (.fin S) (finPt pt)
    let k := Kinematics.make ps S pt
    let k1 := (momK1 k).r
    let k2 := (momK2 k).r
    let q := (momQ k).r
    let ph := (momH k).r
    Cut.qtToQ K = .fin (√pt.ph_t_sq / √k.Q_sq / pt.z) ∧
    Cut.labMomQ K = .fin (length q) ∧ Cut.labMomK2 K = .fin (length k2) ∧
    Cut.labMomH K = .fin (length ph) ∧
    Cut.labThetaQ K = .fin (angle k1 q) ∧
    (0 < length k2 → Cut.labThetaK2 K = .fin (angle k1 k2)) ∧
    (0 < length ph → Cut.labThetaH K = .fin (angle k1 ph)) := by
  intro K k k1 k2 q ph
  have hp := accepted_physical hm h hx
  have A := h.agree hm
  have hk : KinRel k := kinRel_of_physical hp
  have hM := hk.M_pos
  have hM' := hM.ne'
  have d1 : 2 * k.M ≠ 0 := by positivity
  obtain ⟨l1, l2, l3, -, -, -, l7, l8, l9, -⟩ := c16_lambda hp
  obtain ⟨i1, i2, i3, -, i4, -⟩ := c16_invariants hp
  obtain ⟨-, o2, o3, o4, o5⟩ := c16_on_shell hp
  have ec : momQ k = momK1 k - momK2 k := c16_conservation hp
  have n1 := sqrt_length hM l1
  have n2 := sqrt_length hM l2
  have n3 := sqrt_length hM l3
  rw [← l7] at n1
  rw [← l8] at n2
  rw [← l9] at n3
  have p1 : 0 < length k1 := by
    have := hk.lS_pos; rw [n1] at this
    exact pos_of_mul_pos_right this (by positivity)
  have p3 : 0 < length q := by
    have := hk.lY_pos; rw [n3] at this
    exact pos_of_mul_pos_right this (by positivity)
  have t1 : (momK1 k).t = k.S / (2 * k.M) := rfl
  have t2 : (momK2 k).t = k.X / (2 * k.M) := rfl
  have t3 : (momQ k).t = k.S_x / (2 * k.M) := rfl
  have t4 : (momH k).t = k.z * k.S_x / (2 * k.M) := rfl
  -- Euclidean products
  have m12 : 2 * mink (momK1 k) (momK2 k) = 2 * k.m ^ 2 + k.Q_sq := by
    have : msq (momQ k) = msq (momK1 k) + msq (momK2 k) - 2 * mink (momK1 k) (momK2 k) := by
      rw [ec]; simp [msq, mink]; ring
    rw [o5, o2, o3] at this
    change -k.Q_sq = k.m ^ 2 + k.m ^ 2 - _ at this
    linarith
  have e2 : k.S * k.X - 2 * k.M ^ 2 * k.Q_sq - 4 * k.M ^ 2 * k.m ^ 2 = 4 * k.M ^ 2 * eucl k1 k2 := by
    rw [eucl_eq, t1, t2]
    field_simp
    linear_combination (8 * k.M ^ 2) * m12
  have e3 : k.S * k.S_x + 2 * k.M ^ 2 * k.Q_sq = 4 * k.M ^ 2 * eucl k1 q := by
    have : mink (momK1 k) (momQ k) = k.m ^ 2 - mink (momK1 k) (momK2 k) := by
      rw [ec, mink_sub_right]; change msq (momK1 k) - _ = _; rw [o2]; rfl
    rw [eucl_eq, t1, t3, this]
    field_simp
    linear_combination (-8 * k.M ^ 2) * m12
  have e4 : k.z * k.S * k.S_x - 2 * k.M ^ 2 * k.V_1 = 4 * k.M ^ 2 * eucl k1 ph := by
    rw [eucl_eq, t1, t4]
    field_simp
    linear_combination (8 * k.M ^ 2) * i4
  have e5 : (k.z * k.S_x) ^ 2 - 4 * (k.M * k.mh) ^ 2 = 4 * k.M ^ 2 * eucl ph ph := by
    rw [eucl_eq]
    change _ = 4 * k.M ^ 2 * ((momH k).t * (momH k).t - msq (momH k))
    rw [o4, t4]
    change _ = 4 * k.M ^ 2 * (k.z * k.S_x / (2 * k.M) * (k.z * k.S_x / (2 * k.M)) - k.mh ^ 2)
    field_simp
    ring
  have n4 := sqrt_length hM e5
  have e5' : 0 ≤ k.z * k.S_x * (k.z * k.S_x) - 4 * (k.M * k.mh * (k.M * k.mh)) := by
    have : 0 ≤ eucl ph ph := by rw [← length_sq]; positivity
    have h4 : 0 ≤ 4 * k.M ^ 2 * eucl ph ph := by positivity
    linarith
  have nH : Cut.lambdaHSqrt K = .fin (2 * k.M * length ph) := by
    unfold Cut.lambdaHSqrt
    simp only [A.z, A.S_x, A.M, A.mh, sq, fl_four, Fl.mul_fin, Fl.sub_fin, K]
    rw [sqrt_fl e5', ← n4]
    congr 2
    ring
  have hQ : 0 < k.Q_sq := hk.Q2_pos
  have hz : 0 < k.z := hk.z_pos
  refine ⟨?_, ?_, ?_, ?_, ?_, fun p2 => ?_, fun p4 => ?_⟩
  · unfold Cut.qtToQ
    have e : 0 ≤ k.ph_t_sq / k.Q_sq := div_nonneg h.ph_t_sq_nonneg hQ.le
    simp only [K, A.ph_t_sq, A.Q_sq, A.z]
    rw [Fl.div_fin _ hQ.ne', sqrt_fl e, Fl.div_fin _ hz.ne']
    exact congrArg (fun a => Fl.fin (a / pt.z)) (Real.sqrt_div h.ph_t_sq_nonneg _)
  · simp only [Cut.labMomQ, K, A.lambda_Y_sqrt, A.M, fl_two, Fl.mul_fin]
    rw [Fl.div_fin _ d1, n3]
    congr 1
    field_simp
    rfl
  · simp only [Cut.labMomK2, K, A.lambda_X_sqrt, A.M, fl_two, Fl.mul_fin]
    rw [Fl.div_fin _ d1, n2]
    congr 1
    field_simp
    rfl
  · unfold Cut.labMomH
    rw [nH]
    simp only [K, A.M, fl_two, Fl.mul_fin]
    rw [Fl.div_fin _ d1]
    congr 1
    field_simp
  · unfold Cut.labThetaQ
    have d : k.lambda_S_sqrt * k.lambda_Y_sqrt = 4 * k.M ^ 2 * (length k1 * length q) := by
      rw [n1, n3]
      change 2 * k.M * _ * (2 * k.M * _) = _
      ring
    have hd : k.lambda_S_sqrt * k.lambda_Y_sqrt ≠ 0 := (mul_pos hk.lS_pos hk.lY_pos).ne'
    simp only [K, A.S, A.S_x, A.M, A.Q_sq, A.lambda_S_sqrt, A.lambda_Y_sqrt, fl_two, sq, Fl.mul_fin,
      Fl.add_fin]
    rw [Fl.div_fin _ hd]
    exact acos_angle hM (mul_pos p1 p3) e3 d (by rw [pow_two])
  · unfold Cut.labThetaK2
    have d : k.lambda_S_sqrt * k.lambda_X_sqrt = 4 * k.M ^ 2 * (length k1 * length k2) := by
      rw [n1, n2]
      change 2 * k.M * _ * (2 * k.M * _) = _
      ring
    have hd : k.lambda_S_sqrt * k.lambda_X_sqrt ≠ 0 := by rw [d]; positivity
    simp only [K, A.S, A.X, A.M, A.m, A.Q_sq, A.lambda_S_sqrt, A.lambda_X_sqrt, fl_two, fl_four, sq,
      Fl.mul_fin, Fl.sub_fin]
    rw [Fl.div_fin _ hd]
    refine acos_angle hM (mul_pos p1 p2) e2 d ?_
    congr 1
    ring
  · unfold Cut.labThetaH
    rw [nH]
    have d : k.lambda_S_sqrt * (2 * k.M * length ph) = 4 * k.M ^ 2 * (length k1 * length ph) := by
      rw [n1]
      change 2 * k.M * _ * (2 * k.M * _) = _
      ring
    have hd : k.lambda_S_sqrt * (2 * k.M * length ph) ≠ 0 := by rw [d]; positivity
    simp only [K, A.S, A.S_x, A.z, A.M, A.V_1, A.lambda_S_sqrt, fl_two, sq, Fl.mul_fin, Fl.sub_fin]
    rw [Fl.div_fin _ hd]
    refine acos_angle hM (mul_pos p1 p4) e4 d ?_
    congr 1
    ring

/-- C66: infinite and NaN inputs are rejected, so validity is only ever reported for finite points of
the phase space. -/
theorem c66_finite (hm : Massive ps) (S : Fl) (P : PhaseSpace Fl) :
    Cut.valid (.make (finPs ps) S P) = true ↔
      ∃ S' pt, S = .fin S' ∧ P = finPt pt ∧ Accepted ps S' pt := by
  constructor
  · intro h
    obtain ⟨S', pt, rfl, rfl⟩ := valid_finite hm h
    exact ⟨S', pt, rfl, rfl, (valid_iff hm).1 h⟩
  · rintro ⟨S', pt, rfl, rfl, h⟩
    exact (valid_iff hm).2 h

/-! ## C24: kinematic limits never exclude a valid point -/

/-- C24: a valid point with `x > 0` lies inside every kinematic limit evaluated at the preceding
variables. -/
theorem c24_limits (hm : Massive ps) (S : Fl) (P : PhaseSpace Fl)
    (h : Cut.valid (.make (finPs ps) S P) = true) (hx : 0 < P.x) :
    (Cut.xBound (finPs ps) S).contains P.x ∧ (Cut.yBound (finPs ps) S P.x).contains P.y ∧
    (Cut.zBound (finPs ps) S P.x P.y).contains P.z ∧
    (Cut.phTSqBound (finPs ps) S P.x P.y P.z).contains P.ph_t_sq := by
  obtain ⟨S', pt, rfl, rfl, ha⟩ := (c66_finite hm S P).1 h
  exact ⟨x_mem hm ha, y_mem hm ha hx, z_mem hm ha, ph_t_sq_mem hm ha⟩

/-- C24: the limits taken together with cuts never exclude a point that is valid and satisfies the
cuts, provided an active cut on `Q_sq` is bounded above and an active cut on `W_sq` has a finite
lower end which is not far below zero (`c26_…_refuted` shows what happens otherwise). -/
theorem c24_limits_cut (hm : Massive ps) (cut : Cut) {S : ℝ} {pt : PhaseSpace ℝ}
    (h : Cut.validCut cut (.make (finPs ps) (.fin S) (finPt pt)) = true) (hx : 0 < pt.x)
    (hQ : cut.Q_sq.valid → cut.Q_sq.max ≠ .pinf)
    (hW : cut.W_sq.valid → ∃ w : ℝ, cut.W_sq.min = .fin w ∧
      0 < S ^ 2 - 4 * ps.M ^ 2 * ps.m ^ 2 + ps.M ^ 2 * (w - ps.M ^ 2)) :
    (Cut.xBoundCut cut (finPs ps) (.fin S)).contains (.fin pt.x) ∧
    (Cut.yBoundCut cut (finPs ps) (.fin S) (.fin pt.x)).contains (.fin pt.y) ∧
    (Cut.zBoundCut cut (finPs ps) (.fin S) (.fin pt.x) (.fin pt.y)).contains (.fin pt.z) ∧
    (Cut.phTSqBoundCut cut (finPs ps) (.fin S) (.fin pt.x) (.fin pt.y) (.fin pt.z)).contains
      (.fin pt.ph_t_sq) := by
  obtain ⟨hv, hs⟩ := (c23_cut _ _).1 h
  have ha := (valid_iff hm).1 hv
  have A := ha.agree hm
  simp only [Satisfies, cutTable, List.forall_mem_cons] at hs
  obtain ⟨sx, sy, sz, st, -, -, sQ, -, sW, -⟩ := hs
  rw [A.Q_sq] at sQ
  rw [A.W_sq] at sW
  have eW : (Kinematics.make ps S pt).W_sq = (1 - pt.x) * (S * pt.y) + ps.M ^ 2 := by
    change ps.M * ps.M + S * pt.y - S * pt.x * pt.y = _
    ring
  rw [eW] at sW
  refine ⟨x_mem_cut hm ha cut hx sx sQ hQ ?_, y_mem_cut hm ha cut hx sy sQ sW,
    z_mem_cut hm ha cut sz, ph_t_sq_mem_cut hm ha cut st⟩
  intro hc
  obtain ⟨w, e, h1⟩ := hW hc
  have := (sW hc).1
  rw [e] at this
  exact ⟨w, e, this, h1⟩

end

/-- The missing mass at the sample point. -/
theorem sample_mx : Massive samplePs ∧
    samplePs.Mth ^ 2 < (Kinematics.make samplePs 20 samplePt).mx_sq ∧
    (Kinematics.make samplePs 20 samplePt).mx_sq ≤ 20 + samplePs.M ^ 2 - samplePs.mh ^ 2 := by
  have hm : Massive samplePs := Massive.of_make sample_physical.1
  have hp := sample_physical.2
  refine ⟨hm, ?_⟩
  obtain ⟨h1, h2, -, -, h3, h4, hV⟩ := real_hadron hm.M_pos (by norm_num : (0 : ℝ) < 20)
    hp.x_pos.le hp.y_pos hp.z_pos hp.hadron
  have e : (Kinematics.make samplePs 20 samplePt).mx_sq = samplePs.M * samplePs.M +
      (samplePs.mh * samplePs.mh - 20 * samplePt.x * samplePt.y -
      2 * (Kinematics.make samplePs 20 samplePt).V_m) +
      (1 - samplePt.z) * (20 * samplePt.y) := rfl
  rw [hV] at e
  set l := (Kinematics.make samplePs 20 samplePt).lambda_Y_sqrt
  set p := (Kinematics.make samplePs 20 samplePt).ph_l
  have hl : (12.5 : ℝ) ≤ l ∧ l ≤ 12.6 := by
    constructor <;> by_contra hc <;> push Not at hc <;>
    · norm_num [samplePs, samplePt, Nucleus.mass, CMath.ofReal] at h3
      nlinarith
  have hpl : (3.1 : ℝ) ≤ p ∧ p ≤ 3.2 := by
    constructor <;> by_contra hc <;> push Not at hc <;>
    · norm_num [samplePs, samplePt, Nucleus.mass, Hadron.mass, CMath.ofReal] at h2
      nlinarith
  have hlp : (12.5 : ℝ) * 3.1 ≤ l * p ∧ l * p ≤ 12.6 * 3.2 :=
    ⟨mul_le_mul hl.1 hpl.1 (by norm_num) h4.le, mul_le_mul hl.2 hpl.2 h1 (by norm_num)⟩
  constructor
  · rw [e]
    norm_num [samplePs, samplePt, Nucleus.mass, Hadron.mass, CMath.ofReal] at hlp ⊢
    linarith
  · rw [e]
    norm_num [samplePs, samplePt, Nucleus.mass, Hadron.mass, CMath.ofReal] at hlp ⊢
    linarith

/-- The sample point is in the phase space. -/
theorem sample_accepted : Massive samplePs ∧ Accepted samplePs 20 samplePt := by
  obtain ⟨hm, h1, h2⟩ := sample_mx
  refine ⟨hm, ?_⟩
  constructor
  case missing => exact h1.le
  case missing_le => exact h2
  all_goals norm_num [samplePs, samplePt, Nucleus.mass, Lepton.mass, Hadron.mass, CMath.ofReal]

/-- Non-vacuity of C24, C66: a valid point with `x > 0` and a cut it satisfies. -/
example : Massive samplePs ∧
    Cut.valid (.make (finPs samplePs) (.fin 20) (finPt samplePt)) = true ∧ 0 < samplePt.x :=
  ⟨sample_accepted.1, (valid_iff sample_accepted.1).2 sample_accepted.2,
    by norm_num [samplePt]⟩

/-- A massless beam and a point with `x = 0`. -/
noncomputable def cornerPs : Particles ℝ :=
  ⟨.p, .masslessE, .piP, Nucleus.p.mass, Lepton.masslessE.mass, Hadron.piP.mass, 1.07⟩
@[inherit_doc cornerPs] noncomputable def cornerPt : PhaseSpace ℝ := ⟨0, 0.6, 0.5, 0.1, 0.7, 1.1⟩

/-- C24 fails in one corner: with a massless beam, a point with `x = 0` is reported valid although
the limits for `y` (a division of zero by zero) exclude it. -/
theorem c24_massless_refuted :
    Particles.make .p .masslessE .piP (1.07 : ℝ) = some cornerPs ∧
    Cut.valid (.make (finPs cornerPs) (.fin 20) (finPt cornerPt)) = true ∧
    ∀ y, ¬ (Cut.yBound (finPs cornerPs) (.fin 20) (finPt cornerPt).x).contains y := by
  have hmk : Particles.make .p .masslessE .piP (1.07 : ℝ) = some cornerPs := by
    rw [Particles.make, if_neg]
    · rfl
    · simp only [Nucleus.mass, Hadron.mass, CMath.ofReal]
      norm_num
  have hm : Massive cornerPs := Massive.of_make hmk
  refine ⟨hmk, (valid_iff hm).2 ?_, ?_⟩
  · have hh : cornerPt.ph_t_sq + cornerPs.mh ^ 2 ≤
        (cornerPt.z * (20 * cornerPt.y) / (2 * cornerPs.M)) ^ 2 := by
      norm_num [cornerPs, cornerPt, Nucleus.mass, Hadron.mass, CMath.ofReal]
    obtain ⟨h1, h2, -, -, h3, h4, hV⟩ := real_hadron (ps := cornerPs) (S := 20) (pt := cornerPt)
      hm.M_pos (by norm_num) (by norm_num [cornerPt]) (by norm_num [cornerPt])
      (by norm_num [cornerPt]) hh
    have e : (Kinematics.make cornerPs 20 cornerPt).mx_sq = cornerPs.M * cornerPs.M +
        (cornerPs.mh * cornerPs.mh - 20 * cornerPt.x * cornerPt.y -
        2 * (Kinematics.make cornerPs 20 cornerPt).V_m) +
        (1 - cornerPt.z) * (20 * cornerPt.y) := rfl
    rw [hV] at e
    set l := (Kinematics.make cornerPs 20 cornerPt).lambda_Y_sqrt
    set p := (Kinematics.make cornerPs 20 cornerPt).ph_l
    have hl : l = 12 := by
      norm_num [cornerPs, cornerPt] at h3
      nlinarith
    have hpl : (3.1 : ℝ) ≤ p ∧ p ≤ 3.2 := by
      constructor <;> by_contra hc <;> push Not at hc <;>
      · norm_num [cornerPs, cornerPt, Nucleus.mass, Hadron.mass, CMath.ofReal] at h2
        nlinarith
    rw [hl] at e
    constructor
    case missing =>
      rw [e]
      norm_num [cornerPs, cornerPt, Nucleus.mass, Hadron.mass, CMath.ofReal] at hpl ⊢
      linarith
    case missing_le =>
      rw [e]
      norm_num [cornerPs, cornerPt, Nucleus.mass, Hadron.mass, CMath.ofReal] at hpl ⊢
      linarith
    all_goals norm_num [cornerPs, cornerPt, Nucleus.mass, Lepton.mass, Hadron.mass, CMath.ofReal]
  · intro y
    have e1 : cornerPs.m = 0 := rfl
    have e2 : cornerPt.x = 0 := rfl
    have e3 : (finPt cornerPt).x = .fin 0 := rfl
    simp only [Cut.yBound, finPs, e1, e3, sq, fl_one, fl_four, Fl.mul_fin, Fl.add_fin, Fl.sub_fin,
      mul_zero, zero_mul, add_zero, Fl.div_fin_zero, Fl.infTimes_zero, c01_inter_contains,
      Bound.mk'_contains]
    simp

/-! ## C25: sampling under cuts -/

/-- C25: `take(cut, ...)` returns true exactly when the kinematics it writes satisfy the cuts, and
these kinematics are those of a phase-space point of the same particles and energy. -/
theorem c25_take (cut : Cut) (ps : Particles Fl) (S : Fl) (p : Fin 6 → Fl) :
    ((Cut.takeCut cut ps S p).ok = true ↔
      Cut.validCut cut (Cut.takeCut cut ps S p).kin = true) ∧
    ∃ P, (Cut.takeCut cut ps S p).kin = .make ps S P := ⟨Iff.rfl, _, rfl⟩

/-- C25: `take(cut, cut_rad, ...)` returns true only for kinematics that satisfy both sets of
cuts. -/
theorem c25_take_rad (cut : Cut) (cut_rad : CutRad) (ps : Particles Fl) (S : Fl) (p : Fin 9 → Fl)
    (t : Cut.Taken (KinematicsRad Fl)) (h : Cut.takeRadCut cut cut_rad ps S p = some t)
    (hok : t.ok = true) :
    Cut.validCuts cut cut_rad t.kin = true ∧ ∃ P tau phi_k R,
      t.kin = .make (.make ps S P) tau phi_k R := by
  unfold Cut.takeRadCut at h
  simp only at h
  split_ifs at h with hc hd <;>
  · simp only [Option.some.injEq] at h
    subst h
    exact ⟨(c23_cuts _ _ _).2 ⟨hc, hok⟩, _, _, _, _, rfl⟩

section
variable {ps : Particles ℝ} {S : ℝ} {pt : PhaseSpace ℝ}

/-- C25: a successful call of `take(cut, ...)` at a point of the unit cube has sampled each of the
six variables by a map whose jacobian is the derivative of the variable, the bounds being those at
the preceding variables, and the jacobian written out is the finite non-negative product of the six;
the point is in the phase space. -/
theorem c25_jacobian (hm : Massive ps) (cut : Cut) (p : Fin 6 → ℝ)
    (hp : ∀ i, 0 ≤ p i ∧ p i ≤ 1)
    (hok : (Cut.takeCut cut (finPs ps) (.fin S) (fun i => .fin (p i))).ok = true) :
    ∃ (pt : PhaseSpace ℝ) (jx jy jz jt jh jp : ℝ), Accepted ps S pt ∧
      (Cut.takeCut cut (finPs ps) (.fin S) (fun i => .fin (p i))).kin =
        .make (finPs ps) (.fin S) (finPt pt) ∧
      Axis (inverse (.fin (1 / 1000))) (Cut.xBoundCut cut (finPs ps) (.fin S)) (p 0) pt.x jx ∧
      Axis (inverse (.fin 0)) (Cut.yBoundCut cut (finPs ps) (.fin S) (.fin pt.x)) (p 1) pt.y jy ∧
      Axis linear (Cut.zBoundCut cut (finPs ps) (.fin S) (.fin pt.x) (.fin pt.y)) (p 2) pt.z jz ∧
      Axis (decay (.fin (1 / 4))) (Cut.phTSqBoundCut cut (finPs ps) (.fin S) (.fin pt.x) (.fin pt.y)
        (.fin pt.z)) (p 3) pt.ph_t_sq jt ∧
      (∃ b, Axis linear b (p 4) pt.phi_h jh ∧
        ((cut.phi_h.valid ∧ b = cut.phi_h) ∨
          (¬ cut.phi_h.valid ∧ b = ⟨.fin (-Real.pi), .fin Real.pi⟩))) ∧
      (∃ b, Axis linear b (p 5) pt.phi jp ∧
        ((cut.phi.valid ∧ b = cut.phi) ∨
          (¬ cut.phi.valid ∧ b = ⟨.fin (-Real.pi), .fin Real.pi⟩))) ∧
      (Cut.takeCut cut (finPs ps) (.fin S) (fun i => .fin (p i))).jac =
        .fin (jx * jy * jz * jt * jh * jp) ∧ 0 ≤ jx * jy * jz * jt * jh * jp := by
  classical
  have hv := ((c23_cut _ _).1 hok).1
  -- the sampled variables
  set x := (inverse Cut.xCutoff).apply (.fin (p 0)) (Cut.xBoundCut cut (finPs ps) (.fin S)) with ex
  set y := (inverse 0).apply (.fin (p 1)) (Cut.yBoundCut cut (finPs ps) (.fin S) x.1) with ey
  set z := (linear : VarMap Fl).apply (.fin (p 2))
    (Cut.zBoundCut cut (finPs ps) (.fin S) x.1 y.1) with ez
  set t := (decay Cut.phTSqDecayWidth).apply (.fin (p 3))
    (Cut.phTSqBoundCut cut (finPs ps) (.fin S) x.1 y.1 z.1) with et
  set bh := if cut.phi_h.valid then cut.phi_h else Cut.fullCircle with ebh
  set bp := if cut.phi.valid then cut.phi else Cut.fullCircle with ebp
  set h := (linear : VarMap Fl).apply (.fin (p 4)) bh with eh
  set f := (linear : VarMap Fl).apply (.fin (p 5)) bp with ef
  have ekin : (Cut.takeCut cut (finPs ps) (.fin S) (fun i => .fin (p i))).kin =
    .make (finPs ps) (.fin S) ⟨x.1, y.1, z.1, t.1, h.1, f.1⟩ := by
    simp only [Cut.takeCut, ← ex, ← ey, ← ez, ← et]
    rw [eh, ef, ebh, ebp]
  have ejac : (Cut.takeCut cut (finPs ps) (.fin S) (fun i => .fin (p i))).jac =
    x.2 * y.2 * z.2 * t.2 * h.2 * f.2 := by
    simp only [Cut.takeCut, ← ex, ← ey, ← ez, ← et]
    rw [eh, ef, ebh, ebp]
  have hv' : Cut.valid (.make (finPs ps) (.fin S) ⟨x.1, y.1, z.1, t.1, h.1, f.1⟩) = true := by
    rw [← ekin]; exact hv
  obtain ⟨S', pt, e0, ep, ha⟩ := (c66_finite hm _ _).1 hv'
  simp only [Fl.fin.injEq] at e0
  subst e0
  obtain ⟨x1, x2⟩ := x
  obtain ⟨y1, y2⟩ := y
  obtain ⟨z1, z2⟩ := z
  obtain ⟨t1, t2⟩ := t
  obtain ⟨h1, h2⟩ := h
  obtain ⟨f1, f2⟩ := f
  simp only [finPt, PhaseSpace.mk.injEq] at ep
  obtain ⟨rfl, rfl, rfl, rfl, rfl, rfl⟩ := ep
  simp only at ex ey ez et eh ef ekin ejac
  have hx1 := x_lt_one hm ha
  have hD := D_pos hm
  have hbh : bh.valid := by rw [ebh]; split_ifs with hc; exacts [hc, fullCircle_valid]
  have hbp : bp.valid := by rw [ebp]; split_ifs with hc; exacts [hc, fullCircle_valid]
  obtain ⟨jx, ax, nx, qx⟩ := axis_of_finite (inverse_nan _) xBoundCut_normal
    (fun v hv => unit_sub (xBoundCut_sub hv))
    (fun lo hi hl h0 _ => (c28_apply_map hl).2.1 (1 / 1000) (by linarith)) (hp 0).1 (hp 0).2
    (congrArg Prod.fst ex).symm
  obtain ⟨jy, ay, ny, qy⟩ := axis_of_finite (t := inverse (.fin 0)) (inverse_nan _)
    yBoundCut_normal (fun v hv => yBound_low hm ha.S_pos hx1 (yBoundCut_sub hv))
    (fun lo hi hl h0 _ => (c28_apply_map hl).2.1 0 (by
      have : 0 < ((ps.Mth + ps.mh) ^ 2 - ps.M ^ 2) / ((1 - pt.x) * S) :=
        div_pos hD (mul_pos (by linarith) ha.S_pos)
      linarith)) (hp 1).1 (hp 1).2 (congrArg Prod.fst ey).symm
  obtain ⟨jz, az, nz, qz⟩ := axis_of_finite linear_nan zBoundCut_normal
    (fun v hv => unit_sub (zBoundCut_sub hv))
    (fun lo hi hl _ _ => (c28_apply_map hl).1) (hp 2).1 (hp 2).2 (congrArg Prod.fst ez).symm
  obtain ⟨jt, at', nt, qt⟩ := axis_of_finite (decay_nan _) phTSqBoundCut_normal
    (fun v hv => phTSqBound_high hm ha.S_pos ha.x_nonneg ha.y_pos (phTSqBoundCut_sub hv))
    (fun lo hi hl _ _ => (c28_apply_map hl).2.2.2.1 (1 / 4) (by norm_num)) (hp 3).1 (hp 3).2
    (congrArg Prod.fst et).symm
  obtain ⟨jh, ah, nh, qh⟩ := axis_angle hbh (hp 4).1 (hp 4).2 (congrArg Prod.fst eh).symm
  obtain ⟨jp, ap, np, qp⟩ := axis_angle hbp (hp 5).1 (hp 5).2 (congrArg Prod.fst ef).symm
  refine ⟨pt, jx, jy, jz, jt, jh, jp, ha, ekin, ax, ay, az, at', ⟨bh, ah, ?_⟩, ⟨bp, ap, ?_⟩, ?_, by
    positivity⟩
  · rw [ebh]
    split_ifs with hc
    · exact Or.inl ⟨hc, rfl⟩
    · exact Or.inr ⟨hc, fullCircle_eq⟩
  · rw [ebp]
    split_ifs with hc
    · exact Or.inl ⟨hc, rfl⟩
    · exact Or.inr ⟨hc, fullCircle_eq⟩
  · rw [ejac, show x2 = .fin jx from congrArg Prod.snd (ex.trans qx),
      show y2 = .fin jy from congrArg Prod.snd (ey.trans qy),
      show z2 = .fin jz from congrArg Prod.snd (ez.trans qz),
      show t2 = .fin jt from congrArg Prod.snd (et.trans qt),
      show h2 = .fin jh from congrArg Prod.snd (eh.trans qh),
      show f2 = .fin jp from congrArg Prod.snd (ef.trans qp)]
    rfl

/-- The range of an angle to be sampled: the cut if there is one, the full circle otherwise. -/
def AngleRange (cut : Bound) (a : ℝ) : Prop :=
  (cut.valid → ∃ lo hi : ℝ, cut = ⟨.fin lo, .fin hi⟩) ∧
  (¬ cut.valid → -Real.pi ≤ a ∧ a ≤ Real.pi)

theorem angle_onto {cut : Bound} {a : ℝ} (h : AngleRange cut a)
    (hs : cut.valid → cut.contains (.fin a)) [Decidable cut.valid] :
    ∃ p j, 0 ≤ p ∧ p ≤ 1 ∧ 0 ≤ j ∧ (linear : VarMap Fl).apply (.fin p)
      (if cut.valid then cut else Cut.fullCircle) = (.fin a, .fin j) := by
  by_cases hc : cut.valid
  · obtain ⟨lo, hi, e⟩ := h.1 hc
    rw [if_pos hc]
    have := hs hc
    rw [e] at this ⊢
    obtain ⟨p, j, h0, h1, hj, -, q⟩ := axis_onto (t := linear) (l := lo) (u := hi)
      (b := ⟨.fin lo, .fin hi⟩) (fun y hy => hy) (fun l h hl _ _ => (c28_apply_map hl).1) this
    exact ⟨p, j, h0, h1, hj, q⟩
  · rw [if_neg hc, fullCircle_eq]
    obtain ⟨p, j, h0, h1, hj, -, q⟩ := axis_onto (t := linear) (l := -Real.pi) (u := Real.pi)
      (b := ⟨.fin (-Real.pi), .fin Real.pi⟩)
      (fun y hy => hy) (fun l h hl _ _ => (c28_apply_map hl).1) (h.2 hc)
    exact ⟨p, j, h0, h1, hj, q⟩

/-- C67: sampling is complete: every point that is valid and satisfies the cuts (with `x > 0`,
angles in the sampled range, and cuts on `Q_sq` and `W_sq` whose relevant ends are finite) is
returned by `take(cut, ...)` at some point of the unit cube, with a finite non-negative jacobian. -/
theorem c67_complete (hm : Massive ps) (cut : Cut)
    (h : Cut.validCut cut (.make (finPs ps) (.fin S) (finPt pt)) = true) (hx : 0 < pt.x)
    (hQ : cut.Q_sq.valid → cut.Q_sq.max ≠ .pinf)
    (hW : cut.W_sq.valid → ∃ w : ℝ, cut.W_sq.min = .fin w ∧
      0 < S ^ 2 - 4 * ps.M ^ 2 * ps.m ^ 2 + ps.M ^ 2 * (w - ps.M ^ 2))
    (hph : AngleRange cut.phi_h pt.phi_h) (hp : AngleRange cut.phi pt.phi) :
    ∃ (p : Fin 6 → ℝ) (j : ℝ), (∀ i, 0 ≤ p i ∧ p i ≤ 1) ∧ 0 ≤ j ∧
      Cut.takeCut cut (finPs ps) (.fin S) (fun i => .fin (p i)) =
        ⟨true, .make (finPs ps) (.fin S) (finPt pt), .fin j⟩ := by
  classical
  obtain ⟨mx, my, mz, mt⟩ := c24_limits_cut hm cut h hx hQ hW
  obtain ⟨hv, hs⟩ := (c23_cut _ _).1 h
  have ha := (valid_iff hm).1 hv
  simp only [Satisfies, cutTable, List.forall_mem_cons] at hs
  obtain ⟨-, -, -, -, sh, sp, -⟩ := hs
  have hx1 := x_lt_one hm ha
  have hD := D_pos hm
  obtain ⟨p0, jx, a0, b0, n0, -, q0⟩ := axis_onto (t := inverse (.fin (1 / 1000)))
    (fun v hv => unit_sub (xBoundCut_sub hv))
    (fun lo hi hl h0 _ => (c28_apply_map hl).2.1 (1 / 1000) (by linarith)) mx
  obtain ⟨p1, jy, a1, b1, n1, -, q1⟩ := axis_onto (t := inverse (.fin 0))
    (fun v hv => yBound_low hm ha.S_pos hx1 (yBoundCut_sub hv))
    (fun lo hi hl h0 _ => (c28_apply_map hl).2.1 0 (by
      have : 0 < ((ps.Mth + ps.mh) ^ 2 - ps.M ^ 2) / ((1 - pt.x) * S) :=
        div_pos hD (mul_pos (by linarith) ha.S_pos)
      linarith)) my
  obtain ⟨p2, jz, a2, b2, n2, -, q2⟩ := axis_onto (t := linear)
    (fun v hv => unit_sub (zBoundCut_sub hv)) (fun lo hi hl _ _ => (c28_apply_map hl).1) mz
  obtain ⟨p3, jt, a3, b3, n3, -, q3⟩ := axis_onto (t := decay (.fin (1 / 4)))
    (fun v hv => phTSqBound_high hm ha.S_pos ha.x_nonneg ha.y_pos (phTSqBoundCut_sub hv))
    (fun lo hi hl _ _ => (c28_apply_map hl).2.2.2.1 (1 / 4) (by norm_num)) mt
  obtain ⟨p4, jh, a4, b4, n4, q4⟩ := angle_onto hph sh
  obtain ⟨p5, jp, a5, b5, n5, q5⟩ := angle_onto hp sp
  refine ⟨![p0, p1, p2, p3, p4, p5], jx * jy * jz * jt * jh * jp, ?_, by positivity, ?_⟩
  · intro i
    fin_cases i
    exacts [⟨a0, b0⟩, ⟨a1, b1⟩, ⟨a2, b2⟩, ⟨a3, b3⟩, ⟨a4, b4⟩, ⟨a5, b5⟩]
  · unfold Cut.takeCut
    have e0 : (inverse Cut.xCutoff).apply (.fin p0) (Cut.xBoundCut cut (finPs ps) (.fin S)) =
      (.fin pt.x, .fin jx) := q0
    have e1 : (inverse 0).apply (.fin p1) (Cut.yBoundCut cut (finPs ps) (.fin S) (.fin pt.x)) =
      (.fin pt.y, .fin jy) := q1
    have e3 : (decay Cut.phTSqDecayWidth).apply (.fin p3) (Cut.phTSqBoundCut cut (finPs ps) (.fin S)
      (.fin pt.x) (.fin pt.y) (.fin pt.z)) = (.fin pt.ph_t_sq, .fin jt) := q3
    have f0 : (![p0, p1, p2, p3, p4, p5] : Fin 6 → ℝ) 0 = p0 := rfl
    have f1 : (![p0, p1, p2, p3, p4, p5] : Fin 6 → ℝ) 1 = p1 := rfl
    have f2 : (![p0, p1, p2, p3, p4, p5] : Fin 6 → ℝ) 2 = p2 := rfl
    have f3 : (![p0, p1, p2, p3, p4, p5] : Fin 6 → ℝ) 3 = p3 := rfl
    have f4 : (![p0, p1, p2, p3, p4, p5] : Fin 6 → ℝ) 4 = p4 := rfl
    have f5 : (![p0, p1, p2, p3, p4, p5] : Fin 6 → ℝ) 5 = p5 := rfl
    have q4' := q4
    have q5' := q5
    simp only [f0, f1, f2, f3, f4, f5, e0, e1, q2, e3]
    rw [show @ite Bound cut.phi_h.valid (Classical.propDecidable _) cut.phi_h Cut.fullCircle =
      if cut.phi_h.valid then cut.phi_h else Cut.fullCircle by congr!, q4,
      show @ite Bound cut.phi.valid (Classical.propDecidable _) cut.phi Cut.fullCircle =
      if cut.phi.valid then cut.phi else Cut.fullCircle by congr!, q5]
    simp only [Fl.mul_fin]
    have : finPt pt = ⟨.fin pt.x, .fin pt.y, .fin pt.z, .fin pt.ph_t_sq, .fin pt.phi_h, .fin pt.phi⟩ :=
      rfl
    rw [← this, h]

end
/-- No cuts at all. -/
def noCut : Cut :=
  ⟨.invalid, .invalid, .invalid, .invalid, .invalid, .invalid, .invalid, .invalid, .invalid,
   .invalid, .invalid, .invalid, .invalid, .invalid, .invalid, .invalid, .invalid, .invalid⟩

theorem invalid_not_valid : ¬ Bound.invalid.valid := by simp [Bound.valid, Bound.invalid]

/-- Non-vacuity of C67 and C25: without cuts the sample point is returned at some unit-cube point. -/
example : ∃ (p : Fin 6 → ℝ) (j : ℝ), (∀ i, 0 ≤ p i ∧ p i ≤ 1) ∧ 0 ≤ j ∧
    Cut.takeCut noCut (finPs samplePs) (.fin 20) (fun i => .fin (p i)) =
      ⟨true, .make (finPs samplePs) (.fin 20) (finPt samplePt), .fin j⟩ := by
  have hv := (valid_iff sample_accepted.1).2 sample_accepted.2
  have h3 := Real.two_le_pi
  refine c67_complete sample_accepted.1 noCut ?_ (by norm_num [samplePt])
    (fun h => absurd h invalid_not_valid) (fun h => absurd h invalid_not_valid)
    ⟨fun h => absurd h invalid_not_valid, fun _ => ?_⟩
    ⟨fun h => absurd h invalid_not_valid, fun _ => ?_⟩
  · rw [c23_cut]
    refine ⟨hv, ?_⟩
    simp only [Satisfies, cutTable, noCut, List.forall_mem_cons, invalid_not_valid, false_implies,
      List.not_mem_nil, implies_true, and_true]
  · norm_num [samplePt]; constructor <;> linarith
  · norm_num [samplePt]; constructor <;> linarith

/-! ## C26: half-infinite cuts lose all of their phase space -/

theorem take_false_of_x {cut : Cut} {ps : Particles Fl} {S : Fl}
    (h : (Cut.xBoundCut cut ps S).min.isNaN) (p : Fin 6 → Fl) :
    (Cut.takeCut cut ps S p).ok = false := by
  rw [← Bool.not_eq_true]
  intro hok
  have hv := ((c23_cut _ _).1 hok).1
  rw [valid_iff_and] at hv
  obtain ⟨-, ⟨hx, -⟩, -⟩ := hv
  change (0 : Fl) ≤ ((inverse Cut.xCutoff).apply (p 0) (Cut.xBoundCut cut ps S)).1 at hx
  rw [apply_nan (inverse_nan _).1 (inverse_nan _).2 (Or.inl h)] at hx
  simp at hx

theorem inter_nan_left {a b : Bound} (h : a.min.isNaN) : (a.inter b).min.isNaN := by
  unfold Bound.inter
  rw [if_pos (Or.inl h)]; trivial

theorem inter_nan_right {a b : Bound} (h : b.min.isNaN) : (a.inter b).min.isNaN := by
  unfold Bound.inter
  rw [if_pos (Or.inr (Or.inl h))]; trivial

theorem mk'_nan {a b : Fl} (h : a.isNaN ∨ b.isNaN) : (Bound.mk' a b).min.isNaN := by
  unfold Bound.mk'
  rw [if_pos]
  · trivial
  · rcases h with h | h
    · cases a <;> simp_all
    · cases b <;> simp_all

/-- C26: a cut on `Q_sq` without upper limit makes `take(cut, ...)` reject every point, although
valid points satisfying the cut exist. -/
theorem c26_Q_sq_refuted :
    (∀ (ps : Particles ℝ) (S : ℝ) (cut : Cut), cut.Q_sq.valid → cut.Q_sq.max = .pinf →
      ∀ p, (Cut.takeCut cut (finPs ps) (.fin S) p).ok = false) ∧
    ∃ cut : Cut, cut.Q_sq = ⟨.fin 1, .pinf⟩ ∧
      Cut.validCut cut (.make (finPs samplePs) (.fin 20) (finPt samplePt)) = true := by
  constructor
  · intro ps S cut hv hmax p
    refine take_false_of_x ?_ p
    have hq : (Bound.mk' (cut.Q_sq.min / .fin S) (cut.Q_sq.max /
        (cut.Q_sq.max + sq ((finPs ps).Mth + (finPs ps).mh) - sq (finPs ps).M))).min.isNaN := by
      refine mk'_nan (Or.inr ?_)
      rw [hmax]
      simp [finPs, sq]
    unfold Cut.xBoundCut
    simp only [if_pos hv]
    split_ifs
    all_goals first
      | exact inter_nan_right hq
      | exact inter_nan_left (inter_nan_right hq)
  · refine ⟨{ noCut with Q_sq := ⟨.fin 1, .pinf⟩ }, rfl, ?_⟩
    rw [c23_cut]
    refine ⟨(valid_iff sample_accepted.1).2 sample_accepted.2, ?_⟩
    simp only [Satisfies, cutTable, noCut, List.forall_mem_cons, invalid_not_valid, false_implies,
      List.not_mem_nil, implies_true, and_true, true_and]
    intro _
    rw [(sample_accepted.2.agree sample_accepted.1).Q_sq]
    refine ⟨?_, trivial⟩
    change (1 : ℝ) ≤ 20 * samplePt.x * samplePt.y
    norm_num [samplePt]

/-- C26: likewise for a cut on `W_sq` without lower limit. -/
theorem c26_W_sq_refuted :
    (∀ (ps : Particles ℝ) (S : ℝ) (cut : Cut), 0 < ps.M → 0 < S → cut.W_sq.valid →
      cut.W_sq.min = .ninf → ∀ p, (Cut.takeCut cut (finPs ps) (.fin S) p).ok = false) ∧
    ∃ cut : Cut, cut.W_sq = ⟨.ninf, .fin 100⟩ ∧
      Cut.validCut cut (.make (finPs samplePs) (.fin 20) (finPt samplePt)) = true := by
  constructor
  · intro ps S cut hM hS hv hmin p
    refine take_false_of_x ?_ p
    unfold Cut.xBoundCut
    simp only [if_pos hv]
    refine inter_nan_right (mk'_nan (Or.inl ?_))
    simp only [hmin, finPs, sq, fl_two, fl_four, Fl.mul_fin, Fl.sub_fin, Fl.ninf_sub_fin,
      Fl.fin_mul_ninf, Fl.fin_sub_ninf, Fl.pinf_mul_pinf]
    rw [Fl.infTimes_neg (by nlinarith : -(ps.M * ps.M) < 0), Fl.infTimes_neg (by linarith : -S < 0)]
    simp only [Fl.fin_add_ninf, Fl.fin_mul_ninf, Fl.fin_sub_ninf]
    rw [Fl.infTimes_neg (by norm_num : (-2 : ℝ) < 0)]
    generalize (CMath.sqrt _ : Fl) = r
    cases r <;> simp
  · refine ⟨{ noCut with W_sq := ⟨.ninf, .fin 100⟩ }, rfl, ?_⟩
    rw [c23_cut]
    refine ⟨(valid_iff sample_accepted.1).2 sample_accepted.2, ?_⟩
    simp only [Satisfies, cutTable, noCut, List.forall_mem_cons, invalid_not_valid, false_implies,
      List.not_mem_nil, implies_true, and_true, true_and]
    intro _
    rw [(sample_accepted.2.agree sample_accepted.1).W_sq]
    refine ⟨trivial, ?_⟩
    change samplePs.M * samplePs.M + 20 * samplePt.y - 20 * samplePt.x * samplePt.y ≤ (100 : ℝ)
    norm_num [samplePt, samplePs, Nucleus.mass, CMath.ofReal]

/-! ## C68: radiative sampling with a massless beam -/

theorem sigmoid2_zero_width (c w cr wr u : Fl) (hw : w = .fin 0 ∨ w = .nan) :
    (sigmoid2X c w cr wr u).1 = .nan := by
  have hd : ∀ b : Fl, w * wr * CMath.sqrt (b + sq ((cr - 1) * (c / w))) = .nan := by
    intro b
    rcases hw with rfl | rfl
    · have h1 : c / .fin 0 = .pinf ∨ c / .fin 0 = .ninf ∨ c / .fin 0 = .nan := by
        cases c with
        | nan => simp
        | pinf => simp [Fl.pinf_div_fin le_rfl]
        | ninf => simp [Fl.ninf_div_fin le_rfl]
        | fin r =>
          rw [Fl.div_fin_zero]
          rcases Fl.infTimes_cases r with h | h | h <;> simp [h.2]
      have h2 : ∀ a : Fl, sq (a * (c / .fin 0)) = .pinf ∨ sq (a * (c / .fin 0)) = .nan := by
        intro a
        unfold sq
        rcases h1 with h | h | h <;> rw [h]
        · cases a with
          | fin r => rcases Fl.infTimes_cases r with h | h | h <;> simp [h.2]
          | _ => simp
        · cases a with
          | fin r => rcases Fl.infTimes_cases (-r) with h | h | h <;> simp [h.2]
          | _ => simp
        · simp
      have h3 : ∀ a : Fl, CMath.sqrt (b + sq (a * (c / .fin 0))) = .pinf ∨
          CMath.sqrt (b + sq (a * (c / .fin 0))) = .nan := by
        intro a
        change Fl.sqrt _ = .pinf ∨ Fl.sqrt _ = .nan
        rcases h2 a with h | h <;> rw [h] <;> cases b <;> simp
      rcases h3 (cr - 1) with h | h <;> rw [h]
      · cases wr with
        | fin r => simp
        | _ => simp
      · simp
    · simp
  simp only [sigmoid2X, hd]
  simp

/-- C68: with a massless beam no radiative point is ever returned: `take` reports failure for all
coordinates, and without cuts it writes a NaN `tau`. -/
theorem c68_massless (kin : Kinematics Fl) (hm : kin.m = .fin 0) (p : Fin 3 → Fl) (cut : CutRad) :
    (Cut.takePhotonCut cut kin p).ok = false ∧ (Cut.takePhoton kin p).kin.tau = .nan := by
  have hw : ∀ b, ((Cut.tauMap kin).apply (p 0) b).1 = .nan := by
    intro b
    refine sigmoid2_zero_width _ _ _ _ _ ?_
    rw [hm]
    have h1 : ∀ a : Fl, a * .fin 0 = .fin 0 ∨ a * .fin 0 = .nan := by
      intro a; cases a <;> simp
    rcases h1 (.fin (Real.sqrt 2) * kin.lambda_1_sqrt) with h | h <;> rw [h]
    · unfold sq
      cases kin.X with
      | fin r =>
        by_cases hr : r * r = 0
        · rw [Fl.mul_fin, hr, Fl.div_fin_zero]; simp
        · rw [Fl.mul_fin, Fl.div_fin _ hr]; simp
      | _ => simp
    · simp
  refine ⟨?_, hw _⟩
  rw [← Bool.not_eq_true]
  intro hok
  have hv := ((c23_cut_rad _ _).1 hok).1
  unfold Cut.validRad at hv
  simp only [ite_not_iff] at hv
  obtain ⟨-, ⟨h, -⟩, -⟩ := hv
  change _ ≤ ((Cut.tauMap kin).apply (p 0) (Cut.tauBoundCut cut kin)).1 at h
  rw [hw] at h
  simp at h

/-- The massless beam of the library has such kinematics. -/
example : (Kinematics.make (finPs cornerPs) (.fin 20) (finPt samplePt)).m = .fin 0 := rfl

end Sidis.Props
