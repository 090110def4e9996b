import Verif.Spec.Density
import Verif.Lemmas.Format
import Verif.Props.CutRad

/-! # Lemmas about the event densities -/

namespace Sidis

open Spec Props VarMap

/-! ### Sampling of the photon variables -/

theorem fin_of_mul_fin {a : ℝ} {x : Fl} (h : ∃ r, Fl.fin a * x = .fin r) : ∃ r, x = .fin r := by
  obtain ⟨r, h⟩ := h
  cases x with
  | fin q => exact ⟨q, rfl⟩
  | nan => simp at h
  | pinf => rw [Fl.fin_mul_pinf] at h; rcases Fl.infTimes_cases a with q | q | q <;> simp [q.2] at h
  | ninf => rw [Fl.fin_mul_ninf] at h; rcases Fl.infTimes_cases (-a) with q | q | q <;> simp [q.2] at h

theorem fin_of_add_fin {x y : Fl} (h : ∃ r, x + y = .fin r) :
    (∃ r, x = .fin r) ∧ ∃ r, y = .fin r := by
  obtain ⟨r, h⟩ := h
  cases x <;> cases y <;> simp_all

theorem fin_of_lerp {b : Bound} {p : ℝ} (h : ∃ r, b.lerp (.fin p) = .fin r) :
    ∃ lo hi : ℝ, b = ⟨.fin lo, .fin hi⟩ := by
  obtain ⟨lo, hi⟩ := b
  simp only [Bound.lerp, Fl.sub_fin] at h
  obtain ⟨h1, h2⟩ := fin_of_add_fin h
  obtain ⟨a, rfl⟩ := fin_of_mul_fin h1
  obtain ⟨b, rfl⟩ := fin_of_mul_fin h2
  exact ⟨a, b, rfl⟩

theorem fin_of_asinh {w : ℝ} (hw : 0 < w) {x : Fl}
    (h : ∃ r, (sigmoid (.fin 0) (.fin w) : VarMap Fl).u x = .fin r) : ∃ r, x = .fin r := by
  obtain ⟨r, h⟩ := h
  have e1 : (CMap.asinh (Fl.pinf) : Fl) = .pinf := rfl
  have e2 : (CMap.asinh (Fl.ninf) : Fl) = .ninf := rfl
  have e3 : (CMap.asinh (Fl.nan) : Fl) = .nan := rfl
  cases x with
  | fin q => exact ⟨q, rfl⟩
  | _ => simp [sigmoid, Fl.pinf_div_fin hw.le, Fl.ninf_div_fin hw.le, e1, e2, e3] at h

/-- A finite angle can only have been sampled from a bound with finite ends. -/
theorem sigmoid_ends {w p f : ℝ} (hw : 0 < w) {b : Bound}
    (h : ((sigmoid (.fin 0) (.fin w) : VarMap Fl).apply (.fin p) b).1 = .fin f) :
    ∃ lo hi : ℝ, b = ⟨.fin lo, .fin hi⟩ := by
  have h1 : ∃ r, (Bound.mk' ((sigmoid (.fin 0) (.fin w) : VarMap Fl).u b.min)
      ((sigmoid (.fin 0) (.fin w) : VarMap Fl).u b.max)).lerp (.fin p) = .fin r := by
    have h2 : ∃ r, (sigmoid (.fin 0) (.fin w) : VarMap Fl).x
      ((Bound.mk' ((sigmoid (.fin 0) (.fin w) : VarMap Fl).u b.min)
      ((sigmoid (.fin 0) (.fin w) : VarMap Fl).u b.max)).lerp (.fin p)) = .fin r := ⟨f, h⟩
    have e1 : (CMap.sinh (Fl.pinf) : Fl) = .pinf := rfl
    have e2 : (CMap.sinh (Fl.ninf) : Fl) = .ninf := rfl
    have e3 : (CMap.sinh (Fl.nan) : Fl) = .nan := rfl
    generalize ((Bound.mk' ((sigmoid (.fin 0) (.fin w) : VarMap Fl).u b.min)
      ((sigmoid (.fin 0) (.fin w) : VarMap Fl).u b.max)).lerp (.fin p)) = v at h2 ⊢
    cases v with
    | fin q => exact ⟨q, rfl⟩
    | _ =>
      obtain ⟨r, h2⟩ := h2
      simp [sigmoid, e1, e2, e3, Fl.infTimes_pos hw, Fl.infTimes_neg (neg_lt_zero.2 hw)] at h2
  obtain ⟨lo, hi, e⟩ := fin_of_lerp h1
  unfold Bound.mk' at e
  split_ifs at e with hc
  · simp only [Bound.mk.injEq] at e
    obtain ⟨a, ha⟩ := fin_of_asinh hw ⟨_, e.1⟩
    obtain ⟨c, hc⟩ := fin_of_asinh hw ⟨_, e.2⟩
    exact ⟨a, c, by rw [← ha, ← hc]⟩
  · simp [Bound.invalid] at e

section
variable {ps : Particles ℝ} {S : ℝ} {pt : PhaseSpace ℝ}

/-- A radiative point that is returned has a finite range for `phi_k`. -/
theorem phiK_finite (hm : Massive ps) (h : Accepted ps S pt) (hs : Samplable ps S pt)
    (cut : CutRad) (p : Fin 3 → ℝ)
    (hok : (Cut.takePhotonCut cut (.make (finPs ps) (.fin S) (finPt pt))
      (fun i => .fin (p i))).ok = true) (hv : cut.phi_k.valid) :
    ∃ lo hi : ℝ, cut.phi_k = ⟨.fin lo, .fin hi⟩ := by
  have h1 := ((c23_cut_rad _ _).1 hok).1
  obtain ⟨-, ⟨w, mk, w0⟩, -⟩ := photon_maps hm h hs
  obtain ⟨t, f, r, -, e2, -, -⟩ := (validRad_iff hm _ _ _).1 h1
  rw [mk] at e2
  have := sigmoid_ends w0 e2
  rwa [if_pos hv] at this

theorem m_pos_of_ok (hm : Massive ps) (cut : CutRad) (p : Fin 3 → Fl)
    (hok : (Cut.takePhotonCut cut (.make (finPs ps) (.fin S) (finPt pt)) p).ok = true) :
    0 < ps.m := by
  refine lt_of_le_of_ne hm.m_nonneg fun h => ?_
  rw [(c68_massless _ (by change Fl.fin ps.m = _; rw [← h]) p cut).1] at hok
  simp at hok

theorem angle_of_ok (hm : Massive ps) (h : Accepted ps S pt) (cut : CutRad) (p : Fin 3 → Fl)
    (hok : (Cut.takePhotonCut cut (.make (finPs ps) (.fin S) (finPt pt)) p).ok = true) :
    ps.m ^ 2 * ((S * pt.y) ^ 2 + 4 * ps.M ^ 2 * (S * pt.x * pt.y)) <
    (S * pt.x * pt.y) * (S * ((1 - pt.y) * S) - ps.M ^ 2 * (S * pt.x * pt.y)) := by
  refine lt_of_le_of_ne h.lepton fun he => ?_
  set K := Kinematics.make (finPs ps) (.fin S) (finPt pt) with hK
  have A : Agree K _ := h.agree hm
  have hl : (Kinematics.make ps S pt).lambda_1_sqrt = 0 := by
    refine Real.sqrt_eq_zero'.2 (le_of_eq ?_)
    change S * pt.x * pt.y * (S * ((1 - pt.y) * S) - ps.M * ps.M * (S * pt.x * pt.y)) -
      ps.m * ps.m * (S * pt.y * (S * pt.y) + 4 * (ps.M * ps.M) * (S * pt.x * pt.y)) = 0
    linarith [he]
  have hw : ∀ b, ((Cut.tauMap K).apply (p 0) b).1 = .nan := by
    intro b
    refine sigmoid2_zero_width _ _ _ _ _ ?_
    rw [A.lambda_1_sqrt, hl, A.X, A.m, sq, Fl.mul_fin, Fl.mul_fin, Fl.mul_fin]
    simp only [mul_zero, zero_mul]
    by_cases hr : (Kinematics.make ps S pt).X * (Kinematics.make ps S pt).X = 0
    · rw [hr, Fl.div_fin_zero]; simp
    · rw [Fl.div_fin _ hr]; simp
  have hv := ((c23_cut_rad _ _).1 hok).1
  unfold Cut.validRad at hv
  simp only [ite_not_iff] at hv
  obtain ⟨-, ⟨h, -⟩, -⟩ := hv
  change _ ≤ ((Cut.tauMap K).apply (p 0) (Cut.tauBoundCut cut K)).1 at h
  rw [hw] at h
  simp at h

theorem k_0_bar_fin (hm : Massive ps) {t f r : ℝ} (ha : AcceptedRad ps S pt t f r) :
    (KinematicsRad.make (.make (finPs ps) (.fin S) (finPt pt)) (.fin t) (.fin f) (.fin r)).k_0_bar =
      .fin ((KinematicsRad.make (.make ps S pt) t f r).k_0_bar) := by
  have h' := ha.acc
  set tb := Cut.tauBound (.make (finPs ps) (.fin S) (finPt pt)) with htb
  have A : Agree (.make (finPs ps) (.fin S) (finPt pt)) _ := h'.agree hm
  have emu := muOf_fin hm h' f r ha.photon
  have hmx : 0 < (Kinematics.make ps S pt).mx := by
    refine Real.sqrt_pos.2 (lt_of_lt_of_le ?_ h'.missing)
    have := lt_of_lt_of_le hm.M_pos hm.Mth_ge
    positivity
  have d : 2 * (Kinematics.make ps S pt).mx ≠ 0 := by positivity
  have e1 : (KinematicsRad.make (.make (finPs ps) (.fin S) (finPt pt)) (.fin t) (.fin f)
          (.fin r)).mu = .fin (KinematicsRad.make (.make ps S pt) t f r).mu := by
    rw [← emu]
    simp only [tauBound_fin hm h', Cut.muOf, KinematicsRad.make]
    obtain ⟨t1, t2⟩ := tau_ends hm h' (.fin t) (.fin f) (.fin r)
    simp only [KinematicsRad.make] at t1 t2
    rw [t1, t2]
  change (((1 : Fl) + .fin t - (KinematicsRad.make (.make (finPs ps) (.fin S) (finPt pt))
          (.fin t) (.fin f) (.fin r)).mu) * .fin r) / ((2 : Fl) * _) = _
  rw [e1, A.mx, fl_one, fl_two, Fl.mul_fin, Fl.add_fin, Fl.sub_fin, Fl.mul_fin, Fl.div_fin _ d]
  rfl

/-- A radiative point that is returned under a positive cut on the photon energy satisfies all that
is needed for sampling. -/
theorem samplable_of_ok (hm : Massive ps) (h : Accepted ps S pt) (cut : CutRad) (p : Fin 3 → Fl)
    (hok : (Cut.takePhotonCut cut (.make (finPs ps) (.fin S) (finPt pt)) p).ok = true)
    (hk : cut.k_0_bar.valid) (h0 : .fin 0 < cut.k_0_bar.min) : Samplable ps S pt := by
  refine ⟨m_pos_of_ok hm cut p hok, angle_of_ok hm h cut p hok, lt_of_le_of_ne h.missing fun he => ?_⟩
  obtain ⟨h1, h2⟩ := (c23_cut_rad _ _).1 hok
  obtain ⟨t, f, r, e1, e2, e3, ha⟩ := (validRad_iff hm _ _ _).1 h1
  have hp := mu_pos (phi_k := f) (R := r) hm h ha.photon
  have hr : r ≤ 0 := by
    have := (R_le_iff hm h ha.photon).2 ha.missing
    have e : (Kinematics.make ps S pt).mx_sq - ps.Mth ^ 2 = 0 := by rw [← he]; ring
    have e' : (Kinematics.make ps S pt).mx_sq - ps.Mth * ps.Mth = 0 := by rw [← he]; ring
    first
      | simpa [e, e'] using this
  have hr0 : r = 0 := le_antisymm hr ha.R_nonneg
  have hc := h2 (cut.k_0_bar, _) (by
    simp only [cutRadTable, List.mem_cons, Prod.mk.injEq, true_and]
    right; right; right; left; rfl) hk
  have e : (Cut.takePhotonCut cut (.make (finPs ps) (.fin S) (finPt pt)) p).kin =
      .make (.make (finPs ps) (.fin S) (finPt pt)) (.fin t) (.fin f) (.fin r) := by
    rw [← e3, ← e1, ← e2]
    rfl
  change cut.k_0_bar.contains
    (Cut.takePhotonCut cut (.make (finPs ps) (.fin S) (finPt pt)) p).kin.k_0_bar at hc
  rw [e, k_0_bar_fin hm ha] at hc
  have z : (KinematicsRad.make (.make ps S pt) t f r).k_0_bar = 0 := by
    change (1 + t - (KinematicsRad.make (.make ps S pt) t f r).mu) * r / (2 * _) = 0
    rw [hr0]; simp
  rw [z] at hc
  have := hc.1
  cases hq : cut.k_0_bar.min <;> simp_all
  linarith

end

/-! ### Particle data -/

theorem make_fl (target : Nucleus) (beam : Lepton) (h : Hadron) (Mth : Fl) {P : Particles Fl}
    (hP : Particles.make target beam h Mth = some P) :
    ∃ ps : Particles ℝ, P = finPs ps ∧ Massive ps ∧ ps.target = target ∧ ps.beam = beam ∧
      ps.hadron = h ∧ Mth = .fin ps.Mth ∧ ps.Mth ≤ ps.M + ps.mh := by
  unfold Particles.make at hP
  simp only at hP
  split_ifs at hP with hc
  push Not at hc
  obtain rfl := Option.some.inj hP
  have e1 : (target.mass : Fl) = .fin (target.mass : ℝ) := by cases target <;> rfl
  have e2 : (beam.mass : Fl) = .fin (beam.mass : ℝ) := by cases beam <;> rfl
  have e3 : (h.mass : Fl) = .fin (h.mass : ℝ) := by cases h <;> rfl
  obtain ⟨M, rfl⟩ : ∃ M, Mth = .fin M := by
    obtain ⟨h1, h2⟩ := hc
    rw [e1] at h1
    rw [e1, e3, Fl.add_fin] at h2
    exact fl_between h1 h2
  rw [e1, e3, Fl.add_fin] at hc
  have hr : Particles.make target beam h M = some ⟨target, beam, h, target.mass, beam.mass, h.mass, M⟩ := by
    unfold Particles.make
    simp only
    rw [if_neg]
    push Not
    exact hc
  exact ⟨⟨target, beam, h, target.mass, beam.mass, h.mass, M⟩, by simp only [finPs, e1, e2, e3],
    Massive.of_make hr, rfl, rfl, rfl, rfl, hc.2⟩

/-! ### Reading the parameters -/

namespace Density

open Sidis.ParamStream Sidis.Codec Sidis.Format

theorem fromParams_ok {α : Type} {x : Except MErr α} {a : α} :
    fromParams x = .ok a ↔ x = .ok a := by
  cases x <;> simp [fromParams]

theorem bound_ok {p : P} {n : String} {b : Bound} :
    bound p n = .ok b ↔
      ∃ lo hi, actual p n = some (.bound lo hi) ∧ b = Bound.mk' lo.toFl hi.toFl := by
  unfold bound
  simp only [bind_ok, fromParams_ok, look_ok, actual_eq]
  constructor
  · rintro ⟨v, h1, h2⟩
    split at h2
    · cases h2; exact ⟨_, _, h1, rfl⟩
    · cases h2
  · rintro ⟨lo, hi, h1, rfl⟩
    exact ⟨_, h1, rfl⟩

theorem double_ok {p : P} {n : String} {b : Fl} :
    double p n = .ok b ↔ ∃ d, actual p n = some (.double d) ∧ b = d.toFl := by
  unfold double
  simp only [bind_ok, fromParams_ok, look_ok, actual_eq]
  constructor
  · rintro ⟨v, h1, h2⟩
    split at h2
    · cases h2; exact ⟨_, h1, rfl⟩
    · cases h2
  · rintro ⟨lo, h1, rfl⟩
    exact ⟨_, h1, rfl⟩

theorem int_ok {p : P} {n : String} {b : ℤ} :
    int p n = .ok b ↔ actual p n = some (.int b) := by
  unfold int
  simp only [bind_ok, fromParams_ok, look_ok, actual_eq]
  constructor
  · rintro ⟨v, h1, h2⟩
    split at h2
    · cases h2; exact h1
    · cases h2
  · intro h1
    exact ⟨_, h1, rfl⟩

theorem nucleus_ok {p : P} {n : String} {b : Nucleus} :
    nucleus p n = .ok b ↔ actual p n = some (.nucleus b) := by
  unfold nucleus
  simp only [bind_ok, fromParams_ok, look_ok, actual_eq]
  constructor
  · rintro ⟨v, h1, h2⟩
    split at h2
    · cases h2; exact h1
    · cases h2
  · intro h1
    exact ⟨_, h1, rfl⟩

theorem lepton_ok {p : P} {n : String} {b : Lepton} :
    lepton p n = .ok b ↔ actual p n = some (.lepton b) := by
  unfold lepton
  simp only [bind_ok, fromParams_ok, look_ok, actual_eq]
  constructor
  · rintro ⟨v, h1, h2⟩
    split at h2
    · cases h2; exact h1
    · cases h2
  · intro h1
    exact ⟨_, h1, rfl⟩

theorem hadron_ok {p : P} {n : String} {b : Hadron} :
    hadron p n = .ok b ↔ actual p n = some (.hadron b) := by
  unfold hadron
  simp only [bind_ok, fromParams_ok, look_ok, actual_eq]
  constructor
  · rintro ⟨v, h1, h2⟩
    split at h2
    · cases h2; exact h1
    · cases h2
  · intro h1
    exact ⟨_, h1, rfl⟩

theorem vec3_ok {p : P} {n : String} {b : V3 Fl} :
    vec3 p n = .ok b ↔ ∃ x y z, actual p n = some (.vec3 x y z) ∧ b = ⟨x.toFl, y.toFl, z.toFl⟩ := by
  unfold vec3
  simp only [bind_ok, fromParams_ok, look_ok, actual_eq]
  constructor
  · rintro ⟨v, h1, h2⟩
    split at h2
    · cases h2; exact ⟨_, _, _, h1, rfl⟩
    · cases h2
  · rintro ⟨x, y, z, h1, rfl⟩
    exact ⟨_, h1, rfl⟩

theorem mul_one_fl (a : Fl) : a * .fin 1 = a := by
  cases a <;> simp [Fl.infTimes_pos, Fl.infTimes_neg]

theorem mk'_contains {lo hi x : Fl} (h : lo ≤ hi) :
    (Bound.mk' lo hi).valid ∧ ((Bound.mk' lo hi).contains x ↔ lo ≤ x ∧ x ≤ hi) := by
  unfold Bound.mk'
  rw [if_neg (not_not.2 h)]
  exact ⟨h, Iff.rfl⟩

theorem holds_one {p : P} {n : String} {b : Bound} {x : Fl} (hb : bound p n = .ok b)
    (h : b.valid → b.contains x) : CutHolds p n 1 x := by
  intro lo hi ha hl
  obtain ⟨lo', hi', ha', rfl⟩ := bound_ok.1 hb
  rw [ha] at ha'
  cases ha'
  obtain ⟨h1, h2⟩ := mk'_contains (x := x) hl
  rw [mul_one_fl, mul_one_fl]
  exact h2.1 (h h1)

theorem mul_pos_le {a b : Fl} {c : ℝ} (hc : 0 < c) (h : a ≤ b) : a * .fin c ≤ b * .fin c := by
  have h1 := Fl.infTimes_pos hc
  have h2 := Fl.infTimes_neg (neg_lt_zero.2 hc)
  cases a <;> cases b <;> simp_all

theorem deg_pos : 0 < deg := by unfold deg; positivity [Real.pi_pos]

theorem holds_deg {p : P} {n : String} {b : Bound} {x : Fl} (hb : bound p n = .ok b)
    (h : (b.scale DEG).valid → (b.scale DEG).contains x) : CutHolds p n deg x := by
  intro lo hi ha hl
  obtain ⟨lo', hi', ha', rfl⟩ := bound_ok.1 hb
  rw [ha] at ha'
  cases ha'
  have e : (Bound.mk' lo.toFl hi.toFl).scale DEG = ⟨lo.toFl * .fin deg, hi.toFl * .fin deg⟩ := by
    unfold Bound.mk' Bound.scale
    rw [if_neg (not_not.2 hl), if_neg (by simp only [DEG, Fl.lt_fin]; exact not_lt.2 deg_pos.le)]
    rfl
  rw [e] at h
  exact h (mul_pos_le deg_pos hl)

theorem cut_holds {p : P} {cut : Cut} (h : cutFromParams p = .ok cut) {k : Kinematics Fl}
    (hs : Satisfies (cutTable cut k)) : ∀ row ∈ cutRows, CutHolds p row.1 row.2.1 (row.2.2 k) := by
  unfold cutFromParams at h
  simp only [bind_ok] at h
  obtain ⟨_, h1, _, h2, _, h3, _, h4, _, h5, _, h6, _, h7, _, h8, _, h9, _, h10, _, h11, _, h12, _,
    h13, _, h14, _, h15, _, h16, _, h17, _, h18, h⟩ := h
  cases h
  simp only [Satisfies, cutTable, List.forall_mem_cons, List.not_mem_nil, false_implies,
    implies_true, and_true] at hs
  obtain ⟨s1, s2, s3, s4, s5, s6, s7, s8, s9, s10, s11, s12, s13, s14, s15, s16, s17, s18⟩ := hs
  simp only [cutRows, List.forall_mem_cons, List.not_mem_nil, false_implies, implies_true, and_true]
  exact ⟨holds_one h1 s1, holds_one h2 s2, holds_one h3 s3, holds_one h4 s4, holds_deg h5 s5,
    holds_deg h6 s6, holds_one h7 s7, holds_one h8 s8, holds_one h9 s9, holds_one h10 s10,
    holds_one h11 s11, holds_one h12 s12, holds_one h13 s13, holds_one h14 s14, holds_one h15 s15,
    holds_deg h16 s16, holds_deg h17 s17, holds_deg h18 s18⟩

theorem of_holds_one {p : P} {n : String} {b : Bound} {x : Fl} (hb : bound p n = .ok b)
    (h : CutHolds p n 1 x) : b.valid → b.contains x := by
  intro hv
  obtain ⟨lo, hi, ha, rfl⟩ := bound_ok.1 hb
  have hl : lo.toFl ≤ hi.toFl := by
    by_contra hc
    rw [Bound.mk', if_pos hc] at hv
    exact invalid_not_valid hv
  have := h lo hi ha hl
  rw [mul_one_fl, mul_one_fl] at this
  exact (mk'_contains hl).2.2 this

theorem scale_mk' {lo hi : Fl} : (lo ≤ hi →
      (Bound.mk' lo hi).scale DEG = ⟨lo * .fin deg, hi * .fin deg⟩) ∧
    (((Bound.mk' lo hi).scale DEG).valid → lo ≤ hi) := by
  have hd : ¬ (DEG < .fin 0) := by simp only [DEG, Fl.lt_fin]; exact not_lt.2 deg_pos.le
  constructor
  · intro hl
    unfold Bound.mk' Bound.scale
    rw [if_neg (not_not.2 hl), if_neg hd]
    rfl
  · intro hv
    by_contra hc
    rw [Bound.mk', if_pos hc, Bound.scale, if_neg hd] at hv
    simp [Bound.invalid, Bound.valid] at hv

theorem of_holds_deg {p : P} {n : String} {b : Bound} {x : Fl} (hb : bound p n = .ok b)
    (h : CutHolds p n deg x) : (b.scale DEG).valid → (b.scale DEG).contains x := by
  intro hv
  obtain ⟨lo, hi, ha, rfl⟩ := bound_ok.1 hb
  have hl := scale_mk'.2 hv
  rw [scale_mk'.1 hl]
  exact h lo hi ha hl

/-- The sampled angle: inside a cut with finite ends, or anywhere on the circle without a cut. -/
theorem angle_range {p : P} {n : String} {b : Bound} {a : ℝ} (hb : bound p n = .ok b)
    (h : AngleOk p n a) : AngleRange (b.scale DEG) a := by
  obtain ⟨lo, hi, ha, rfl⟩ := bound_ok.1 hb
  obtain ⟨h1, h2⟩ := h lo hi ha
  constructor
  · intro hv
    have hl := scale_mk'.2 hv
    obtain ⟨l, u, rfl, rfl⟩ := h1 hl
    exact ⟨l * deg, u * deg, by rw [scale_mk'.1 hl]; rfl⟩
  · intro hv
    refine h2 fun hl => hv ?_
    rw [scale_mk'.1 hl]
    exact mul_pos_le deg_pos hl

theorem cut_of_holds {p : P} {cut : Cut} (h : cutFromParams p = .ok cut) {k : Kinematics Fl}
    (hs : ∀ row ∈ cutRows, CutHolds p row.1 row.2.1 (row.2.2 k)) :
    Satisfies (cutTable cut k) ∧
    bound p "cut.Q_sq" = .ok cut.Q_sq ∧ bound p "cut.W_sq" = .ok cut.W_sq ∧
    (∃ b, bound p "cut.phi_h" = .ok b ∧ cut.phi_h = b.scale DEG) ∧
    (∃ b, bound p "cut.phi" = .ok b ∧ cut.phi = b.scale DEG) := by
  unfold cutFromParams at h
  simp only [bind_ok] at h
  obtain ⟨_, h1, _, h2, _, h3, _, h4, _, h5, _, h6, _, h7, _, h8, _, h9, _, h10, _, h11, _, h12, _,
    h13, _, h14, _, h15, _, h16, _, h17, _, h18, h⟩ := h
  cases h
  simp only [cutRows, List.forall_mem_cons, List.not_mem_nil, false_implies,
    implies_true, and_true] at hs
  obtain ⟨s1, s2, s3, s4, s5, s6, s7, s8, s9, s10, s11, s12, s13, s14, s15, s16, s17, s18⟩ := hs
  refine ⟨?_, h7, h9, ⟨_, h5, rfl⟩, ⟨_, h6, rfl⟩⟩
  simp only [Satisfies, cutTable, List.forall_mem_cons, List.not_mem_nil, false_implies,
    implies_true, and_true]
  exact ⟨of_holds_one h1 s1, of_holds_one h2 s2, of_holds_one h3 s3, of_holds_one h4 s4,
    of_holds_deg h5 s5, of_holds_deg h6 s6, of_holds_one h7 s7, of_holds_one h8 s8,
    of_holds_one h9 s9, of_holds_one h10 s10, of_holds_one h11 s11, of_holds_one h12 s12,
    of_holds_one h13 s13, of_holds_one h14 s14, of_holds_one h15 s15, of_holds_deg h16 s16,
    of_holds_deg h17 s17, of_holds_deg h18 s18⟩

/-- The bound on the photon energy used for radiative events. -/
theorem k0_inter {lo hi s x : Fl} (hl : lo ≤ hi) (hs : s < hi) :
    let b := (Bound.mk' lo hi).inter (Bound.mk' s .pinf)
    b.valid ∧ (s ≤ b.min) ∧ (b.contains x → (lo ≤ x ∧ x ≤ hi) ∧ s ≤ x) := by
  have h1 : s ≤ Fl.pinf := by cases s <;> cases hi <;> simp_all
  have e : (Bound.mk' lo hi).inter (Bound.mk' s .pinf) = ⟨Fl.fmax lo s, hi⟩ := by
    unfold Bound.mk' Bound.inter
    rw [if_neg (not_not.2 hl), if_neg (not_not.2 h1)]
    cases lo <;> cases hi <;> cases s <;>
      simp_all [Fl.isNaN, Fl.fmax, Fl.fmin] <;> grind
  rw [e]
  refine ⟨?_, ?_, ?_⟩
  · cases lo <;> cases hi <;> cases s <;> simp_all [Bound.valid, Fl.fmax] <;> grind
  · cases lo <;> cases hi <;> cases s <;> simp_all [Fl.fmax] <;> grind
  · cases lo <;> cases hi <;> cases s <;> cases x <;> simp_all [Bound.contains, Fl.fmax] <;> grind

theorem setup_ok {p : P} {d : Setup} (h : Setup.make p = .ok d) :
    ∃ i : Inputs, i.Of p ∧ cutFromParams p = .ok d.cut ∧ d.rc_method = i.rc ∧
      d.soft_threshold = i.soft.toFl ∧
      Particles.make i.target i.beam i.hadron i.Mth.toFl = some d.ps ∧
      d.S = .fin 2 * (i.target.mass : Fl) * i.energy.toFl ∧ d.beam_pol = i.beamPol.toFl ∧
      d.target_pol = ⟨i.targetPol.1.toFl, i.targetPol.2.1.toFl, i.targetPol.2.2.toFl⟩ := by
  unfold Setup.make at h
  simp only [bind_ok, fromParams_ok, lookRc_ok, double_ok, nucleus_ok, lepton_ok, hadron_ok] at h
  obtain ⟨cut, hcut, rc, hrc, _, ⟨soft, hsoft, rfl⟩, tg, htg, bm, hbm, hd, hhd, _, ⟨Mth, hMth, rfl⟩, h⟩ := h
  split at h
  · cases h
  · rename_i ps hps
    simp only [bind_ok, double_ok, vec3_ok] at h
    obtain ⟨_, ⟨E, hE, rfl⟩, _, ⟨bp, hbp, rfl⟩, _, ⟨x, y, z, htp, rfl⟩, h⟩ := h
    cases h
    have ht : ps.target = tg := by
      unfold Particles.make at hps
      simp only at hps
      split_ifs at hps
      cases hps; rfl
    refine ⟨⟨rc, soft, tg, bm, hd, Mth, E, bp, (x, y, z)⟩,
      ⟨hrc, hsoft, htg, hbm, hhd, hMth, hE, hbp, htp⟩, hcut, rfl, rfl, hps, ?_, rfl, rfl⟩
    simp only [ht]

theorem inputs_unique {i j : Inputs} {p : P} (hi : i.Of p) (hj : j.Of p) : i = j := by
  obtain ⟨a1, a2, a3, a4, a5, a6, a7, a8, a9⟩ := hi
  obtain ⟨b1, b2, b3, b4, b5, b6, b7, b8, b9⟩ := hj
  obtain ⟨i1, i2, i3, i4, i5, i6, i7, i8, i9, i10, i11⟩ := i
  obtain ⟨j1, j2, j3, j4, j5, j6, j7, j8, j9, j10, j11⟩ := j
  simp_all

theorem mass_fl (t : Nucleus) : (t.mass : Fl) = .fin (t.mass : ℝ) := by cases t <;> rfl
theorem hmass_fl (t : Hadron) : (t.mass : Fl) = .fin (t.mass : ℝ) := by cases t <;> rfl

theorem make_isSome {i : Inputs} :
    (∃ ps, Particles.make i.target i.beam i.hadron i.Mth.toFl = some ps) ↔ i.MassOk := by
  unfold Particles.make Inputs.MassOk
  simp only [mass_fl, hmass_fl, Fl.add_fin]
  constructor
  · rintro ⟨ps, h⟩
    split_ifs at h with hc
    push Not at hc
    cases hM : i.Mth <;> simp_all [Dbl.toFl]
  · rintro ⟨q, hq, h1, h2⟩
    rw [if_neg]
    · exact ⟨_, rfl⟩
    · rw [hq]
      push Not
      exact ⟨h1, h2⟩

theorem std_bound {p : P} (hp : Std p) {n : String}
    (hs : ∃ s, stdFormat.find n.toList = some s ∧ s.type = .bound ∧
      ∃ a lo hi, s.dflt = some (a, .bound lo hi)) :
    ∃ lo hi, actual p n = some (.bound lo hi) := by
  obtain ⟨s, hs, ht, a, lo, hi, ha⟩ := hs
  obtain ⟨v, hv, hty⟩ := av_default hp hs ⟨a, _, ha, by rw [ht]; rfl⟩
  rw [ht] at hty
  cases v <;> simp [Val.ty] at hty
  exact ⟨_, _, hv⟩

theorem std_bound_ok {p : P} (hp : Std p) {n : String}
    (hs : ∃ s, stdFormat.find n.toList = some s ∧ s.type = .bound ∧
      ∃ a lo hi, s.dflt = some (a, .bound lo hi)) : ∃ b, bound p n = .ok b := by
  obtain ⟨lo, hi, h⟩ := std_bound hp hs
  exact ⟨_, bound_ok.2 ⟨lo, hi, h, rfl⟩⟩

theorem cut_total {p : P} (hp : Std p) : ∃ cut, cutFromParams p = .ok cut := by
  unfold cutFromParams
  simp only [bind_ok]
  have B : ∀ n : String, (∃ s, stdFormat.find n.toList = some s ∧ s.type = .bound ∧
      ∃ a lo hi, s.dflt = some (a, .bound lo hi)) → ∃ b, bound p n = .ok b :=
    fun n h => std_bound_ok hp h
  obtain ⟨_, h1⟩ := B "cut.x" ⟨_, rfl, rfl, _, _, _, rfl⟩
  obtain ⟨_, h2⟩ := B "cut.y" ⟨_, rfl, rfl, _, _, _, rfl⟩
  obtain ⟨_, h3⟩ := B "cut.z" ⟨_, rfl, rfl, _, _, _, rfl⟩
  obtain ⟨_, h4⟩ := B "cut.ph_t_sq" ⟨_, rfl, rfl, _, _, _, rfl⟩
  obtain ⟨_, h5⟩ := B "cut.phi_h" ⟨_, rfl, rfl, _, _, _, rfl⟩
  obtain ⟨_, h6⟩ := B "cut.phi" ⟨_, rfl, rfl, _, _, _, rfl⟩
  obtain ⟨_, h7⟩ := B "cut.Q_sq" ⟨_, rfl, rfl, _, _, _, rfl⟩
  obtain ⟨_, h8⟩ := B "cut.t" ⟨_, rfl, rfl, _, _, _, rfl⟩
  obtain ⟨_, h9⟩ := B "cut.W_sq" ⟨_, rfl, rfl, _, _, _, rfl⟩
  obtain ⟨_, h10⟩ := B "cut.r" ⟨_, rfl, rfl, _, _, _, rfl⟩
  obtain ⟨_, h11⟩ := B "cut.mx_sq" ⟨_, rfl, rfl, _, _, _, rfl⟩
  obtain ⟨_, h12⟩ := B "cut.qt_to_Q" ⟨_, rfl, rfl, _, _, _, rfl⟩
  obtain ⟨_, h13⟩ := B "cut.lab.mom_q" ⟨_, rfl, rfl, _, _, _, rfl⟩
  obtain ⟨_, h14⟩ := B "cut.lab.mom_k2" ⟨_, rfl, rfl, _, _, _, rfl⟩
  obtain ⟨_, h15⟩ := B "cut.lab.mom_h" ⟨_, rfl, rfl, _, _, _, rfl⟩
  obtain ⟨_, h16⟩ := B "cut.lab.theta_q" ⟨_, rfl, rfl, _, _, _, rfl⟩
  obtain ⟨_, h17⟩ := B "cut.lab.theta_k2" ⟨_, rfl, rfl, _, _, _, rfl⟩
  obtain ⟨_, h18⟩ := B "cut.lab.theta_h" ⟨_, rfl, rfl, _, _, _, rfl⟩
  exact ⟨_, _, h1, _, h2, _, h3, _, h4, _, h5, _, h6, _, h7, _, h8, _, h9, _, h10, _, h11, _, h12, _,
    h13, _, h14, _, h15, _, h16, _, h17, _, h18, rfl⟩

theorem setup_iff {p : P} (hp : Std p) {i : Inputs} (hi : i.Of p) :
    (∃ d, Setup.make p = .ok d) ↔ i.MassOk := by
  constructor
  · rintro ⟨d, h⟩
    obtain ⟨j, hj, -, -, -, hps, -⟩ := setup_ok h
    rw [inputs_unique hi hj]
    exact make_isSome.1 ⟨_, hps⟩
  · intro hm
    obtain ⟨ps, hps⟩ := make_isSome.2 hm
    obtain ⟨cut, hc⟩ := cut_total hp
    unfold Setup.make
    simp only [hc, lookRc_ok.2 (show av p _ = _ from hi.rc), double_ok.2 ⟨_, hi.soft, rfl⟩,
      nucleus_ok.2 hi.target, lepton_ok.2 hi.beam, hadron_ok.2 hi.hadron,
      double_ok.2 ⟨_, hi.Mth, rfl⟩, double_ok.2 ⟨_, hi.energy, rfl⟩,
      double_ok.2 ⟨_, hi.beamPol, rfl⟩, vec3_ok.2 ⟨_, _, _, hi.targetPol, rfl⟩, fromParams,
      bind, Except.bind, hps]
    exact ⟨_, rfl⟩

/-- The names checked by the constructor of the non-radiative density. -/
theorem photon_names : (stdFormat.filter (Filter.tag .cutNoNrad)).names =
    ["cut.tau".toList, "cut.phi_k".toList, "cut.R".toList, "cut.lab.mom_k".toList,
      "cut.lab.theta_k".toList] := by decide +kernel

theorem checkNames_ok {q : P} {ns : List Text} :
    checkNames q ns = .ok () ↔ ∀ n ∈ ns, q.isSet n = .ok false := by
  induction ns with
  | nil => simp [checkNames]
  | cons n ns ih =>
    simp only [checkNames, bind_ok, fromParams_ok, lift_ok, List.forall_mem_cons]
    constructor
    · rintro ⟨b, h1, h2⟩
      cases b
      · exact ⟨h1, ih.1 h2⟩
      · simp at h2
    · rintro ⟨h1, h2⟩
      exact ⟨false, h1, by simpa using ih.2 h2⟩

theorem names_unset {p : P} (hp : Std p) :
    checkNames (p.filter (.tag .cutNoNrad)) (p.filter (.tag .cutNoNrad)).names = .ok () ↔
      ∀ n ∈ ["cut.tau", "cut.phi_k", "cut.R", "cut.lab.mom_k", "cut.lab.theta_k"],
        given p n = none := by
  have hf : ∀ n ∈ (p.filter (Filter.tag .cutNoNrad)).names,
      ((p.filter (.tag .cutNoNrad)).isSet n = .ok false ↔ gv p n = none) := by
    intro n hn
    obtain ⟨q, hq⟩ := Params.find_isSome_iff.2 hn
    have hq' := ((find_filter (std_wf' hp) _ n q).1 hq).1
    rw [isSet_ok]
    simp only [gv, hq, hq', Option.bind_some]
    cases q.value <;> simp
  rw [checkNames_ok, filter_names hp, photon_names]
  rw [filter_names hp, photon_names] at hf
  simp only [List.forall_mem_cons, List.not_mem_nil, false_implies, implies_true, and_true] at hf ⊢
  simp only [given_eq, hf.1, hf.2.1, hf.2.2.1, hf.2.2.2.1, hf.2.2.2.2]

theorem cutRad_ok {p : P} {c : CutRad} (h : cutRadFromParams p = .ok c)
    (he : actual p "mc.rad.enable" = some (.bool true)) :
    ∃ lo hi s, actual p "cut.k_0_bar" = some (.bound lo hi) ∧
      actual p "phys.soft_threshold" = some (.double s) ∧
      c.k_0_bar = (Bound.mk' lo.toFl hi.toFl).inter (Bound.mk' s.toFl .pinf) ∧
      ∀ k : KinematicsRad Fl, Satisfies (cutRadTable c k) →
        (lo.toFl ≤ hi.toFl → s.toFl < hi.toFl →
          (lo.toFl ≤ k.k_0_bar ∧ k.k_0_bar ≤ hi.toFl) ∧ s.toFl ≤ k.k_0_bar) ∧
        ∀ row ∈ photonRows, row.1 ≠ "cut.k_0_bar" → CutHolds p row.1 row.2.1 (row.2.2 k) := by
  unfold cutRadFromParams at h
  simp only [bind_ok, fromParams_ok, lookBool_ok] at h
  obtain ⟨b, hb, h⟩ := h
  have hb' : some (Val.bool b) = some (Val.bool true) := hb.symm.trans he
  cases hb'
  simp only [if_true, bind_ok] at h
  obtain ⟨_, h1, _, h2, _, h3, _, h4, _, h5, _, h6, _, h7, h⟩ := h
  cases h
  obtain ⟨lo, hi, hk, rfl⟩ := bound_ok.1 h4
  obtain ⟨s, hs, rfl⟩ := double_ok.1 h5
  refine ⟨lo, hi, s, hk, hs, rfl, fun k hsat => ?_⟩
  simp only [Satisfies, cutRadTable, List.forall_mem_cons, List.not_mem_nil, false_implies,
    implies_true, and_true] at hsat
  obtain ⟨s1, s2, s3, s4, s5, s6⟩ := hsat
  refine ⟨fun hl hs' => ?_, ?_⟩
  · obtain ⟨v, -, e⟩ := k0_inter (x := k.k_0_bar) hl hs'
    exact e (s4 v)
  · simp only [photonRows, List.forall_mem_cons, List.not_mem_nil, false_implies, implies_true,
      and_true]
    exact ⟨fun _ => holds_one h1 s1, fun _ => holds_deg h2 s2, fun _ => holds_one h3 s3,
      fun h => absurd rfl h, fun _ => holds_one h6 s5, fun _ => holds_deg h7 s6⟩

theorem cutRad_total {p : P} (hp : Std p) {i : Inputs} (hi : i.Of p) :
    ∃ c, cutRadFromParams p = .ok c := by
  unfold cutRadFromParams
  obtain ⟨b, hb⟩ := av_bool hp .rad
  have B : ∀ n : String, (∃ s, stdFormat.find n.toList = some s ∧ s.type = .bound ∧
      ∃ a lo hi, s.dflt = some (a, .bound lo hi)) → ∃ b, bound p n = .ok b :=
    fun n h => std_bound_ok hp h
  obtain ⟨_, h1⟩ := B "cut.tau" ⟨_, rfl, rfl, _, _, _, rfl⟩
  obtain ⟨_, h2⟩ := B "cut.phi_k" ⟨_, rfl, rfl, _, _, _, rfl⟩
  obtain ⟨_, h3⟩ := B "cut.R" ⟨_, rfl, rfl, _, _, _, rfl⟩
  obtain ⟨_, h4⟩ := B "cut.k_0_bar" ⟨_, rfl, rfl, _, _, _, rfl⟩
  obtain ⟨_, h5⟩ := B "cut.lab.mom_k" ⟨_, rfl, rfl, _, _, _, rfl⟩
  obtain ⟨_, h6⟩ := B "cut.lab.theta_k" ⟨_, rfl, rfl, _, _, _, rfl⟩
  simp only [lookBool_ok.2 hb, fromParams, bind, Except.bind]
  cases b
  · exact ⟨_, rfl⟩
  · simp only [if_true, h1, h2, h3, h4, h5, h6, double_ok.2 ⟨_, hi.soft, rfl⟩]
    exact ⟨_, rfl⟩

theorem nrad_ok {p : P} {d : Setup} (h : nradMake p = .ok d) : Setup.make p = .ok d := by
  unfold nradMake at h
  simp only [bind_ok] at h
  obtain ⟨a, h1, h2⟩ := h
  split_ifs at h2
  · simp only [bind_ok] at h2
    obtain ⟨b, -, h2⟩ := h2
    split_ifs at h2
    · simp only [bind_ok] at h2
      obtain ⟨c, -, h2⟩ := h2
      split_ifs at h2
      · simp [bind, Except.bind] at h2
      · simp only [bind_ok] at h2
        obtain ⟨_, _, h2⟩ := h2
        cases h2; exact h1
    · simp only [bind_ok] at h2
      obtain ⟨_, _, h2⟩ := h2
      cases h2; exact h1
  · cases h2; exact h1

theorem rad_ok {p : P} {d : RadSetup} (h : radMake p = .ok d) :
    Setup.make p = .ok d.toSetup ∧ cutRadFromParams p = .ok d.cut_rad ∧ d.rc_method ≠ .none ∧
      ∃ lo hi, actual p "cut.k_0_bar" = some (.bound lo hi) ∧ lo.toFl ≤ hi.toFl ∧
        d.soft_threshold < hi.toFl := by
  unfold radMake at h
  simp only [bind_ok] at h
  obtain ⟨a, h1, c, h2, h⟩ := h
  split_ifs at h with hr
  simp only [bind_ok] at h
  obtain ⟨b, hb, h⟩ := h
  split_ifs at h with hk
  cases h
  obtain ⟨lo, hi, ha, rfl⟩ := bound_ok.1 hb
  refine ⟨h1, h2, hr, lo, hi, ha, ?_, ?_⟩
  · by_contra hc
    rw [Bound.mk', if_pos hc] at hk
    simp [Bound.invalid] at hk
  · by_contra hc
    unfold Bound.mk' at hk
    split_ifs at hk
    · exact hc hk
    · simp [Bound.invalid] at hk

end Density

end Sidis
