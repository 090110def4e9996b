import Verif.Lemmas.CutRad
import Verif.Props.Cut

/-! # Validity, limits and sampling of the process with a photon (C24, C25, C66, C67) -/

namespace Sidis.Props

open Spec VarMap

section
variable {ps : Particles ℝ} {S : ℝ} {pt : PhaseSpace ℝ}

/-- C66 for the process with a photon: `valid(kin)` accepts exactly the points of the radiative
phase space, in particular only those that leave an undetected system above threshold; infinite and
NaN photon variables are rejected. -/
theorem c66_valid_rad (hm : Massive ps) (tau phi_k R : Fl) :
    Cut.validRad (.make (.make (finPs ps) (.fin S) (finPt pt)) tau phi_k R) = true ↔
      ∃ t p r : ℝ, tau = .fin t ∧ phi_k = .fin p ∧ R = .fin r ∧ AcceptedRad ps S pt t p r :=
  validRad_iff hm tau phi_k R

/-- Every point with room for a photon has a radiative point with a photon above it. -/
theorem exists_rad (hm : Massive ps) (h : Accepted ps S pt) (hs : Samplable ps S pt) {t : ℝ} (f : ℝ)
    (ht : ps.M ^ 2 * t ^ 2 ≤ S * pt.y * t + S * pt.x * pt.y) :
    ∃ r, 0 < r ∧ AcceptedRad ps S pt t f r := by
  have hp := mu_pos (phi_k := f) (R := 0) hm h ht
  have hr := hs.room
  refine ⟨((Kinematics.make ps S pt).mx_sq - ps.Mth ^ 2) /
    (1 + t - (KinematicsRad.make (.make ps S pt) t f 0).mu), div_pos (by linarith) hp, h, ht,
    (div_pos (by linarith) hp).le, ?_⟩
  rw [← R_le_iff hm h ht, one_div_mul_eq_div]
  exact le_of_eq rfl

theorem sample_samplable : Samplable samplePs 20 samplePt := by
  obtain ⟨-, h, -⟩ := sample_mx
  refine ⟨?_, ?_, h⟩ <;> norm_num [samplePs, samplePt, Nucleus.mass, Lepton.mass, CMath.ofReal]

/-- Non-vacuity: a radiative point with a hard photon is accepted. -/
example : ∃ r : ℝ, 0 < r ∧ AcceptedRad samplePs 20 samplePt (1 / 10) 2 r ∧
    Cut.validRad (.make (.make (finPs samplePs) (.fin 20) (finPt samplePt)) (.fin (1 / 10)) (.fin 2)
      (.fin r)) = true := by
  obtain ⟨r, h0, h⟩ := exists_rad sample_accepted.1 sample_accepted.2 sample_samplable
    (t := 1 / 10) 2 (by norm_num [samplePs, samplePt, Nucleus.mass, CMath.ofReal])
  exact ⟨r, h0, h, (validRad_iff sample_accepted.1 _ _ _).2 ⟨_, _, _, rfl, rfl, rfl, h⟩⟩

/-- C66: at accepted radiative points (non-zero angle, `x > 0`) the momenta of C17 describe a real
photon of non-negative energy, and the undetected system `p + q - k - ph` has at least the
threshold mass. -/
theorem c66_accepted_rad {pt : PhaseSpaceRad ℝ} (hm : Massive ps)
    (h : AcceptedRad ps S pt.project pt.tau pt.phi_k pt.R) (hs : Samplable ps S pt.project) :
    PhysicalRad ps S pt ∧
    let k := KinematicsRad.ofPoint ps S pt
    0 ≤ (momK k).t ∧ msq (momK k) = 0 ∧
    ps.Mth ^ 2 ≤ msq (momP k.project + (momQ k.project - momK k) - momH k.project) := by
  have hx := c66_x_pos hm h.acc hs.m_pos
  have hp : PhysicalRad ps S pt := ⟨accepted_physical hm h.acc hx, hs.angle, h.photon⟩
  refine ⟨hp, ?_⟩
  intro k
  obtain ⟨a, -, -, -, -, -, b⟩ := c17_photon hp
  obtain ⟨-, -, -, -, -, c, -⟩ := c17_shift hp
  refine ⟨?_, a, ?_⟩
  · rw [b]
    have := h.R_nonneg
    have := hm.M_pos
    positivity
  · rw [← c]
    exact h.missing

/-- C24 for the photon variables: every valid point is inside `tau_bound` and `R_bound`. -/
theorem c24_limits_rad (hm : Massive ps) (tau phi_k R : Fl)
    (h : Cut.validRad (.make (.make (finPs ps) (.fin S) (finPt pt)) tau phi_k R) = true) :
    (Cut.tauBound (.make (finPs ps) (.fin S) (finPt pt))).contains tau ∧
    (Cut.RBound (.make (finPs ps) (.fin S) (finPt pt)) tau phi_k).contains R := by
  obtain ⟨t, p, r, rfl, rfl, rfl, ha⟩ := (validRad_iff hm _ _ _).1 h
  have h' := ha.acc
  obtain ⟨-, -, -, -, Y2, Y0, -⟩ :=
    real_hadron hm.M_pos h'.S_pos h'.x_nonneg h'.y_pos h'.z_pos h'.hadron
  rw [tauBound_fin hm h', RBound_fin hm h' p r ha.photon]
  exact ⟨(tau_range _ hm.M_pos Y0 Y2 t).2 ha.photon, ha.R_nonneg,
    (R_le_iff hm h' ha.photon).2 ha.missing⟩

/-- C24 for the photon variables under cuts: every point that is valid and satisfies the radiative
cuts is inside the narrowed bounds. -/
theorem c24_limits_rad_cut (hm : Massive ps) (cut : CutRad) {tau phi_k R : Fl}
    (h : Cut.validCutRad cut (.make (.make (finPs ps) (.fin S) (finPt pt)) tau phi_k R) = true) :
    (Cut.tauBoundCut cut (.make (finPs ps) (.fin S) (finPt pt))).contains tau ∧
    (Cut.RBoundCut cut (.make (finPs ps) (.fin S) (finPt pt)) tau phi_k).contains R := by
  obtain ⟨hv, hs⟩ := (c23_cut_rad _ _).1 h
  obtain ⟨h1, h2⟩ := c24_limits_rad hm tau phi_k R hv
  obtain ⟨t, p, r, rfl, rfl, rfl, ha⟩ := (validRad_iff hm _ _ _).1 hv
  simp only [Satisfies, cutRadTable, List.forall_mem_cons] at hs
  obtain ⟨s1, -, s3, s4, -⟩ := hs
  have h' := ha.acc
  have A := h'.agree hm
  constructor
  · unfold Cut.tauBoundCut
    extract_lets r1
    split_ifs with hc
    · exact (c01_inter_contains _ _ _).2 ⟨h1, s1 hc⟩
    · exact h1
  · unfold Cut.RBoundCut
    extract_lets r1 r2 tb mu k0
    have c2 : r2.contains (.fin r) := by
      simp only [r2]
      split_ifs with hc
      · exact (c01_inter_contains _ _ _).2 ⟨h2, s3 hc⟩
      · exact h2
    split_ifs with hc
    · refine (c01_inter_contains _ _ _).2 ⟨c2, ?_⟩
      have hp := mu_pos (phi_k := p) (R := r) hm h' ha.photon
      have emu : mu = .fin (KinematicsRad.make (.make ps S pt) t p r).mu :=
        muOf_fin hm h' p r ha.photon
      have hmx : 0 < (Kinematics.make ps S pt).mx := by
        refine Real.sqrt_pos.2 (lt_of_lt_of_le ?_ h'.missing)
        have := lt_of_lt_of_le hm.M_pos hm.Mth_ge
        positivity
      have d : 2 * (Kinematics.make ps S pt).mx ≠ 0 := by positivity
      have e : (KinematicsRad.make (.make (finPs ps) (.fin S) (finPt pt)) (.fin t) (.fin p)
          (.fin r)).k_0_bar = .fin ((1 + t - (KinematicsRad.make (.make ps S pt) t p r).mu) * r /
            (2 * (Kinematics.make ps S pt).mx)) := by
        have e1 : (KinematicsRad.make (.make (finPs ps) (.fin S) (finPt pt)) (.fin t) (.fin p)
          (.fin r)).mu = mu := by
          simp only [mu, tb, tauBound_fin hm h', Cut.muOf, KinematicsRad.make]
          obtain ⟨t1, t2⟩ := tau_ends hm h' (.fin t) (.fin p) (.fin r)
          simp only [KinematicsRad.make] at t1 t2
          rw [t1, t2]
        change (((1 : Fl) + .fin t - (KinematicsRad.make (.make (finPs ps) (.fin S) (finPt pt))
          (.fin t) (.fin p) (.fin r)).mu) * .fin r) / ((2 : Fl) * _) = _
        rw [e1, emu, A.mx, fl_one, fl_two, Fl.mul_fin, Fl.add_fin, Fl.sub_fin, Fl.mul_fin,
          Fl.div_fin _ d]
      have s4' := s4 hc
      rw [e] at s4'
      have q := (c04_scale _ _ (2 * (Kinematics.make ps S pt).mx) (by positivity)).1.2 s4'
      rw [Fl.mul_fin, div_mul_cancel₀ _ d] at q
      have := unscale_contains hp q
      simp only [k0, A.mx, fl_one, fl_two, Fl.mul_fin, Fl.add_fin, Fl.sub_fin, emu]
      exact this
    · exact c2

theorem sigmoid_nan (c w : Fl) : (sigmoid c w).u .nan = .nan ∧ (sigmoid c w).x .nan = .nan := by
  have e1 : (CMap.asinh (Fl.nan) : Fl) = .nan := rfl
  have e2 : (CMap.sinh (Fl.nan) : Fl) = .nan := rfl
  simp [sigmoid, e1, e2]
theorem logarithm_nan (o : Fl) : (logarithm o).u .nan = .nan ∧ (logarithm o).x .nan = .nan := by
  have e1 : (CMap.log (Fl.nan) : Fl) = .nan := rfl
  have e2 : (CMap.exp (Fl.nan) : Fl) = .nan := rfl
  simp [logarithm, e1, e2]
theorem sigmoid2_nan (c w cr wr : Fl) :
    (sigmoid2 c w cr wr).u .nan = .nan ∧ (sigmoid2 c w cr wr).x .nan = .nan := by
  have e1 : (CMap.asinh (Fl.nan) : Fl) = .nan := rfl
  have e2 : (CMap.sinh (Fl.nan) : Fl) = .nan := rfl
  have e3 : (CMap.cosh (Fl.nan) : Fl) = .nan := rfl
  simp [sigmoid2, sigmoid2U, sigmoid2X, e1, e2, e3]

theorem tauBoundCut_normal {cut : CutRad} {k : Kinematics Fl} : (Cut.tauBoundCut cut k).Normal := by
  unfold Cut.tauBoundCut
  simp only
  split_ifs
  all_goals exact Bound.inter_normal _ _

theorem tauBoundCut_sub {cut : CutRad} {k : Kinematics Fl} {v : Fl}
    (h : (Cut.tauBoundCut cut k).contains v) : (Cut.tauBound k).contains v := by
  unfold Cut.tauBoundCut at h
  simp only at h
  split_ifs at h
  · exact inter_sub h
  · exact h

theorem mk'_normal (a b : Fl) : (Bound.mk' a b).Normal := by
  unfold Bound.mk'
  split_ifs with h
  · exact Or.inr h
  · exact Or.inl trivial

theorem RBoundCut_normal {cut : CutRad} {k : Kinematics Fl} {t p : Fl} :
    (Cut.RBoundCut cut k t p).Normal := by
  unfold Cut.RBoundCut
  simp only
  split_ifs
  all_goals first | exact Bound.inter_normal _ _ | exact mk'_normal _ _

theorem RBoundCut_sub {cut : CutRad} {k : Kinematics Fl} {t p v : Fl}
    (h : (Cut.RBoundCut cut k t p).contains v) : (Cut.RBound k t p).contains v := by
  unfold Cut.RBoundCut at h
  simp only at h
  split_ifs at h
  · exact inter_sub (inter_sub h)
  · exact inter_sub h
  · exact inter_sub h
  · exact h

/-- The range the sampler uses for `phi_k`. -/
def PhiKRange (cut : CutRad) (b : Bound) : Prop :=
  (cut.phi_k.valid ∧ b = cut.phi_k) ∨ (¬ cut.phi_k.valid ∧ b = ⟨.fin (-Real.pi), .fin Real.pi⟩)

/-- C25 for the photon variables: a successful call of `take(cut, kin, ...)` at a point of the unit
cube has sampled `tau`, `phi_k` and `R` by maps whose jacobians are the derivatives of the
variables, each within its bound at the preceding variables, and the jacobian written out is the
finite non-negative product of the three; the point is in the radiative phase space. -/
theorem c25_jacobian_rad (hm : Massive ps) (h : Accepted ps S pt) (hs : Samplable ps S pt)
    (cut : CutRad) (hk : cut.phi_k.valid → ∃ lo hi : ℝ, cut.phi_k = ⟨.fin lo, .fin hi⟩)
    (p : Fin 3 → ℝ) (hp : ∀ i, 0 ≤ p i ∧ p i ≤ 1)
    (hok : (Cut.takePhotonCut cut (.make (finPs ps) (.fin S) (finPt pt))
      (fun i => .fin (p i))).ok = true) :
    let K := Kinematics.make (finPs ps) (.fin S) (finPt pt)
    ∃ (t f r jt jf jr : ℝ) (b : Bound), AcceptedRad ps S pt t f r ∧
      (Cut.takePhotonCut cut K (fun i => .fin (p i))).kin = .make K (.fin t) (.fin f) (.fin r) ∧
      Axis (Cut.tauMap K) (Cut.tauBoundCut cut K) (p 0) t jt ∧
      Axis (Cut.phiKMap K) b (p 1) f jf ∧ PhiKRange cut b ∧
      Axis (Cut.RMap K) (Cut.RBoundCut cut K (.fin t) (.fin f)) (p 2) r jr ∧
      (Cut.takePhotonCut cut K (fun i => .fin (p i))).jac = .fin (jt * jf * jr) ∧
      0 ≤ jt * jf * jr := by
  classical
  intro K
  have hv := ((c23_cut_rad _ _).1 hok).1
  set x := (Cut.tauMap K).apply (.fin (p 0)) (Cut.tauBoundCut cut K) with ex
  set b := if cut.phi_k.valid then cut.phi_k else Cut.fullCircle with eb
  set y := (Cut.phiKMap K).apply (.fin (p 1)) b with ey
  set z := (Cut.RMap K).apply (.fin (p 2)) (Cut.RBoundCut cut K x.1 y.1) with ez
  have ekin : (Cut.takePhotonCut cut K (fun i => .fin (p i))).kin = .make K x.1 y.1 z.1 := by
    simp only [Cut.takePhotonCut, ← ex]
    rw [ez, ey, eb]
  have ejac : (Cut.takePhotonCut cut K (fun i => .fin (p i))).jac = x.2 * y.2 * z.2 := by
    simp only [Cut.takePhotonCut, ← ex]
    rw [ez, ey, eb]
  have hv' : Cut.validRad (.make K x.1 y.1 z.1) = true := by
    rw [← ekin]; exact hv
  obtain ⟨t, f, r, e1, e2, e3, ha⟩ := (validRad_iff hm _ _ _).1 hv'
  obtain ⟨x1, x2⟩ := x
  obtain ⟨y1, y2⟩ := y
  obtain ⟨z1, z2⟩ := z
  simp only at e1 e2 e3 ex ey ez ekin ejac
  subst e1 e2 e3
  obtain ⟨⟨c, w, cr, wr, mt, w0, wr0⟩, ⟨wk, mk, wk0⟩, ⟨o, mr, o0⟩⟩ := photon_maps hm h hs
  have hrange : PhiKRange cut b := by
    rw [eb]
    split_ifs with hc
    · exact Or.inl ⟨hc, rfl⟩
    · exact Or.inr ⟨hc, fullCircle_eq⟩
  have hbf : ∃ lo hi : ℝ, b = ⟨.fin lo, .fin hi⟩ := by
    rcases hrange with ⟨hc, e⟩ | ⟨-, e⟩
    · rw [e]; exact hk hc
    · exact ⟨_, _, e⟩
  obtain ⟨lo, hi, hbe⟩ := hbf
  have hbv : b.valid := by
    rcases hrange with ⟨hc, e⟩ | ⟨-, e⟩
    · rw [e]; exact hc
    · rw [e]; change -Real.pi ≤ Real.pi; linarith [Real.pi_pos]
  obtain ⟨jt, at', nt, qt⟩ := axis_of_finite (t := Cut.tauMap K) (by rw [mt]; exact sigmoid2_nan _ _ _ _)
    (tauBoundCut_normal (cut := cut) (k := K))
    (fun v hv => by
      have q := tauBoundCut_sub hv
      rw [tauBound_fin hm h] at q
      exact q)
    (fun lo hi hl _ _ => by rw [mt]; exact (c28_apply_map hl).2.2.2.2.2 _ _ _ _ w0 wr0) (hp 0).1
    (hp 0).2 (congrArg Prod.fst ex).symm
  obtain ⟨jf, af, nf, qf⟩ := axis_of_finite (t := Cut.phiKMap K) (by rw [mk]; exact sigmoid_nan _ _)
    (b := b) (Or.inr hbv) (l := lo) (u := hi)
    (fun v hv => by rw [hbe] at hv; exact hv)
    (fun lo hi hl _ _ => by rw [mk]; exact (c28_apply_map hl).2.2.2.2.1 _ _ wk0) (hp 1).1
    (hp 1).2 (congrArg Prod.fst ey).symm
  obtain ⟨jr, ar, nr, qr⟩ := axis_of_finite (t := Cut.RMap K) (by rw [mr]; exact logarithm_nan _)
    (RBoundCut_normal (cut := cut) (k := K) (t := .fin t) (p := .fin f))
    (fun v hv => by
      have q := RBoundCut_sub hv
      rw [RBound_fin hm h f r ha.photon] at q
      exact q)
    (fun lo hi hl h0 _ => by rw [mr]; exact (c28_apply_map hl).2.2.1 _ (by linarith)) (hp 2).1
    (hp 2).2 (congrArg Prod.fst ez).symm
  refine ⟨t, f, r, jt, jf, jr, b, ha, ekin, at', af, hrange, ar, ?_, by positivity⟩
  rw [ejac, show x2 = .fin jt from congrArg Prod.snd (ex.trans qt),
      show y2 = .fin jf from congrArg Prod.snd (ey.trans qf),
      show z2 = .fin jr from congrArg Prod.snd (ez.trans qr)]
  rfl

/-- C67 for the photon variables: every radiative point above `kin` that is valid and satisfies the
radiative cuts is returned by `take(cut, kin, ...)` at some point of the unit cube, with a finite
non-negative jacobian. -/
theorem c67_complete_photon (hm : Massive ps) (hs : Samplable ps S pt) (cut : CutRad) {t f r : ℝ}
    (h : Cut.validCutRad cut (.make (.make (finPs ps) (.fin S) (finPt pt)) (.fin t) (.fin f)
      (.fin r)) = true) (hf : AngleRange cut.phi_k f) :
    ∃ (p : Fin 3 → ℝ) (j : ℝ), (∀ i, 0 ≤ p i ∧ p i ≤ 1) ∧ 0 ≤ j ∧
      Cut.takePhotonCut cut (.make (finPs ps) (.fin S) (finPt pt)) (fun i => .fin (p i)) =
        ⟨true, .make (.make (finPs ps) (.fin S) (finPt pt)) (.fin t) (.fin f) (.fin r), .fin j⟩ := by
  classical
  obtain ⟨mt, mr⟩ := c24_limits_rad_cut hm cut h
  obtain ⟨hv, hsat⟩ := (c23_cut_rad _ _).1 h
  obtain ⟨t', f', r', e1, e2, e3, ha⟩ := (validRad_iff hm _ _ _).1 hv
  simp only [Fl.fin.injEq] at e1 e2 e3
  subst e1 e2 e3
  have h' := ha.acc
  simp only [Satisfies, cutRadTable, List.forall_mem_cons] at hsat
  obtain ⟨-, s2, -⟩ := hsat
  obtain ⟨⟨c, w, cr, wr, emt, w0, wr0⟩, ⟨wk, emk, wk0⟩, ⟨o, emr, o0⟩⟩ := photon_maps hm h' hs
  set K := Kinematics.make (finPs ps) (.fin S) (finPt pt) with hK
  obtain ⟨p0, jt, a0, b0, n0, -, q0⟩ := axis_onto (t := Cut.tauMap K)
    (fun v hv => by
      have q := tauBoundCut_sub hv
      rw [tauBound_fin hm h'] at q
      exact q)
    (fun lo hi hl _ _ => by rw [emt]; exact (c28_apply_map hl).2.2.2.2.2 _ _ _ _ w0 wr0) mt
  have hb : ∃ lo hi : ℝ, (if cut.phi_k.valid then cut.phi_k else Cut.fullCircle) =
      ⟨.fin lo, .fin hi⟩ ∧
      (if cut.phi_k.valid then cut.phi_k else Cut.fullCircle).contains (.fin f) := by
    split_ifs with hc
    · obtain ⟨lo, hi, e⟩ := hf.1 hc
      exact ⟨lo, hi, e, s2 hc⟩
    · exact ⟨_, _, fullCircle_eq, by rw [fullCircle_eq]; exact hf.2 hc⟩
  obtain ⟨lo, hi, ebe, hbc⟩ := hb
  obtain ⟨p1, jf, a1, b1, n1, -, q1⟩ := axis_onto (t := Cut.phiKMap K) (l := lo) (u := hi)
    (fun v hv => by rw [ebe] at hv; exact hv)
    (fun lo hi hl _ _ => by rw [emk]; exact (c28_apply_map hl).2.2.2.2.1 _ _ wk0) hbc
  obtain ⟨p2, jr, a2, b2, n2, -, q2⟩ := axis_onto (t := Cut.RMap K)
    (fun v hv => by
      have q := RBoundCut_sub hv
      rw [RBound_fin hm h' f r ha.photon] at q
      exact q)
    (fun lo hi hl h0 _ => by rw [emr]; exact (c28_apply_map hl).2.2.1 _ (by linarith)) mr
  refine ⟨![p0, p1, p2], jt * jf * jr, ?_, by positivity, ?_⟩
  · intro i
    fin_cases i
    exacts [⟨a0, b0⟩, ⟨a1, b1⟩, ⟨a2, b2⟩]
  · unfold Cut.takePhotonCut
    have f0 : (![p0, p1, p2] : Fin 3 → ℝ) 0 = p0 := rfl
    have f1 : (![p0, p1, p2] : Fin 3 → ℝ) 1 = p1 := rfl
    have f2 : (![p0, p1, p2] : Fin 3 → ℝ) 2 = p2 := rfl
    simp only [f0, f1, f2, q0]
    rw [show @ite Bound cut.phi_k.valid (Classical.propDecidable _) cut.phi_k Cut.fullCircle =
      if cut.phi_k.valid then cut.phi_k else Cut.fullCircle by congr!, q1]
    simp only [q2, Fl.mul_fin]
    rw [h]

/-- C67 for the nine-dimensional sampler: every radiative point that is valid and satisfies both
sets of cuts is returned by `take(cut, cut_rad, ...)` at some point of the unit cube. -/
theorem c67_complete_rad (hm : Massive ps) (hs : Samplable ps S pt) (cut : Cut) (cut_rad : CutRad)
    {t f r : ℝ}
    (h : Cut.validCuts cut cut_rad (.make (.make (finPs ps) (.fin S) (finPt pt)) (.fin t) (.fin f)
      (.fin r)) = true)
    (hQ : cut.Q_sq.valid → cut.Q_sq.max ≠ .pinf)
    (hW : cut.W_sq.valid → ∃ w : ℝ, cut.W_sq.min = .fin w ∧
      0 < S ^ 2 - 4 * ps.M ^ 2 * ps.m ^ 2 + ps.M ^ 2 * (w - ps.M ^ 2))
    (hph : AngleRange cut.phi_h pt.phi_h) (hp : AngleRange cut.phi pt.phi)
    (hf : AngleRange cut_rad.phi_k f) :
    ∃ (p : Fin 9 → ℝ) (j : ℝ), (∀ i, 0 ≤ p i ∧ p i ≤ 1) ∧ 0 ≤ j ∧
      Cut.takeRadCut cut cut_rad (finPs ps) (.fin S) (fun i => .fin (p i)) =
        some ⟨true, .make (.make (finPs ps) (.fin S) (finPt pt)) (.fin t) (.fin f) (.fin r),
          .fin j⟩ := by
  classical
  obtain ⟨h1, h2⟩ := (c23_cuts _ _ _).1 h
  rw [project_make'] at h1
  have ha := (valid_iff hm).1 ((c23_cut _ _).1 h1).1
  obtain ⟨p, j, hp1, hj, e⟩ := c67_complete hm cut h1 (c66_x_pos hm ha hs.m_pos) hQ hW hph hp
  obtain ⟨p', j', hp2, hj', e'⟩ := c67_complete_photon hm hs cut_rad h2 hf
  refine ⟨fun i => if hi : i.1 < 6 then p ⟨i.1, hi⟩ else p' ⟨i.1 - 6, by omega⟩, j' * j, ?_,
    by positivity, ?_⟩
  · intro i
    dsimp only
    split_ifs
    exacts [hp1 _, hp2 _]
  · have g1 : Cut.head6 (fun i : Fin 9 => Fl.fin (if hi : i.1 < 6 then p ⟨i.1, hi⟩ else
        p' ⟨i.1 - 6, by omega⟩)) = fun i => .fin (p i) := by
      funext i
      simp [Cut.head6, i.2]
    have g2 : Cut.tail3 (fun i : Fin 9 => Fl.fin (if hi : i.1 < 6 then p ⟨i.1, hi⟩ else
        p' ⟨i.1 - 6, by omega⟩)) = fun i => .fin (p' i) := by
      funext i
      simp [Cut.tail3]
    unfold Cut.takeRadCut
    rw [g1, g2, e]
    simp only [not_true, if_false]
    rw [e']
    simp

end

/-- No radiative cuts. -/
def noCutRad : CutRad := ⟨.invalid, .invalid, .invalid, .invalid, .invalid, .invalid⟩

/-- Non-vacuity of C67 and C25 for radiative points: a point with a hard photon is returned at some
point of the nine-dimensional cube. -/
example : ∃ (r : ℝ) (p : Fin 9 → ℝ) (j : ℝ), 0 < r ∧ (∀ i, 0 ≤ p i ∧ p i ≤ 1) ∧
    Cut.takeRadCut noCut noCutRad (finPs samplePs) (.fin 20) (fun i => .fin (p i)) =
      some ⟨true, .make (.make (finPs samplePs) (.fin 20) (finPt samplePt)) (.fin (1 / 10)) (.fin 2)
        (.fin r), .fin j⟩ := by
  obtain ⟨r, h0, h⟩ := exists_rad sample_accepted.1 sample_accepted.2 sample_samplable
    (t := 1 / 10) 2 (by norm_num [samplePs, samplePt, Nucleus.mass, CMath.ofReal])
  have hv := (valid_iff sample_accepted.1).2 sample_accepted.2
  have hr := (validRad_iff sample_accepted.1 _ _ _).2 ⟨_, _, _, rfl, rfl, rfl, h⟩
  have h3 := Real.two_le_pi
  obtain ⟨p, j, hp, -, e⟩ := c67_complete_rad sample_accepted.1 sample_samplable noCut noCutRad
    (t := 1 / 10) (f := 2) (r := r) (by
      rw [c23_cuts, c23_cut_rad, project_make', c23_cut]
      refine ⟨⟨hv, ?_⟩, hr, ?_⟩
      · simp only [Satisfies, cutTable, noCut, List.forall_mem_cons, invalid_not_valid,
          false_implies, List.not_mem_nil, implies_true, and_true]
      · simp only [Satisfies, cutRadTable, noCutRad, List.forall_mem_cons, invalid_not_valid,
          false_implies, List.not_mem_nil, implies_true, and_true])
    (fun h => absurd h invalid_not_valid) (fun h => absurd h invalid_not_valid)
    ⟨fun h => absurd h invalid_not_valid, fun _ => by norm_num [samplePt]; constructor <;> linarith⟩
    ⟨fun h => absurd h invalid_not_valid, fun _ => by norm_num [samplePt]; constructor <;> linarith⟩
    ⟨fun h => absurd h invalid_not_valid, fun _ => by constructor <;> linarith⟩
  exact ⟨r, p, j, h0, hp, e⟩

end Sidis.Props
