import Verif.Lemmas.SampleInteg
import Verif.Spec.Sampling
import Verif.Props.Density

/-! # C93: sampling integrates over the phase space -/

namespace Sidis

open Spec VarMap MeasureTheory Set
open scoped ENNReal

/-- The range of an angle in `take`. -/
theorem arc_bound {cut : Bound} (h : FiniteAngle cut) [Decidable cut.valid] {m : VarMap Fl}
    (hs : ∀ lo hi : ℝ, lo ≤ hi → ∃ X J, Samples m lo hi X J) :
    Sampled m (if cut.valid then cut else Cut.fullCircle) ∧
    {v | (if cut.valid then cut else Cut.fullCircle).contains (.fin v)} = arc cut := by
  by_cases hc : cut.valid
  · obtain ⟨lo, hi, e⟩ := h hc
    simp only [if_pos hc]
    have hle : lo ≤ hi := by rw [e] at hc; exact hc
    obtain ⟨X, J, hS⟩ := hs lo hi hle
    refine ⟨⟨lo, hi, X, J, e, hS⟩, ?_⟩
    ext v; simp [arc, hc]
  · simp only [if_neg hc]
    rw [fullCircle_eq]
    obtain ⟨X, J, hS⟩ := hs (-Real.pi) Real.pi (by linarith [Real.pi_pos])
    refine ⟨⟨_, _, X, J, rfl, hS⟩, ?_⟩
    ext v; simp [arc, hc, Bound.contains]

section
variable {ps : Particles ℝ} {S : ℝ}

open Classical in
/-- The weight of a sampled point: the function times the jacobian if the point is accepted. -/
noncomputable def weightAt (ps : Particles ℝ) (S : ℝ) (cut : Cut) (f : Kinematics Fl → ℝ≥0∞)
    (x jx y jy z jz t jt h jh p jp : Fl) : ℝ≥0∞ :=
  if Cut.validCut cut (.make (finPs ps) (.fin S) ⟨x, y, z, t, h, p⟩) = true then
    f (.make (finPs ps) (.fin S) ⟨x, y, z, t, h, p⟩) * mass (jx * jy * jz * jt * jh * jp) else 0

/-- A point that satisfies the cuts. -/
def Good (ps : Particles ℝ) (S : ℝ) (cut : Cut) (x y z t h p : ℝ) : Prop :=
  Cut.validCut cut (.make (finPs ps) (.fin S) (finPt ⟨x, y, z, t, h, p⟩)) = true

theorem good_of_weight (hm : Massive ps) {cut : Cut} {f : Kinematics Fl → ℝ≥0∞}
    {x jx y jy z jz t jt h jh p jp : Fl} (hw : weightAt ps S cut f x jx y jy z jz t jt h jh p jp ≠ 0) :
    ∃ a b c d e g : ℝ, x = .fin a ∧ y = .fin b ∧ z = .fin c ∧ t = .fin d ∧ h = .fin e ∧ p = .fin g ∧
      Good ps S cut a b c d e g := by
  unfold weightAt at hw
  have hv : Cut.validCut cut (.make (finPs ps) (.fin S) ⟨x, y, z, t, h, p⟩) = true := by
    by_contra hc
    exact hw (if_neg hc)
  obtain ⟨S', pt, -, e, -⟩ := (Props.c66_finite hm _ _).1 ((Props.c23_cut _ _).1 hv).1
  simp only [finPt, PhaseSpace.mk.injEq] at e
  obtain ⟨rfl, rfl, rfl, rfl, rfl, rfl⟩ := e
  exact ⟨_, _, _, _, _, _, rfl, rfl, rfl, rfl, rfl, rfl, hv⟩

open Classical in
theorem weightAt_fin {cut : Cut} {f : Kinematics Fl → ℝ≥0∞} {x jx y jy z jz t jt h jh p jp : ℝ}
    (h0 : 0 ≤ jx * jy * jz * jt * jh) :
    weightAt ps S cut f (.fin x) (.fin jx) (.fin y) (.fin jy) (.fin z) (.fin jz) (.fin t) (.fin jt)
      (.fin h) (.fin jh) (.fin p) (.fin jp) = ENNReal.ofReal jp * (ENNReal.ofReal (jx * jy * jz * jt * jh) *
        if Cut.validCut cut (.make (finPs ps) (.fin S) (finPt ⟨x, y, z, t, h, p⟩)) = true then f (.make (finPs ps) (.fin S) (finPt ⟨x, y, z, t, h, p⟩)) else 0) := by
  unfold weightAt
  have e : finPt ⟨x, y, z, t, h, p⟩ = ⟨.fin x, .fin y, .fin z, .fin t, .fin h, .fin p⟩ := rfl
  rw [e]
  split_ifs
  · simp only [Fl.mul_fin, mass]
    rw [ENNReal.ofReal_mul h0]
    ring
  · simp

/-- A valid point with a photon of positive energy has room for photons. -/
theorem room_of_valid (hm : Massive ps) {pt : PhaseSpace ℝ} (cut : CutRad) {t f r : ℝ}
    (h : Cut.validCutRad cut (.make (.make (finPs ps) (.fin S) (finPt pt)) (.fin t) (.fin f) (.fin r)) = true)
    (hk : cut.k_0_bar.valid) (h0 : .fin 0 < cut.k_0_bar.min) :
    AcceptedRad ps S pt t f r ∧ ps.Mth ^ 2 < (Kinematics.make ps S pt).mx_sq := by
  obtain ⟨h1, h2⟩ := (Props.c23_cut_rad _ _).1 h
  obtain ⟨t', f', r', e1, e2, e3, ha⟩ := (validRad_iff hm _ _ _).1 h1
  simp only [Fl.fin.injEq] at e1 e2 e3
  subst e1 e2 e3
  refine ⟨ha, lt_of_le_of_ne ha.acc.missing fun he => ?_⟩
  have hp := mu_pos (phi_k := f) (R := r) hm ha.acc ha.photon
  have hr : r ≤ 0 := by
    have := (R_le_iff hm ha.acc ha.photon).2 ha.missing
    have e : (Kinematics.make ps S pt).mx_sq - ps.Mth ^ 2 = 0 := by rw [← he]; ring
    have e' : (Kinematics.make ps S pt).mx_sq - ps.Mth * ps.Mth = 0 := by rw [← he]; ring
    simpa [e, e'] using this
  have hr0 : r = 0 := le_antisymm hr ha.R_nonneg
  have hc := h2 (cut.k_0_bar, _) (by
    simp only [cutRadTable, List.mem_cons, Prod.mk.injEq, true_and]
    right; right; right; left; rfl) hk
  rw [k_0_bar_fin hm ha] at hc
  have z : (KinematicsRad.make (.make ps S pt) t f r).k_0_bar = 0 := by
    change (1 + t - (KinematicsRad.make (.make ps S pt) t f r).mu) * r / (2 * _) = 0
    rw [hr0]; simp
  rw [z] at hc
  have := hc.1
  cases hq : cut.k_0_bar.min <;> simp_all
  linarith

/-- The scattering angle is not zero. -/
def Steep (ps : Particles ℝ) (S x y : ℝ) : Prop :=
  ps.m ^ 2 * ((S * y) ^ 2 + 4 * ps.M ^ 2 * (S * x * y)) <
    (S * x * y) * (S * ((1 - y) * S) - ps.M ^ 2 * (S * x * y))

/-- Almost all accepted points have a scattering angle that is not zero. -/
theorem steep_ae (hl : 0 < ps.m) (x : ℝ) :
    ∀ᵐ y : ℝ, ∀ z t h p, Accepted ps S ⟨x, y, z, t, h, p⟩ → Steep ps S x y := by
  let c := S ^ 3 * x + ps.M ^ 2 * S ^ 2 * x ^ 2 + ps.m ^ 2 * S ^ 2
  have : ∀ᵐ y : ℝ, y ≠ (S ^ 3 * x - 4 * ps.M ^ 2 * ps.m ^ 2 * S * x) / c :=
    (measure_eq_zero_iff_ae_notMem (μ := volume)).1 (measure_singleton _)
  filter_upwards [this] with y hy z t h p ha
  refine lt_of_le_of_ne ha.lepton fun he => hy ?_
  have h1 := ha.S_pos
  have h2 := ha.x_nonneg
  have h3 := ha.y_pos
  simp only at h2 h3 he
  have hc : 0 < c := by simp only [c]; positivity
  rw [eq_div_iff hc.ne']
  apply mul_left_cancel₀ h3.ne'
  simp only [c]
  linear_combination he

end

namespace Props

section
variable {ps : Particles ℝ} {S : ℝ}

open Classical in
/-- The photon variables at one point. -/
theorem photon_mean (hm : Massive ps) (hl : 0 < ps.m) {pt : PhaseSpace ℝ} (hs : Steep ps S pt.x pt.y)
    (cut : CutRad) (hk : cut.k_0_bar.valid) (h0 : .fin 0 < cut.k_0_bar.min) (hf : FiniteAngle cut.phi_k)
    (F : KinematicsRad Fl → ℝ≥0∞) {J : ℝ} (hJ : 0 ≤ J) :
    mean3 (fun u =>
      let t := Cut.takePhotonCut cut (.make (finPs ps) (.fin S) (finPt pt)) fun i => .fin (u i)
      if t.ok = true then F t.kin * mass (t.jac * .fin J) else 0) =
    (integral3 (arc cut.phi_k) fun tau phi_k R =>
      let kin := KinematicsRad.make (.make (finPs ps) (.fin S) (finPt pt)) (.fin tau) (.fin phi_k) (.fin R)
      if Cut.validCutRad cut kin = true then F kin else 0) * ENNReal.ofReal J := by
  set K := Kinematics.make (finPs ps) (.fin S) (finPt pt) with hK
  set bk := if cut.phi_k.valid then cut.phi_k else Cut.fullCircle with hbk
  let V : ℝ → ℝ → ℝ → Prop := fun t f r => Cut.validCutRad cut (.make K (.fin t) (.fin f) (.fin r)) = true
  let g3 : ℝ → ℝ → ℝ → ℝ≥0∞ := fun t f r => if Cut.validCutRad cut (.make K (.fin t) (.fin f) (.fin r)) = true then
    F (.make K (.fin t) (.fin f) (.fin r)) else 0
  let W : Fl → Fl → Fl → Fl → Fl → Fl → ℝ≥0∞ := fun t jt f jf r jr =>
    if Cut.validCutRad cut (.make K t f r) = true then F (.make K t f r) * mass (jt * jf * jr * .fin J) else 0
  have zero : ∀ t jt f jf r jr, (¬ ∃ a b c : ℝ, t = .fin a ∧ f = .fin b ∧ r = .fin c ∧ V a b c) →
      W t jt f jf r jr = 0 := by
    intro t jt f jf r jr hn
    refine if_neg fun hv => hn ?_
    obtain ⟨a, b, c, rfl, rfl, rfl, -⟩ := (validRad_iff hm _ _ _).1 ((c23_cut_rad _ _).1 hv).1
    exact ⟨_, _, _, rfl, rfl, rfl, hv⟩
  have key : ∀ t f r, V t f r →
      ((Cut.tauBoundCut cut K).contains (.fin t) ∧ Sampled (Cut.tauMap K) (Cut.tauBoundCut cut K)) ∧
      (Sampled (Cut.phiKMap K) bk ∧ {v | bk.contains (.fin v)} = arc cut.phi_k) ∧
      ((Cut.RBoundCut cut K (.fin t) (.fin f)).contains (.fin r) ∧
        Sampled (Cut.RMap K) (Cut.RBoundCut cut K (.fin t) (.fin f))) := by
    intro t f r hv
    obtain ⟨ha, hroom⟩ := room_of_valid hm cut hv hk h0
    obtain ⟨mt, mr⟩ := c24_limits_rad_cut hm cut hv
    obtain ⟨⟨c, w, cr, wr, emt, w0, wr0⟩, ⟨wk, emk, wk0⟩, ⟨o, emr, o0⟩⟩ := photon_maps hm ha.acc ⟨hl, hs, hroom⟩
    refine ⟨⟨mt, ?_⟩, ?_, mr, ?_⟩
    · exact sampled_of (fun v hv => by
        have q := tauBoundCut_sub hv
        rw [tauBound_fin hm ha.acc] at q
        exact q) (fun lo hi hl _ _ => by rw [emt]; exact (c28_apply_map hl).2.2.2.2.2 _ _ _ _ w0 wr0) mt
    · rw [emk]
      exact arc_bound hf fun lo hi hl => (c28_apply_map hl).2.2.2.2.1 _ _ wk0
    · exact sampled_of (fun v hv => by
        have q := RBoundCut_sub hv
        rw [RBound_fin hm ha.acc f r ha.photon] at q
        exact q) (fun lo hi hl h0 _ => by rw [emr]; exact (c28_apply_map hl).2.2.1 _ (by linarith)) mr
  let L2 : Fl → Fl → Fl → Fl → ℝ≥0∞ := fun t jt f jf => mean fun p =>
    let a := (Cut.RMap K).apply (.fin p) (Cut.RBoundCut cut K t f)
    W t jt f jf a.1 a.2
  let L1 : Fl → Fl → ℝ≥0∞ := fun t jt => mean fun p =>
    let a := (Cut.phiKMap K).apply (.fin p) bk
    L2 t jt a.1 a.2
  let L0 : ℝ≥0∞ := mean fun p =>
    let a := (Cut.tauMap K).apply (.fin p) (Cut.tauBoundCut cut K)
    L1 a.1 a.2
  let g2 : ℝ → ℝ → ℝ≥0∞ := fun t f => ∫⁻ r, g3 t f r
  let g1 : ℝ → ℝ≥0∞ := fun t => ∫⁻ f in arc cut.phi_k, g2 t f
  have el : mean3 (fun u =>
      let t := Cut.takePhotonCut cut K fun i => .fin (u i)
      if t.ok = true then F t.kin * mass (t.jac * .fin J) else 0) = L0 := by
    simp only [mean3, L0, L1, L2, W]
    rfl
  rw [el]
  have h2 : ∀ t jt f jf : ℝ, 0 ≤ jt → 0 ≤ jf → L2 (.fin t) (.fin jt) (.fin f) (.fin jf) =
      ENNReal.ofReal jf * (ENNReal.ofReal (J * jt) * g2 t f) := by
    intro t jt f jf i1 i2
    have e := axis_lintegral (t := Cut.RMap K) (A := fun r => V t f r)
      (fun r hr => (key t f r hr).2.2) (Φ := W (.fin t) (.fin jt) (.fin f) (.fin jf))
      (g := fun r => ENNReal.ofReal (J * jt * jf) * g3 t f r)
      (fun r jr hr => zero _ _ _ _ _ _ fun ⟨_, _, _, _, _, i, _⟩ => hr (by rw [i]; trivial))
      (fun v j hv => zero _ _ _ _ _ _ fun ⟨a, b, c, q1, q2, q3, q⟩ => hv (by
        simp only [Fl.fin.injEq] at q1 q2 q3
        subst q1 q2 q3; exact q))
      (fun v j hv hj => by
        have hv' : Cut.validCutRad cut (.make K (.fin t) (.fin f) (.fin v)) = true := hv
        simp only [W, g3, if_pos hv', Fl.mul_fin, mass]
        rw [show jt * jf * j * J = j * (J * jt * jf) by ring, ENNReal.ofReal_mul hj]
        ring)
      (fun v hv => by
        have hv' : ¬ Cut.validCutRad cut (.make K (.fin t) (.fin f) (.fin v)) = true := hv
        simp only [g3, if_neg hv', mul_zero])
    refine e.trans ?_
    rw [lintegral_const_mul' _ _ ENNReal.ofReal_ne_top, mul_comm (J * jt) jf, ENNReal.ofReal_mul i2, mul_assoc]
  have z1 : ∀ t jt, (¬ ∃ a b c : ℝ, t = .fin a ∧ V a b c) → L1 t jt = 0 := by
    intro t jt hn
    have : ∀ f jf r jr, W t jt f jf r jr = 0 := fun f jf r jr =>
      zero _ _ _ _ _ _ fun ⟨a, b, c, q1, _, _, q⟩ => hn ⟨a, b, c, q1, q⟩
    simp [L1, L2, this, mean]
  have h1 : ∀ t jt : ℝ, (∃ f r, V t f r) → 0 ≤ jt → L1 (.fin t) (.fin jt) =
      ENNReal.ofReal jt * (ENNReal.ofReal J * g1 t) := by
    intro t jt ⟨f, r, hv⟩ i1
    obtain ⟨Sk, ak⟩ := (key t f r hv).2.1
    have e := axis_lintegral_all Sk (Φ := L2 (.fin t) (.fin jt))
      (g := fun f => ENNReal.ofReal (J * jt) * g2 t f) (fun v j _ hj => h2 _ _ _ _ i1 hj)
    refine e.trans ?_
    rw [lintegral_const_mul' _ _ ENNReal.ofReal_ne_top, ak, mul_comm J jt, ENNReal.ofReal_mul i1, mul_assoc]
  have e := axis_lintegral (t := Cut.tauMap K) (A := fun t => ∃ f r, V t f r)
    (fun t ⟨f, r, hv⟩ => (key t f r hv).1) (Φ := L1) (g := fun t => ENNReal.ofReal J * g1 t)
    (fun t jt ht => z1 _ _ fun ⟨_, _, _, i, _⟩ => ht (by rw [i]; trivial))
    (fun v j hv => z1 _ _ fun ⟨a, b, c, q1, q⟩ => hv ⟨b, c, by
      simp only [Fl.fin.injEq] at q1
      subst q1; exact q⟩)
    (fun v j hv hj => h1 v j hv hj)
    (fun v hv => by
      have : ∀ f r, g3 v f r = 0 := fun f r => if_neg fun q => hv ⟨f, r, q⟩
      simp [g1, g2, this])
  refine e.trans ?_
  rw [lintegral_const_mul' _ _ ENNReal.ofReal_ne_top, mul_comm]
  rfl

open Classical in
/-- C93: sampling with the jacobian as weight integrates over the phase space: for every function `f`
of the kinematics with values in `[0, ∞]`, the average over the unit cube of `f` times the jacobian, at the
points that `take(cut, ...)` accepts, is the integral of `f` over the points that are valid and satisfy
the cuts. (The cuts on `Q_sq` and `W_sq` are as in C24, angles have finite cuts or none.) -/
theorem c93_take (hm : Massive ps) (hl : 0 < ps.m) (cut : Cut)
    (hQ : cut.Q_sq.valid → cut.Q_sq.max ≠ .pinf)
    (hW : cut.W_sq.valid → ∃ w : ℝ, cut.W_sq.min = .fin w ∧
      0 < S ^ 2 - 4 * ps.M ^ 2 * ps.m ^ 2 + ps.M ^ 2 * (w - ps.M ^ 2))
    (hh : FiniteAngle cut.phi_h) (hp : FiniteAngle cut.phi) (f : Kinematics Fl → ℝ≥0∞) :
    mean6 (fun u =>
      let t := Cut.takeCut cut (finPs ps) (.fin S) fun i => .fin (u i)
      if t.ok = true then f t.kin * mass t.jac else 0) =
    integral6 (arc cut.phi_h) (arc cut.phi) fun pt =>
      let kin := Kinematics.make (finPs ps) (.fin S) (finPt pt)
      if Cut.validCut cut kin = true then f kin else 0 := by
  obtain ⟨Sh, ah⟩ := arc_bound hh (m := linear) fun _ _ hl => (c28_apply_map hl).1
  obtain ⟨Sp, ap⟩ := arc_bound hp (m := linear) fun _ _ hl => (c28_apply_map hl).1
  set bh := if cut.phi_h.valid then cut.phi_h else Cut.fullCircle with hbh
  set bp := if cut.phi.valid then cut.phi else Cut.fullCircle with hbp
  -- what is known of a good point
  have key : ∀ x y z t h p, Good ps S cut x y z t h p →
      ((Cut.xBoundCut cut (finPs ps) (.fin S)).contains (.fin x) ∧
        Sampled (inverse Cut.xCutoff) (Cut.xBoundCut cut (finPs ps) (.fin S))) ∧
      ((Cut.yBoundCut cut (finPs ps) (.fin S) (.fin x)).contains (.fin y) ∧
        Sampled (inverse 0) (Cut.yBoundCut cut (finPs ps) (.fin S) (.fin x))) ∧
      ((Cut.zBoundCut cut (finPs ps) (.fin S) (.fin x) (.fin y)).contains (.fin z) ∧
        Sampled linear (Cut.zBoundCut cut (finPs ps) (.fin S) (.fin x) (.fin y))) ∧
      ((Cut.phTSqBoundCut cut (finPs ps) (.fin S) (.fin x) (.fin y) (.fin z)).contains (.fin t) ∧
        Sampled (decay Cut.phTSqDecayWidth)
          (Cut.phTSqBoundCut cut (finPs ps) (.fin S) (.fin x) (.fin y) (.fin z))) := by
    intro x y z t h p hg
    have ha := (valid_iff hm).1 ((c23_cut _ _).1 hg).1
    obtain ⟨mx, my, mz, mt⟩ := c24_limits_cut hm cut hg (c66_x_pos hm ha hl) hQ hW
    have hx1 := x_lt_one hm ha
    have hD := D_pos hm
    have hS := ha.S_pos
    refine ⟨⟨mx, ?_⟩, ⟨my, ?_⟩, ⟨mz, ?_⟩, mt, ?_⟩
    · exact sampled_of (fun v hv => unit_sub (xBoundCut_sub hv))
        (fun lo hi hl h0 _ => (c28_apply_map hl).2.1 (1 / 1000) (by linarith)) mx
    · exact sampled_of (t := inverse (.fin 0)) (fun v hv => yBound_low hm ha.S_pos hx1 (yBoundCut_sub hv))
        (fun lo hi hl h0 _ => (c28_apply_map hl).2.1 0 (by
          have : 0 < ((ps.Mth + ps.mh) ^ 2 - ps.M ^ 2) / ((1 - x) * S) :=
            div_pos hD (mul_pos (by simp only at hx1; linarith) ha.S_pos)
          simp only at h0
          linarith)) my
    · exact sampled_of (fun v hv => unit_sub (zBoundCut_sub hv)) (fun lo hi hl _ _ => (c28_apply_map hl).1) mz
    · exact sampled_of
        (fun v hv => phTSqBound_high hm ha.S_pos ha.x_nonneg ha.y_pos (phTSqBoundCut_sub hv))
        (fun lo hi hl _ _ => (c28_apply_map hl).2.2.2.1 (1 / 4) (by norm_num)) mt
  -- the levels of the average
  let g6 : ℝ → ℝ → ℝ → ℝ → ℝ → ℝ → ℝ≥0∞ := fun x y z t h p =>
    if Cut.validCut cut (.make (finPs ps) (.fin S) (finPt ⟨x, y, z, t, h, p⟩)) = true then f (.make (finPs ps) (.fin S) (finPt ⟨x, y, z, t, h, p⟩)) else 0
  let W := weightAt ps S cut f
  have zero : ∀ x jx y jy z jz t jt h jh p jp,
      (¬ ∃ a b c d e g : ℝ, x = .fin a ∧ y = .fin b ∧ z = .fin c ∧ t = .fin d ∧ h = .fin e ∧ p = .fin g ∧
      Good ps S cut a b c d e g) → W x jx y jy z jz t jt h jh p jp = 0 := by
    intro x jx y jy z jz t jt h jh p jp hn
    by_contra hc
    exact hn (good_of_weight hm hc)
  let L5 : Fl → Fl → Fl → Fl → Fl → Fl → Fl → Fl → Fl → Fl → ℝ≥0∞ := fun x jx y jy z jz t jt h jh =>
    mean fun p => W x jx y jy z jz t jt h jh (linear.apply (.fin p) bp).1 (linear.apply (.fin p) bp).2
  let L4 : Fl → Fl → Fl → Fl → Fl → Fl → Fl → Fl → ℝ≥0∞ := fun x jx y jy z jz t jt =>
    mean fun p => L5 x jx y jy z jz t jt (linear.apply (.fin p) bh).1 (linear.apply (.fin p) bh).2
  let L3 : Fl → Fl → Fl → Fl → Fl → Fl → ℝ≥0∞ := fun x jx y jy z jz =>
    mean fun p =>
      let a := (decay Cut.phTSqDecayWidth).apply (.fin p) (Cut.phTSqBoundCut cut (finPs ps) (.fin S) x y z)
      L4 x jx y jy z jz a.1 a.2
  let L2 : Fl → Fl → Fl → Fl → ℝ≥0∞ := fun x jx y jy =>
    mean fun p =>
      let a := linear.apply (.fin p) (Cut.zBoundCut cut (finPs ps) (.fin S) x y)
      L3 x jx y jy a.1 a.2
  let L1 : Fl → Fl → ℝ≥0∞ := fun x jx =>
    mean fun p =>
      let a := (inverse 0).apply (.fin p) (Cut.yBoundCut cut (finPs ps) (.fin S) x)
      L2 x jx a.1 a.2
  let L0 : ℝ≥0∞ := mean fun p =>
      let a := (inverse Cut.xCutoff).apply (.fin p) (Cut.xBoundCut cut (finPs ps) (.fin S))
      L1 a.1 a.2
  have el : mean6 (fun u =>
      let t := Cut.takeCut cut (finPs ps) (.fin S) fun i => .fin (u i)
      if t.ok = true then f t.kin * mass t.jac else 0) = L0 := by
    simp only [mean6, L0, L1, L2, L3, L4, L5]
    rfl
  let g5 : ℝ → ℝ → ℝ → ℝ → ℝ → ℝ≥0∞ := fun x y z t h => ∫⁻ p in arc cut.phi, g6 x y z t h p
  let g4 : ℝ → ℝ → ℝ → ℝ → ℝ≥0∞ := fun x y z t => ∫⁻ h in arc cut.phi_h, g5 x y z t h
  let g3 : ℝ → ℝ → ℝ → ℝ≥0∞ := fun x y z => ∫⁻ t, g4 x y z t
  let g2 : ℝ → ℝ → ℝ≥0∞ := fun x y => ∫⁻ z, g3 x y z
  let g1 : ℝ → ℝ≥0∞ := fun x => ∫⁻ y, g2 x y
  have er : (integral6 (arc cut.phi_h) (arc cut.phi) fun pt =>
      let kin := Kinematics.make (finPs ps) (.fin S) (finPt pt)
      if Cut.validCut cut kin = true then f kin else 0) = ∫⁻ x, g1 x := by
    rfl
  rw [el, er]
  have h5 : ∀ x jx y jy z jz t jt h jh : ℝ, 0 ≤ jx → 0 ≤ jy → 0 ≤ jz → 0 ≤ jt → 0 ≤ jh →
      L5 (.fin x) (.fin jx) (.fin y) (.fin jy) (.fin z) (.fin jz) (.fin t) (.fin jt) (.fin h) (.fin jh) =
        ENNReal.ofReal jh * (ENNReal.ofReal (jx * jy * jz * jt) * g5 x y z t h) := by
    intro x jx y jy z jz t jt h jh h1 h2 h3 h4 h5
    have e := axis_lintegral_all Sp
      (Φ := W (.fin x) (.fin jx) (.fin y) (.fin jy) (.fin z) (.fin jz) (.fin t) (.fin jt) (.fin h) (.fin jh))
      (g := fun p => ENNReal.ofReal (jx * jy * jz * jt * jh) * g6 x y z t h p)
      (fun v j _ _ => weightAt_fin (by positivity))
    refine e.trans ?_
    rw [lintegral_const_mul' _ _ ENNReal.ofReal_ne_top, ap, mul_comm (jx * jy * jz * jt) jh,
      ENNReal.ofReal_mul h5, mul_assoc]
  have h4 : ∀ x jx y jy z jz t jt : ℝ, 0 ≤ jx → 0 ≤ jy → 0 ≤ jz → 0 ≤ jt →
      L4 (.fin x) (.fin jx) (.fin y) (.fin jy) (.fin z) (.fin jz) (.fin t) (.fin jt) =
        ENNReal.ofReal jt * (ENNReal.ofReal (jx * jy * jz) * g4 x y z t) := by
    intro x jx y jy z jz t jt h1 h2 h3 h4
    have e := axis_lintegral_all Sh
      (Φ := L5 (.fin x) (.fin jx) (.fin y) (.fin jy) (.fin z) (.fin jz) (.fin t) (.fin jt))
      (g := fun h => ENNReal.ofReal (jx * jy * jz * jt) * g5 x y z t h)
      (fun v j _ hj => h5 _ _ _ _ _ _ _ _ _ _ h1 h2 h3 h4 hj)
    refine e.trans ?_
    rw [lintegral_const_mul' _ _ ENNReal.ofReal_ne_top, ah, mul_comm (jx * jy * jz) jt,
      ENNReal.ofReal_mul h4, mul_assoc]
  have z4 : ∀ x jx y jy z jz t jt,
      (¬ ∃ a b c d e g : ℝ, x = .fin a ∧ y = .fin b ∧ z = .fin c ∧ t = .fin d ∧
      Good ps S cut a b c d e g) → L4 x jx y jy z jz t jt = 0 := by
    intro x jx y jy z jz t jt hn
    have : ∀ h jh p jp, W x jx y jy z jz t jt h jh p jp = 0 := fun h jh p jp =>
      zero _ _ _ _ _ _ _ _ _ _ _ _ fun ⟨a, b, c, d, e, g, i1, i2, i3, i4, _, _, i5⟩ =>
        hn ⟨a, b, c, d, e, g, i1, i2, i3, i4, i5⟩
    simp [L4, L5, this, mean]
  have o4 : ∀ x y z t, (¬ ∃ e g : ℝ, Good ps S cut x y z t e g) → g4 x y z t = 0 := by
    intro x y z t hn
    push Not at hn
    unfold Good at hn
    simp [g4, g5, g6, hn]
  have h3 : ∀ x jx y jy z jz : ℝ, 0 ≤ jx → 0 ≤ jy → 0 ≤ jz →
      L3 (.fin x) (.fin jx) (.fin y) (.fin jy) (.fin z) (.fin jz) =
        ENNReal.ofReal jz * (ENNReal.ofReal (jx * jy) * g3 x y z) := by
    intro x jx y jy z jz h1 h2 h3
    have e := axis_lintegral (t := decay Cut.phTSqDecayWidth) (A := fun t => ∃ h p, Good ps S cut x y z t h p)
      (fun v ⟨h, p, hv⟩ => (key _ _ _ _ _ _ hv).2.2.2)
      (Φ := L4 (.fin x) (.fin jx) (.fin y) (.fin jy) (.fin z) (.fin jz))
      (g := fun t => ENNReal.ofReal (jx * jy * jz) * g4 x y z t)
      (fun t jt ht => z4 _ _ _ _ _ _ _ _ fun ⟨_, _, _, _, _, _, _, _, _, i, _⟩ => ht (by rw [i]; trivial))
      (fun v j hv => z4 _ _ _ _ _ _ _ _ fun ⟨a, b, c, d, e, g, i1, i2, i3, i4, i5⟩ => hv ⟨e, g, by
        simp only [Fl.fin.injEq] at i1 i2 i3 i4
        subst i1 i2 i3 i4; exact i5⟩)
      (fun v j _ hj => h4 _ _ _ _ _ _ _ _ h1 h2 h3 hj)
      (fun v hv => by rw [o4 _ _ _ _ hv, mul_zero])
    refine e.trans ?_
    rw [lintegral_const_mul' _ _ ENNReal.ofReal_ne_top, mul_comm (jx * jy) jz,
      ENNReal.ofReal_mul h3, mul_assoc]
  have z3 : ∀ x jx y jy z jz,
      (¬ ∃ a b c d e g : ℝ, x = .fin a ∧ y = .fin b ∧ z = .fin c ∧
      Good ps S cut a b c d e g) → L3 x jx y jy z jz = 0 := by
    intro x jx y jy z jz hn
    have : ∀ t jt, L4 x jx y jy z jz t jt = 0 := fun t jt =>
      z4 _ _ _ _ _ _ _ _ fun ⟨a, b, c, d, e, g, i1, i2, i3, _, i5⟩ => hn ⟨a, b, c, d, e, g, i1, i2, i3, i5⟩
    simp [L3, this, mean]
  have o3 : ∀ x y z, (¬ ∃ d e g : ℝ, Good ps S cut x y z d e g) → g3 x y z = 0 := by
    intro x y z hn
    have : ∀ t, g4 x y z t = 0 := fun t => o4 _ _ _ _ fun ⟨e, g, i⟩ => hn ⟨t, e, g, i⟩
    simp [g3, this]
  have h2 : ∀ x jx y jy : ℝ, 0 ≤ jx → 0 ≤ jy →
      L2 (.fin x) (.fin jx) (.fin y) (.fin jy) = ENNReal.ofReal jy * (ENNReal.ofReal jx * g2 x y) := by
    intro x jx y jy h1 h2
    have e := axis_lintegral (t := linear) (A := fun z => ∃ t h p, Good ps S cut x y z t h p)
      (fun v ⟨t, h, p, hv⟩ => (key _ _ _ _ _ _ hv).2.2.1)
      (Φ := L3 (.fin x) (.fin jx) (.fin y) (.fin jy))
      (g := fun z => ENNReal.ofReal (jx * jy) * g3 x y z)
      (fun z jz hz => z3 _ _ _ _ _ _ fun ⟨_, _, _, _, _, _, _, _, i, _⟩ => hz (by rw [i]; trivial))
      (fun v j hv => z3 _ _ _ _ _ _ fun ⟨a, b, c, d, e, g, i1, i2, i3, i5⟩ => hv ⟨d, e, g, by
        simp only [Fl.fin.injEq] at i1 i2 i3
        subst i1 i2 i3; exact i5⟩)
      (fun v j _ hj => h3 _ _ _ _ _ _ h1 h2 hj)
      (fun v hv => by rw [o3 _ _ _ hv, mul_zero])
    refine e.trans ?_
    rw [lintegral_const_mul' _ _ ENNReal.ofReal_ne_top, mul_comm jx jy, ENNReal.ofReal_mul h2, mul_assoc]
  have z2 : ∀ x jx y jy,
      (¬ ∃ a b c d e g : ℝ, x = .fin a ∧ y = .fin b ∧ Good ps S cut a b c d e g) → L2 x jx y jy = 0 := by
    intro x jx y jy hn
    have : ∀ z jz, L3 x jx y jy z jz = 0 := fun z jz =>
      z3 _ _ _ _ _ _ fun ⟨a, b, c, d, e, g, i1, i2, _, i5⟩ => hn ⟨a, b, c, d, e, g, i1, i2, i5⟩
    simp [L2, this, mean]
  have o2 : ∀ x y, (¬ ∃ c d e g : ℝ, Good ps S cut x y c d e g) → g2 x y = 0 := by
    intro x y hn
    have : ∀ z, g3 x y z = 0 := fun z => o3 _ _ _ fun ⟨d, e, g, i⟩ => hn ⟨z, d, e, g, i⟩
    simp [g2, this]
  have h1 : ∀ x jx : ℝ, 0 ≤ jx → L1 (.fin x) (.fin jx) = ENNReal.ofReal jx * g1 x := by
    intro x jx h1
    have e := axis_lintegral (t := inverse 0) (A := fun y => ∃ z t h p, Good ps S cut x y z t h p)
      (fun v ⟨z, t, h, p, hv⟩ => (key _ _ _ _ _ _ hv).2.1)
      (Φ := L2 (.fin x) (.fin jx))
      (g := fun y => ENNReal.ofReal jx * g2 x y)
      (fun y jy hy => z2 _ _ _ _ fun ⟨_, _, _, _, _, _, _, i, _⟩ => hy (by rw [i]; trivial))
      (fun v j hv => z2 _ _ _ _ fun ⟨a, b, c, d, e, g, i1, i2, i5⟩ => hv ⟨c, d, e, g, by
        simp only [Fl.fin.injEq] at i1 i2
        subst i1 i2; exact i5⟩)
      (fun v j _ hj => h2 _ _ _ _ h1 hj)
      (fun v hv => by rw [o2 _ _ hv, mul_zero])
    refine e.trans ?_
    rw [lintegral_const_mul' _ _ ENNReal.ofReal_ne_top]
  have z1 : ∀ x jx,
      (¬ ∃ a b c d e g : ℝ, x = .fin a ∧ Good ps S cut a b c d e g) → L1 x jx = 0 := by
    intro x jx hn
    have : ∀ y jy, L2 x jx y jy = 0 := fun y jy =>
      z2 _ _ _ _ fun ⟨a, b, c, d, e, g, i1, _, i5⟩ => hn ⟨a, b, c, d, e, g, i1, i5⟩
    simp [L1, this, mean]
  have o1 : ∀ x, (¬ ∃ b c d e g : ℝ, Good ps S cut x b c d e g) → g1 x = 0 := by
    intro x hn
    have : ∀ y, g2 x y = 0 := fun y => o2 _ _ fun ⟨c, d, e, g, i⟩ => hn ⟨y, c, d, e, g, i⟩
    simp [g1, this]
  exact axis_lintegral (t := inverse Cut.xCutoff) (A := fun x => ∃ y z t h p, Good ps S cut x y z t h p)
    (fun v ⟨y, z, t, h, p, hv⟩ => (key _ _ _ _ _ _ hv).1)
    (Φ := L1) (g := g1)
    (fun x jx hx => z1 _ _ fun ⟨_, _, _, _, _, _, i, _⟩ => hx (by rw [i]; trivial))
    (fun v j hv => z1 _ _ fun ⟨a, b, c, d, e, g, i1, i5⟩ => hv ⟨b, c, d, e, g, by
      simp only [Fl.fin.injEq] at i1
      subst i1; exact i5⟩)
    (fun v j _ hj => h1 _ _ hj) o1

theorem mean_congr {F G : ℝ → ℝ≥0∞} (h : ∀ p, 0 ≤ p ∧ p ≤ 1 → F p = G p) : mean F = mean G :=
  setLIntegral_congr_fun measurableSet_Icc fun p hp => h p hp

open Classical in
/-- C93 for the nine-dimensional sampler: the average over the unit cube of `f` times the jacobian at
the points that `take(cut, cut_rad, ...)` accepts is the integral of `f` over the points that are valid
and satisfy both sets of cuts, if these ask for photons of positive energy. -/
theorem c93_take_rad (hm : Massive ps) (hl : 0 < ps.m) (cut : Cut) (cut_rad : CutRad)
    (hQ : cut.Q_sq.valid → cut.Q_sq.max ≠ .pinf)
    (hW : cut.W_sq.valid → ∃ w : ℝ, cut.W_sq.min = .fin w ∧
      0 < S ^ 2 - 4 * ps.M ^ 2 * ps.m ^ 2 + ps.M ^ 2 * (w - ps.M ^ 2))
    (hh : FiniteAngle cut.phi_h) (hp : FiniteAngle cut.phi) (hf : FiniteAngle cut_rad.phi_k)
    (hk : cut_rad.k_0_bar.valid) (h0 : .fin 0 < cut_rad.k_0_bar.min) (f : KinematicsRad Fl → ℝ≥0∞) :
    mean9 (fun u =>
      match Cut.takeRadCut cut cut_rad (finPs ps) (.fin S) fun i => .fin (u i) with
      | none => 0
      | some t => if t.ok = true then f t.kin * mass t.jac else 0) =
    integral6 (arc cut.phi_h) (arc cut.phi) fun pt => integral3 (arc cut_rad.phi_k) fun tau phi_k R =>
      let kin := KinematicsRad.make (.make (finPs ps) (.fin S) (finPt pt)) (.fin tau) (.fin phi_k) (.fin R)
      if Cut.validCuts cut cut_rad kin = true then f kin else 0 := by
  let fS : Kinematics Fl → ℝ≥0∞ := fun kin =>
    if ∃ x y : ℝ, kin.x = .fin x ∧ kin.y = .fin y ∧ Steep ps S x y then
      integral3 (arc cut_rad.phi_k) fun tau phi_k R =>
        let k := KinematicsRad.make kin (.fin tau) (.fin phi_k) (.fin R)
        if Cut.validCutRad cut_rad k = true then f k else 0
    else 0
  have hL : mean9 (fun u =>
      match Cut.takeRadCut cut cut_rad (finPs ps) (.fin S) fun i => .fin (u i) with
      | none => 0
      | some t => if t.ok = true then f t.kin * mass t.jac else 0) =
    mean6 (fun u =>
      let t := Cut.takeCut cut (finPs ps) (.fin S) fun i => .fin (u i)
      if t.ok = true then fS t.kin * mass t.jac else 0) := by
    refine mean_congr fun a ha => mean_congr fun b hb => mean_congr fun c hc => mean_congr fun d hd =>
      mean_congr fun e he => mean_congr fun g hg => ?_
    have hu : ∀ i, 0 ≤ (![a, b, c, d, e, g] : Fin 6 → ℝ) i ∧ (![a, b, c, d, e, g] : Fin 6 → ℝ) i ≤ 1 := by
      intro i; fin_cases i <;> assumption
    have g1 : ∀ h i j : ℝ, Cut.head6 (fun n => .fin ((![a, b, c, d, e, g, h, i, j] : Fin 9 → ℝ) n)) =
        fun n => .fin ((![a, b, c, d, e, g] : Fin 6 → ℝ) n) := by
      intro h i j; funext n; fin_cases n <;> rfl
    have g2 : ∀ h i j : ℝ, Cut.tail3 (fun n => .fin ((![a, b, c, d, e, g, h, i, j] : Fin 9 → ℝ) n)) =
        fun n => .fin ((![h, i, j] : Fin 3 → ℝ) n) := by
      intro h i j; funext n; fin_cases n <;> rfl
    simp only [Cut.takeRadCut, g1, g2]
    by_cases hok : (Cut.takeCut cut (finPs ps) (.fin S) fun i =>
        .fin ((![a, b, c, d, e, g] : Fin 6 → ℝ) i)).ok = true
    · obtain ⟨pt, jx, jy, jz, jt, jh, jp, ha, ek, -, -, -, -, -, -, ej, hj⟩ := c25_jacobian hm cut _ hu hok
      simp only [hok, not_true, if_false, if_true, ek, ej]
      by_cases hs : Steep ps S pt.x pt.y
      · have e1 := photon_mean hm hl hs cut_rad hk h0 hf f hj
        have e2 : fS (.make (finPs ps) (.fin S) (finPt pt)) = _ := if_pos ⟨_, _, rfl, rfl, hs⟩
        rw [e2]
        refine Eq.trans ?_ e1
        refine mean_congr fun h hh => mean_congr fun i hi => mean_congr fun j hj => ?_
        dsimp only
        split_ifs <;> rfl
      · have e2 : fS (.make (finPs ps) (.fin S) (finPt pt)) = 0 := if_neg fun ⟨x, y, q1, q2, q⟩ => hs (by
          cases q1; cases q2; exact q)
        rw [e2, zero_mul]
        have : ∀ u, ¬ (Cut.takePhotonCut cut_rad (.make (finPs ps) (.fin S) (finPt pt)) u).ok = true :=
          fun u hu => hs (angle_of_ok hm ha cut_rad u hu)
        simp [this, mean]
    · simp [hok, mean]
  rw [hL, c93_take hm hl cut hQ hW hh hp fS]
  refine lintegral_congr fun x => lintegral_congr_ae ?_
  filter_upwards [steep_ae (S := S) hl x] with y hy
  refine lintegral_congr fun z => lintegral_congr fun t => lintegral_congr fun h => lintegral_congr fun p => ?_
  dsimp only
  by_cases hv : Cut.validCut cut (.make (finPs ps) (.fin S) (finPt ⟨x, y, z, t, h, p⟩)) = true
  · have e2 : fS (.make (finPs ps) (.fin S) (finPt ⟨x, y, z, t, h, p⟩)) = _ :=
      if_pos ⟨_, _, rfl, rfl, hy _ _ _ _ ((valid_iff hm).1 ((c23_cut _ _).1 hv).1)⟩
    rw [if_pos hv, e2]
    refine lintegral_congr fun tau => lintegral_congr fun f' => lintegral_congr fun R => ?_
    dsimp only
    refine if_congr ?_ rfl rfl
    rw [c23_cuts, project_make']
    simp [hv]
  · rw [if_neg hv]
    symm
    have : ∀ tau f' R, ¬ Cut.validCuts cut cut_rad (KinematicsRad.make (.make (finPs ps) (.fin S)
        (finPt ⟨x, y, z, t, h, p⟩)) (.fin tau) (.fin f') (.fin R)) = true := by
      intro tau f' R q
      rw [c23_cuts, project_make'] at q
      exact hv q.1
    simp only [integral3, this]
    simp

end

/-- Non-vacuity: without cuts, the average of the jacobian over the accepted points of the unit cube is the
volume of the phase space. -/
example : mean6 (fun u =>
      let t := Cut.takeCut noCut (finPs samplePs) (.fin 20) fun i => .fin (u i)
      if t.ok = true then 1 * mass t.jac else 0) =
    integral6 (arc noCut.phi_h) (arc noCut.phi) fun pt =>
      if Cut.validCut noCut (.make (finPs samplePs) (.fin 20) (finPt pt)) = true then 1 else 0 :=
  c93_take sample_accepted.1 (by norm_num [samplePs, Lepton.mass, CMath.ofReal]) noCut
    (fun h => absurd h invalid_not_valid) (fun h => absurd h invalid_not_valid)
    (fun h => absurd h invalid_not_valid) (fun h => absurd h invalid_not_valid) fun _ => 1

end Props

end Sidis
