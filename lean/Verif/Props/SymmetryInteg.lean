import Verif.Spec.SymmetryInteg
import Verif.Props.Symmetry
import Verif.Lemmas.CutSample

/-! # C111: the symmetries of the cross-sections integrated over the photon -/

namespace Sidis.Props

open Spec VarMap PhotonInteg Asym Lemmas.Symmetry

section Sampling

variable (ps : Particles ℝ) (S a : ℝ) (pt : PhaseSpace ℝ) (k0 : Bound)

/-- The kinematics from which the photon is sampled. -/
private noncomputable abbrev KF (pt : PhaseSpace ℝ) : Kinematics Fl :=
  .make (finPs ps) (.fin S) (finPt pt)

private theorem add_comm' (a b : Fl) : a + b = b + a := by
  cases a <;> cases b <;> simp [add_comm]

private theorem neg_div' (a b : Fl) : -a / b = -(a / b) := by
  rcases a with _ | _ | r | _ <;> rcases b with _ | _ | t | _ <;> try rfl
  · show (if t < 0 then Fl.ninf else .pinf) = -(if t < 0 then Fl.pinf else .ninf)
    split_ifs <;> rfl
  · show Fl.fin 0 = -Fl.fin 0
    simp
  · show (if t = 0 then Fl.infTimes (-r) else .fin (-r / t)) =
      -(if t = 0 then Fl.infTimes r else .fin (r / t))
    split_ifs
    · exact infTimes_neg r
    · rw [Fl.neg_fin, neg_div]
  · show Fl.fin 0 = -Fl.fin 0
    simp
  · show (if t < 0 then Fl.pinf else .ninf) = -(if t < 0 then Fl.ninf else .pinf)
    split_ifs <;> rfl

private theorem asinh_neg (v : Fl) : CMap.asinh (-v) = -CMap.asinh v := by
  cases v <;> try rfl
  rename_i r
  exact congrArg Fl.fin (Real.arsinh_neg r)

private theorem sinh_neg (v : Fl) : CMap.sinh (-v) = -CMap.sinh v := by
  cases v <;> try rfl
  rename_i r
  exact congrArg Fl.fin (Real.sinh_neg r)

private theorem cosh_neg (v : Fl) : CMap.cosh (-v) = CMap.cosh v := by
  cases v <;> try rfl
  rename_i r
  exact congrArg Fl.fin (Real.cosh_neg r)

private theorem cos_neg (v : Fl) : CMath.cos (-v) = CMath.cos v := by
  cases v <;> try rfl
  rename_i r
  exact congrArg Fl.fin (Real.cos_neg r)

private theorem add_zero' (v : Fl) : v + 0 = v := by
  cases v <;> first | rfl | simp [fl_zero]

private theorem sub_zero' (v : Fl) : v - 0 = v := by
  cases v <;> first | rfl | simp [fl_zero]

private theorem finite_neg (v : Fl) : (-v).isFinite ↔ v.isFinite := by
  cases v <;> rfl

/-- The map of the azimuth of the photon is odd. -/
private theorem phi_odd (w : Fl) (u : ℝ) :
    (VarMap.sigmoid 0 w).apply (.fin (1 - u)) Cut.fullCircle =
      (-((VarMap.sigmoid 0 w).apply (.fin u) Cut.fullCircle).1,
        ((VarMap.sigmoid 0 w).apply (.fin u) Cut.fullCircle).2) := by
  have h : Bound.lerp (Bound.mk' ((VarMap.sigmoid (0 : Fl) w).u Cut.fullCircle.min)
        ((VarMap.sigmoid (0 : Fl) w).u Cut.fullCircle.max)) (.fin (1 - u)) =
      -Bound.lerp (Bound.mk' ((VarMap.sigmoid (0 : Fl) w).u Cut.fullCircle.min)
        ((VarMap.sigmoid (0 : Fl) w).u Cut.fullCircle.max)) (.fin u) := by
    rw [fullCircle_eq]
    have e : ((VarMap.sigmoid (0 : Fl) w).u (.fin (-Real.pi))) =
        -((VarMap.sigmoid (0 : Fl) w).u (.fin Real.pi)) := by
      simp only [VarMap.sigmoid, sub_zero']
      rw [← Fl.neg_fin, neg_div', asinh_neg]
    dsimp only
    rw [e]
    generalize (VarMap.sigmoid (0 : Fl) w).u (.fin Real.pi) = v
    unfold Bound.mk' Bound.lerp
    split_ifs
    · simp only [Fl.sub_fin]
      rw [show 1 - (1 - u) = u by ring, mul_neg', mul_neg', ← neg_add', neg_neg', add_comm']
    · rfl
  unfold VarMap.apply
  dsimp only
  rw [h]
  simp only [VarMap.sigmoid, sinh_neg, cosh_neg, add_zero', mul_neg']

/-- The photon of a random point. -/
private theorem take_mirror (x : Fin 3 → ℝ) :
    let cut := { noCuts with k_0_bar := k0 }
    let t := Cut.takePhotonCut cut (KF ps S pt) fun i => .fin (x i)
    let t' := Cut.takePhotonCut cut (KF ps S (mirror pt)) fun i => .fin (reflectCube x i)
    t'.ok = t.ok ∧ t'.jac = t.jac ∧ t'.kin.tau = t.kin.tau ∧ t'.kin.phi_k = -t.kin.phi_k ∧
      t'.kin.R = t.kin.R := by
  classical
  intro cut t t'
  have hv : ¬ cut.phi_k.valid := by
    intro h
    exact h
  have mu (tau f c d : Fl) : Cut.muOf (KF ps S (mirror pt)) tau (-f) c d = Cut.muOf (KF ps S pt) tau f c d := by
    have e : (KF ps S (mirror pt)).phi_h - -f = -((KF ps S pt).phi_h - f) := by
      show Fl.fin (-pt.phi_h) + - -f = -(Fl.fin pt.phi_h + -f)
      rw [← Fl.neg_fin, neg_add']
    unfold Cut.muOf
    rw [e, cos_neg]
    rfl
  have hphi : ((Cut.phiKMap (KF ps S (mirror pt))).apply (.fin (1 - x 1)) Cut.fullCircle) =
      (-((Cut.phiKMap (KF ps S pt)).apply (.fin (x 1)) Cut.fullCircle).1,
        ((Cut.phiKMap (KF ps S pt)).apply (.fin (x 1)) Cut.fullCircle).2) :=
    phi_odd _ _
  have htau : Cut.tauBound (KF ps S (mirror pt)) = Cut.tauBound (KF ps S pt) := rfl
  have hR (tau f : Fl) : Cut.RBound (KF ps S (mirror pt)) tau (-f) = Cut.RBound (KF ps S pt) tau f := by
    unfold Cut.RBound
    simp only [htau, mu]
    rfl
  have hRc (tau f : Fl) : Cut.RBoundCut cut (KF ps S (mirror pt)) tau (-f) =
      Cut.RBoundCut cut (KF ps S pt) tau f := by
    unfold Cut.RBoundCut
    simp only [htau, mu, hR]
    rfl
  have hvalid : Cut.valid (KF ps S (mirror pt)) = Cut.valid (KF ps S pt) := by
    unfold Cut.valid
    rfl
  have hok (tau f R : Fl) : Cut.validCutRad cut (.make (KF ps S (mirror pt)) tau (-f) R) =
      Cut.validCutRad cut (.make (KF ps S pt) tau f R) := by
    have h1 : Cut.validRad (.make (KF ps S (mirror pt)) tau (-f) R) =
        Cut.validRad (.make (KF ps S pt) tau f R) := by
      unfold Cut.validRad
      have p1 (K : Kinematics Fl) (g : Fl) : (KinematicsRad.make K tau g R).project = K := rfl
      have p2 (K : Kinematics Fl) (g : Fl) : (KinematicsRad.make K tau g R).phi_k = g := rfl
      have p3 (K : Kinematics Fl) (g : Fl) : (KinematicsRad.make K tau g R).tau = tau := rfl
      have p4 (K : Kinematics Fl) (g : Fl) : (KinematicsRad.make K tau g R).R = R := rfl
      have p5 : (KinematicsRad.make (KF ps S (mirror pt)) tau (-f) R).tau_min =
        (KinematicsRad.make (KF ps S pt) tau f R).tau_min := rfl
      have p6 : (KinematicsRad.make (KF ps S (mirror pt)) tau (-f) R).tau_max =
        (KinematicsRad.make (KF ps S pt) tau f R).tau_max := rfl
      refine if_congr ?_ rfl (if_congr ?_ rfl (if_congr ?_ rfl (if_congr ?_ rfl rfl)))
      · rw [p1, p1, hvalid]
      · rw [p3, p3, p5, p6]
      · rw [p2, p2, finite_neg]
      · rw [p1, p1, p2, p2, p3, p3, p4, p4, hR]
    have h2 : (KinematicsRad.make (KF ps S (mirror pt)) tau (-f) R).k_0_bar =
        (KinematicsRad.make (KF ps S pt) tau f R).k_0_bar := by
      have q (K : Kinematics Fl) (g : Fl) : (KinematicsRad.make K tau g R).k_0_bar =
        ((1 + tau - Cut.muOf K tau g ((K.S_x - K.lambda_Y_sqrt) / (2 * sq K.M))
          ((K.S_x + K.lambda_Y_sqrt) / (2 * sq K.M))) * R) / (2 * K.mx) := rfl
      rw [q, q, mu]
      rfl
    have n1 : ¬ cut.tau.valid := fun h => h
    have n2 : ¬ cut.R.valid := fun h => h
    have n3 : ¬ cut.lab_mom_k.valid := fun h => h
    have n4 : ¬ cut.lab_theta_k.valid := fun h => h
    unfold Cut.validCutRad
    refine if_congr (by rw [h1]) rfl ?_
    refine if_congr (iff_of_false (fun h => n1 h.1) fun h => n1 h.1) rfl ?_
    refine if_congr (iff_of_false (fun h => hv h.1) fun h => hv h.1) rfl ?_
    refine if_congr (iff_of_false (fun h => n2 h.1) fun h => n2 h.1) rfl ?_
    refine if_congr (by rw [h2]) rfl ?_
    refine if_congr (iff_of_false (fun h => n3 h.1) fun h => n3 h.1) rfl ?_
    exact if_congr (iff_of_false (fun h => n4 h.1) fun h => n4 h.1) rfl rfl
  have T : t' = (
      let tau := (Cut.tauMap (KF ps S pt)).apply (.fin (x 0)) (Cut.tauBoundCut cut (KF ps S pt))
      let phi_k := (Cut.phiKMap (KF ps S pt)).apply (.fin (x 1)) Cut.fullCircle
      let R := (Cut.RMap (KF ps S pt)).apply (.fin (x 2)) (Cut.RBoundCut cut (KF ps S pt) tau.1 phi_k.1)
      ⟨Cut.validCutRad cut (.make (KF ps S pt) tau.1 phi_k.1 R.1),
        .make (KF ps S (mirror pt)) tau.1 (-phi_k.1) R.1, tau.2 * phi_k.2 * R.2⟩) := by
    have x1 : (fun i => Fl.fin (reflectCube x i)) 1 = Fl.fin (1 - x 1) := rfl
    show Cut.takePhotonCut cut (KF ps S (mirror pt)) _ = _
    unfold Cut.takePhotonCut
    simp only [if_neg hv, x1, hphi]
    have a1 : Cut.tauBoundCut cut (KF ps S (mirror pt)) = Cut.tauBoundCut cut (KF ps S pt) := rfl
    have a2 : Cut.tauMap (KF ps S (mirror pt)) = Cut.tauMap (KF ps S pt) := rfl
    have a3 : Cut.RMap (KF ps S (mirror pt)) = Cut.RMap (KF ps S pt) := rfl
    have x0 : reflectCube x 0 = x 0 := rfl
    have x2 : reflectCube x 2 = x 2 := rfl
    simp only [a1, a2, a3, x0, x2, hRc, hok]
  have T0 : t = (
      let tau := (Cut.tauMap (KF ps S pt)).apply (.fin (x 0)) (Cut.tauBoundCut cut (KF ps S pt))
      let phi_k := (Cut.phiKMap (KF ps S pt)).apply (.fin (x 1)) Cut.fullCircle
      let R := (Cut.RMap (KF ps S pt)).apply (.fin (x 2)) (Cut.RBoundCut cut (KF ps S pt) tau.1 phi_k.1)
      ⟨Cut.validCutRad cut (.make (KF ps S pt) tau.1 phi_k.1 R.1),
        .make (KF ps S pt) tau.1 phi_k.1 R.1, tau.2 * phi_k.2 * R.2⟩) := by
    show Cut.takePhotonCut cut (KF ps S pt) _ = _
    unfold Cut.takePhotonCut
    simp only [if_neg hv]
  rw [T, T0]
  exact ⟨rfl, rfl, rfl, rfl, rfl⟩

/-- The photon of a random point does not depend on the azimuth of the lepton. -/
private theorem take_turn (x : Fin 3 → ℝ) :
    let cut := { noCuts with k_0_bar := k0 }
    let t := Cut.takePhotonCut cut (KF ps S pt) fun i => .fin (x i)
    let t' := Cut.takePhotonCut cut (KF ps S (turnPt a pt)) fun i => .fin (x i)
    t'.ok = t.ok ∧ t'.jac = t.jac ∧ t'.kin.tau = t.kin.tau ∧ t'.kin.phi_k = t.kin.phi_k ∧
      t'.kin.R = t.kin.R := by
  intro cut t t'
  have hvalid : Cut.valid (KF ps S (turnPt a pt)) = Cut.valid (KF ps S pt) := by
    unfold Cut.valid
    rfl
  have hok (tau f R : Fl) : Cut.validCutRad cut (.make (KF ps S (turnPt a pt)) tau f R) =
      Cut.validCutRad cut (.make (KF ps S pt) tau f R) := by
    have h1 : Cut.validRad (.make (KF ps S (turnPt a pt)) tau f R) =
        Cut.validRad (.make (KF ps S pt) tau f R) := by
      unfold Cut.validRad
      have p1 (K : Kinematics Fl) (g : Fl) : (KinematicsRad.make K tau g R).project = K := rfl
      simp only [p1, hvalid]
      rfl
    have n4 : ¬ cut.lab_theta_k.valid := fun h => h
    unfold Cut.validCutRad
    simp only [h1, n4, false_and, if_false]
    rfl
  refine ⟨?_, rfl, rfl, rfl, rfl⟩
  exact hok _ _ _

end Sampling

variable (I : Integrator3) (ps : Particles ℝ) (S a : ℝ) (pt : PhaseSpace ℝ) (ph : Phenom) (sf : SfFuns)
  (lambda_e : ℝ) (target_pol : Vec3) (k_0_bar : Fl)

private theorem integrand_congr {cut : CutRad} {K K' : Kinematics Fl} {xs xs' : KinematicsRad Fl → Fl}
    {x x' : Fin 3 → ℝ}
    (h1 : (Cut.takePhotonCut cut K' fun i => .fin (x' i)).ok = (Cut.takePhotonCut cut K fun i => .fin (x i)).ok)
    (h2 : (Cut.takePhotonCut cut K' fun i => .fin (x' i)).jac = (Cut.takePhotonCut cut K fun i => .fin (x i)).jac)
    (h3 : xs' (Cut.takePhotonCut cut K' fun i => .fin (x' i)).kin =
      xs (Cut.takePhotonCut cut K fun i => .fin (x i)).kin) :
    integrand cut K' xs' x' = integrand cut K xs x := by
  unfold integrand
  simp only [h1, h2, h3]

private theorem xsAt_congr {k k' : Kinematics ℝ} {xs xs' : KinematicsRad ℝ → ℝ} {r r' : KinematicsRad Fl}
    (g : ℝ → ℝ) (G : Fl → Fl) (hg : ∀ v, G (.fin v) = .fin (g v)) (hG : ∀ v : Fl, (∀ u, v ≠ .fin u) → ∀ u, G v ≠ .fin u)
    (h1 : r'.tau = r.tau) (h2 : r'.phi_k = G r.phi_k) (h3 : r'.R = r.R)
    (h : ∀ t f R, xs' (.make k' t (g f) R) = xs (.make k t f R)) : xsAt k' xs' r' = xsAt k xs r := by
  unfold xsAt
  rw [h1, h2, h3]
  cases r.tau <;> try rfl
  cases hf : r.phi_k with
  | fin f =>
    rw [hg]
    cases r.R <;> try rfl
    exact congrArg Fl.fin (h _ _ _)
  | nan =>
    have := hG .nan (by simp)
    cases hG' : G .nan <;> first | rfl | exact absurd hG' (this _)
  | ninf =>
    have := hG .ninf (by simp)
    cases hG' : G .ninf <;> first | rfl | exact absurd hG' (this _)
  | pinf =>
    have := hG .pinf (by simp)
    cases hG' : G .pinf <;> first | rfl | exact absurd hG' (this _)

private theorem neg_not_fin (v : Fl) (h : ∀ u, v ≠ .fin u) (u : ℝ) : -v ≠ .fin u := by
  intro e
  apply h (-u)
  rw [← neg_neg' v, e, Fl.neg_fin]

/-- C111: `xs::rad_f_integ` is the same in the mirror, for all polarisations, structure functions and
cut-offs, if the integrator is even-handed. -/
theorem c111_mirror_rad_f_integ (hI : EvenHanded I) :
    integAtTarget (fun K k l e => radFInteg I K k ph sf l e k_0_bar) ps S (mirror pt) (-lambda_e)
        (reflectSpin target_pol)
      = integAtTarget (fun K k l e => radFInteg I K k ph sf l e k_0_bar) ps S pt lambda_e target_pol := by
  unfold integAtTarget radFInteg
  dsimp only
  rw [← hI]
  congr 1
  funext x
  obtain ⟨h1, h2, h3, h4, h5⟩ := take_mirror ps S pt (Bound.mk' 0 k_0_bar) x
  refine integrand_congr h1 h2 (xsAt_congr (fun v => -v) (fun v => -v) (fun v => rfl) neg_not_fin h3 h4 h5 ?_)
  intro t f R
  have := c107_rad_f ps S ⟨pt.x, pt.y, pt.z, pt.ph_t_sq, pt.phi_h, pt.phi, t, f, R⟩ ph sf lambda_e target_pol
  simp only [atTargetRad, c54_rad_f] at this
  exact this

/-- C111: and so is `xs::nrad_integ`. -/
theorem c111_mirror_nrad_integ (hI : EvenHanded I) :
    integAtTarget (fun K k l e => nradInteg I K k ph sf l e k_0_bar) ps S (mirror pt) (-lambda_e)
        (reflectSpin target_pol)
      = integAtTarget (fun K k l e => nradInteg I K k ph sf l e k_0_bar) ps S pt lambda_e target_pol := by
  have h1 := c111_mirror_rad_f_integ I ps S pt ph sf lambda_e target_pol k_0_bar hI
  have h2 := c107_nrad_ir ps S pt ph sf lambda_e target_pol k_0_bar
  unfold integAtTarget at h1 ⊢
  unfold atTarget at h2
  unfold nradInteg
  dsimp only at h1 h2 ⊢
  rw [h1, h2]

/-- C111: and so is `xs::rad_integ`. -/
theorem c111_mirror_rad_integ (hI : EvenHanded I) :
    integAtTarget (fun K k l e => radInteg I K k ph sf l e k_0_bar) ps S (mirror pt) (-lambda_e)
        (reflectSpin target_pol)
      = integAtTarget (fun K k l e => radInteg I K k ph sf l e k_0_bar) ps S pt lambda_e target_pol := by
  unfold integAtTarget radInteg
  dsimp only
  rw [← hI]
  congr 1
  funext x
  obtain ⟨h1, h2, h3, h4, h5⟩ := take_mirror ps S pt (Bound.mk' k_0_bar .pinf) x
  refine integrand_congr h1 h2 (xsAt_congr (fun v => -v) (fun v => -v) (fun v => rfl) neg_not_fin h3 h4 h5 ?_)
  intro t f R
  exact c107_rad ps S ⟨pt.x, pt.y, pt.z, pt.ph_t_sq, pt.phi_h, pt.phi, t, f, R⟩ ph sf lambda_e target_pol

/-- C111: `xs::rad_f_integ` does not change when everything is turned about the beam, for every
integrator. -/
theorem c111_turn_rad_f_integ :
    integAtTarget (fun K k l e => radFInteg I K k ph sf l e k_0_bar) ps S (turnPt a pt) lambda_e
        (turnVec a target_pol)
      = integAtTarget (fun K k l e => radFInteg I K k ph sf l e k_0_bar) ps S pt lambda_e target_pol := by
  unfold integAtTarget radFInteg
  dsimp only
  congr 1
  funext x
  obtain ⟨h1, h2, h3, h4, h5⟩ := take_turn ps S a pt (Bound.mk' 0 k_0_bar) x
  refine integrand_congr h1 h2 (xsAt_congr id id (fun v => rfl) (fun v h => h) h3 h4 h5 ?_)
  intro t f R
  have := c108_rad_f ps S a ⟨pt.x, pt.y, pt.z, pt.ph_t_sq, pt.phi_h, pt.phi, t, f, R⟩ ph sf lambda_e target_pol
  simp only [atTargetRad, c54_rad_f] at this
  exact this

/-- C111: nor does `xs::nrad_integ`. -/
theorem c111_turn_nrad_integ :
    integAtTarget (fun K k l e => nradInteg I K k ph sf l e k_0_bar) ps S (turnPt a pt) lambda_e
        (turnVec a target_pol)
      = integAtTarget (fun K k l e => nradInteg I K k ph sf l e k_0_bar) ps S pt lambda_e target_pol := by
  have h1 := c111_turn_rad_f_integ I ps S a pt ph sf lambda_e target_pol k_0_bar
  have h2 := c108_nrad_ir ps S a pt ph sf lambda_e target_pol k_0_bar
  unfold integAtTarget at h1 ⊢
  unfold atTarget at h2
  unfold nradInteg
  dsimp only at h1 h2 ⊢
  rw [h1, h2]

/-- C111: nor does `xs::rad_integ`. -/
theorem c111_turn_rad_integ :
    integAtTarget (fun K k l e => radInteg I K k ph sf l e k_0_bar) ps S (turnPt a pt) lambda_e
        (turnVec a target_pol)
      = integAtTarget (fun K k l e => radInteg I K k ph sf l e k_0_bar) ps S pt lambda_e target_pol := by
  unfold integAtTarget radInteg
  dsimp only
  congr 1
  funext x
  obtain ⟨h1, h2, h3, h4, h5⟩ := take_turn ps S a pt (Bound.mk' k_0_bar .pinf) x
  refine integrand_congr h1 h2 (xsAt_congr id id (fun v => rfl) (fun v h => h) h3 h4 h5 ?_)
  intro t f R
  exact c108_rad ps S a ⟨pt.x, pt.y, pt.z, pt.ph_t_sq, pt.phi_h, pt.phi, t, f, R⟩ ph sf lambda_e target_pol

/-- The integral is even-handed. -/
theorem exactCube_evenHanded : EvenHanded exactCube := by
  intro f
  unfold exactCube
  dsimp only
  congr 2
  apply intervalIntegral.integral_congr
  intro x _
  have := intervalIntegral.integral_comp_sub_left (a := 0) (b := 1) (fun b => ∫ c in (0 : ℝ)..1,
    (match f ![x, b, c] with | .fin r => r | _ => 0 : ℝ)) 1
  simp only [sub_self, sub_zero] at this
  exact this

-- Hypotheses of the `c111_mirror_*`: `exactCube_evenHanded`.  The results are not trivial: the integral of the constant
-- 1 over the cube is 1.
example : EvenHanded exactCube ∧ exactCube (fun _ => .fin 1) (fun _ => 0) (fun _ => 1) = ⟨.fin 1, .fin 0⟩ :=
  ⟨exactCube_evenHanded, by simp [exactCube]⟩

end Sidis.Props
