import Verif.Lemmas.ChangeVars
import Verif.Props.SoftPhoton
import Verif.Model.PhotonInteg

/-! # The photon variables sampled by `take`, as a change of variables -/

namespace Sidis

open Spec Real MeasureTheory VarMap Props

/-- The three closed intervals of the unit cube. -/
def unitCube : Set (Fin 3 → ℝ) := {p | ∀ i, 0 ≤ p i ∧ p i ≤ 1}

theorem samples_strict {t : VarMap Fl} {lo hi : ℝ} {X J : ℝ → ℝ} (h : Samples t lo hi X J)
    (hlt : lo < hi) : StrictMonoOn X (Set.Icc 0 1) := by
  refine strictMonoOn_of_deriv_pos (convex_Icc 0 1)
    (fun p hp => (h.deriv p hp.1 hp.2).continuousAt.continuousWithinAt) fun p hp => ?_
  rw [interior_Icc] at hp
  rw [(h.deriv p hp.1.le hp.2.le).deriv]
  exact h.jac_pos hlt p hp.1.le hp.2.le

theorem apply_logarithm {o lo hi p : ℝ} (hlo : 0 < lo + o) (hle : lo ≤ hi) :
    (logarithm (.fin o)).apply (.fin p) ⟨.fin lo, .fin hi⟩ =
      (.fin (exp ((1 - p) * log (lo + o) + p * log (hi + o)) - o),
       .fin (exp ((1 - p) * log (lo + o) + p * log (hi + o)) * (log (hi + o) - log (lo + o)))) := by
  have hhi : 0 < hi + o := by linarith
  have e : ∀ r : ℝ, 0 < r → (CMap.log (Fl.fin r) : Fl) = .fin (log r) := fun r hr => by
    change (if r < 0 then Fl.nan else if r = 0 then .ninf else .fin (log r)) = _
    rw [if_neg hr.not_gt, if_neg hr.ne']
  have e2 : ∀ r : ℝ, (CMap.exp (Fl.fin r) : Fl) = .fin (exp r) := fun r => rfl
  have hl : log (lo + o) ≤ log (hi + o) := log_le_log hlo (by linarith)
  simp only [VarMap.apply, logarithm, Fl.add_fin, e _ hlo, e _ hhi, Bound.mk', Fl.le_fin, hl, not_true,
    if_false, Bound.lerp, Bound.size, Fl.sub_fin, Fl.mul_fin, e2]

section
variable {ps : Particles ℝ} {S : ℝ} {pt : PhaseSpace ℝ}

theorem differentiableAt_recoil (k : Kinematics ℝ) {τ φ : ℝ}
    (h : (τ - (k.S_x - k.lambda_Y_sqrt) / (2 * sq k.M)) *
          ((k.S_x + k.lambda_Y_sqrt) / (2 * sq k.M) - τ) ≠ 0) :
    DifferentiableAt ℝ (recoil k) (τ, φ) := by
  have : recoil k = fun p => 1 + p.1 - (k.ph_0 / k.M
    + 1 / k.lambda_Y_sqrt * (
      (2 * p.1 * sq k.M - k.S_x) * k.ph_l / k.M
      - 2 * k.M * k.ph_t * Real.cos (k.phi_h - p.2) *
        √((p.1 - (k.S_x - k.lambda_Y_sqrt) / (2 * sq k.M)) *
          ((k.S_x + k.lambda_Y_sqrt) / (2 * sq k.M) - p.1)))) := rfl
  rw [this]
  have h1 : DifferentiableAt ℝ (fun p : ℝ × ℝ => √((p.1 - (k.S_x - k.lambda_Y_sqrt) / (2 * sq k.M)) *
          ((k.S_x + k.lambda_Y_sqrt) / (2 * sq k.M) - p.1))) (τ, φ) :=
    DifferentiableAt.sqrt (by fun_prop) h
  fun_prop

theorem measurableSet_unitCube : MeasurableSet unitCube := by
  have e : unitCube = Set.univ.pi fun _ : Fin 3 => Set.Icc (0 : ℝ) 1 := by
    ext p; exact ⟨fun h i _ => h i, fun h i => h i trivial⟩
  rw [e]
  exact MeasurableSet.univ_pi fun _ => measurableSet_Icc

theorem unitCube_ae : {p : Fin 3 → ℝ | (0 < p 0 ∧ p 0 < 1) ∧ (0 < p 1 ∧ p 1 < 1) ∧ (0 < p 2 ∧ p 2 ≤ 1)}
    =ᵐ[volume] unitCube := by
  have e1 : {p : Fin 3 → ℝ | (0 < p 0 ∧ p 0 < 1) ∧ (0 < p 1 ∧ p 1 < 1) ∧ (0 < p 2 ∧ p 2 ≤ 1)}
      = Set.univ.pi ![Set.Ioo 0 1, Set.Ioo 0 1, Set.Ioc 0 1] := by
    ext p
    simp [Set.mem_pi, Fin.forall_fin_succ]
  have e2 : unitCube = Set.univ.pi fun _ : Fin 3 => Set.Icc (0 : ℝ) 1 := by
    ext p
    exact ⟨fun h i _ => h i, fun h i => h i trivial⟩
  rw [e1, e2, volume_pi]
  refine Measure.ae_eq_set_pi fun i _ => ?_
  fin_cases i
  · exact Ioo_ae_eq_Icc
  · exact Ioo_ae_eq_Icc
  · exact Ioc_ae_eq_Icc

theorem photon_integral (hm : Massive ps) (h : Accepted ps S pt) (hs : Samplable ps S pt)
    (cut : CutRad) (hct : ¬ cut.tau.valid) (hcp : ¬ cut.phi_k.valid) {a b : ℝ} (ha : 0 ≤ a) (hab : a < b)
    (hb : b ≤ (Kinematics.make ps S pt).mx_sq - ps.Mth ^ 2)
    (hR : ∀ τ φ : ℝ, ps.M ^ 2 * τ ^ 2 ≤ S * pt.y * τ + S * pt.x * pt.y →
      Cut.RBoundCut cut (.make (finPs ps) (.fin S) (finPt pt)) (.fin τ) (.fin φ)
        = ⟨.fin (a / recoil (.make ps S pt) (τ, φ)), .fin (b / recoil (.make ps S pt) (τ, φ))⟩)
    (hv : ∀ τ φ R : ℝ, AcceptedRad ps S pt τ φ R → a ≤ recoil (.make ps S pt) (τ, φ) * R →
      recoil (.make ps S pt) (τ, φ) * R ≤ b → Cut.validCutRad cut
        (.make (.make (finPs ps) (.fin S) (finPt pt)) (.fin τ) (.fin φ) (.fin R)) = true)
    (xs : KinematicsRad ℝ → ℝ) :
    let k := Kinematics.make ps S pt
    let F := fun v : ℝ × ℝ × ℝ => xs (.make k v.1 v.2.1 v.2.2)
    let sh := shell (tauLo k) (tauHi k) (-π) π (recoil k) a b
    ∃ g : (Fin 3 → ℝ) → ℝ, (∀ p ∈ unitCube, PhotonInteg.integrand cut
        (.make (finPs ps) (.fin S) (finPt pt)) (PhotonInteg.xsAt k xs) p = .fin (g p)) ∧
      (IntegrableOn g unitCube ↔ IntegrableOn F sh) ∧
      ∫ p in unitCube, g p = ∫ v in sh, F v := by
  classical
  intro k F sh
  set K := Kinematics.make (finPs ps) (.fin S) (finPt pt) with hK
  have hkr : KinRel k := kinRel_of_physical (physical_of_samplable hm h hs)
  have hpi : -π < π := by linarith [pi_pos]
  have hle : tauLo k < tauHi k := by
    unfold tauLo tauHi
    have := hkr.lY_pos
    have := hkr.M_pos
    gcongr; linarith
  obtain ⟨⟨c, w, cr, wr, emt, w0, wr0⟩, ⟨wk, emk, wk0⟩, ⟨o, emr, o0⟩⟩ := photon_maps hm h hs
  rw [← hK] at emt emk emr
  obtain ⟨X0, J0, S0⟩ := (c28_apply_map hle.le).2.2.2.2.2 c w cr wr w0 wr0
  obtain ⟨X1, J1, S1⟩ := (c28_apply_map hpi.le).2.2.2.2.1 0 wk wk0
  rw [← emt] at S0
  rw [← emk] at S1
  have eM : sq k.M = ps.M ^ 2 := (pow_two _).symm
  have ebt : Cut.tauBoundCut cut K = ⟨.fin (tauLo k), .fin (tauHi k)⟩ := by
    unfold Cut.tauBoundCut
    simp only [hct, if_false]
    exact tauBound_fin hm h
  -- the third variable
  set A := fun p : Fin 3 → ℝ => log (a / recoil k (X0 (p 0), X1 (p 1)) + o) with hA
  set B := fun p : Fin 3 → ℝ => log (b / recoil k (X0 (p 0), X1 (p 1)) + o) with hB
  set X2 := fun p : Fin 3 → ℝ => exp ((1 - p 2) * A p + p 2 * B p) - o with hX2
  set J2 := fun p : Fin 3 → ℝ => exp ((1 - p 2) * A p + p 2 * B p) * (B p - A p) with hJ2
  have m0 : ∀ q : ℝ, 0 ≤ q → q ≤ 1 → tauLo k ≤ X0 q ∧ X0 q ≤ tauHi k := fun q h0 h1 =>
    ⟨S0.zero ▸ S0.mono 0 q le_rfl h0 h1, S0.one ▸ S0.mono q 1 h0 h1 le_rfl⟩
  have m1 : ∀ q : ℝ, 0 ≤ q → q ≤ 1 → -π ≤ X1 q ∧ X1 q ≤ π := fun q h0 h1 =>
    ⟨S1.zero ▸ S1.mono 0 q le_rfl h0 h1, S1.one ▸ S1.mono q 1 h0 h1 le_rfl⟩
  have ht : ∀ τ : ℝ, tauLo k ≤ τ ∧ τ ≤ tauHi k → ps.M ^ 2 * τ ^ 2 ≤ S * pt.y * τ + S * pt.x * pt.y :=
    fun τ q => (tau_mem_iff hkr τ).1 q
  have hrp : ∀ p ∈ unitCube, 0 < recoil k (X0 (p 0), X1 (p 1)) := fun p hp =>
    recoil_pos (φ := X1 (p 1)) hm h (ht _ (m0 _ (hp 0).1 (hp 0).2))
  have hA0 : ∀ p ∈ unitCube, 0 < a / recoil k (X0 (p 0), X1 (p 1)) + o := fun p hp => by
    have := hrp p hp; positivity
  have hlt2 : ∀ p ∈ unitCube, a / recoil k (X0 (p 0), X1 (p 1)) < b / recoil k (X0 (p 0), X1 (p 1)) :=
    fun p hp => div_lt_div_of_pos_right hab (hrp p hp)
  have hB0 : ∀ p ∈ unitCube, 0 < b / recoil k (X0 (p 0), X1 (p 1)) + o := fun p hp => by
    have := hA0 p hp; have := hlt2 p hp; linarith
  have hAB : ∀ p ∈ unitCube, A p < B p := fun p hp => log_lt_log (hA0 p hp) (by have := hlt2 p hp; linarith)
  have m2 : ∀ p ∈ unitCube, a / recoil k (X0 (p 0), X1 (p 1)) ≤ X2 p ∧
      X2 p ≤ b / recoil k (X0 (p 0), X1 (p 1)) := fun p hp => by
    have h1 : A p ≤ (1 - p 2) * A p + p 2 * B p := by nlinarith [hAB p hp, (hp 2).1]
    have h2 : (1 - p 2) * A p + p 2 * B p ≤ B p := by nlinarith [hAB p hp, (hp 2).2]
    have e1 := exp_le_exp.2 h1
    have e2 := exp_le_exp.2 h2
    rw [hA] at e1
    rw [hB] at e2
    simp only at e1 e2
    rw [exp_log (hA0 p hp)] at e1
    rw [exp_log (hB0 p hp)] at e2
    exact ⟨by simp only [hX2]; linarith, by simp only [hX2]; linarith⟩
  have mR : ∀ p ∈ unitCube, a ≤ recoil k (X0 (p 0), X1 (p 1)) * X2 p ∧
      recoil k (X0 (p 0), X1 (p 1)) * X2 p ≤ b := fun p hp => by
    obtain ⟨q1, q2⟩ := m2 p hp
    have := hrp p hp
    rw [div_le_iff₀ this] at q1
    rw [le_div_iff₀ this] at q2
    exact ⟨by linarith, by linarith⟩
  have hacc : ∀ p ∈ unitCube, AcceptedRad ps S pt (X0 (p 0)) (X1 (p 1)) (X2 p) := fun p hp => by
    obtain ⟨q1, q2⟩ := mR p hp
    refine ⟨h, ht _ (m0 _ (hp 0).1 (hp 0).2), ?_, ?_⟩
    · have := hrp p hp
      exact le_trans (by positivity) (m2 p hp).1
    · rw [shift_mx_eq hm h, ← recoil_eq]
      change ps.Mth ^ 2 ≤ k.mx_sq - X2 p * recoil k _
      linarith
  set g := fun p : Fin 3 → ℝ => J0 (p 0) * J1 (p 1) * J2 p * F (X0 (p 0), X1 (p 1), X2 p) with hg
  refine ⟨g, fun p hp => ?_, ?_⟩
  · have ex := S0.eq (p 0) (hp 0).1 (hp 0).2
    have ey := S1.eq (p 1) (hp 1).1 (hp 1).2
    have ez : (Cut.RMap K).apply (.fin (p 2))
        (Cut.RBoundCut cut K (.fin (X0 (p 0))) (.fin (X1 (p 1)))) = (.fin (X2 p), .fin (J2 p)) := by
      rw [hR _ _ (ht _ (m0 _ (hp 0).1 (hp 0).2)), emr]
      exact apply_logarithm (hA0 p hp) (hlt2 p hp).le
    have et : Cut.takePhotonCut cut K (fun i => .fin (p i)) =
        ⟨true, .make K (.fin (X0 (p 0))) (.fin (X1 (p 1))) (.fin (X2 p)),
          .fin (J0 (p 0) * J1 (p 1) * J2 p)⟩ := by
      unfold Cut.takePhotonCut
      simp only [hcp, if_false, ebt, ex, fullCircle_eq, ey, ez,
        hv _ _ _ (hacc p hp) (mR p hp).1 (mR p hp).2, Fl.mul_fin]
    unfold PhotonInteg.integrand
    simp only [et]
    change Asym.nanToZero (.fin _ * .fin (F (X0 (p 0), X1 (p 1), X2 p))) = _
    rw [Fl.mul_fin]
    simp [Asym.nanToZero, hg]
  · set s := {p : Fin 3 → ℝ | (0 < p 0 ∧ p 0 < 1) ∧ (0 < p 1 ∧ p 1 < 1) ∧ (0 < p 2 ∧ p 2 ≤ 1)} with hsd
    have hsc : s ⊆ unitCube := by
      rintro p ⟨q0, q1, q2⟩ i
      fin_cases i
      exacts [⟨q0.1.le, q0.2.le⟩, ⟨q1.1.le, q1.2.le⟩, ⟨q2.1.le, q2.2⟩]
    have hsm : MeasurableSet s := by
      have c0 : Measurable fun p : Fin 3 → ℝ => p 0 := measurable_pi_apply 0
      have c1 : Measurable fun p : Fin 3 → ℝ => p 1 := measurable_pi_apply 1
      have c2 : Measurable fun p : Fin 3 → ℝ => p 2 := measurable_pi_apply 2
      exact (c0 measurableSet_Ioo).inter ((c1 measurableSet_Ioo).inter (c2 measurableSet_Ioc))
    have T0 := samples_strict S0 hle
    have T1 := samples_strict S1 hpi
    have t0 : ∀ p ∈ s, tauLo k < X0 (p 0) ∧ X0 (p 0) < tauHi k := fun p hp =>
      ⟨S0.zero ▸ T0 ⟨le_rfl, zero_le_one⟩ ⟨hp.1.1.le, hp.1.2.le⟩ hp.1.1,
       S0.one ▸ T0 ⟨hp.1.1.le, hp.1.2.le⟩ ⟨zero_le_one, le_rfl⟩ hp.1.2⟩
    have t1 : ∀ p ∈ s, -π < X1 (p 1) ∧ X1 (p 1) < π := fun p hp =>
      ⟨S1.zero ▸ T1 ⟨le_rfl, zero_le_one⟩ ⟨hp.2.1.1.le, hp.2.1.2.le⟩ hp.2.1.1,
       S1.one ▸ T1 ⟨hp.2.1.1.le, hp.2.1.2.le⟩ ⟨zero_le_one, le_rfl⟩ hp.2.1.2⟩
    have d0 : ∀ p ∈ s, HasDerivAt X0 (J0 (p 0)) (p 0) := fun p hp =>
      S0.deriv _ (hsc hp 0).1 (hsc hp 0).2
    have d1 : ∀ p ∈ s, HasDerivAt X1 (J1 (p 1)) (p 1) := fun p hp =>
      S1.deriv _ (hsc hp 1).1 (hsc hp 1).2
    have d2 : ∀ p ∈ s, DifferentiableAt ℝ X2 p := fun p hp => by
      have r1 : DifferentiableAt ℝ (recoil k) (X0 (p 0), X1 (p 1)) :=
        differentiableAt_recoil k (by
          have := (mul_pos (sub_pos.2 (t0 p hp).1) (sub_pos.2 (t0 p hp).2)).ne'
          unfold tauLo tauHi at this
          rwa [sq, ← pow_two])
      have r2 : DifferentiableAt ℝ (fun q : Fin 3 → ℝ => (X0 (q 0), X1 (q 1))) p :=
        DifferentiableAt.prodMk
          ((d0 p hp).differentiableAt.comp (f := fun q : Fin 3 → ℝ => q 0) p (by fun_prop))
          ((d1 p hp).differentiableAt.comp (f := fun q : Fin 3 → ℝ => q 1) p (by fun_prop))
      have r3 : DifferentiableAt ℝ (fun q : Fin 3 → ℝ => recoil k (X0 (q 0), X1 (q 1))) p :=
        DifferentiableAt.comp (g := recoil k) (f := fun q : Fin 3 → ℝ => (X0 (q 0), X1 (q 1))) p r1 r2
      have r4 : DifferentiableAt ℝ A p :=
        ((r3.fun_inv (hrp p (hsc hp)).ne').const_mul a |>.add_const o).log (hA0 p (hsc hp)).ne'
      have r5 : DifferentiableAt ℝ B p :=
        ((r3.fun_inv (hrp p (hsc hp)).ne').const_mul b |>.add_const o).log (hB0 p (hsc hp)).ne'
      simp only [hX2]
      fun_prop
    have d2' : ∀ p ∈ s, HasDerivAt (fun t => X2 (Function.update p 2 t)) (J2 p) (p 2) := fun p hp => by
      have e : (fun t => X2 (Function.update p 2 t)) =
          fun t => exp ((1 - t) * A p + t * B p) - o := by
        funext t
        have q0 : Function.update p 2 t 0 = p 0 := Function.update_of_ne (by decide) _ _
        have q1 : Function.update p 2 t 1 = p 1 := Function.update_of_ne (by decide) _ _
        simp only [hX2, hA, hB, q0, q1, Function.update_self]
      rw [e]
      have : HasDerivAt (fun t : ℝ => (1 - t) * A p + t * B p) ((0 - 1) * A p + 1 * B p) (p 2) :=
        (((hasDerivAt_const (p 2) (1 : ℝ)).sub (hasDerivAt_id (p 2))).mul_const (A p)).add
          ((hasDerivAt_id (p 2)).mul_const (B p))
      refine (this.exp.sub_const o).congr_deriv ?_
      simp only [hJ2]
      ring
    have n0 : ∀ p ∈ s, 0 ≤ J0 (p 0) := fun p hp => S0.jac_nonneg _ (hsc hp 0).1 (hsc hp 0).2
    have n1 : ∀ p ∈ s, 0 ≤ J1 (p 1) := fun p hp => S1.jac_nonneg _ (hsc hp 1).1 (hsc hp 1).2
    have n2 : ∀ p ∈ s, 0 ≤ J2 p := fun p hp =>
      mul_nonneg (exp_pos _).le (sub_nonneg.2 (hAB p (hsc hp)).le)
    have hinj : Set.InjOn (fun p => (X0 (p 0), X1 (p 1), X2 p)) s := by
      intro p hp q hq e
      simp only [Prod.mk.injEq] at e
      obtain ⟨e0, e1, e2⟩ := e
      have f0 : p 0 = q 0 := T0.injOn (hsc hp 0) (hsc hq 0) e0
      have f1 : p 1 = q 1 := T1.injOn (hsc hp 1) (hsc hq 1) e1
      have f2 : p 2 = q 2 := by
        have eA : A p = A q := by simp only [hA, f0, f1]
        have eB : B p = B q := by simp only [hB, f0, f1]
        simp only [hX2] at e2
        have := exp_injective (sub_left_injective e2)
        rw [← eA, ← eB] at this
        have hne := (sub_pos.2 (hAB p (hsc hp))).ne'
        have : (p 2 - q 2) * (B p - A p) = 0 := by linear_combination this
        rcases mul_eq_zero.1 this with z | z
        · linarith
        · exact absurd z hne
      ext i
      fin_cases i
      exacts [f0, f1, f2]
    have himg : (fun p => (X0 (p 0), X1 (p 1), X2 p)) '' s =
        sh ∩ (Set.Ioo (tauLo k) (tauHi k) ×ˢ (Set.Ioo (-π) π ×ˢ Set.univ)) := by
      ext ⟨τ, φ, R⟩
      simp only [Set.mem_image, Set.mem_inter_iff, Set.mem_prod, Set.mem_Ioo, Set.mem_univ, and_true,
        Prod.mk.injEq, sh, shell, Set.mem_ofPred_eq, Set.mem_Icc]
      constructor
      · rintro ⟨p, hp, rfl, rfl, rfl⟩
        obtain ⟨q1, q2⟩ := t0 p hp
        obtain ⟨q3, q4⟩ := t1 p hp
        have hr := hrp p (hsc hp)
        refine ⟨⟨⟨q1.le, q2.le⟩, ⟨q3.le, q4.le⟩, ?_, (mR p (hsc hp)).2⟩, ⟨q1, q2⟩, q3, q4⟩
        have h1 : A p < (1 - p 2) * A p + p 2 * B p := by nlinarith [hAB p (hsc hp), hp.2.2.1]
        have e1 := exp_lt_exp.2 h1
        rw [hA] at e1
        simp only at e1
        rw [exp_log (hA0 p (hsc hp))] at e1
        have : a / recoil k (X0 (p 0), X1 (p 1)) < X2 p := by simp only [hX2, hA]; linarith
        rw [div_lt_iff₀ hr] at this
        linarith
      · rintro ⟨⟨-, -, q1, q2⟩, ⟨q3, q4⟩, q5, q6⟩
        obtain ⟨p0, i0, j0, rfl⟩ := S0.onto τ q3.le q4.le
        obtain ⟨p1, i1, j1, rfl⟩ := S1.onto φ q5.le q6.le
        have i0' : 0 < p0 := lt_of_le_of_ne i0 fun e => by rw [← e, S0.zero] at q3; exact lt_irrefl _ q3
        have j0' : p0 < 1 := lt_of_le_of_ne j0 fun e => by rw [e, S0.one] at q4; exact lt_irrefl _ q4
        have i1' : 0 < p1 := lt_of_le_of_ne i1 fun e => by rw [← e, S1.zero] at q5; exact lt_irrefl _ q5
        have j1' : p1 < 1 := lt_of_le_of_ne j1 fun e => by rw [e, S1.one] at q6; exact lt_irrefl _ q6
        have hr : 0 < recoil k (X0 p0, X1 p1) := recoil_pos (φ := X1 p1) hm h (ht _ ⟨q3.le, q4.le⟩)
        set u := log (R + o)
        set A' := log (a / recoil k (X0 p0, X1 p1) + o)
        set B' := log (b / recoil k (X0 p0, X1 p1) + o)
        have r1 : a / recoil k (X0 p0, X1 p1) < R := by rw [div_lt_iff₀ hr]; linarith
        have r2 : R ≤ b / recoil k (X0 p0, X1 p1) := by rw [le_div_iff₀ hr]; linarith
        have r0 : 0 < a / recoil k (X0 p0, X1 p1) + o := by positivity
        have u1 : A' < u := log_lt_log r0 (by linarith)
        have u2 : u ≤ B' := log_le_log (by linarith) (by linarith)
        have hd : 0 < B' - A' := by linarith
        refine ⟨![p0, p1, (u - A') / (B' - A')], ⟨⟨i0', j0'⟩, ⟨i1', j1'⟩, ?_, ?_⟩, rfl, rfl, ?_⟩
        · exact div_pos (by linarith) hd
        · exact (div_le_one hd).2 (by linarith)
        · change exp ((1 - (u - A') / (B' - A')) * A' + (u - A') / (B' - A') * B') - o = R
          have : (1 - (u - A') / (B' - A')) * A' + (u - A') / (B' - A') * B' = u := by
            field_simp; ring
          rw [this, exp_log (by linarith)]
          ring
    have hsh : (sh ∩ (Set.Ioo (tauLo k) (tauHi k) ×ˢ (Set.Ioo (-π) π ×ˢ Set.univ)) :
        Set (ℝ × ℝ × ℝ)) =ᵐ[volume] sh := by
      have e1 : (Set.Ioo (tauLo k) (tauHi k) ×ˢ (Set.Ioo (-π) π ×ˢ (Set.univ : Set ℝ)))
          =ᵐ[volume] (Set.Icc (tauLo k) (tauHi k) ×ˢ (Set.Icc (-π) π ×ˢ (Set.univ : Set ℝ))) := by
        rw [Measure.volume_eq_prod, Measure.volume_eq_prod]
        exact Measure.set_prod_ae_eq Ioo_ae_eq_Icc
          (Measure.set_prod_ae_eq Ioo_ae_eq_Icc (ae_eq_refl _))
      have e2 : sh ∩ (Set.Icc (tauLo k) (tauHi k) ×ˢ (Set.Icc (-π) π ×ˢ Set.univ)) = sh := by
        refine Set.inter_eq_left.2 fun v hv => ⟨hv.1, hv.2.1, Set.mem_univ _⟩
      have := (ae_eq_refl sh).inter e1
      rwa [e2] at this
    obtain ⟨c1, c2⟩ := change_of_variables hsm d0 d1 d2 d2' n0 n1 n2 hinj F
    rw [himg, integrableOn_congr_set_ae hsh, integrableOn_congr_set_ae unitCube_ae] at c1
    rw [himg, setIntegral_congr_set hsh, setIntegral_congr_set unitCube_ae] at c2
    exact ⟨c1.symm, c2.symm⟩

end
end Sidis
