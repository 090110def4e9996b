import Verif.Props.PhotonInteg

/-! # Cut-offs that are not positive (C130) -/

namespace Sidis.Props

open Spec Real MeasureTheory PhotonInteg

noncomputable section

variable {ps : Particles ℝ} {S : ℝ} {pt : PhaseSpace ℝ}

/-- The integral the code estimates without a bound on the energy. -/
private theorem uncut_integral (hm : Massive ps) (h : Accepted ps S pt) (hs : Samplable ps S pt)
    (xs : KinematicsRad ℝ → ℝ) :
    let k := Kinematics.make ps S pt
    let F := fun v : ℝ × ℝ × ℝ => xs (.make k v.1 v.2.1 v.2.2)
    ∃ g : (Fin 3 → ℝ) → ℝ, (∀ p ∈ unitCube, integrand noCuts
        (.make (finPs ps) (.fin S) (finPt pt)) (xsAt k xs) p = .fin (g p)) ∧
      (IntegrableOn g unitCube ↔ IntegrableOn F (photons ps S pt)) ∧
      ∫ p in unitCube, g p = ∫ v in photons ps S pt, F v := by
  intro k F
  have hmx : 0 < k.mx := mx_pos_of_accepted hm h
  have hroom : 0 < k.mx_sq - ps.Mth ^ 2 := sub_pos.2 hs.room
  have hi : ¬ Bound.invalid.valid := by simp [Bound.invalid, Bound.valid]
  obtain ⟨g, h1, h2, h3⟩ := photon_integral hm h hs noCuts hi hi le_rfl hroom le_rfl
    (fun τ φ ht => by
      unfold Cut.RBoundCut
      simp only [noCuts, hi, if_false]
      rw [RBound_fin hm h φ 0 ht, recoil_eq _ _ _ 0]
      simp only [zero_div, Bound.mk.injEq, Fl.fin.injEq, true_and]
      rw [one_div, inv_mul_eq_div])
    (fun τ φ R ha _ _ => by
      rw [c23_cut_rad]
      refine ⟨(validRad_iff hm _ _ _).2 ⟨_, _, _, rfl, rfl, rfl, ha⟩, ?_⟩
      simp only [Satisfies, cutRadTable, noCuts, List.forall_mem_cons, hi, false_implies,
        List.not_mem_nil, implies_true, and_true]) xs
  have hae := softPhotons_ae hm h hs (energyMax ps S pt)
  have em : min (k.mx_sq - ps.Mth ^ 2) (2 * k.mx * energyMax ps S pt) = k.mx_sq - ps.Mth ^ 2 := by
    change min _ (2 * k.mx * ((k.mx_sq - ps.Mth ^ 2) / (2 * k.mx))) = _
    rw [mul_div_cancel₀ _ (by positivity), min_self]
  change _ =ᵐ[volume] _ at hae
  rw [soft_all hm le_rfl] at hae
  change shell (tauLo k) (tauHi k) (-π) π (recoil k) 0
    (min (k.mx_sq - ps.Mth ^ 2) (2 * k.mx * energyMax ps S pt)) =ᵐ[volume] _ at hae
  rw [em] at hae
  refine ⟨g, h1, ?_, ?_⟩
  · rw [h2]; exact integrableOn_congr_set_ae hae
  · rw [h3]; exact setIntegral_congr_set hae

/-- C130: with a cut-off that is zero, negative or NaN, `nrad_integ` is never a number. -/
theorem c130_nrad (I : Integrator3) (K : Kinematics Fl) (k : Kinematics ℝ) (ph : Phenom) (sf : SfFuns) (lambda : ℝ)
    (eta : Vec3) (c : Fl) (hc : ¬ .fin 0 < c) : ¬ (nradInteg I K k ph sf lambda eta c).val.isFinite := by
  have h := c55_no_cutoff k ph sf lambda eta c hc
  change ¬ (xsNradIr k ph sf lambda eta c + (radFInteg I K k ph sf lambda eta c).val).isFinite
  generalize xsNradIr k ph sf lambda eta c = a at h
  generalize (radFInteg I K k ph sf lambda eta c).val = b
  cases a <;> cases b <;> simp_all

private theorem jac_point {t : VarMap Fl} {a : ℝ} {X J : ℝ → ℝ} (hX : Samples t a a X J) {p : ℝ} (h0 : 0 ≤ p)
    (h1 : p ≤ 1) : J p = 0 := by
  have hc : Set.EqOn X (fun _ => a) (Set.Icc 0 1) := fun q hq =>
    le_antisymm ((hX.mono q 1 hq.1 hq.2 le_rfl).trans hX.one.le) (hX.zero.ge.trans (hX.mono 0 q le_rfl hq.1 hq.2))
  have d1 := (hX.deriv p h0 h1).hasDerivWithinAt (s := Set.Icc 0 1)
  have d2 : HasDerivWithinAt X 0 (Set.Icc 0 1) p :=
    (hasDerivWithinAt_const p (Set.Icc 0 1) a).congr hc (hc ⟨h0, h1⟩)
  exact (uniqueDiffOn_Icc zero_lt_one p ⟨h0, h1⟩).eq_deriv _ d1 d2

/-- C130: with a cut-off of zero `rad_f_integ` is zero, to the accuracy of the integrator. (Every photon has R = 0
and the jacobian is zero. Where the code would divide by R it gets NaN, which the integrand replaces by zero.) -/
theorem c130_zero (hm : Massive ps) (h : Accepted ps S pt) (hs : Samplable ps S pt) (ph : Phenom)
    (sf : SfFuns) (lambda : ℝ) (eta : Vec3) {I : Integrator3} {ε : ℝ} (hI : Accurate I ε) :
    ∃ v : ℝ, (radFInteg I (.make (finPs ps) (.fin S) (finPt pt)) (.make ps S pt) ph sf lambda eta (.fin 0)).val
      = .fin v ∧ |v| ≤ ε := by
  set k := Kinematics.make ps S pt with hkd
  set K := Kinematics.make (finPs ps) (.fin S) (finPt pt) with hK
  have hmx : 0 < k.mx := mx_pos_of_accepted hm h
  have hroom : 0 < k.mx_sq - ps.Mth ^ 2 := sub_pos.2 hs.room
  have hi : ¬ Bound.invalid.valid := by simp [Bound.invalid, Bound.valid]
  have eb : Bound.mk' (0 : Fl) (.fin 0) = ⟨.fin 0, .fin 0⟩ := by
    change Bound.mk' (.fin 0) (.fin 0) = _
    rw [Bound.mk', if_neg]
    simp
  have hbv : (⟨.fin 0, .fin 0⟩ : Bound).valid := by
    change (Fl.fin 0 : Fl) ≤ .fin 0
    simp
  obtain ⟨v, hv, hε⟩ := hI (integrand { noCuts with k_0_bar := Bound.mk' (0 : Fl) (.fin 0) } K
      (xsAt k fun kr => xsRadF0 kr ph sf (HadLP.make k sf) lambda eta)) (fun _ => 0) (fun p hp => by
    rw [eb]
    set cut : CutRad := { noCuts with k_0_bar := ⟨.fin 0, .fin 0⟩ } with hcut
    have hkr : KinRel k := kinRel_of_physical (physical_of_samplable hm h hs)
    have hle : tauLo k ≤ tauHi k := by
      unfold tauLo tauHi
      have := hkr.lY_pos
      have := hkr.M_pos
      gcongr; linarith
    obtain ⟨⟨c', w, cr, wr, emt, w0, wr0⟩, ⟨wk, emk, wk0⟩, ⟨o, emr, o0⟩⟩ := photon_maps hm h hs
    rw [← hK] at emt emk emr
    obtain ⟨X0, J0, S0⟩ := (c28_apply_map hle).2.2.2.2.2 c' w cr wr w0 wr0
    obtain ⟨X1, J1, S1⟩ := (c28_apply_map (by linarith [pi_pos] : -π ≤ π)).2.2.2.2.1 0 wk wk0
    obtain ⟨X2, J2, S2⟩ := (c28_apply_map (le_refl (0 : ℝ))).2.2.1 o (by linarith)
    rw [← emt] at S0
    rw [← emk] at S1
    rw [← emr] at S2
    have ebt : Cut.tauBoundCut cut K = ⟨.fin (tauLo k), .fin (tauHi k)⟩ := by
      unfold Cut.tauBoundCut
      simp only [hcut, noCuts, hi, if_false]
      exact tauBound_fin hm h
    have hcp : ¬ cut.phi_k.valid := hi
    have ex := S0.eq (p 0) (hp 0).1 (hp 0).2
    have ey := S1.eq (p 1) (hp 1).1 (hp 1).2
    have ez := S2.eq (p 2) (hp 2).1 (hp 2).2
    rw [jac_point S2 (hp 2).1 (hp 2).2] at ez
    have ht : ps.M ^ 2 * X0 (p 0) ^ 2 ≤ S * pt.y * X0 (p 0) + S * pt.x * pt.y :=
      (tau_mem_iff hkr _).1 ⟨S0.zero ▸ S0.mono 0 _ le_rfl (hp 0).1 (hp 0).2,
        S0.one ▸ S0.mono _ 1 (hp 0).1 (hp 0).2 le_rfl⟩
    have hrp : 0 < recoil k (X0 (p 0), X1 (p 1)) := recoil_pos (φ := X1 (p 1)) hm h ht
    have hb : Cut.RBoundCut cut K (.fin (X0 (p 0))) (.fin (X1 (p 1))) = ⟨.fin 0, .fin 0⟩ := by
      refine (RBoundCut_energy hm h (X1 (p 1)) ht _ hbv).trans ?_
      have hrp' : recoil (Kinematics.make ps S pt) (X0 (p 0), X1 (p 1)) ≠ 0 := hrp.ne'
      have hq : (0 : ℝ) ≤ (k.mx_sq - ps.Mth ^ 2) / recoil k (X0 (p 0), X1 (p 1)) := by positivity
      simp only [Fl.mul_fin, Fl.div_fin _ hrp', zero_mul, zero_div]
      rw [inter_fin, max_self]
      first
        | rw [min_eq_left hq, if_pos le_rfl]
        | rw [min_eq_right hq, if_pos le_rfl]
    unfold integrand Cut.takePhotonCut
    simp only [hcp, if_false, ebt, ex, fullCircle_eq, ey, hb, ez, Fl.mul_fin, mul_zero]
    split_ifs with q2
    · simp [xsAt, KinematicsRad.make, Asym.nanToZero]
    · rfl) (by simp)
  exact ⟨v, hv, by simpa using hε⟩

/-- C130, false as documented: no photon has an energy below a negative cut-off, but `rad_f_integ` then integrates over
all photons, of whatever energy, and does so for NaN too. -/
theorem c130_negative_refuted (hm : Massive ps) (h : Accepted ps S pt) (hs : Samplable ps S pt) (ph : Phenom)
    (sf : SfFuns) (lambda : ℝ) (eta : Vec3) {I : Integrator3} {ε : ℝ} (hI : Accurate I ε) (c : Fl)
    (hc : ¬ .fin 0 ≤ c) :
    let K := Kinematics.make (finPs ps) (.fin S) (finPt pt)
    let k := Kinematics.make ps S pt
    let radF := fun v : ℝ × ℝ × ℝ => xsRadF (.make k v.1 v.2.1 v.2.2) ph sf lambda eta
    (∀ r : ℝ, c = .fin r → softPhotons ps S pt r = ∅) ∧
    (IntegrableOn radF (photons ps S pt) → ∃ v : ℝ, (radFInteg I K k ph sf lambda eta c).val = .fin v ∧
      |v - ∫ w in photons ps S pt, radF w| ≤ ε) := by
  intro K k radF
  constructor
  · rintro r rfl
    refine Set.eq_empty_of_forall_notMem fun v hv => hc ?_
    rw [Fl.le_fin]
    have hp := recoil_pos (φ := v.2.1) hm h hv.1.1.photon
    have hmx := mx_pos_of_accepted hm h
    refine le_trans ?_ hv.2
    rw [energyBar_eq]
    exact div_nonneg (mul_nonneg hp.le hv.1.1.R_nonneg) (by positivity)
  · intro hint
    obtain ⟨g, h1, h2, h3⟩ := uncut_integral hm h hs fun kr =>
      xsRadF0 kr ph sf (HadLP.make k sf) lambda eta
    have e : radF = fun v : ℝ × ℝ × ℝ =>
        xsRadF0 (.make k v.1 v.2.1 v.2.2) ph sf (HadLP.make k sf) lambda eta := by
      funext v
      exact c54_rad_f _ ph sf lambda eta
    rw [e] at hint ⊢
    obtain ⟨v, hv, hε⟩ := hI _ g h1 (h2.2 hint)
    have hε : |v - ∫ p in unitCube, g p| ≤ ε := hε
    rw [h3] at hε
    refine ⟨v, ?_, hε⟩
    have eb : ({ noCuts with k_0_bar := Bound.mk' 0 c } : CutRad) = noCuts := by
      rw [Bound.mk', if_pos (show ¬ (0 : Fl) ≤ c from hc)]
      rfl
    rw [← hv]
    unfold radFInteg
    simp only [eb]
    rfl

/-- The integral the code estimates for photons above a cut-off that is not positive. -/
private theorem above_integral (hm : Massive ps) (h : Accepted ps S pt) (hs : Samplable ps S pt) {c : ℝ} (hc : c ≤ 0)
    (xs : KinematicsRad ℝ → ℝ) :
    let k := Kinematics.make ps S pt
    let F := fun v : ℝ × ℝ × ℝ => xs (.make k v.1 v.2.1 v.2.2)
    ∃ g : (Fin 3 → ℝ) → ℝ, (∀ p ∈ unitCube, integrand { noCuts with k_0_bar := Bound.mk' (.fin c) .pinf }
        (.make (finPs ps) (.fin S) (finPt pt)) (xsAt k xs) p = .fin (g p)) ∧
      (IntegrableOn g unitCube ↔ IntegrableOn F (photons ps S pt)) ∧
      ∫ p in unitCube, g p = ∫ v in photons ps S pt, F v := by
  intro k F
  have hmx : 0 < k.mx := mx_pos_of_accepted hm h
  have hroom : 0 < k.mx_sq - ps.Mth ^ 2 := sub_pos.2 hs.room
  have eb : Bound.mk' (.fin c) .pinf = ⟨.fin c, .pinf⟩ := by
    rw [Bound.mk', if_neg]
    simp
  have hbv : (⟨.fin c, .pinf⟩ : Bound).valid := by
    change (Fl.fin c : Fl) ≤ .pinf
    simp
  have hi : ¬ Bound.invalid.valid := by simp [Bound.invalid, Bound.valid]
  rw [eb]
  obtain ⟨g, h1, h2, h3⟩ := photon_integral hm h hs { noCuts with k_0_bar := ⟨.fin c, .pinf⟩ } hi hi
    le_rfl hroom le_rfl
    (fun τ φ ht => by
      have hp := recoil_pos (φ := φ) hm h ht
      have hp' : (0 : ℝ) < recoil k (τ, φ) := hp
      have e3 : (Fl.pinf : Fl) * .fin (2 * k.mx) / .fin (recoil k (τ, φ)) = .pinf := by
        change Fl.div (Fl.infTimes (2 * k.mx)) _ = _
        rw [Fl.infTimes, if_pos (by positivity)]
        change (if _ < (0 : ℝ) then Fl.ninf else .pinf) = _
        rw [if_neg (not_lt.2 hp'.le)]
      rw [RBoundCut_energy hm h φ ht _ hbv]
      simp only [Fl.mul_fin, Fl.div_fin _ hp.ne']
      change Bound.inter _ ⟨_, Fl.pinf * .fin (2 * k.mx) / .fin (recoil k (τ, φ))⟩ = _
      have e1 : max 0 (c * (2 * k.mx) / recoil k (τ, φ)) = 0 / recoil k (τ, φ) := by
        rw [zero_div]
        exact max_eq_left (div_nonpos_of_nonpos_of_nonneg (mul_nonpos_of_nonpos_of_nonneg hc (by positivity)) hp'.le)
      rw [e3, inter_pinf, e1, if_pos]
      exact div_le_div_of_nonneg_right hroom.le hp.le)
    (fun τ φ R ha h1 h2 => by
      refine validCut_energy hm ha _ ?_
      rw [energyBar_eq]
      constructor
      · rw [Fl.le_fin]
        exact hc.trans (div_nonneg h1 (by positivity))
      · simp) xs
  have hae := softPhotons_ae hm h hs (energyMax ps S pt)
  have em : min (k.mx_sq - ps.Mth ^ 2) (2 * k.mx * energyMax ps S pt) = k.mx_sq - ps.Mth ^ 2 := by
    change min _ (2 * k.mx * ((k.mx_sq - ps.Mth ^ 2) / (2 * k.mx))) = _
    rw [mul_div_cancel₀ _ (by positivity), min_self]
  change _ =ᵐ[volume] _ at hae
  rw [soft_all hm le_rfl] at hae
  change shell (tauLo k) (tauHi k) (-π) π (recoil k) 0
    (min (k.mx_sq - ps.Mth ^ 2) (2 * k.mx * energyMax ps S pt)) =ᵐ[volume] _ at hae
  rw [em] at hae
  refine ⟨g, h1, ?_, ?_⟩
  · rw [h2]; exact integrableOn_congr_set_ae hae
  · rw [h3]; exact setIntegral_congr_set hae

/-- C130: with a cut-off that is zero or negative `rad_integ` integrates over all photons. -/
theorem c130_rad (hm : Massive ps) (h : Accepted ps S pt) (hs : Samplable ps S pt) (ph : Phenom)
    (sf : SfFuns) (lambda : ℝ) (eta : Vec3) {c : ℝ} (hc : c ≤ 0) {I : Integrator3} {ε : ℝ} (hI : Accurate I ε) :
    let K := Kinematics.make (finPs ps) (.fin S) (finPt pt)
    let k := Kinematics.make ps S pt
    let rad := fun v : ℝ × ℝ × ℝ => xsRad (.make k v.1 v.2.1 v.2.2) ph sf lambda eta
    IntegrableOn rad (photons ps S pt) → ∃ v : ℝ, (radInteg I K k ph sf lambda eta (.fin c)).val = .fin v ∧
      |v - ∫ w in photons ps S pt, rad w| ≤ ε := by
  intro K k rad hint
  obtain ⟨g, h1, h2, h3⟩ := above_integral hm h hs hc fun kr => xsRad kr ph sf lambda eta
  obtain ⟨v, hv, hε⟩ := hI _ g h1 (h2.2 hint)
  have hε : |v - ∫ p in unitCube, g p| ≤ ε := hε
  rw [h3] at hε
  exact ⟨v, hv, hε⟩

/-- C130: with a NaN cut-off `rad_integ` integrates over all photons too, instead of returning NaN. -/
theorem c130_rad_nan_refuted (hm : Massive ps) (h : Accepted ps S pt) (hs : Samplable ps S pt) (ph : Phenom)
    (sf : SfFuns) (lambda : ℝ) (eta : Vec3) {I : Integrator3} {ε : ℝ} (hI : Accurate I ε) :
    let K := Kinematics.make (finPs ps) (.fin S) (finPt pt)
    let k := Kinematics.make ps S pt
    let rad := fun v : ℝ × ℝ × ℝ => xsRad (.make k v.1 v.2.1 v.2.2) ph sf lambda eta
    IntegrableOn rad (photons ps S pt) → ∃ v : ℝ, (radInteg I K k ph sf lambda eta .nan).val = .fin v ∧
      |v - ∫ w in photons ps S pt, rad w| ≤ ε := by
  intro K k rad hint
  obtain ⟨g, h1, h2, h3⟩ := uncut_integral hm h hs fun kr => xsRad kr ph sf lambda eta
  obtain ⟨v, hv, hε⟩ := hI _ g h1 (h2.2 hint)
  have hε : |v - ∫ p in unitCube, g p| ≤ ε := hε
  rw [h3] at hε
  refine ⟨v, ?_, hε⟩
  have eb : ({ noCuts with k_0_bar := Bound.mk' .nan .pinf } : CutRad) = noCuts := by
    rw [Bound.mk', if_pos (by simp)]
    rfl
  rw [← hv]
  unfold radInteg
  simp only [eb]
  rfl

/-- The hypotheses are met at the sample point, with a cut-off of -1. -/
example (ph : Phenom) (eta : Vec3) : Massive samplePs ∧ Accepted samplePs 20 samplePt ∧ Samplable samplePs 20 samplePt ∧
    Accurate (offsetIntegrator 0) 0 ∧ (¬ (.fin 0 : Fl) ≤ .fin (-1)) ∧ (¬ (.fin 0 : Fl) ≤ .nan) ∧
    IntegrableOn (fun v : ℝ × ℝ × ℝ => xsRadF (.make (.make samplePs 20 samplePt) v.1 v.2.1 v.2.2) ph
      (pointSf samplePt.x (20 * samplePt.x * samplePt.y)) 1 eta) (photons samplePs 20 samplePt) ∧
    IntegrableOn (fun v : ℝ × ℝ × ℝ => xsRad (.make (.make samplePs 20 samplePt) v.1 v.2.1 v.2.2) ph
      (pointSf samplePt.x (20 * samplePt.x * samplePt.y)) 1 eta) (photons samplePs 20 samplePt) := by
  obtain ⟨hm, h⟩ := sample_accepted
  have hs := sample_samplable
  refine ⟨hm, h, hs, by simpa using accurate_offset 0, ?_, ?_, integrable_point hm h hs ph 1 eta, ?_⟩
  · rw [Fl.le_fin]; norm_num
  · simp
  · have hz : volume {v : ℝ × ℝ × ℝ | v.2.2 = 0} = 0 := by
      have e : {v : ℝ × ℝ × ℝ | v.2.2 = 0} = Set.univ ×ˢ (Set.univ ×ˢ {0}) := by
        ext ⟨a, b, c⟩; simp
      rw [e, Measure.volume_eq_prod, Measure.prod_prod, Measure.volume_eq_prod, Measure.prod_prod]
      simp
    have hne : ∀ᵐ v : ℝ × ℝ × ℝ, v.2.2 ≠ 0 := by
      rw [ae_iff]; simpa using hz
    have hmeas : MeasurableSet {v : ℝ × ℝ × ℝ | 0 ≤ v.2.2} :=
      measurableSet_le measurable_const measurable_snd.snd
    refine IntegrableOn.mono_set (t := {v : ℝ × ℝ × ℝ | 0 ≤ v.2.2}) ?_ fun v hv => hv.1.R_nonneg
    refine IntegrableOn.congr_fun_ae (f := fun _ => 0) (by simp) ?_
    rw [Filter.EventuallyEq, ae_restrict_iff' hmeas]
    filter_upwards [hne] with v hv hm'
    have hR : 0 < v.2.2 := lt_of_le_of_ne hm' fun e => hv e.symm
    rw [c54_rad, hadronicRad_point h hs eta _ _ hR]
    simp [contract]

end

end Sidis.Props
