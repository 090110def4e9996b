import Verif.Spec.PhotonTables
import Verif.Props.PhotonInteg
import Verif.Props.Trento
import Verif.Props.Asymmetry

/-! # The integrals over the photon with structure functions known in part of the phase space (C123) -/

namespace Sidis.Props

open Spec Real MeasureTheory PhotonInteg

section
variable {ps : Particles ℝ} {S : ℝ} {pt : PhaseSpace ℝ}

open Classical in
private theorem nan_zero (j : Fl) (k : Kinematics ℝ) (known : KinematicsRad ℝ → Prop) (xs : KinematicsRad ℝ → ℝ)
    (kr : KinematicsRad Fl) : Asym.nanToZero (j * xsAtKnown known k xs kr)
      = Asym.nanToZero (j * xsAt k (fun kr => if known kr then xs kr else 0) kr) := by
  unfold xsAtKnown xsAt
  generalize kr.tau = a
  generalize kr.phi_k = b
  generalize kr.R = c
  cases a <;> cases b <;> cases c <;> try rfl
  simp only
  split_ifs with hk
  · rfl
  · cases j <;> simp [Asym.nanToZero, Fl.isNaN]

open Classical in
/-- A photon at which the cross-section is NaN counts as one at which it is zero. -/
private theorem integrand_known (cut : CutRad) (K : Kinematics Fl) (k : Kinematics ℝ)
    (known : KinematicsRad ℝ → Prop) (xs : KinematicsRad ℝ → ℝ) :
    integrand cut K (xsAtKnown known k xs) = integrand cut K (xsAt k fun kr => if known kr then xs kr else 0) := by
  funext x
  unfold integrand
  simp only
  split_ifs with h
  · exact nan_zero ..
  · rfl

private theorem rad_inside {D : Dom} {kr : KinematicsRad ℝ} (h : hadRadKnown D kr) (ph : Phenom) (sf : SfFuns)
    (lambda : ℝ) (eta : Vec3) : xsRad kr ph (zeroOutside D sf) lambda eta = xsRad kr ph sf lambda eta := by
  have h' : D kr.shift_x kr.shift_z kr.shift_Q_sq kr.shift_ph_t_sq := h
  rw [c54_rad, c54_rad]
  simp only [hadronicRad, SfFuns.baseUU, SfFuns.baseUP, SfFuns.baseLU, SfFuns.baseLP, SfFuns.baseUL,
    SfFuns.baseUT, SfFuns.baseLL, SfFuns.baseLT, zeroOutside, if_pos h']

private theorem rad_outside {D : Dom} {kr : KinematicsRad ℝ} (h : ¬ hadRadKnown D kr) (ph : Phenom) (sf : SfFuns)
    (lambda : ℝ) (eta : Vec3) : xsRad kr ph (zeroOutside D sf) lambda eta = 0 := by
  have h' : ¬ D kr.shift_x kr.shift_z kr.shift_Q_sq kr.shift_ph_t_sq := h
  rw [c54_rad]
  simp only [hadronicRad, SfFuns.baseUU, SfFuns.baseUP, SfFuns.baseLU, SfFuns.baseLP, SfFuns.baseUL,
    SfFuns.baseUT, SfFuns.baseLL, SfFuns.baseLT, zeroOutside, if_neg h']
  simp only [contract, makeHadRadBaseUU, makeHadRadBaseUP, makeHadRadBaseLU, makeHadRadBaseLP, Vec3.dot,
      Transform3.apply]
  ring

/-- C123: whatever the integrator does, `rad_integ` takes unknown structure functions to be zero. -/
theorem c123_hard_zero (D : Dom) (I : Integrator3) (K : Kinematics Fl) (k : Kinematics ℝ) (ph : Phenom) (sf : SfFuns)
    (lambda : ℝ) (eta : Vec3) (c : Fl) :
    radIntegKnown D I K k ph sf lambda eta c = radInteg I K k ph (zeroOutside D sf) lambda eta c := by
  unfold radIntegKnown radInteg
  simp only
  rw [integrand_known]
  congr 2
  congr 1
  funext kr
  split_ifs with h
  · exact (rad_inside h ph sf lambda eta).symm
  · exact (rad_outside h ph sf lambda eta).symm

/-- C123: with an integrator of accuracy `ε`, `rad_integ` is within `ε` of the integral of `rad` over the photons
above the cut-off for which the structure functions are known. -/
theorem c123_hard (D : Dom) (hm : Massive ps) (h : Accepted ps S pt) (hs : Samplable ps S pt) (ph : Phenom)
    (sf : SfFuns) (lambda : ℝ) (eta : Vec3) {c : ℝ} (hc : 0 < c) {I : Integrator3} {ε : ℝ}
    (hI : Accurate I ε) :
    let K := Kinematics.make (finPs ps) (.fin S) (finPt pt)
    let k := Kinematics.make ps S pt
    let rad := (insidePhotons D ps S pt).indicator fun v : ℝ × ℝ × ℝ =>
      xsRad (.make k v.1 v.2.1 v.2.2) ph sf lambda eta
    IntegrableOn rad (hardPhotons ps S pt c) →
    ∃ v : ℝ, (radIntegKnown D I K k ph sf lambda eta (.fin c)).val = .fin v ∧
      |v - ∫ w in hardPhotons ps S pt c, rad w| ≤ ε := by
  classical
  intro K k rad hint
  obtain ⟨g, h1, h2, h3⟩ := hard_integral hm h hs hc fun kr => if hadRadKnown D kr then xsRad kr ph sf lambda eta else 0
  have e : rad = fun v : ℝ × ℝ × ℝ => if hadRadKnown D (.make k v.1 v.2.1 v.2.2) then
      xsRad (.make k v.1 v.2.1 v.2.2) ph sf lambda eta else 0 := by
    funext v
    simp only [rad, Set.indicator]
    congr
  rw [e] at hint ⊢
  obtain ⟨v, hv, hε⟩ := hI _ g h1 (h2.2 hint)
  have hε : |v - ∫ p in unitCube, g p| ≤ ε := hε
  rw [h3] at hε
  refine ⟨v, ?_, hε⟩
  unfold radIntegKnown
  simp only
  rw [integrand_known]
  exact hv

/-- C123: with an integrator of accuracy `ε`, and structure functions that are known at the point itself, `nrad_integ`
is within `ε` of `nrad_ir` plus the integral of `rad_f` over the photons up to the cut-off for which they are known. -/
theorem c123_soft (D : Dom) (hm : Massive ps) (h : Accepted ps S pt) (hs : Samplable ps S pt)
    (hD : D pt.x pt.z (S * pt.x * pt.y) pt.ph_t_sq) (ph : Phenom)
    (sf : SfFuns) (lambda : ℝ) (eta : Vec3) {c : ℝ} (hc : 0 < c) {I : Integrator3} {ε : ℝ}
    (hI : Accurate I ε) :
    let K := Kinematics.make (finPs ps) (.fin S) (finPt pt)
    let k := Kinematics.make ps S pt
    let radF := (insidePhotonsF D ps S pt).indicator fun v : ℝ × ℝ × ℝ =>
      xsRadF (.make k v.1 v.2.1 v.2.2) ph sf lambda eta
    IntegrableOn radF (softPhotons ps S pt c) →
    ∀ ir : ℝ, xsNradIr k ph sf lambda eta (.fin c) = .fin ir →
      ∃ v : ℝ, (nradIntegKnown D I K k ph sf lambda eta (.fin c)).val = .fin v ∧
        |v - (ir + ∫ w in softPhotons ps S pt c, radF w)| ≤ ε := by
  classical
  intro K k radF hint ir hir
  have hD' : hadKnown D k := hD
  obtain ⟨g, h1, h2, h3⟩ := soft_integral hm h hs hc fun kr => if hadKnown D k ∧ hadRadFKnown D kr then
    xsRadF0 kr ph sf (HadLP.make k sf) lambda eta else 0
  have e : radF = fun v : ℝ × ℝ × ℝ => if hadKnown D k ∧ hadRadFKnown D (.make k v.1 v.2.1 v.2.2) then
      xsRadF0 (.make k v.1 v.2.1 v.2.2) ph sf (HadLP.make k sf) lambda eta else 0 := by
    funext v
    simp only [radF, Set.indicator, hD', true_and]
    rw [c54_rad_f]
    congr
  rw [e] at hint ⊢
  obtain ⟨v, hv, hε⟩ := hI _ g h1 (h2.2 hint)
  have hε : |v - ∫ p in unitCube, g p| ≤ ε := hε
  rw [h3] at hε
  have hv' : (radFIntegKnown D I K k ph sf lambda eta (.fin c)).val = .fin v := by
    unfold radFIntegKnown
    simp only
    rw [integrand_known]
    convert hv
  refine ⟨ir + v, ?_, ?_⟩
  · change nradIrKnown D k ph sf lambda eta (.fin c) + (radFIntegKnown D I K k ph sf lambda eta (.fin c)).val = _
    rw [hv', nradIrKnown, if_pos hD', hir, Fl.add_fin]
  · rwa [add_sub_add_left_eq_sub]

/-- C123: when they are not known at the point itself, `nrad_integ` is NaN. -/
theorem c123_outside (D : Dom) (I : Integrator3) (K : Kinematics Fl) (hD : ¬ D pt.x pt.z (S * pt.x * pt.y) pt.ph_t_sq)
    (ph : Phenom) (sf : SfFuns) (lambda : ℝ) (eta : Vec3) (c : Fl) :
    (nradIntegKnown D I K (.make ps S pt) ph sf lambda eta c).val = .nan := by
  have hD' : ¬ hadKnown D (.make ps S pt) := hD
  change nradIrKnown D (.make ps S pt) ph sf lambda eta c + _ = _
  rw [nradIrKnown, if_neg hD']
  simp

/-- C123: what is missing. If `sf` are the true structure functions, the sum of `nrad_integ` and `rad_integ` lacks,
up to the accuracy of the integrations, exactly the part `rad_f` of the unknown soft photons and the whole `rad` of
the unknown hard ones; nothing is said of it in the result or its error. -/
theorem c123_missing (D : Dom) (hm : Massive ps) (h : Accepted ps S pt) (hs : Samplable ps S pt)
    (hD : D pt.x pt.z (S * pt.x * pt.y) pt.ph_t_sq) (ph : Phenom) (sf : SfFuns) (lambda : ℝ) (eta : Vec3) :
    let K := Kinematics.make (finPs ps) (.fin S) (finPt pt)
    let k := Kinematics.make ps S pt
    let radF := fun v : ℝ × ℝ × ℝ => xsRadF (.make k v.1 v.2.1 v.2.2) ph sf lambda eta
    let rad := fun v : ℝ × ℝ × ℝ => xsRad (.make k v.1 v.2.1 v.2.2) ph sf lambda eta
    IntegrableOn radF (photons ps S pt) →
    MeasurableSet (insidePhotons D ps S pt) → MeasurableSet (insidePhotonsF D ps S pt) →
    ∃ total : ℝ, ∀ c : ℝ, 0 < c → deltaRRel * energyMax ps S pt ≤ c →
      ∀ (I J : Integrator3) (ε δ : ℝ), Accurate I ε → Accurate J δ →
        (∃ n r : ℝ, (nradInteg I K k ph sf lambda eta (.fin c)).val = .fin n ∧
          (radInteg J K k ph sf lambda eta (.fin c)).val = .fin r ∧ |n + r - total| ≤ ε + δ) ∧
        ∃ n r : ℝ, (nradIntegKnown D I K k ph sf lambda eta (.fin c)).val = .fin n ∧
          (radIntegKnown D J K k ph sf lambda eta (.fin c)).val = .fin r ∧
          |n + r - (total - (∫ w in softPhotons ps S pt c \ insidePhotonsF D ps S pt, radF w)
            - ∫ w in hardPhotons ps S pt c \ insidePhotons D ps S pt, rad w)| ≤ ε + δ := by
  intro K k radF rad hint hM hMF
  obtain ⟨total, ht⟩ := c85_cutoff_independent hm h hs ph sf lambda eta hint
  refine ⟨total, fun c hc hc' I J ε δ hI hJ => ?_⟩
  obtain ⟨hr, ir, hir, e⟩ := ht c hc hc'
  have hsoft : IntegrableOn radF (softPhotons ps S pt c) := hint.mono_set fun v hv => hv.1
  constructor
  · obtain ⟨n, hn, hn'⟩ := (c86_soft hm h hs ph sf lambda eta hc hI hsoft).2 ir hir
    obtain ⟨r, hr', hr''⟩ := c86_hard hm h hs ph sf lambda eta hc hJ hr
    refine ⟨n, r, hn, hr', ?_⟩
    rw [← e]
    rw [abs_le] at hn' hr'' ⊢
    constructor <;> linarith [hn'.1, hn'.2, hr''.1, hr''.2]
  · obtain ⟨n, hn, hn'⟩ := c123_soft D hm h hs hD ph sf lambda eta hc hI (hsoft.indicator hMF) ir hir
    obtain ⟨r, hr', hr''⟩ := c123_hard D hm h hs ph sf lambda eta hc hJ (hr.indicator hM)
    refine ⟨n, r, hn, hr', ?_⟩
    have e1 := setIntegral_indicator (μ := volume) (s := softPhotons ps S pt c) (f := radF) hMF
    have e2 := setIntegral_indicator (μ := volume) (s := hardPhotons ps S pt c) (f := rad) hM
    have f1 := integral_inter_add_sdiff hMF hsoft
    have f2 := integral_inter_add_sdiff hM hr
    rw [← e, ← f1, ← f2]
    change |n - (ir + ∫ w in softPhotons ps S pt c, (insidePhotonsF D ps S pt).indicator radF w)| ≤ ε at hn'
    change |r - ∫ w in hardPhotons ps S pt c, (insidePhotons D ps S pt).indicator rad w| ≤ δ at hr''
    rw [e1] at hn'
    rw [e2] at hr''
    rw [abs_le] at hn' hr'' ⊢
    constructor <;> linarith [hn'.1, hn'.2, hr''.1, hr''.2]

/-- C123: when the structure functions are known for all photons, nothing is missing: the sum of the two is that of
the full structure functions, for every cut-off. -/
theorem c123_complete (D : Dom) (hm : Massive ps) (h : Accepted ps S pt) (hs : Samplable ps S pt)
    (hD : D pt.x pt.z (S * pt.x * pt.y) pt.ph_t_sq) (hall : photons ps S pt ⊆ insidePhotons D ps S pt)
    (hallF : photons ps S pt ⊆ insidePhotonsF D ps S pt)
    (ph : Phenom) (sf : SfFuns) (lambda : ℝ) (eta : Vec3) :
    let K := Kinematics.make (finPs ps) (.fin S) (finPt pt)
    let k := Kinematics.make ps S pt
    let radF := fun v : ℝ × ℝ × ℝ => xsRadF (.make k v.1 v.2.1 v.2.2) ph sf lambda eta
    IntegrableOn radF (photons ps S pt) →
    ∃ total : ℝ, ∀ c : ℝ, 0 < c → deltaRRel * energyMax ps S pt ≤ c →
      ∀ (I J : Integrator3) (ε δ : ℝ), Accurate I ε → Accurate J δ →
        ∃ n r : ℝ, (nradIntegKnown D I K k ph sf lambda eta (.fin c)).val = .fin n ∧
          (radIntegKnown D J K k ph sf lambda eta (.fin c)).val = .fin r ∧ |n + r - total| ≤ ε + δ := by
  intro K k radF hint
  obtain ⟨total, ht⟩ := c85_cutoff_independent hm h hs ph sf lambda eta hint
  refine ⟨total, fun c hc hc' I J ε δ hI hJ => ?_⟩
  obtain ⟨hr, ir, hir, e⟩ := ht c hc hc'
  have hsoft : IntegrableOn radF (softPhotons ps S pt c) := hint.mono_set fun v hv => hv.1
  have mh : MeasurableSet (hardPhotons ps S pt c) := by
    rw [hardPhotons_eq hm h hs hc]
    exact measurableSet_shell (continuous_recoil _) _ _
  have ms : NullMeasurableSet (softPhotons ps S pt c) :=
    (measurableSet_shell (continuous_recoil _) _ _).nullMeasurableSet.congr (softPhotons_ae hm h hs c)
  have e1 : radF =ᵐ[volume.restrict (softPhotons ps S pt c)] (insidePhotonsF D ps S pt).indicator radF :=
    (ae_restrict_mem₀ ms).mono fun v hv => (Set.indicator_of_mem (hallF hv.1) _).symm
  have e2 : _ =ᵐ[volume.restrict (hardPhotons ps S pt c)] (insidePhotons D ps S pt).indicator
      fun v : ℝ × ℝ × ℝ => xsRad (.make k v.1 v.2.1 v.2.2) ph sf lambda eta :=
    (ae_restrict_mem mh).mono fun v hv => (Set.indicator_of_mem (hall hv.1) _).symm
  obtain ⟨n, hn, hn'⟩ := c123_soft D hm h hs hD ph sf lambda eta hc hI (hsoft.congr e1) ir hir
  obtain ⟨r, hr', hr''⟩ := c123_hard D hm h hs ph sf lambda eta hc hJ (hr.congr e2)
  refine ⟨n, r, hn, hr', ?_⟩
  rw [← e, integral_congr_ae e1, integral_congr_ae e2]
  rw [abs_le] at hn' hr'' ⊢
  constructor <;> linarith [hn'.1, hn'.2, hr''.1, hr''.2]

/-- The photons do not reach the point itself. -/
private theorem no_photon (h : Accepted ps S pt) (hs : Samplable ps S pt) {v : ℝ × ℝ × ℝ} (hv : 0 < v.2.2) :
    v ∉ insidePhotons (fun x _ q _ => x = pt.x ∧ q = S * pt.x * pt.y) ps S pt := by
  set k := KinematicsRad.make (.make ps S pt) v.1 v.2.1 v.2.2 with hk
  rintro ⟨h1, h2⟩
  change k.shift_x = pt.x at h1
  change k.shift_Q_sq = S * pt.x * pt.y at h2
  have e1 : k.shift_x = k.shift_Q_sq / (S * pt.y - v.2.2) := rfl
  have hx := x_pos_of_samplable h hs
  rw [e1, h2] at h1
  by_cases h0 : S * pt.y - v.2.2 = 0
  · rw [h0, div_zero] at h1
    exact hx.ne h1
  · rw [div_eq_iff h0] at h1
    have : pt.x * v.2.2 = 0 := by linear_combination h1
    rcases mul_eq_zero.1 this with q | q
    exacts [hx.ne' q, hv.ne' q]

private theorem ae_nonzero : ∀ᵐ v : ℝ × ℝ × ℝ, v.2.2 ≠ 0 := by
  have q : Measure.QuasiMeasurePreserving (fun v : ℝ × ℝ × ℝ => v.2.2) volume volume :=
    Measure.quasiMeasurePreserving_snd.comp Measure.quasiMeasurePreserving_snd
  exact q.ae (p := fun r => r ≠ 0) (by simp [ae_iff])

/-- C123: the cut-off matters. With structure functions that are known only near the point, so that every photon
leaves the tables, exact integrations give sums that differ by the Born cross-section times the logarithm of the
ratio of the cut-offs: the soft photons that `nrad_ir` counts up to the cut-off are not taken away by `rad_f`. -/
theorem c123_narrow (hm : Massive ps) (h : Accepted ps S pt) (hs : Samplable ps S pt) (ph : Phenom) (sf : SfFuns)
    (lambda : ℝ) (eta : Vec3) {c₁ c₂ : ℝ} (h1 : 0 < c₁) (h2 : c₁ < c₂) (h3 : c₂ < energyMax ps S pt)
    {I : Integrator3} (hI : Accurate I 0) :
    let K := Kinematics.make (finPs ps) (.fin S) (finPt pt)
    let k := Kinematics.make ps S pt
    let D : Dom := fun x _ q _ => x = pt.x ∧ q = S * pt.x * pt.y
    ∃ n₁ r₁ n₂ r₂ : ℝ, (nradIntegKnown D I K k ph sf lambda eta (.fin c₁)).val = .fin n₁ ∧
      (radIntegKnown D I K k ph sf lambda eta (.fin c₁)).val = .fin r₁ ∧
      (nradIntegKnown D I K k ph sf lambda eta (.fin c₂)).val = .fin n₂ ∧
      (radIntegKnown D I K k ph sf lambda eta (.fin c₂)).val = .fin r₂ ∧
      n₂ + r₂ - (n₁ + r₁) = ph.alpha_qed / π * (2 * ((k.Q_sq + 2 * ps.m ^ 2) / 2
        * (∫ x in (0 : ℝ)..1, 1 / (ps.m ^ 2 + k.Q_sq * (x * (1 - x)))) - 1)) * log (c₂ / c₁)
        * xsBorn k ph sf lambda eta := by
  intro K k D
  have hk : KinRel k := kinRel_of_physical (physical_of_samplable hm h hs)
  have hmx : 0 < k.mx := mx_pos_of_accepted hm h
  have delta : ∀ c, 0 < c → c < energyMax ps S pt → deltaVertRadIr k (.fin c) =
      .fin (deltaVertRad0 k + 2 * ((k.Q_sq + 2 * sq k.m) * logM k.Q_sq k.m - 1) * log (2 * c / k.m)) := by
    intro c hc hc'
    have em : (k.mx_sq - sq k.Mth) / (2 * k.mx) = energyMax ps S pt := by
      change (k.mx_sq - ps.Mth * ps.Mth) / _ = (k.mx_sq - ps.Mth ^ 2) / _
      rw [pow_two]
      rfl
    have hm0 : 0 < k.m := hs.m_pos
    unfold deltaVertRadIr
    simp only [em]
    rw [if_neg (by simpa using hc), if_pos (by simpa using hc'), Fl.mul_fin, Fl.div_fin _ hm0.ne', Fl.log,
      if_pos (by positivity), Fl.mul_fin, Fl.add_fin]
  have one : ∀ c, 0 < c → c < energyMax ps S pt → ∃ n r : ℝ,
      (nradIntegKnown D I K k ph sf lambda eta (.fin c)).val = .fin n ∧
      (radIntegKnown D I K k ph sf lambda eta (.fin c)).val = .fin r ∧
      n + r = (1 + ph.alpha_qed / π * (deltaVertRad0 k + 2 * ((k.Q_sq + 2 * sq k.m) * logM k.Q_sq k.m - 1)
        * log (2 * c / k.m) + deltaVacLep k + ph.delta_vac_had)) * xsBorn k ph sf lambda eta
        + xsAmm k ph sf lambda eta := by
    intro c hc hc'
    have mh : MeasurableSet (hardPhotons ps S pt c) := by
      rw [hardPhotons_eq hm h hs hc]
      exact measurableSet_shell (continuous_recoil _) _ _
    have ms : NullMeasurableSet (softPhotons ps S pt c) :=
      (measurableSet_shell (continuous_recoil _) _ _).nullMeasurableSet.congr (softPhotons_ae hm h hs c)
    have e1 : (fun _ => 0) =ᵐ[volume.restrict (softPhotons ps S pt c)] (insidePhotonsF D ps S pt).indicator
        fun v : ℝ × ℝ × ℝ => xsRadF (.make k v.1 v.2.1 v.2.2) ph sf lambda eta := by
      filter_upwards [ae_restrict_mem₀ ms, ae_restrict_of_ae ae_nonzero] with v hv h0
      exact (Set.indicator_of_notMem (fun q => no_photon h hs (lt_of_le_of_ne hv.1.1.R_nonneg (Ne.symm h0)) q.1) _).symm
    have e2 : (fun _ => 0) =ᵐ[volume.restrict (hardPhotons ps S pt c)] (insidePhotons D ps S pt).indicator
        fun v : ℝ × ℝ × ℝ => xsRad (.make k v.1 v.2.1 v.2.2) ph sf lambda eta := by
      filter_upwards [ae_restrict_mem mh, ae_restrict_of_ae ae_nonzero] with v hv h0
      exact (Set.indicator_of_notMem (no_photon h hs (lt_of_le_of_ne hv.1.1.R_nonneg (Ne.symm h0))) _).symm
    obtain ⟨n, hn, hn'⟩ := c123_soft D hm h hs ⟨rfl, rfl⟩ ph sf lambda eta hc hI ((integrable_zero _ _ _).congr e1) _
      (c55_rescaled_born k ph sf lambda eta _ _ (delta c hc hc'))
    obtain ⟨r, hr, hr'⟩ := c123_hard D hm h hs ph sf lambda eta hc hI ((integrable_zero _ _ _).congr e2)
    refine ⟨n, r, hn, hr, ?_⟩
    rw [← integral_congr_ae e1, integral_zero, add_zero] at hn'
    rw [← integral_congr_ae e2, integral_zero, sub_zero] at hr'
    have a := sub_eq_zero.1 (abs_nonpos_iff.1 hn')
    have b := abs_nonpos_iff.1 hr'
    rw [a, b, add_zero]
  obtain ⟨n₁, r₁, a1, a2, a3⟩ := one c₁ h1 (h2.trans h3)
  obtain ⟨n₂, r₂, b1, b2, b3⟩ := one c₂ (h1.trans h2) h3
  refine ⟨n₁, r₁, n₂, r₂, a1, a2, b1, b2, ?_⟩
  have hm0 : 0 < k.m := hs.m_pos
  have h2' := h1.trans h2
  rw [a3, b3, integral_denom hk.Q2_pos hs.m_pos, log_div (by positivity) (by positivity),
    log_div (by positivity) (by positivity), log_mul (by norm_num) (by positivity),
    log_mul (by norm_num) (by positivity), log_div (by positivity) (by positivity)]
  have e : k.m = ps.m := rfl
  rw [e, Sidis.sq]
  ring

/-- Structure functions of a nucleon that sees transverse photons only. -/
noncomputable def transverseSf : SfFuns :=
  let o : Hadron → ℝ → ℝ → ℝ → ℝ → ℝ := fun _ _ _ _ _ => 0
  ⟨o, fun _ _ _ _ _ => 1, o, o, o, o, o, o, o, o, o, o, o, o, o, o, o, o⟩

private theorem born_transverse (ph : Phenom) (ha : ph.alpha_qed ≠ 0) :
    0 < xsBorn (.make samplePs 20 samplePt) ph transverseSf 0 .zero := by
  have hp := sample_physical.2
  have e := c72_textbook hp (by norm_num [samplePt])
    (by norm_num [samplePs, samplePt, Nucleus.mass, Hadron.mass, CMath.ofReal]) ph transverseSf 0 0 0 0
  have hz : (⟨0 * cos (0 - samplePt.phi_h), 0 * sin (0 - samplePt.phi_h), 0⟩ : Vec3) = .zero := by
    simp [Vec3.zero]
  rw [hz] at e
  rw [e]
  have := massive_norm_pos hp ha
  simpa [angular, SfValues.at, transverseSf] using this

private theorem eikonal_pos {Q m : ℝ} (hQ : 0 < Q) (hm : 0 < m) :
    0 < (Q + 2 * m ^ 2) / 2 * (∫ x in (0 : ℝ)..1, 1 / (m ^ 2 + Q * (x * (1 - x)))) - 1 := by
  have hpos : ∀ x ∈ Set.Icc (0 : ℝ) 1, 0 < m ^ 2 + Q * (x * (1 - x)) := fun x hx => by
    have := mul_nonneg hx.1 (sub_nonneg.2 hx.2)
    positivity
  have hle : (1 : ℝ) / (m ^ 2 + Q / 4) ≤ ∫ x in (0 : ℝ)..1, 1 / (m ^ 2 + Q * (x * (1 - x))) := by
    have e : ∫ _ in (0 : ℝ)..1, (1 : ℝ) / (m ^ 2 + Q / 4) = 1 / (m ^ 2 + Q / 4) := by simp
    rw [← e]
    refine intervalIntegral.integral_mono_on (by norm_num) (by simp) ?_ fun x hx => ?_
    · refine ContinuousOn.intervalIntegrable ?_
      rw [Set.uIcc_of_le (by norm_num : (0 : ℝ) ≤ 1)]
      exact ContinuousOn.div (by fun_prop) (by fun_prop) fun x hx => (hpos x hx).ne'
    · exact one_div_le_one_div_of_le (hpos x hx) (by nlinarith [sq_nonneg (x - 1 / 2)])
  have : 1 < (Q + 2 * m ^ 2) / 2 * (1 / (m ^ 2 + Q / 4)) := by
    rw [mul_one_div, lt_div_iff₀ (by positivity)]
    linarith
  nlinarith [mul_le_mul_of_nonneg_left hle (by positivity : 0 ≤ (Q + 2 * m ^ 2) / 2)]

/-- C123 (refuted): that the sum of `nrad_integ` and `rad_integ` does not depend on the cut-off (C87) when the
structure functions are known at the point, but not for all photons. -/
theorem c123_cutoff_refuted : ∃ (ps : Particles ℝ) (S : ℝ) (pt : PhaseSpace ℝ),
    Massive ps ∧ Accepted ps S pt ∧ Samplable ps S pt ∧
    ∃ (D : Dom) (sf : SfFuns) (c₁ c₂ : ℝ), D pt.x pt.z (S * pt.x * pt.y) pt.ph_t_sq ∧
      0 < c₁ ∧ deltaRRel * energyMax ps S pt ≤ c₁ ∧ deltaRRel * energyMax ps S pt ≤ c₂ ∧
      ∀ (ph : Phenom) (I : Integrator3), ph.alpha_qed ≠ 0 → Accurate I 0 →
        let K := Kinematics.make (finPs ps) (.fin S) (finPt pt)
        let k := Kinematics.make ps S pt
        ∃ n₁ r₁ n₂ r₂ : ℝ, (nradIntegKnown D I K k ph sf 0 .zero (.fin c₁)).val = .fin n₁ ∧
          (radIntegKnown D I K k ph sf 0 .zero (.fin c₁)).val = .fin r₁ ∧
          (nradIntegKnown D I K k ph sf 0 .zero (.fin c₂)).val = .fin n₂ ∧
          (radIntegKnown D I K k ph sf 0 .zero (.fin c₂)).val = .fin r₂ ∧ n₁ + r₁ ≠ n₂ + r₂ := by
  obtain ⟨hm, h⟩ := sample_accepted
  have hs := sample_samplable
  have hmax : 0 < energyMax samplePs 20 samplePt :=
    div_pos (sub_pos.2 hs.room) (mul_pos two_pos (mx_pos_of_accepted hm h))
  have hδ : deltaRRel ≤ 1 / 4 := by
    unfold deltaRRel
    rw [Real.sqrt_le_left (by norm_num)]
    norm_num
  refine ⟨samplePs, 20, samplePt, hm, h, hs, fun x _ q _ => x = samplePt.x ∧ q = 20 * samplePt.x * samplePt.y,
    transverseSf, energyMax samplePs 20 samplePt / 4, energyMax samplePs 20 samplePt / 2, ⟨rfl, rfl⟩,
    by positivity, by nlinarith, by nlinarith, fun ph I ha hI => ?_⟩
  obtain ⟨n₁, r₁, n₂, r₂, e1, e2, e3, e4, e⟩ := c123_narrow hm h hs ph transverseSf 0 .zero
    (c₁ := energyMax samplePs 20 samplePt / 4) (c₂ := energyMax samplePs 20 samplePt / 2)
    (by positivity) (by linarith) (by linarith) hI
  refine ⟨n₁, r₁, n₂, r₂, e1, e2, e3, e4, fun q => ?_⟩
  have hk := kinRel_of_physical (physical_of_samplable hm h hs)
  have hb := born_transverse ph ha
  have hE := eikonal_pos hk.Q2_pos hs.m_pos
  have hl : 0 < log (energyMax samplePs 20 samplePt / 2 / (energyMax samplePs 20 samplePt / 4)) := by
    apply log_pos
    rw [lt_div_iff₀ (by positivity)]
    linarith
  rw [← q, sub_self] at e
  have := mul_pos (mul_pos (mul_pos two_pos hE) hl) hb
  have hne : ph.alpha_qed / π ≠ 0 := div_ne_zero ha pi_ne_zero
  rw [mul_assoc, mul_assoc] at e
  rcases mul_eq_zero.1 e.symm with z | z
  · exact hne z
  · rw [← mul_assoc] at z
    linarith

open Classical in
private theorem softStep_eq (τ φ R : ℝ) : softStep (.make (.make ps S pt) τ φ R) =
    (if 0 ≤ 1 / recoil (.make ps S pt) (τ, φ) * ((Kinematics.make ps S pt).mx_sq - sq ps.Mth)
      then some (1 / recoil (.make ps S pt) (τ, φ) * ((Kinematics.make ps S pt).mx_sq - sq ps.Mth)) else none).bind
        fun r => if R < r * deltaRRel then some (r * deltaRRel) else none := by
  unfold softStep
  rfl

/-- The hypotheses of `c123_missing` are met at the sample point, with structure functions known in a range of Q². -/
example (ph : Phenom) (eta : Vec3) :
    let sf := pointSf samplePt.x (20 * samplePt.x * samplePt.y)
    let k := Kinematics.make samplePs 20 samplePt
    let D : Dom := fun _ _ q _ => 1 ≤ q ∧ q < 4
    D samplePt.x samplePt.z (20 * samplePt.x * samplePt.y) samplePt.ph_t_sq ∧
    IntegrableOn (fun v : ℝ × ℝ × ℝ => xsRadF (.make k v.1 v.2.1 v.2.2) ph sf 1 eta) (photons samplePs 20 samplePt) ∧
    MeasurableSet (insidePhotons D samplePs 20 samplePt) ∧ MeasurableSet (insidePhotonsF D samplePs 20 samplePt) := by
  intro sf k D
  obtain ⟨hm, h⟩ := sample_accepted
  have mem : ∀ v : ℝ × ℝ × ℝ, v ∈ insidePhotons D samplePs 20 samplePt ↔
      20 * samplePt.x * samplePt.y + v.2.2 * v.1 ∈ Set.Ico (1 : ℝ) 4 := fun _ => Iff.rfl
  set r : ℝ × ℝ × ℝ → ℝ := fun v => 1 / recoil (.make samplePs 20 samplePt) (v.1, v.2.1)
    * ((Kinematics.make samplePs 20 samplePt).mx_sq - sq samplePs.Mth) with hr
  have mr : Measurable r := by
    have := (continuous_recoil (Kinematics.make samplePs 20 samplePt)).measurable
    exact ((this.comp (by fun_prop : Measurable fun v : ℝ × ℝ × ℝ => (v.1, v.2.1))).const_div 1).mul_const _
  have m1 : MeasurableSet (insidePhotons D samplePs 20 samplePt) := by
    have : insidePhotons D samplePs 20 samplePt =
      (fun v : ℝ × ℝ × ℝ => 20 * samplePt.x * samplePt.y + v.2.2 * v.1) ⁻¹' Set.Ico 1 4 := rfl
    rw [this]
    exact measurableSet_preimage (by fun_prop) measurableSet_Ico
  refine ⟨?_, integrable_point hm h sample_samplable ph 1 eta, m1, ?_⟩
  · norm_num [D, samplePt]
  · have e : insidePhotonsF D samplePs 20 samplePt = insidePhotons D samplePs 20 samplePt ∩
        ({v | 0 ≤ r v ∧ v.2.2 < r v * deltaRRel}ᶜ ∪
          ((fun v => (v.1, v.2.1, r v * deltaRRel)) ⁻¹' insidePhotons D samplePs 20 samplePt ∩
           (fun v => (v.1, v.2.1, 2 * (r v * deltaRRel))) ⁻¹' insidePhotons D samplePs 20 samplePt)) := by
      ext v
      simp only [insidePhotonsF, Set.mem_setOf_eq, softStep_eq]
      change _ ∧ (∀ delta, (if 0 ≤ r v then some (r v) else none).bind _ = some delta → _) ↔ _
      by_cases h1 : 0 ≤ r v
      · by_cases h2 : v.2.2 < r v * deltaRRel <;> simp [h1, h2]
      · simp [h1]
    rw [e]
    refine m1.inter ((MeasurableSet.compl ?_).union ?_)
    · exact (measurableSet_le measurable_const mr).inter (measurableSet_lt (by fun_prop) (mr.mul_const _))
    · exact (m1.preimage (by fun_prop)).inter (m1.preimage (by fun_prop))

/-- And those of `c123_complete`, with structure functions known everywhere. -/
example (ph : Phenom) (eta : Vec3) :
    let D : Dom := fun _ _ _ _ => True
    photons samplePs 20 samplePt ⊆ insidePhotons D samplePs 20 samplePt ∧
    photons samplePs 20 samplePt ⊆ insidePhotonsF D samplePs 20 samplePt :=
  ⟨fun _ _ => trivial, fun _ _ => ⟨trivial, fun _ _ => ⟨trivial, trivial⟩⟩⟩

end
end Sidis.Props
