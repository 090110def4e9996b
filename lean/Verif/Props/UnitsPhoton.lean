import Verif.Props.Units
import Verif.Props.PhotonTables

/-! # Independence of the unit of energy: C109 for the integrals over the photon -/

namespace Sidis.Props

open Sidis.Spec Sidis.Lemmas.Units Sidis.PhotonInteg MeasureTheory Real

variable {c : ℝ} {ps : Particles ℝ} {S : ℝ} {pt : PhaseSpace ℝ}

private theorem massive_unit (hc : 0 < c) (hm : Massive ps) : Massive (psInUnit c ps) where
  M_pos := mul_pos hc hm.M_pos
  m_nonneg := mul_nonneg hc.le hm.m_nonneg
  mh_pos := mul_pos hc hm.mh_pos
  Mth_ge := mul_le_mul_of_nonneg_left hm.Mth_ge hc.le

private theorem le_unit {n : ℕ} (hc : 0 < c) {a b a' b' : ℝ} (ha : a' = c ^ n * a) (hb : b' = c ^ n * b) :
    a' ≤ b' ↔ a ≤ b := by
  rw [ha, hb]
  exact mul_le_mul_iff_right₀ (pow_pos hc n)

private theorem lt_unit {n : ℕ} (hc : 0 < c) {a b a' b' : ℝ} (ha : a' = c ^ n * a) (hb : b' = c ^ n * b) :
    a' < b' ↔ a < b := by
  rw [ha, hb]
  exact mul_lt_mul_iff_right₀ (pow_pos hc n)

private theorem mx_unit (hc : 0 < c) :
    (Kinematics.make (psInUnit c ps) (c ^ 2 * S) (ptInUnit c pt)).mx_sq = c ^ 2 * (Kinematics.make ps S pt).mx_sq := by
  rw [make_unit hc]
  rfl

private theorem accepted_unit (hc : 0 < c) :
    Accepted (psInUnit c ps) (c ^ 2 * S) (ptInUnit c pt) ↔ Accepted ps S pt := by
  have c0 := hc.ne'
  have e1 : 0 < c ^ 2 * S ↔ 0 < S := lt_unit (n := 2) hc (by simp) rfl
  have e2 : 0 ≤ c ^ 2 * pt.ph_t_sq ↔ 0 ≤ pt.ph_t_sq := le_unit (n := 2) hc (by simp) rfl
  have e3 : 4 * (c * ps.M) ^ 2 * (c * ps.m) ^ 2 < (c ^ 2 * S) ^ 2 ↔ 4 * ps.M ^ 2 * ps.m ^ 2 < S ^ 2 :=
    lt_unit (n := 4) hc (by ring) (by ring)
  have e4 : (c * ps.m) ^ 2 * ((c ^ 2 * S * pt.y) ^ 2 + 4 * (c * ps.M) ^ 2 * (c ^ 2 * S * pt.x * pt.y)) ≤
      (c ^ 2 * S * pt.x * pt.y) * (c ^ 2 * S * ((1 - pt.y) * (c ^ 2 * S)) - (c * ps.M) ^ 2 * (c ^ 2 * S * pt.x * pt.y))
      ↔ ps.m ^ 2 * ((S * pt.y) ^ 2 + 4 * ps.M ^ 2 * (S * pt.x * pt.y)) ≤
        (S * pt.x * pt.y) * (S * ((1 - pt.y) * S) - ps.M ^ 2 * (S * pt.x * pt.y)) :=
    le_unit (n := 6) hc (by ring) (by ring)
  have e5 : c ^ 2 * pt.ph_t_sq + (c * ps.mh) ^ 2 ≤ (pt.z * (c ^ 2 * S * pt.y) / (2 * (c * ps.M))) ^ 2
      ↔ pt.ph_t_sq + ps.mh ^ 2 ≤ (pt.z * (S * pt.y) / (2 * ps.M)) ^ 2 :=
    le_unit (n := 2) hc (by ring) (by field_simp)
  have e6 : (c * ps.Mth) ^ 2 ≤ (Kinematics.make (psInUnit c ps) (c ^ 2 * S) (ptInUnit c pt)).mx_sq
      ↔ ps.Mth ^ 2 ≤ (Kinematics.make ps S pt).mx_sq := le_unit (n := 2) hc (by ring) (mx_unit hc)
  have e7 : (Kinematics.make (psInUnit c ps) (c ^ 2 * S) (ptInUnit c pt)).mx_sq
        ≤ c ^ 2 * S + (c * ps.M) ^ 2 - (c * ps.mh) ^ 2
      ↔ (Kinematics.make ps S pt).mx_sq ≤ S + ps.M ^ 2 - ps.mh ^ 2 := le_unit (n := 2) hc (mx_unit hc) (by ring)
  constructor
  · intro h
    exact ⟨e1.1 h.S_pos, h.x_nonneg, h.x_le, h.y_pos, h.y_le, h.z_pos, h.z_le, e2.1 h.ph_t_sq_nonneg,
      e3.1 h.beam, e4.1 h.lepton, e5.1 h.hadron, e6.1 h.missing, e7.1 h.missing_le⟩
  · intro h
    exact ⟨e1.2 h.S_pos, h.x_nonneg, h.x_le, h.y_pos, h.y_le, h.z_pos, h.z_le, e2.2 h.ph_t_sq_nonneg,
      e3.2 h.beam, e4.2 h.lepton, e5.2 h.hadron, e6.2 h.missing, e7.2 h.missing_le⟩

private theorem samplable_unit (hc : 0 < c) (hs : Samplable ps S pt) :
    Samplable (psInUnit c ps) (c ^ 2 * S) (ptInUnit c pt) where
  m_pos := mul_pos hc hs.m_pos
  angle := (lt_unit (n := 6) hc (by simp only [psInUnit, ptInUnit]; ring)
    (by simp only [psInUnit, ptInUnit]; ring)).2 hs.angle
  room := (lt_unit (n := 2) hc (by simp only [psInUnit]; ring) (mx_unit hc)).2 hs.room

/-- A photon in the other unit. -/
private noncomputable def photonUnit (c : ℝ) (v : ℝ × ℝ × ℝ) : ℝ × ℝ × ℝ := (v.1, v.2.1, c ^ 2 * v.2.2)

private theorem rad_kin_unit (hc : 0 < c) (v : ℝ × ℝ × ℝ) :
    KinematicsRad.make (.make (psInUnit c ps) (c ^ 2 * S) (ptInUnit c pt)) (photonUnit c v).1 (photonUnit c v).2.1
      (photonUnit c v).2.2 = kinRadInUnit c (.make (.make ps S pt) v.1 v.2.1 v.2.2) := by
  rw [make_unit hc]
  exact makeR_unit hc _ _ _ _

private theorem photons_unit (hc : 0 < c) (v : ℝ × ℝ × ℝ) :
    photonUnit c v ∈ photons (psInUnit c ps) (c ^ 2 * S) (ptInUnit c pt) ↔ v ∈ photons ps S pt := by
  have e1 : (c * ps.M) ^ 2 * v.1 ^ 2 ≤ c ^ 2 * S * pt.y * v.1 + c ^ 2 * S * pt.x * pt.y
      ↔ ps.M ^ 2 * v.1 ^ 2 ≤ S * pt.y * v.1 + S * pt.x * pt.y := le_unit (n := 2) hc (by ring) (by ring)
  have e2 : 0 ≤ c ^ 2 * v.2.2 ↔ 0 ≤ v.2.2 := le_unit (n := 2) hc (by simp) rfl
  have e3 : (c * ps.Mth) ^ 2 ≤ (KinematicsRad.make (.make (psInUnit c ps) (c ^ 2 * S) (ptInUnit c pt))
        (photonUnit c v).1 (photonUnit c v).2.1 (photonUnit c v).2.2).shift_mx_sq
      ↔ ps.Mth ^ 2 ≤ (KinematicsRad.make (.make ps S pt) v.1 v.2.1 v.2.2).shift_mx_sq :=
    le_unit (n := 2) hc (by ring) (by rw [rad_kin_unit hc]; rfl)
  constructor
  · rintro ⟨⟨h1, h2, h3, h4⟩, h5⟩
    exact ⟨⟨(accepted_unit hc).1 h1, e1.1 h2, e2.1 h3, e3.1 h4⟩, h5⟩
  · rintro ⟨⟨h1, h2, h3, h4⟩, h5⟩
    exact ⟨⟨(accepted_unit hc).2 h1, e1.2 h2, e2.2 h3, e3.2 h4⟩, h5⟩

private theorem energy_unit (hc : 0 < c) (v : ℝ × ℝ × ℝ) :
    energyBar (psInUnit c ps) (c ^ 2 * S) (ptInUnit c pt) (photonUnit c v) = c * energyBar ps S pt v := by
  unfold energyBar
  rw [rad_kin_unit hc]
  rfl

private theorem soft_set_unit (hc : 0 < c) (k0 : ℝ) :
    photonUnit c ⁻¹' softPhotons (psInUnit c ps) (c ^ 2 * S) (ptInUnit c pt) (c * k0) = softPhotons ps S pt k0 := by
  ext v
  change _ ∧ _ ↔ _ ∧ _
  rw [photons_unit hc, energy_unit hc, mul_le_mul_iff_right₀ hc]

private theorem hard_set_unit (hc : 0 < c) (k0 : ℝ) :
    photonUnit c ⁻¹' hardPhotons (psInUnit c ps) (c ^ 2 * S) (ptInUnit c pt) (c * k0) = hardPhotons ps S pt k0 := by
  ext v
  change _ ∧ _ ↔ _ ∧ _
  rw [photons_unit hc, energy_unit hc, mul_lt_mul_iff_right₀ hc]

private theorem photonUnit_emb (hc : 0 < c) : MeasurableEmbedding (photonUnit c) :=
  (((Homeomorph.refl ℝ).prodCongr ((Homeomorph.refl ℝ).prodCongr
    (Homeomorph.mulLeft₀ (c ^ 2) (pow_pos hc 2).ne')))).measurableEmbedding

private theorem photonUnit_map (hc : 0 < c) :
    MeasurePreserving (photonUnit c) volume (ENNReal.ofReal (c ^ 2)⁻¹ • volume) := by
  have h2 := pow_pos hc 2
  have h0 : MeasurePreserving (fun R : ℝ => c ^ 2 * R) volume (ENNReal.ofReal (c ^ 2)⁻¹ • volume) := by
    refine ⟨measurable_const_mul _, ?_⟩
    rw [Real.map_volume_mul_left h2.ne', abs_of_pos (inv_pos.2 h2)]
  have h1 := (MeasurePreserving.id (volume : Measure ℝ)).prod ((MeasurePreserving.id (volume : Measure ℝ)).prod h0)
  rw [Measure.prod_smul_right, Measure.prod_smul_right] at h1
  exact h1

private theorem integral_unit (hc : 0 < c) (D : Set (ℝ × ℝ × ℝ)) (f : ℝ × ℝ × ℝ → ℝ) :
    (IntegrableOn (fun v => f (photonUnit c v)) (photonUnit c ⁻¹' D) → IntegrableOn f D) ∧
    ∫ v in D, f v = c ^ 2 * ∫ v in photonUnit c ⁻¹' D, f (photonUnit c v) := by
  have h2 := pow_pos hc 2
  have hr : ENNReal.ofReal (c ^ 2)⁻¹ ≠ 0 := by simpa using hc.ne'
  constructor
  · intro h
    have := ((photonUnit_map hc).integrableOn_comp_preimage (photonUnit_emb hc) (f := f) (s := D)).1 h
    rw [IntegrableOn, Measure.restrict_smul] at this
    exact (integrable_smul_measure hr ENNReal.ofReal_ne_top).1 this
  · rw [(photonUnit_map hc).setIntegral_preimage_emb (photonUnit_emb hc) f D, Measure.restrict_smul,
      integral_smul_measure, ENNReal.toReal_ofReal (inv_pos.2 h2).le, smul_eq_mul, ← mul_assoc,
      mul_inv_cancel₀ h2.ne', one_mul]

/-- C109: `xs::rad_integ` is per squared momentum, as `xs::born`: to the accuracies of the two integrations. -/
theorem c109_rad_integ (hc : 0 < c) (hm : Massive ps) (h : Accepted ps S pt) (hs : Samplable ps S pt) (ph : Phenom)
    (sf : SfFuns) (lambda : ℝ) (eta : Vec3) {k0 : ℝ} (hk0 : 0 < k0) {I J : Integrator3} {ε δ : ℝ} (hI : Accurate I ε)
    (hJ : Accurate J δ) (hint : IntegrableOn (fun v : ℝ × ℝ × ℝ =>
      xsRad (.make (.make ps S pt) v.1 v.2.1 v.2.2) ph sf lambda eta) (hardPhotons ps S pt k0)) :
    ∃ v v' : ℝ,
      (radInteg I (.make (finPs ps) (.fin S) (finPt pt)) (.make ps S pt) ph sf lambda eta (.fin k0)).val = .fin v ∧
      (radInteg J (.make (finPs (psInUnit c ps)) (.fin (c ^ 2 * S)) (finPt (ptInUnit c pt)))
        (.make (psInUnit c ps) (c ^ 2 * S) (ptInUnit c pt)) ph (sfInUnit c sf) lambda eta (.fin (c * k0))).val
          = .fin v' ∧
      |v' - v / c ^ 4| ≤ δ + ε / c ^ 4 := by
  have h4 := pow_pos hc 4
  let rad' := fun v : ℝ × ℝ × ℝ => xsRad (.make (.make (psInUnit c ps) (c ^ 2 * S) (ptInUnit c pt)) v.1 v.2.1 v.2.2)
    ph (sfInUnit c sf) lambda eta
  have e : ∀ v, rad' (photonUnit c v) = xsRad (.make (.make ps S pt) v.1 v.2.1 v.2.2) ph sf lambda eta / c ^ 6 := by
    intro v
    simp only [rad']
    rw [rad_kin_unit hc, rad_unit _ _ _ _ _ hc.ne']
  obtain ⟨i1, i2⟩ := integral_unit hc (hardPhotons (psInUnit c ps) (c ^ 2 * S) (ptInUnit c pt) (c * k0)) rad'
  rw [hard_set_unit hc] at i1 i2
  simp only [e] at i1 i2
  obtain ⟨v, e1, e2⟩ := c86_hard hm h hs ph sf lambda eta hk0 hI hint
  obtain ⟨v', e1', e2'⟩ := c86_hard (massive_unit hc hm) ((accepted_unit hc).2 h) (samplable_unit hc hs) ph
    (sfInUnit c sf) lambda eta (mul_pos hc hk0) hJ (i1 (hint.div_const _))
  refine ⟨v, v', e1, e1', ?_⟩
  change |v' - ∫ w in _, rad' w| ≤ δ at e2'
  rw [i2, integral_div] at e2'
  set T := ∫ w in hardPhotons ps S pt k0, xsRad (.make (.make ps S pt) w.1 w.2.1 w.2.2) ph sf lambda eta
  have e3 : c ^ 2 * (T / c ^ 6) = T / c ^ 4 := by field_simp
  rw [e3] at e2'
  have e4 : |T / c ^ 4 - v / c ^ 4| ≤ ε / c ^ 4 := by
    rw [← sub_div, abs_div, abs_of_pos h4, abs_sub_comm]
    exact div_le_div_of_nonneg_right e2 h4.le
  calc |v' - v / c ^ 4| = |(v' - T / c ^ 4) + (T / c ^ 4 - v / c ^ 4)| := by ring_nf
    _ ≤ _ := (abs_add_le _ _).trans (add_le_add e2' e4)

/-- C109: and so are `xs::rad_f_integ` and `xs::nrad_integ`, where the latter contains the vacuum polarisation, for
which the masses of the leptons in GeV are part of the code (`c109_vac`): it is the same in the sum of its two parts. -/
theorem c109_nrad_integ (hc : 0 < c) (hm : Massive ps) (h : Accepted ps S pt) (hs : Samplable ps S pt)
    {ph ph' : Phenom} (ha : ph'.alpha_qed = ph.alpha_qed)
    (hv : deltaVacLep (.make (psInUnit c ps) (c ^ 2 * S) (ptInUnit c pt)) + ph'.delta_vac_had
      = deltaVacLep (.make ps S pt) + ph.delta_vac_had)
    (sf : SfFuns) (lambda : ℝ) (eta : Vec3) {k0 : ℝ} (hk0 : 0 < k0) {I J : Integrator3} {ε δ : ℝ} (hI : Accurate I ε)
    (hJ : Accurate J δ) (hint : IntegrableOn (fun v : ℝ × ℝ × ℝ =>
      xsRadF (.make (.make ps S pt) v.1 v.2.1 v.2.2) ph sf lambda eta) (softPhotons ps S pt k0)) :
    let K := Kinematics.make (finPs ps) (.fin S) (finPt pt)
    let K' := Kinematics.make (finPs (psInUnit c ps)) (.fin (c ^ 2 * S)) (finPt (ptInUnit c pt))
    let k := Kinematics.make ps S pt
    let k' := Kinematics.make (psInUnit c ps) (c ^ 2 * S) (ptInUnit c pt)
    (∃ ir : ℝ, xsNradIr k ph sf lambda eta (.fin k0) = .fin ir ∧
      xsNradIr k' ph' (sfInUnit c sf) lambda eta (.fin (c * k0)) = .fin (ir / c ^ 4)) ∧
    (∃ v v' : ℝ, (radFInteg I K k ph sf lambda eta (.fin k0)).val = .fin v ∧
      (radFInteg J K' k' ph' (sfInUnit c sf) lambda eta (.fin (c * k0))).val = .fin v' ∧
      |v' - v / c ^ 4| ≤ δ + ε / c ^ 4) ∧
    ∃ v v' : ℝ, (nradInteg I K k ph sf lambda eta (.fin k0)).val = .fin v ∧
      (nradInteg J K' k' ph' (sfInUnit c sf) lambda eta (.fin (c * k0))).val = .fin v' ∧
      |v' - v / c ^ 4| ≤ δ + ε / c ^ 4 := by
  intro K K' k k'
  have h4 := pow_pos hc 4
  let radF' := fun v : ℝ × ℝ × ℝ => xsRadF (.make k' v.1 v.2.1 v.2.2) ph' (sfInUnit c sf) lambda eta
  have ephi : ∀ (kr : KinematicsRad ℝ) (f : SfFuns), xsRadF kr ph' f lambda eta = xsRadF kr ph f lambda eta := by
    intro kr f
    have : radCoeff kr ph' = radCoeff kr ph := by rw [radCoeff, radCoeff, ha]
    rw [c54_rad_f, c54_rad_f, c54_rad_f_integrand, c54_rad_f_integrand, this]
  have e : ∀ v, radF' (photonUnit c v) = xsRadF (.make k v.1 v.2.1 v.2.2) ph sf lambda eta / c ^ 6 := by
    intro v
    simp only [radF', k']
    rw [ephi, rad_kin_unit hc, radF_unit _ _ _ _ _ hc]
  obtain ⟨i1, i2⟩ := integral_unit hc (softPhotons (psInUnit c ps) (c ^ 2 * S) (ptInUnit c pt) (c * k0)) radF'
  rw [soft_set_unit hc] at i1 i2
  simp only [e] at i1 i2
  -- the infrared part
  obtain ⟨total, ht⟩ := c56_cutoff_independent k hs.m_pos (mx_pos_of_accepted hm h) (by
    have := hs.room
    change ps.Mth * ps.Mth < _
    rwa [← pow_two])
  obtain ⟨d, -, hd, -, -⟩ := ht (.fin k0) (by simpa using hk0)
  have hd' : deltaVertRadIr k' (.fin (c * k0)) = .fin d := by
    have := (c109_delta c hc ps S pt (.fin k0)).1
    rw [Fl.mul_fin] at this
    rw [this, hd]
  have r1 := c55_rescaled_born k ph sf lambda eta (.fin k0) d hd
  have r2 := c55_rescaled_born k' ph' (sfInUnit c sf) lambda eta (.fin (c * k0)) d hd'
  have b1 : xsBorn k' ph' (sfInUnit c sf) lambda eta = xsBorn k ph sf lambda eta / c ^ 4 := by
    rw [← c109_born c hc ps S pt ph sf lambda eta, c54_born, c54_born, bornCoeff, bornCoeff, ha]
  have b2 : xsAmm k' ph' (sfInUnit c sf) lambda eta = xsAmm k ph sf lambda eta / c ^ 4 := by
    rw [← c109_amm c hc ps S pt ph sf lambda eta, c54_amm, c54_amm, ammCoeff, ammCoeff, ha]
  set ir := (1 + ph.alpha_qed / π * (d + deltaVacLep k + ph.delta_vac_had)) * xsBorn k ph sf lambda eta
    + xsAmm k ph sf lambda eta with hir
  have r3 : xsNradIr k' ph' (sfInUnit c sf) lambda eta (.fin (c * k0)) = .fin (ir / c ^ 4) := by
    rw [r2, b1, b2, ha, add_assoc d, show deltaVacLep k' + ph'.delta_vac_had = _ from hv, hir]
    congr 1
    ring
  obtain ⟨⟨u, f1, f2⟩, g⟩ := c86_soft hm h hs ph sf lambda eta hk0 hI hint
  obtain ⟨v, g1, g2⟩ := g _ r1
  obtain ⟨⟨u', f1', f2'⟩, g'⟩ := c86_soft (massive_unit hc hm) ((accepted_unit hc).2 h) (samplable_unit hc hs) ph'
    (sfInUnit c sf) lambda eta (mul_pos hc hk0) hJ (i1 (hint.div_const _))
  obtain ⟨v', g1', g2'⟩ := g' _ r3
  change |u' - ∫ w in _, radF' w| ≤ δ at f2'
  change |v' - (ir / c ^ 4 + ∫ w in _, radF' w)| ≤ δ at g2'
  rw [i2, integral_div] at f2' g2'
  set T := ∫ w in softPhotons ps S pt k0, xsRadF (.make k w.1 w.2.1 w.2.2) ph sf lambda eta
  have e3 : c ^ 2 * (T / c ^ 6) = T / c ^ 4 := by field_simp
  rw [e3] at f2' g2'
  have close : ∀ {a a' t : ℝ}, |a - t| ≤ ε → |a' - t / c ^ 4| ≤ δ → |a' - a / c ^ 4| ≤ δ + ε / c ^ 4 := by
    intro a a' t q q'
    have e4 : |t / c ^ 4 - a / c ^ 4| ≤ ε / c ^ 4 := by
      rw [← sub_div, abs_div, abs_of_pos h4, abs_sub_comm]
      exact div_le_div_of_nonneg_right q h4.le
    calc |a' - a / c ^ 4| = |(a' - t / c ^ 4) + (t / c ^ 4 - a / c ^ 4)| := by ring_nf
      _ ≤ _ := (abs_add_le _ _).trans (add_le_add q' e4)
  refine ⟨⟨ir, r1, r3⟩, ⟨u, u', f1, f1', close f2 f2'⟩, v, v', g1, g1', close g2 ?_⟩
  rwa [add_div]

private theorem vac_lt {Q Q' m : ℝ} (hQ : 0 < Q) (hQ' : Q < Q') (hm : 0 < m) :
    deltaVacLepTerm Q m < deltaVacLepTerm Q' m := by
  rw [← Sidis.integral_vac hQ hm, ← Sidis.integral_vac (hQ.trans hQ') hm]
  have hcont : ∀ q : ℝ, 0 < q →
      ContinuousOn (fun x => x * (1 - x) * log (1 + q * (x * (1 - x)) / m ^ 2)) (Set.Icc 0 1) := by
    intro q hq
    refine ContinuousOn.mul (by fun_prop) (ContinuousOn.log (by fun_prop) fun x hx => ?_)
    have : 0 ≤ x * (1 - x) := mul_nonneg hx.1 (by linarith [hx.2])
    positivity
  refine mul_lt_mul_of_pos_left (intervalIntegral.integral_lt_integral_of_continuousOn_of_le_of_exists_lt one_pos
    (hcont Q hQ) (hcont Q' (hQ.trans hQ')) (fun x hx => ?_) ⟨1 / 2, by norm_num, ?_⟩) (by norm_num)
  · have hx' : 0 ≤ x * (1 - x) := mul_nonneg hx.1.le (by linarith [hx.2])
    refine mul_le_mul_of_nonneg_left (log_le_log (by positivity) ?_) hx'
    gcongr
  · have hx' : (0 : ℝ) < 1 / 2 * (1 - 1 / 2) := by norm_num
    refine mul_lt_mul_of_pos_left (log_lt_log (by positivity) ?_) hx'
    gcongr

/-- C109: the leptonic vacuum polarisation is the exception: at no physical point is it the same in another unit,
since the masses of the leptons in it are numbers of GeV. -/
theorem c109_vac (hc : 0 < c) (h : Physical ps S pt) :
    deltaVacLep (.make (psInUnit c ps) (c ^ 2 * S) (ptInUnit c pt)) = deltaVacLep (.make ps S pt) ↔ c = 1 := by
  have hS : 0 < S := lt_of_le_of_lt (by have := h.m_nonneg; have := h.M_pos; positivity) h.beam
  have hQ : 0 < S * pt.x * pt.y := mul_pos (mul_pos hS h.x_pos) h.y_pos
  have e : (Kinematics.make ps S pt).Q_sq = S * pt.x * pt.y := rfl
  have e' : (Kinematics.make (psInUnit c ps) (c ^ 2 * S) (ptInUnit c pt)).Q_sq = c ^ 2 * (S * pt.x * pt.y) := by
    rw [make_unit hc]
    rfl
  simp only [deltaVacLep, e, e']
  constructor
  · intro q
    by_contra hne
    rcases lt_or_gt_of_ne hne with h1 | h1
    · have : c ^ 2 * (S * pt.x * pt.y) < S * pt.x * pt.y :=
        mul_lt_of_lt_one_left hQ (pow_lt_one₀ hc.le h1 two_ne_zero)
      have p := mul_pos (pow_pos hc 2) hQ
      linarith [vac_lt p this (m := 0.0005109989461) (by norm_num), vac_lt p this (m := 0.1056583745) (by norm_num),
        vac_lt p this (m := 1.77686) (by norm_num)]
    · have : S * pt.x * pt.y < c ^ 2 * (S * pt.x * pt.y) :=
        lt_mul_of_one_lt_left hQ (one_lt_pow₀ h1 two_ne_zero)
      linarith [vac_lt hQ this (m := 0.0005109989461) (by norm_num), vac_lt hQ this (m := 0.1056583745) (by norm_num),
        vac_lt hQ this (m := 1.77686) (by norm_num)]
  · rintro rfl
    rw [one_pow, one_mul]

/-- The theorems apply at the sample point, from GeV to MeV: an exact integrator, structure functions at one point. -/
example (ph : Phenom) (eta : Vec3) : ∃ (I : Integrator3) (ph' : Phenom), Accurate I 0 ∧
    ph'.alpha_qed = ph.alpha_qed ∧
    deltaVacLep (.make (psInUnit 1000 samplePs) (1000 ^ 2 * 20) (ptInUnit 1000 samplePt)) + ph'.delta_vac_had
      = deltaVacLep (.make samplePs 20 samplePt) + ph.delta_vac_had ∧
    Massive samplePs ∧ Accepted samplePs 20 samplePt ∧ Samplable samplePs 20 samplePt ∧
    IntegrableOn (fun v : ℝ × ℝ × ℝ => xsRadF (.make (.make samplePs 20 samplePt) v.1 v.2.1 v.2.2) ph
      (pointSf samplePt.x (20 * samplePt.x * samplePt.y)) 1 eta) (softPhotons samplePs 20 samplePt 1) := by
  refine ⟨offsetIntegrator 0, ⟨ph.alpha_qed, deltaVacLep (.make samplePs 20 samplePt) + ph.delta_vac_had
    - deltaVacLep (.make (psInUnit 1000 samplePs) (1000 ^ 2 * 20) (ptInUnit 1000 samplePt))⟩,
    by simpa using accurate_offset 0, rfl, by ring, sample_accepted.1, sample_accepted.2, sample_samplable, ?_⟩
  exact (integrable_point sample_accepted.1 sample_accepted.2 sample_samplable ph 1 eta).mono_set fun v hv => hv.1

/-- In MeV the vacuum polarisation comes out differently at the sample point. -/
example : deltaVacLep (.make (psInUnit 1000 samplePs) (1000 ^ 2 * 20) (ptInUnit 1000 samplePt))
    ≠ deltaVacLep (.make samplePs 20 samplePt) := fun q =>
  absurd ((c109_vac (by norm_num) sample_physical.2).1 q) (by norm_num)

end Sidis.Props
