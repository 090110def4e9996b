import Verif.Lemmas.SoftPhotonKin
import Verif.Lemmas.Shell
import Verif.Spec.Photons

/-! # Soft photons: the eikonal factor over all directions, independence of the cut-off (C84, C85) -/

namespace Sidis

open Spec Real MeasureTheory

section
variable {ps : Particles ℝ} {S : ℝ} {pt : PhaseSpace ℝ}

/-- `1 + τ - μ` as a function of the photon direction. -/
noncomputable def recoil (k : Kinematics ℝ) (p : ℝ × ℝ) : ℝ :=
  1 + p.1 - Cut.muOf k p.1 p.2 ((k.S_x - k.lambda_Y_sqrt) / (2 * sq k.M))
    ((k.S_x + k.lambda_Y_sqrt) / (2 * sq k.M))

theorem recoil_eq (k : Kinematics ℝ) (τ φ R : ℝ) :
    recoil k (τ, φ) = 1 + τ - (KinematicsRad.make k τ φ R).mu := rfl

theorem continuous_recoil (k : Kinematics ℝ) : Continuous (recoil k) := by
  have : recoil k = fun p => 1 + p.1 - (k.ph_0 / k.M
    + 1 / k.lambda_Y_sqrt * (
      (2 * p.1 * sq k.M - k.S_x) * k.ph_l / k.M
      - 2 * k.M * k.ph_t * Real.cos (k.phi_h - p.2) *
        √((p.1 - (k.S_x - k.lambda_Y_sqrt) / (2 * sq k.M)) *
          ((k.S_x + k.lambda_Y_sqrt) / (2 * sq k.M) - p.1)))) := rfl
  rw [this]
  fun_prop

theorem mx_pos_of_accepted (hm : Massive ps) (h : Accepted ps S pt) :
    0 < (Kinematics.make ps S pt).mx := by
  have h1 : (Kinematics.make ps S pt).mx = √(Kinematics.make ps S pt).mx_sq := rfl
  rw [h1, sqrt_pos]
  have := hm.M_pos
  have := hm.Mth_ge
  have : 0 < ps.Mth ^ 2 := by have : 0 < ps.Mth := by linarith
                              positivity
  linarith [h.missing]

theorem energyBar_eq (v : ℝ × ℝ × ℝ) :
    energyBar ps S pt v = recoil (.make ps S pt) (v.1, v.2.1) * v.2.2
      / (2 * (Kinematics.make ps S pt).mx) := rfl

theorem recoil_pos (hm : Massive ps) (h : Accepted ps S pt) {τ φ : ℝ}
    (ht : ps.M ^ 2 * τ ^ 2 ≤ S * pt.y * τ + S * pt.x * pt.y) :
    0 < recoil (.make ps S pt) (τ, φ) := by
  rw [recoil_eq _ _ _ 0]
  exact mu_pos hm h ht

/-- The photons of an energy above a positive cut-off are a shell. -/
theorem hardPhotons_eq (hm : Massive ps) (h : Accepted ps S pt) (hs : Samplable ps S pt) {c : ℝ}
    (hc : 0 < c) :
    hardPhotons ps S pt c = shell (tauLo (.make ps S pt)) (tauHi (.make ps S pt)) (-π) π
      (recoil (.make ps S pt)) (2 * (Kinematics.make ps S pt).mx * c)
      ((Kinematics.make ps S pt).mx_sq - ps.Mth ^ 2) := by
  have hk := kinRel_of_physical (physical_of_samplable hm h hs)
  have hmx := mx_pos_of_accepted hm h
  ext ⟨τ, φ, R⟩
  simp only [hardPhotons, photons, shell, Set.mem_setOf_eq, energyBar_eq, Set.mem_Icc]
  rw [lt_div_iff₀ (by positivity), tau_mem_iff hk]
  constructor
  · rintro ⟨⟨ha, h1, h2⟩, h3⟩
    refine ⟨ha.photon, ⟨h1, h2⟩, by linarith, ?_⟩
    have := ha.missing
    rw [shift_mx_eq hm h, ← recoil_eq] at this
    linarith
  · rintro ⟨ht, ⟨h1, h2⟩, h3, h4⟩
    refine ⟨⟨⟨h, ht, ?_, ?_⟩, h1, h2⟩, by linarith⟩
    · have := recoil_pos (φ := φ) hm h ht
      have h5 : 0 < recoil (Kinematics.make ps S pt) (τ, φ) * R := lt_trans (by positivity) h3
      exact (pos_of_mul_pos_right h5 this.le).le
    · rw [shift_mx_eq hm h, ← recoil_eq]
      linarith

/-- Away from the endpoint of the photon spectrum the difference quotient is used. -/
theorem softStep_none (hm : Massive ps) (h : Accepted ps S pt) {τ φ R : ℝ}
    (ht : ps.M ^ 2 * τ ^ 2 ≤ S * pt.y * τ + S * pt.x * pt.y)
    (hc : deltaRRel * energyMax ps S pt ≤ energyBar ps S pt (τ, φ, R)) :
    softStep (.make (.make ps S pt) τ φ R) = none := by
  have hp := recoil_pos (φ := φ) hm h ht
  have hmx := mx_pos_of_accepted hm h
  have e : rBoundMax (KinematicsRad.make (.make ps S pt) τ φ R).project τ φ
      = if 0 ≤ 1 / recoil (.make ps S pt) (τ, φ) * ((Kinematics.make ps S pt).mx_sq - sq ps.Mth)
        then some (1 / recoil (.make ps S pt) (τ, φ) * ((Kinematics.make ps S pt).mx_sq - sq ps.Mth))
        else none := by
    change rBoundMax (.make ps S pt) τ φ = _
    unfold rBoundMax
    congr!
  have h0 : 0 ≤ 1 / recoil (.make ps S pt) (τ, φ) * ((Kinematics.make ps S pt).mx_sq - sq ps.Mth) :=
    mul_nonneg (by positivity) (sub_nonneg.2 (by rw [sq, ← pow_two]; exact h.missing))
  change (rBoundMax (KinematicsRad.make (.make ps S pt) τ φ R).project τ φ).bind _ = none
  rw [e, if_pos h0]
  simp only [Option.bind_some]
  rw [if_neg]
  rw [energyBar_eq, energyMax] at hc
  have e1 : √(Kinematics.make ps S pt).mx_sq = (Kinematics.make ps S pt).mx := rfl
  rw [e1] at hc
  simp only at hc
  change ¬ R < _
  rw [not_lt]
  rw [← mul_div_assoc, div_le_div_iff_of_pos_right (by positivity)] at hc
  rw [one_div_mul_eq_div, div_mul_eq_mul_div, div_le_iff₀ hp, sq, ← pow_two]
  linarith

end

namespace Props

section
variable {ps : Particles ℝ} {S : ℝ} {pt : PhaseSpace ℝ}

/-- C84: the eikonal factor integrated over all directions of the photon. -/
theorem c84_eikonal (hm : Massive ps) (h : Accepted ps S pt) (hs : Samplable ps S pt) (R : ℝ) :
    let k := Kinematics.make ps S pt
    ∫ τ in tauLo k..tauHi k, ∫ φ in (-π)..π, (KinematicsRad.make k τ φ R).F_IR
      = -(4 * π * k.lambda_Y_sqrt) * ((k.Q_sq + 2 * ps.m ^ 2) / 2
          * (∫ x in (0 : ℝ)..1, 1 / (ps.m ^ 2 + k.Q_sq * (x * (1 - x)))) - 1) := by
  intro k
  have hp := physical_of_samplable hm h hs
  have hk : KinRel k := kinRel_of_physical hp
  rw [(integral_F_IR hp hs.m_pos hs.angle R).2, integral_denom hk.Q2_pos hs.m_pos]
  ring

/-- C85: what `delta_rad_ir_hard` stands for: the part of the radiative cross-section missing from its
infrared-finite part, integrated over the photons above the cut-off. -/
theorem c85_hard (hm : Massive ps) (h : Accepted ps S pt) (hs : Samplable ps S pt) (ph : Phenom)
    (sf : SfFuns) (lambda : ℝ) (eta : Vec3) {c : ℝ} (hc : 0 < c)
    (hc' : deltaRRel * energyMax ps S pt ≤ c) :
    let k := Kinematics.make ps S pt
    let d := fun v : ℝ × ℝ × ℝ => xsRad (.make k v.1 v.2.1 v.2.2) ph sf lambda eta
      - xsRadF (.make k v.1 v.2.1 v.2.2) ph sf lambda eta
    IntegrableOn d (hardPhotons ps S pt c) ∧
    ∃ hard : ℝ, deltaRadIrHard k (.fin c) = .fin hard ∧
      ∫ v in hardPhotons ps S pt c, d v
        = ph.alpha_qed / π * hard * xsBorn k ph sf lambda eta := by
  intro k d
  have hp := physical_of_samplable hm h hs
  have hk : KinRel k := kinRel_of_physical hp
  have hmx : 0 < k.mx := mx_pos_of_accepted hm h
  have hpi : -π ≤ π := by linarith [pi_pos]
  have hle : tauLo k ≤ tauHi k := by
    unfold tauLo tauHi
    have := hk.lY_pos
    have := hk.M_pos
    gcongr; linarith
  have hroom : 0 < k.mx_sq - ps.Mth ^ 2 := sub_pos.2 hs.room
  obtain ⟨hF, hFi⟩ := integral_F_IR hp hs.m_pos hs.angle 1
  set C := -(ph.alpha_qed / (2 * π ^ 2 * k.lambda_Y_sqrt)) * xsBorn k ph sf lambda eta with hC
  have hd : ∀ v ∈ hardPhotons ps S pt c,
      d v = C * ((KinematicsRad.make k v.1 v.2.1 1).F_IR / v.2.2) := fun v hv => by
    have hsoft : softStep (.make k v.1 v.2.1 v.2.2) = none :=
      softStep_none hm h hv.1.1.photon (hc'.trans hv.2.le)
    have := c57_infrared_part (.make k v.1 v.2.1 v.2.2) ph sf lambda eta hsoft
    simp only [d]
    rw [this, hC]
    change -(ph.alpha_qed * (KinematicsRad.make k v.1 v.2.1 1).F_IR) / (2 * π ^ 2 * v.2.2 * k.lambda_Y_sqrt)
      * xsBorn k ph sf lambda eta = _
    rw [neg_div, div_eq_mul_inv, div_eq_mul_inv, div_eq_mul_inv, mul_inv, mul_inv, mul_inv]
    ring
  have hmeas : MeasurableSet (hardPhotons ps S pt c) := by
    rw [hardPhotons_eq hm h hs hc]
    exact measurableSet_shell (continuous_recoil _) _ _
  by_cases hlt : 2 * k.mx * c ≤ k.mx_sq - ps.Mth ^ 2
  · obtain ⟨i1, i2⟩ := integral_shell hle hpi (continuous_recoil k)
      (fun p hp => by
        have := (tau_mem_iff hk p.1).1 hp.1
        exact recoil_pos (φ := p.2) hm h this)
      (hF.mono (Set.prod_mono le_rfl (Set.subset_univ _))) (r := 2 * k.mx * c) (by positivity) hlt
    rw [← hardPhotons_eq hm h hs hc] at i1 i2
    refine ⟨IntegrableOn.congr_fun (i1.const_mul C) (fun v hv => (hd v hv).symm) hmeas, ?_⟩
    rw [setIntegral_congr_fun hmeas hd, integral_const_mul, i2, hFi]
    refine ⟨2 * ((k.Q_sq + 2 * sq k.m) * logM k.Q_sq k.m - 1)
      * log ((k.mx_sq - ps.Mth ^ 2) / (2 * k.mx * c)), ?_, ?_⟩
    · unfold deltaRadIrHard
      have h0 : (.fin 0 : Fl) < .fin c := by simpa using hc
      simp only [h0, not_true_eq_false, if_false]
      have esq : sq k.Mth = ps.Mth ^ 2 := (pow_two _).symm
      split_ifs with hb
      · rw [Fl.mul_fin, Fl.mul_fin, Fl.div_fin _ (by positivity), Fl.log, esq,
          if_pos (by positivity), Fl.mul_fin]
        congr 4
        ring
      · have : log ((k.mx_sq - ps.Mth ^ 2) / (2 * k.mx * c)) = 0 := by
          have : k.mx_sq - ps.Mth ^ 2 = 2 * k.mx * c := by
            rw [esq, Fl.lt_fin, not_lt, div_le_iff₀ (by positivity)] at hb
            linarith
          rw [this, div_self (by positivity), log_one]
        rw [this, mul_zero]
    · have em : k.m = ps.m := rfl
      have hL := hk.lY_pos
      rw [hC, em, sq, ← pow_two]
      field_simp
      ring
  · have hempty : hardPhotons ps S pt c = ∅ := by
      rw [hardPhotons_eq hm h hs hc]
      ext v
      simp only [shell, Set.mem_setOf_eq, Set.mem_empty_iff_false, iff_false]
      rintro ⟨-, -, h3, h4⟩
      exact hlt (h3.le.trans h4)
    rw [hempty]
    refine ⟨integrableOn_empty, 0, ?_, by simp⟩
    unfold deltaRadIrHard
    have h0 : (.fin 0 : Fl) < .fin c := by simpa using hc
    have hb : ¬ (.fin c : Fl) < .fin ((k.mx_sq - sq k.Mth) / (2 * k.mx)) := by
      rw [Fl.lt_fin, not_lt, div_le_iff₀ (by positivity), show sq k.Mth = ps.Mth ^ 2 from
        (pow_two _).symm]
      linarith
    simp only [h0, hb, not_true_eq_false, not_false_eq_true, if_false, if_true]

/-- C85: the cross-section including radiation does not depend on the cut-off between soft and hard
photons: for every cut-off the infrared part, the finite part over the soft photons and the radiative
cross-section over the hard photons add up to the same total. -/
theorem c85_cutoff_independent (hm : Massive ps) (h : Accepted ps S pt) (hs : Samplable ps S pt)
    (ph : Phenom) (sf : SfFuns) (lambda : ℝ) (eta : Vec3) :
    let k := Kinematics.make ps S pt
    let radF := fun v : ℝ × ℝ × ℝ => xsRadF (.make k v.1 v.2.1 v.2.2) ph sf lambda eta
    let rad := fun v : ℝ × ℝ × ℝ => xsRad (.make k v.1 v.2.1 v.2.2) ph sf lambda eta
    IntegrableOn radF (photons ps S pt) →
    ∃ total : ℝ, ∀ c : ℝ, 0 < c → deltaRRel * energyMax ps S pt ≤ c →
      IntegrableOn rad (hardPhotons ps S pt c) ∧
      ∃ ir : ℝ, xsNradIr k ph sf lambda eta (.fin c) = .fin ir ∧
        ir + (∫ v in softPhotons ps S pt c, radF v) + (∫ v in hardPhotons ps S pt c, rad v)
          = total := by
  intro k radF rad hint
  have hp := physical_of_samplable hm h hs
  have hk : KinRel k := kinRel_of_physical hp
  have hmx : 0 < k.mx := mx_pos_of_accepted hm h
  have esq : sq k.Mth = ps.Mth ^ 2 := (pow_two _).symm
  obtain ⟨D, hD⟩ := c56_cutoff_independent k hs.m_pos hmx (by rw [esq]; exact hs.room)
  refine ⟨(1 + ph.alpha_qed / π * (D + deltaVacLep k + ph.delta_vac_had))
    * xsBorn k ph sf lambda eta + xsAmm k ph sf lambda eta + ∫ v in photons ps S pt, radF v,
    fun c hc hc' => ?_⟩
  obtain ⟨hdi, hard, eh, hdint⟩ := c85_hard hm h hs ph sf lambda eta hc hc'
  obtain ⟨soft, hard', es, eh', hsum⟩ := hD (.fin c) (by simpa using hc)
  obtain rfl : hard = hard' := Fl.fin.inj (eh.symm.trans eh')
  have hsub : hardPhotons ps S pt c ⊆ photons ps S pt := fun v hv => hv.1
  have hsub' : softPhotons ps S pt c ⊆ photons ps S pt := fun v hv => hv.1
  have hmeas : MeasurableSet (hardPhotons ps S pt c) := by
    rw [hardPhotons_eq hm h hs hc]
    exact measurableSet_shell (continuous_recoil _) _ _
  have hr : IntegrableOn rad (hardPhotons ps S pt c) := by
    exact IntegrableOn.congr_fun (hdi.add (hint.mono_set hsub)) (fun v _ => sub_add_cancel _ _) hmeas
  refine ⟨hr, _, c55_rescaled_born k ph sf lambda eta _ _ es, ?_⟩
  have hunion : photons ps S pt = softPhotons ps S pt c ∪ hardPhotons ps S pt c := by
    ext v
    simp only [softPhotons, hardPhotons, Set.mem_union, Set.mem_setOf_eq]
    constructor
    · intro hv
      rcases le_or_gt (energyBar ps S pt v) c with q | q
      exacts [Or.inl ⟨hv, q⟩, Or.inr ⟨hv, q⟩]
    · rintro (q | q) <;> exact q.1
  have hdisj : Disjoint (softPhotons ps S pt c) (hardPhotons ps S pt c) := by
    rw [Set.disjoint_left]
    rintro v ⟨-, h1⟩ ⟨-, h2⟩
    exact absurd h2 (not_lt.2 h1)
  have hd2 : ∫ v in hardPhotons ps S pt c, rad v = ph.alpha_qed / π * hard * xsBorn k ph sf lambda eta
      + ∫ v in hardPhotons ps S pt c, radF v := by
    rw [← hdint, ← integral_add hdi (hint.mono_set hsub)]
    refine integral_congr_ae (Filter.Eventually.of_forall fun v => (sub_add_cancel _ _).symm)
  rw [hd2, hunion, setIntegral_union hdisj hmeas (hint.mono_set hsub') (hint.mono_set hsub), ← hsum]
  ring

/-! ### A case for C85

Structure functions that vanish except at the kinematics of the point: every photon moves the virtual
photon, so that the radiative cross-section is zero while the Born cross-section need not be. -/

/-- Structure functions supported on one `x` and `Q²`. -/
noncomputable def pointSf (x₀ q₀ : ℝ) : SfFuns :=
  let f : Hadron → ℝ → ℝ → ℝ → ℝ → ℝ := fun _ x _ q _ => open Classical in if x = x₀ ∧ q = q₀ then 1 else 0
  ⟨f, f, f, f, f, f, f, f, f, f, f, f, f, f, f, f, f, f⟩

theorem hadronicRad_point (h : Accepted ps S pt) (hs : Samplable ps S pt) (eta : Vec3)
    (τ φ : ℝ) {R : ℝ} (hR : 0 < R) :
    hadronicRad (.make (.make ps S pt) τ φ R) (pointSf pt.x (S * pt.x * pt.y)) eta
      = ⟨0, 0, 0, 0, 0, 0, 0, 0, 0⟩ := by
  set k := KinematicsRad.make (.make ps S pt) τ φ R with hk
  have hne : ¬(k.shift_x = pt.x ∧ k.shift_Q_sq = S * pt.x * pt.y) := by
    rintro ⟨h1, h2⟩
    have e2 : k.shift_Q_sq = S * pt.x * pt.y + R * τ := rfl
    have e1 : k.shift_x = k.shift_Q_sq / (S * pt.y - R) := rfl
    have hx := x_pos_of_samplable h hs
    rw [e1, h2] at h1
    have hq : 0 < S * pt.x * pt.y := mul_pos (mul_pos h.S_pos hx) h.y_pos
    by_cases h0 : S * pt.y - R = 0
    · rw [h0, div_zero] at h1
      exact hx.ne h1
    · rw [div_eq_iff h0] at h1
      have : pt.x * R = 0 := by linear_combination h1
      rcases mul_eq_zero.1 this with q | q
      exacts [hx.ne' q, hR.ne' q]
  have hz : (if k.shift_x = pt.x ∧ k.shift_Q_sq = S * pt.x * pt.y then (1 : ℝ) else 0) = 0 := if_neg hne
  simp only [hadronicRad, SfFuns.baseUU, SfFuns.baseUP, SfFuns.baseLU, SfFuns.baseLP, SfFuns.baseUL,
    SfFuns.baseUT, SfFuns.baseLL, SfFuns.baseLT, pointSf]
  ext <;>
    simp only [makeHadRadBaseUU, makeHadRadBaseUP, makeHadRadBaseLU, makeHadRadBaseLP, Vec3.dot,
      Transform3.apply, hz] <;>
    ring

theorem contract_leading (k : KinematicsRad ℝ) (H : Nine) (lambda : ℝ) (g : ℝ) :
    contract (leptonicRadLeading k) (Nine.map2 (fun h _ => h * g) H H) lambda
      = 4 * k.F_IR * g * contract (leptonicBorn k.project) H lambda := by
  obtain ⟨h1, h2, h3, h4, h5, h6, h7, h8, h9⟩ := c57_leading k
  simp only [contract, leptonicRadLeading, Nine.map2, h1, h2, h3, h4, h5, h6, h7, h8, h9]
  ring

/-- The infrared-finite part of the cross-section for these structure functions. -/
theorem radF_point (hm : Massive ps) (h : Accepted ps S pt) (hs : Samplable ps S pt) (ph : Phenom)
    (lambda : ℝ) (eta : Vec3) {τ φ R : ℝ} (ht : ps.M ^ 2 * τ ^ 2 ≤ S * pt.y * τ + S * pt.x * pt.y)
    (hR : 0 < R) :
    let k := Kinematics.make ps S pt
    let sf := pointSf pt.x (S * pt.x * pt.y)
    let room := deltaRRel * (k.mx_sq - ps.Mth ^ 2)
    xsRadF (.make k τ φ R) ph sf lambda eta
      = radCoeff (.make k 0 0 1) ph * 4 * contract (leptonicBorn k) (hadronic k sf eta) lambda
        * (KinematicsRad.make k τ φ 1).F_IR
        * (if recoil k (τ, φ) * R < room then
            (R * recoil k (τ, φ) / room - 3) * recoil k (τ, φ) / (2 * room) else -1 / R) := by
  intro k sf room
  have hp := recoil_pos (φ := φ) hm h ht
  have hroom : 0 < k.mx_sq - ps.Mth ^ 2 := sub_pos.2 hs.room
  have hδ : 0 < deltaRRel := by unfold deltaRRel; positivity
  have hr0 : 0 < room := mul_pos hδ hroom
  have e : softStep (.make k τ φ R) =
      if recoil k (τ, φ) * R < room then some (room / recoil k (τ, φ)) else none := by
    have e1 : softStep (.make k τ φ R) = (if 0 ≤ 1 / recoil k (τ, φ) * (k.mx_sq - sq ps.Mth)
        then some (1 / recoil k (τ, φ) * (k.mx_sq - sq ps.Mth)) else none).bind fun r =>
          open Classical in if R < r * deltaRRel then some (r * deltaRRel) else none := by
      change (rBoundMax k τ φ).bind _ = _
      unfold rBoundMax
      congr!
    rw [e1, if_pos (by rw [sq, ← pow_two]; positivity)]
    simp only [Option.bind_some]
    have e2 : 1 / recoil k (τ, φ) * (k.mx_sq - sq ps.Mth) * deltaRRel = room / recoil k (τ, φ) := by
      simp only [room]; rw [sq, ← pow_two]; ring
    rw [e2]
    have e3 : R < room / recoil k (τ, φ) ↔ recoil k (τ, φ) * R < room := by
      rw [lt_div_iff₀ hp, mul_comm]
    simp only [e3]
  rw [c57_subtraction, hadronicRad_point h hs eta τ φ hR, e]
  have hc0 : contract (leptonicRadRest (.make k τ φ R)) ⟨0, 0, 0, 0, 0, 0, 0, 0, 0⟩ lambda = 0 := by
    simp [contract]
  rw [hc0, zero_add]
  change radCoeff (.make k 0 0 1) ph * _ = _
  have hF : (KinematicsRad.make k τ φ R).F_IR = (KinematicsRad.make k τ φ 1).F_IR := rfl
  split_ifs with hlt
  · have hd : 0 < room / recoil k (τ, φ) := by positivity
    have e4 := hadronicRad_point h hs eta τ φ hd
    have e5 := hadronicRad_point h hs eta τ φ (mul_pos two_pos hd)
    change radCoeff (.make k 0 0 1) ph * contract _ (Nine.map3 _ (hadronic k sf eta)
      (hadronicRad (.make k τ φ (room / recoil k (τ, φ))) sf eta)
      (hadronicRad (.make k τ φ (2 * (room / recoil k (τ, φ)))) sf eta)) lambda = _
    rw [e4, e5]
    have := contract_leading (.make k τ φ R) (hadronic k sf eta) lambda
      ((R * recoil k (τ, φ) / room - 3) * recoil k (τ, φ) / (2 * room))
    rw [hF] at this
    change _ = _ * contract (leptonicBorn k) _ _ at this
    rw [show radCoeff (.make k 0 0 1) ph * 4 * contract (leptonicBorn k) (hadronic k sf eta) lambda
        * (KinematicsRad.make k τ φ 1).F_IR * ((R * recoil k (τ, φ) / room - 3) * recoil k (τ, φ) / (2 * room))
        = radCoeff (.make k 0 0 1) ph * (4 * (KinematicsRad.make k τ φ 1).F_IR
          * ((R * recoil k (τ, φ) / room - 3) * recoil k (τ, φ) / (2 * room))
          * contract (leptonicBorn k) (hadronic k sf eta) lambda) by ring, ← this]
    congr 2
    have e6 : ∀ x : ℝ, diffR R (room / recoil k (τ, φ)) x 0 0
        = x * ((R * recoil k (τ, φ) / room - 3) * recoil k (τ, φ) / (2 * room)) := fun x => by
      unfold diffR; field_simp; ring
    ext <;> simp only [Nine.map3, Nine.map2] <;> exact e6 _
  · have := contract_leading (.make k τ φ R) (hadronic k sf eta) lambda (-1 / R)
    rw [hF] at this
    change _ = _ * contract (leptonicBorn k) _ _ at this
    rw [show radCoeff (.make k 0 0 1) ph * 4 * contract (leptonicBorn k) (hadronic k sf eta) lambda
        * (KinematicsRad.make k τ φ 1).F_IR * (-1 / R)
        = radCoeff (.make k 0 0 1) ph * (4 * (KinematicsRad.make k τ φ 1).F_IR
          * (-1 / R) * contract (leptonicBorn k) (hadronic k sf eta) lambda) by ring, ← this]
    congr 2
    ext <;> simp only [Nine.map2] <;> exact (show ∀ x : ℝ, (0 - x) / R = x * (-1 / R) from fun x => by ring) _

theorem continuous_ramp {d : ℝ} (hd : 0 < d) :
    Continuous fun t : ℝ => if t < d then (t / d - 3) / (2 * d) else -1 / t := by
  have hle : ∀ t : ℝ, (if t < d then (t / d - 3) / (2 * d) else -1 / t)
      = if t ≤ d then (t / d - 3) / (2 * d) else -1 / max t d := fun t => by
    rcases lt_trichotomy t d with q | q | q
    · rw [if_pos q, if_pos q.le]
    · subst q
      rw [if_neg (lt_irrefl _), if_pos le_rfl]
      field_simp
      norm_num
    · rw [if_neg q.not_gt, if_neg q.not_ge, max_eq_left q.le]
  simp only [hle]
  refine Continuous.if_le (by fun_prop) ?_ continuous_id continuous_const ?_
  · exact continuous_const.div (by fun_prop) fun t => (lt_of_lt_of_le hd (le_max_right _ _)).ne'
  · rintro t rfl
    simp only [max_self]
    field_simp
    norm_num

theorem integrable_point (hm : Massive ps) (h : Accepted ps S pt) (hs : Samplable ps S pt)
    (ph : Phenom) (lambda : ℝ) (eta : Vec3) :
    IntegrableOn (fun v : ℝ × ℝ × ℝ => xsRadF (.make (.make ps S pt) v.1 v.2.1 v.2.2) ph
      (pointSf pt.x (S * pt.x * pt.y)) lambda eta) (photons ps S pt) := by
  set k := Kinematics.make ps S pt with hkd
  have hp := physical_of_samplable hm h hs
  have hk : KinRel k := kinRel_of_physical hp
  have hpi : -π ≤ π := by linarith [pi_pos]
  have hle : tauLo k ≤ tauHi k := by
    unfold tauLo tauHi
    have := hk.lY_pos
    have := hk.M_pos
    gcongr; linarith
  have hroom : 0 < k.mx_sq - ps.Mth ^ 2 := sub_pos.2 hs.room
  have hδ : 0 < deltaRRel := by unfold deltaRRel; positivity
  have hr0 := mul_pos hδ hroom
  obtain ⟨hF, -⟩ := integral_F_IR hp hs.m_pos hs.angle 1
  set B := Set.Icc (tauLo k) (tauHi k) ×ˢ Set.Icc (-π) π with hB
  obtain ⟨p0, m0, hmin⟩ := (isCompact_Icc.prod isCompact_Icc : IsCompact B).exists_isMinOn
    ((Set.nonempty_Icc.2 hle).prod (Set.nonempty_Icc.2 hpi)) (continuous_recoil k).continuousOn
  have hp0 : 0 < recoil k p0 := recoil_pos (φ := p0.2) hm h ((tau_mem_iff hk p0.1).1 m0.1)
  set T := (k.mx_sq - ps.Mth ^ 2) / recoil k p0 with hT
  set K := Set.Icc (tauLo k) (tauHi k) ×ˢ (Set.Icc (-π) π ×ˢ Set.Icc 0 T) with hK
  set K' := Set.Icc (tauLo k) (tauHi k) ×ˢ (Set.Icc (-π) π ×ˢ Set.Ioc 0 T) with hK'
  have hKc : IsCompact K := isCompact_Icc.prod (isCompact_Icc.prod isCompact_Icc)
  have hsub : photons ps S pt ⊆ K := by
    rintro ⟨τ, φ, R⟩ ⟨ha, h1, h2⟩
    have hτ := (tau_mem_iff hk τ).2 ha.photon
    refine ⟨hτ, ⟨h1, h2⟩, ha.R_nonneg, ?_⟩
    have hmis := ha.missing
    rw [shift_mx_eq hm h, ← recoil_eq] at hmis
    have : recoil k p0 ≤ recoil k (τ, φ) := hmin (a := (τ, φ)) ⟨hτ, h1, h2⟩
    rw [hT, le_div_iff₀ hp0]
    have h3 := mul_le_mul_of_nonneg_left this ha.R_nonneg
    change ps.Mth ^ 2 ≤ k.mx_sq - R * recoil k (τ, φ) at hmis
    linarith
  set G := fun t : ℝ => if t < deltaRRel * (k.mx_sq - ps.Mth ^ 2) then
    (t / (deltaRRel * (k.mx_sq - ps.Mth ^ 2)) - 3) / (2 * (deltaRRel * (k.mx_sq - ps.Mth ^ 2)))
    else -1 / t with hG
  have hGc : Continuous G := continuous_ramp hr0
  set C := radCoeff (.make k 0 0 1) ph * 4 *
    contract (leptonicBorn k) (hadronic k (pointSf pt.x (S * pt.x * pt.y)) eta) lambda with hC
  have hi : IntegrableOn (fun v : ℝ × ℝ × ℝ => C * (KinematicsRad.make k v.1 v.2.1 1).F_IR
      * (recoil k (v.1, v.2.1) * G (recoil k (v.1, v.2.1) * v.2.2))) K := by
    refine ContinuousOn.integrableOn_compact hKc ?_
    refine ContinuousOn.mul (continuousOn_const.mul ?_) (Continuous.continuousOn ?_)
    · exact hF.comp (f := fun v : ℝ × ℝ × ℝ => (v.1, v.2.1)) (by fun_prop)
        fun v hv => ⟨hv.1, Set.mem_univ _⟩
    · have hc := continuous_recoil k
      fun_prop
  have hae : K' =ᵐ[volume] K := by
    rw [hK, hK']
    rw [Measure.volume_eq_prod, Measure.volume_eq_prod]
    exact Measure.set_prod_ae_eq (ae_eq_refl _)
      (Measure.set_prod_ae_eq (ae_eq_refl _) Ioc_ae_eq_Icc)
  refine IntegrableOn.mono_set ?_ hsub
  rw [← integrableOn_congr_set_ae hae] at hi ⊢
  refine IntegrableOn.congr_fun hi ?_
    (measurableSet_Icc.prod (measurableSet_Icc.prod measurableSet_Ioc))
  rintro ⟨τ, φ, R⟩ hv
  have ht := (tau_mem_iff hk τ).1 hv.1
  have hR : 0 < R := hv.2.2.1
  have := radF_point hm h hs ph lambda eta (φ := φ) ht hR
  simp only at this ⊢
  rw [this, ← hkd, ← hC, hG]
  have hq : 0 < recoil k (τ, φ) := recoil_pos (φ := φ) hm h ht
  simp only
  congr 1
  split_ifs
  · rw [mul_comm (recoil k (τ, φ)) R]; ring
  · field_simp

/-- C84, C85 apply at the sample point, with a cross-section that is finite and soft photons only at
the point itself; a cut-off at half the spectrum is admitted. -/
example (ph : Phenom) (eta : Vec3) :
    let k := Kinematics.make samplePs 20 samplePt
    let sf := pointSf samplePt.x (20 * samplePt.x * samplePt.y)
    (∃ total : ℝ, ∀ c : ℝ, 0 < c → deltaRRel * energyMax samplePs 20 samplePt ≤ c →
      ∃ ir : ℝ, xsNradIr k ph sf 1 eta (.fin c) = .fin ir ∧
        ir + (∫ v in softPhotons samplePs 20 samplePt c,
              xsRadF (.make k v.1 v.2.1 v.2.2) ph sf 1 eta)
          + (∫ v in hardPhotons samplePs 20 samplePt c,
              xsRad (.make k v.1 v.2.1 v.2.2) ph sf 1 eta) = total) ∧
    deltaRRel * energyMax samplePs 20 samplePt ≤ energyMax samplePs 20 samplePt / 2 ∧
    0 < energyMax samplePs 20 samplePt / 2 := by
  intro k sf
  obtain ⟨hm, h⟩ := sample_accepted
  have hs := sample_samplable
  have hmax : 0 < energyMax samplePs 20 samplePt := by
    have := mx_pos_of_accepted hm h
    have h2 : 0 < (Kinematics.make samplePs 20 samplePt).mx_sq - samplePs.Mth ^ 2 :=
      sub_pos.2 hs.room
    exact div_pos h2 (mul_pos two_pos this)
  refine ⟨?_, ?_, by positivity⟩
  · obtain ⟨total, ht⟩ := c85_cutoff_independent hm h hs ph sf 1 eta (integrable_point hm h hs ph 1 eta)
    exact ⟨total, fun c hc hc' => (ht c hc hc').2⟩
  · have : deltaRRel ≤ 1 / 2 := by
      unfold deltaRRel
      rw [Real.sqrt_le_left (by norm_num)]
      norm_num
    nlinarith

end
end Props
end Sidis
