import Verif.Lemmas.QedRadFull
import Verif.Lemmas.QedAmm
import Verif.Lemmas.OneLoop
import Verif.Props.KinRad
import Verif.Props.CrossSection

/-!
# Properties of the leptonic coefficients: quantum electrodynamics (C80 - C83)

The tensors are those of `Verif.Spec.Qed`, written from the Feynman rules with explicit Dirac matrices.
-/

namespace Sidis

open Spec Spec.Qed Dirac

/-- A light-like and a time-like future vector have a positive product. -/
theorem mink_pos {a b : Vec4} (ha : 0 < mink a a) (hb : mink b b = 0) (ta : 0 < a.t) (tb : 0 < b.t) :
    0 < mink a b := by
  simp only [mink] at ha hb ⊢
  by_contra hc
  have h1 : a.t * b.t ≤ a.x * b.x + a.y * b.y + a.z * b.z := by linarith
  have h2 : 0 < a.t * b.t := mul_pos ta tb
  have h3 : (a.t * b.t) ^ 2 ≤ (a.x * b.x + a.y * b.y + a.z * b.z) ^ 2 :=
    pow_le_pow_left₀ h2.le h1 2
  have h4 : (a.x * b.x + a.y * b.y + a.z * b.z) ^ 2 ≤
      (a.x ^ 2 + a.y ^ 2 + a.z ^ 2) * (b.x ^ 2 + b.y ^ 2 + b.z ^ 2) := by
    nlinarith [sq_nonneg (a.x * b.y - a.y * b.x), sq_nonneg (a.x * b.z - a.z * b.x),
      sq_nonneg (a.y * b.z - a.z * b.y)]
  have h5 : b.x ^ 2 + b.y ^ 2 + b.z ^ 2 = b.t ^ 2 := by linarith
  rw [h5] at h4
  have h6 : 0 < b.t ^ 2 := by positivity
  nlinarith

theorem X_pos_of_physical {ps : Particles ℝ} {S : ℝ} {pt : PhaseSpace ℝ} (h : Physical ps S pt) :
    0 < (Kinematics.make ps S pt).X := by
  have hM := h.M_pos
  have hS : 0 < S := lt_of_le_of_lt (by have := h.m_nonneg; positivity) h.beam
  have hQ : 0 < S * pt.x * pt.y := mul_pos (mul_pos hS h.x_pos) h.y_pos
  have hk := kinRel_of_physical h
  rw [hk.X_eq]
  change 0 < S - S * pt.y
  have h1 := h.lepton
  have h2 : 0 ≤ ps.m ^ 2 * ((S * pt.y) ^ 2 + 4 * ps.M ^ 2 * (S * pt.x * pt.y)) := by positivity
  have h3 : 0 ≤ S * ((1 - pt.y) * S) - ps.M ^ 2 * (S * pt.x * pt.y) := by
    by_contra hc
    nlinarith
  have h4 : 0 < ps.M ^ 2 * (S * pt.x * pt.y) := by positivity
  have h5 : 0 < S * (S - S * pt.y) := by nlinarith
  exact (pos_iff_pos_of_mul_pos h5).1 hS

section
variable {ps : Particles ℝ} {S : ℝ} {pt : PhaseSpaceRad ℝ}

theorem radDots_of_physical (h : PhysicalRad ps S pt) :
    let k := KinematicsRad.ofPoint ps S pt
    RadDots k (momP k.project) (momK1 k.project) (momQ k.project) (momH k.project) (momK k) := by
  intro k
  have hr : RadRel k := radRel_of_physical h
  have hd : Dots k.project (momP k.project) (momK1 k.project) (momQ k.project) (momH k.project) :=
    dots_of_physical h.phys
  refine ⟨hd, hr.kk, ?_, ?_, ?_, ?_, hr.volk.symm, hr.volhk.symm, ?_⟩
  · rw [mink_comm]; exact hr.kp
  · rw [mink_comm]; exact hr.kq
  · rw [mink_comm]; exact hr.kk1
  · rw [mink_comm]; exact hr.kh
  · have v : k.vol_phi_h = _ := hd.vol.symm
    rw [hr.svol, v, eps_sub4]; ring

/-- The photon is not emitted along the leptons. -/
theorem z_pos_of_physical (h : PhysicalRad ps S pt) (hm : 0 < ps.m) (hR : 0 < pt.R) :
    let k := KinematicsRad.ofPoint ps S pt
    0 < k.z_1 ∧ 0 < k.z_2 := by
  intro k
  have hr : RadRel k := radRel_of_physical h
  have hM : 0 < k.M := h.phys.M_pos
  have eR : 0 < k.R := hR
  obtain ⟨-, o2, o3, -, -⟩ := Props.c16_on_shell h.phys
  have hS : 0 < S := lt_of_le_of_lt (by have := h.phys.m_nonneg; have := h.phys.M_pos; positivity)
    h.phys.beam
  have tk : 0 < (momK k).t := by rw [hr.k_t']; positivity
  have t1 : 0 < (momK1 k.project).t := by
    change 0 < S / (2 * k.M); positivity
  have hX := X_pos_of_physical h.phys
  have t2 : 0 < (momK2 k.project).t := by
    change 0 < k.X / (2 * k.M); exact div_pos hX (by positivity)
  have a1 : 0 < mink (momK1 k.project) (momK1 k.project) := by
    change 0 < msq _; rw [show msq (momK1 k.project) = _ from o2]; exact pow_pos hm 2
  have a2 : 0 < mink (momK2 k.project) (momK2 k.project) := by
    change 0 < msq _; rw [show msq (momK2 k.project) = _ from o3]; exact pow_pos hm 2
  have p1 := mink_pos a1 hr.kk t1 tk
  have p2 := mink_pos a2 hr.kk t2 tk
  rw [mink_comm, hr.kk1] at p1
  rw [mink_comm, hr.kk2] at p2
  constructor
  · by_contra hc
    nlinarith [mul_nonneg eR.le (by linarith : 0 ≤ -k.z_1)]
  · by_contra hc
    nlinarith [mul_nonneg eR.le (by linarith : 0 ≤ -k.z_2)]

end

namespace Props

section
variable {ps : Particles ℝ} {S : ℝ} {pt : PhaseSpace ℝ}

/-- C80: at every physical point, contracting the Born coefficients with any hadronic components `H`
is contracting the tree-level leptonic tensor, for a beam of helicity `lambda`, with the hadronic
tensor of components `H`. -/
theorem c80_born_tensor (h : Physical ps S pt) (hm : 0 < ps.m) (lambda : ℝ) (H : Nine) :
    let k := Kinematics.make ps S pt
    full (currentTensor gamma (momK1 k) (momK2 k) ps.m lambda (helicity (momK1 k) ps.m))
      (hadronicTensor H (momQ k) (momP k) (momH k)) =
        ((4 * contract (leptonicBorn k) H lambda : ℝ) : ℂ) := by
  intro k
  have hk : KinRel k := kinRel_of_physical h
  have := born_full (dots_of_physical h) hm.ne' hk.lS_pos.ne' hk.X_eq hk.Sp_eq hk.V_2' hk.V_p_eq
    hk.lY_eq lambda H
  rw [← helicity_eq h hm] at this
  rw [hk.momK2_eq]
  exact this

/-- C80: the Born cross-section is the tree-level cross-section of quantum electrodynamics. -/
theorem c80_born (h : Physical ps S pt) (hm : 0 < ps.m) (ph : Phenom) (sf : SfFuns) (lambda : ℝ)
    (eta : Vec3) :
    let k := Kinematics.make ps S pt
    (xsBorn k ph sf lambda eta : ℂ) =
      ((ph.alpha_qed ^ 2 * S * (S * pt.y) ^ 2 / (32 * ps.M * k.ph_l * (S ^ 2 - 4 * ps.M ^ 2 * ps.m ^ 2)) : ℝ)
        : ℂ) *
      full (currentTensor gamma (momK1 k) (momK2 k) ps.m lambda (helicity (momK1 k) ps.m))
        (hadronicTensor (hadronic k sf eta) (momQ k) (momP k) (momH k)) := by
  intro k
  have hk : KinRel k := kinRel_of_physical h
  rw [c80_born_tensor h hm, c54_born, bornCoeff, hk.lS_eq, ← Complex.ofReal_mul]
  congr 1
  change (ph.alpha_qed * ph.alpha_qed * S * (S * pt.y * (S * pt.y))) /
    (8 * ps.M * k.ph_l * (S ^ 2 - 4 * ps.M ^ 2 * ps.m ^ 2)) * _ = _
  generalize contract (leptonicBorn k) (hadronic k sf eta) lambda = c
  rw [show 32 * ps.M * k.ph_l * (S ^ 2 - 4 * ps.M ^ 2 * ps.m ^ 2)
    = 4 * (8 * ps.M * k.ph_l * (S ^ 2 - 4 * ps.M ^ 2 * ps.m ^ 2)) by ring]
  generalize 8 * ps.M * k.ph_l * (S ^ 2 - 4 * ps.M ^ 2 * ps.m ^ 2) = d
  rcases eq_or_ne d 0 with hd | hd
  · rw [hd]; simp
  · field_simp

example : ∃ (ps : Particles ℝ) (S : ℝ) (pt : PhaseSpace ℝ), Physical ps S pt ∧ 0 < ps.m :=
  ⟨samplePs, 20, samplePt, sample_physical.2, by norm_num [samplePs, Lepton.mass, CMath.ofReal]⟩

/-- C81: the contraction of the leptonic tensor with a Pauli form factor `F2`.  The coefficients of
the anomalous magnetic moment are the term linear in `F2`. -/
theorem c81_amm_tensor (h : Physical ps S pt) (hm : 0 < ps.m) (lambda : ℝ) (H : Nine) :
    let k := Kinematics.make ps S pt
    ∃ c : ℂ, ∀ F2 : ℝ,
      full (currentTensor (pauliVertex (momK1 k) (momK2 k) ps.m F2) (momK1 k) (momK2 k) ps.m lambda
        (helicity (momK1 k) ps.m)) (hadronicTensor H (momQ k) (momP k) (momH k)) =
      ((4 * contract (leptonicBorn k) H lambda
        + F2 * (2 * k.Q_sq * contract (leptonicAmm k) H lambda) : ℝ) : ℂ) + F2 ^ 2 * c := by
  intro k
  have hk : KinRel k := kinRel_of_physical h
  have hm' : k.m ≠ 0 := hm.ne'
  have hS : 0 < S := lt_of_le_of_lt (by have := h.m_nonneg; have := h.M_pos; positivity) h.beam
  have hQ : k.Q_sq ≠ 0 := (mul_pos (mul_pos hS h.x_pos) h.y_pos).ne'
  have eq : momK1 k - momK2 k = momQ k := (c16_conservation h).symm
  have hb := c80_born_tensor h hm lambda H
  have ha := amm_full (dots_of_physical h) hm.ne' hk.lS_pos.ne' hQ hk.X_eq hk.Sp_eq hk.V_2' hk.V_p_eq
    hk.lY_eq lambda H (L := fun μ ν => ammG (momK1 k) (momK2 k) (momK1 k - momK2 k) ps.m lambda
      (helicity (momK1 k) ps.m) (bas μ) (bas ν)) (fun μ ν => by
        rw [eq, hk.momK2_eq]
        have := helicity_eq h hm
        dsimp only at this
        change helicity (momK1 k) ps.m = _ at this
        rw [this]
        rfl)
  refine ⟨full (fun μ ν => quadG (momK1 k) (momK2 k) (momK1 k - momK2 k) ps.m lambda
    (helicity (momK1 k) ps.m) (bas μ) (bas ν)) (hadronicTensor H (momQ k) (momP k) (momH k))
    / (16 * ps.m ^ 2), fun F2 => ?_⟩
  rw [full_add _ _ _ _ _ _ _ (fun μ ν => pauli_tensor _ _ _ F2 _ _ μ ν)]
  have hb' : full (fun μ ν => bornG (momK1 k) (momK2 k) ps.m lambda (helicity (momK1 k) ps.m)
      (bas μ) (bas ν)) (hadronicTensor H (momQ k) (momP k) (momH k)) =
        ((4 * contract (leptonicBorn k) H lambda : ℝ) : ℂ) := by
    rw [← hb]
    congr 1
    funext μ ν
    exact (bornG_tensor _ _ _ _ _ μ ν).symm
  rw [hb', ha]
  have hmc : (ps.m : ℂ) ≠ 0 := by exact_mod_cast hm.ne'
  change _ + ((F2 / (4 * ps.m) : ℝ) : ℂ) * ((8 * ps.m * k.Q_sq * _ : ℝ) : ℂ) + _ = _
  push_cast
  field_simp
  ring

/-- C81: the closed form of the code is the one-loop form factor. -/
theorem c81_form_factor {Q_sq m : ℝ} (hQ : 0 < Q_sq) (hm : 0 < m) (alpha : ℝ) :
    alpha / Real.pi * m ^ 2 * logM Q_sq m = pauliFormFactor alpha Q_sq m := by
  rw [pauliFormFactor, integral_pauli hQ hm]
  have := Real.pi_ne_zero
  field_simp

example : pauliFormFactor (1 / 137) 3.6 0.0005 = 1 / 137 / Real.pi * 0.0005 ^ 2 * logM 3.6 0.0005 :=
  (c81_form_factor (by norm_num) (by norm_num) _).symm

/-- C81: scaling the one-loop Pauli form factor of the vertex by `t`, the cross-section is the Born
cross-section plus `t` times the anomalous magnetic moment cross-section, up to second order. -/
theorem c81_amm (h : Physical ps S pt) (hm : 0 < ps.m) (ph : Phenom) (sf : SfFuns) (lambda : ℝ)
    (eta : Vec3) :
    let k := Kinematics.make ps S pt
    ∃ c : ℂ, ∀ t : ℝ,
      ((ph.alpha_qed ^ 2 * S * (S * pt.y) ^ 2 / (32 * ps.M * k.ph_l * (S ^ 2 - 4 * ps.M ^ 2 * ps.m ^ 2)) : ℝ)
        : ℂ) *
      full (currentTensor (pauliVertex (momK1 k) (momK2 k) ps.m
          (t * pauliFormFactor ph.alpha_qed (S * pt.x * pt.y) ps.m))
          (momK1 k) (momK2 k) ps.m lambda (helicity (momK1 k) ps.m))
        (hadronicTensor (hadronic k sf eta) (momQ k) (momP k) (momH k)) =
      ((xsBorn k ph sf lambda eta + t * xsAmm k ph sf lambda eta : ℝ) : ℂ) + t ^ 2 * c := by
  intro k
  have hk : KinRel k := kinRel_of_physical h
  have hS : 0 < S := lt_of_le_of_lt (by have := h.m_nonneg; have := h.M_pos; positivity) h.beam
  have hQ : 0 < S * pt.x * pt.y := mul_pos (mul_pos hS h.x_pos) h.y_pos
  obtain ⟨c, hc⟩ := c81_amm_tensor h hm lambda (hadronic k sf eta)
  set F := pauliFormFactor ph.alpha_qed (S * pt.x * pt.y) ps.m with hF
  have hF' := c81_form_factor hQ hm ph.alpha_qed
  set A : ℝ := ph.alpha_qed ^ 2 * S * (S * pt.y) ^ 2 /
    (32 * ps.M * k.ph_l * (S ^ 2 - 4 * ps.M ^ 2 * ps.m ^ 2)) with hA
  refine ⟨A * F ^ 2 * c, fun t => ?_⟩
  rw [hc (t * F)]
  have e1 : xsBorn k ph sf lambda eta = A * (4 * contract (leptonicBorn k) (hadronic k sf eta) lambda) := by
    have := c80_born h hm ph sf lambda eta
    dsimp only at this
    rw [c80_born_tensor h hm, ← Complex.ofReal_mul] at this
    exact_mod_cast this
  have e2 : xsAmm k ph sf lambda eta =
      A * (F * (2 * k.Q_sq * contract (leptonicAmm k) (hadronic k sf eta) lambda)) := by
    rw [c54_amm, ammCoeff, hk.lS_eq, hF, ← hF', hA]
    change logM (S * pt.x * pt.y) ps.m * (S * pt.x * pt.y) * (ph.alpha_qed ^ 3 * (ps.m * ps.m) * S *
      (S * pt.y * (S * pt.y))) / (16 * Real.pi * ps.M * k.ph_l * (S ^ 2 - 4 * ps.M ^ 2 * ps.m ^ 2)) * _ =
      _ * (_ * (2 * (S * pt.x * pt.y) * _))
    generalize contract (leptonicAmm k) (hadronic k sf eta) lambda = r
    rw [show 32 * ps.M * k.ph_l * (S ^ 2 - 4 * ps.M ^ 2 * ps.m ^ 2)
      = 32 * (ps.M * k.ph_l * (S ^ 2 - 4 * ps.M ^ 2 * ps.m ^ 2)) by ring,
      show 16 * Real.pi * ps.M * k.ph_l * (S ^ 2 - 4 * ps.M ^ 2 * ps.m ^ 2)
      = 16 * Real.pi * (ps.M * k.ph_l * (S ^ 2 - 4 * ps.M ^ 2 * ps.m ^ 2)) by ring]
    generalize ps.M * k.ph_l * (S ^ 2 - 4 * ps.M ^ 2 * ps.m ^ 2) = d
    have := Real.pi_ne_zero
    rcases eq_or_ne d 0 with hd | hd
    · rw [hd]; simp
    · field_simp; ring
  rw [e1, e2]
  push_cast
  ring

/-- C83: one turn of the loop of the leptonic vacuum polarisation. -/
theorem c83_vac_term {Q_sq m : ℝ} (hQ : 0 < Q_sq) (hm : 0 < m) (alpha : ℝ) :
    alpha / Real.pi * deltaVacLepTerm Q_sq m = 2 * vacuumPolarisation alpha Q_sq m := by
  rw [vacuumPolarisation, ← integral_vac hQ hm]
  ring

/-- C83: the leptonic vacuum polarisation correction is twice (once for the amplitude, once for its
conjugate) the one-loop vacuum polarisation by electrons, muons and taus. -/
theorem c83_vac (h : Physical ps S pt) (alpha : ℝ) :
    alpha / Real.pi * deltaVacLep (Kinematics.make ps S pt) =
      2 * (vacuumPolarisation alpha (S * pt.x * pt.y) Lepton.e.mass
        + vacuumPolarisation alpha (S * pt.x * pt.y) Lepton.mu.mass
        + vacuumPolarisation alpha (S * pt.x * pt.y) Lepton.tau.mass) := by
  have hS : 0 < S := lt_of_le_of_lt (by have := h.m_nonneg; have := h.M_pos; positivity) h.beam
  have hQ : 0 < S * pt.x * pt.y := mul_pos (mul_pos hS h.x_pos) h.y_pos
  have e : (Kinematics.make ps S pt).Q_sq = S * pt.x * pt.y := rfl
  rw [mul_add, mul_add, ← c83_vac_term hQ (by norm_num [Lepton.mass, CMath.ofReal]),
    ← c83_vac_term hQ (by norm_num [Lepton.mass, CMath.ofReal]),
    ← c83_vac_term hQ (by norm_num [Lepton.mass, CMath.ofReal]), deltaVacLep, e]
  simp only [Lepton.mass, CMath.ofReal]
  ring

/-- C83: the vacuum polarisation only increases the cross-section. -/
theorem c83_vac_nonneg (h : Physical ps S pt) : 0 ≤ deltaVacLep (Kinematics.make ps S pt) := by
  have hS : 0 < S := lt_of_le_of_lt (by have := h.m_nonneg; have := h.M_pos; positivity) h.beam
  have hQ : 0 < S * pt.x * pt.y := mul_pos (mul_pos hS h.x_pos) h.y_pos
  have e : (Kinematics.make ps S pt).Q_sq = S * pt.x * pt.y := rfl
  have t : ∀ m : ℝ, 0 < m → 0 ≤ deltaVacLepTerm (S * pt.x * pt.y) m := fun m hm => by
    rw [← integral_vac hQ hm]
    refine mul_nonneg (by norm_num) (intervalIntegral.integral_nonneg zero_le_one fun x hx => ?_)
    have hx' : 0 ≤ x * (1 - x) := mul_nonneg hx.1 (by linarith [hx.2])
    refine mul_nonneg hx' (Real.log_nonneg ?_)
    have : 0 ≤ S * pt.x * pt.y * (x * (1 - x)) / m ^ 2 := by positivity
    linarith
  rw [deltaVacLep, e]
  have a := t 0.0005109989461 (by norm_num)
  have b := t 0.1056583745 (by norm_num)
  have c := t 1.77686 (by norm_num)
  linarith

end

section
variable {ps : Particles ℝ} {S : ℝ} {pt : PhaseSpaceRad ℝ}

/-- C82: at every physical point with a photon, contracting the radiative coefficients with any
hadronic components `H` is contracting the leptonic tensor with emission of a photon from either
lepton with the hadronic tensor of components `H` of the virtual photon that is left. -/
theorem c82_rad_tensor (h : PhysicalRad ps S pt) (hm : 0 < ps.m) (hR : 0 < pt.R) (lambda : ℝ)
    (H : Nine) :
    let k := KinematicsRad.ofPoint ps S pt
    let kin := k.project
    full (radiativeTensor (momK1 kin) (momK2 kin) (momK k) ps.m lambda (helicity (momK1 kin) ps.m))
      (hadronicTensor H (momQ kin - momK k) (momP kin) (momH kin)) =
        ((-(4 / pt.R) * contract (leptonicRad k) H lambda : ℝ) : ℂ) := by
  intro k kin
  have hr : RadRel k := radRel_of_physical h
  obtain ⟨h1, h2⟩ := z_pos_of_physical h hm hR
  have := rad_full (radDots_of_physical h) hr hm.ne' hR.ne' h1.ne' h2.ne' lambda H
  have e := helicity_eq h.phys hm
  dsimp only at e this
  change helicity (momK1 kin) ps.m = _ at e
  rw [e, hr.kin.momK2_eq]
  exact this

/-- C82: the radiative cross-section is the lowest-order cross-section of quantum electrodynamics for
emission of a photon by the leptons. -/
theorem c82_rad (h : PhysicalRad ps S pt) (hm : 0 < ps.m) (hR : 0 < pt.R) (ph : Phenom) (sf : SfFuns)
    (lambda : ℝ) (eta : Vec3) :
    let k := KinematicsRad.ofPoint ps S pt
    let kin := k.project
    (xsRad k ph sf lambda eta : ℂ) =
      ((ph.alpha_qed ^ 3 * S * (S * pt.y) ^ 2 * pt.R / (256 * Real.pi ^ 2 * ps.M * k.ph_l *
        (S ^ 2 - 4 * ps.M ^ 2 * ps.m ^ 2) * k.lambda_Y_sqrt) : ℝ) : ℂ) *
      full (radiativeTensor (momK1 kin) (momK2 kin) (momK k) ps.m lambda (helicity (momK1 kin) ps.m))
        (hadronicTensor (hadronicRad k sf eta) (momQ kin - momK k) (momP kin) (momH kin)) := by
  intro k kin
  have hr : RadRel k := radRel_of_physical h
  have hLS : k.lambda_S = k.S ^ 2 - 4 * k.M ^ 2 * k.m ^ 2 := hr.kin.lS_eq
  rw [c82_rad_tensor h hm hR, c54_rad, radCoeff, hLS, ← Complex.ofReal_mul]
  congr 1
  change -(ph.alpha_qed ^ 3 * S * (S * pt.y * (S * pt.y))) /
    (64 * (Real.pi * Real.pi) * ps.M * k.ph_l * (S ^ 2 - 4 * ps.M ^ 2 * ps.m ^ 2) * k.lambda_Y_sqrt) * _ = _
  generalize contract (leptonicRad k) (hadronicRad k sf eta) lambda = c
  rw [show 256 * Real.pi ^ 2 * ps.M * k.ph_l * (S ^ 2 - 4 * ps.M ^ 2 * ps.m ^ 2) * k.lambda_Y_sqrt
    = 4 * (64 * (Real.pi * Real.pi) * ps.M * k.ph_l * (S ^ 2 - 4 * ps.M ^ 2 * ps.m ^ 2)
      * k.lambda_Y_sqrt) by ring]
  generalize 64 * (Real.pi * Real.pi) * ps.M * k.ph_l * (S ^ 2 - 4 * ps.M ^ 2 * ps.m ^ 2)
    * k.lambda_Y_sqrt = d
  rcases eq_or_ne d 0 with hd | hd
  · rw [hd]; simp
  · have := hR.ne'
    field_simp

example : ∃ (ps : Particles ℝ) (S : ℝ) (pt : PhaseSpaceRad ℝ), PhysicalRad ps S pt ∧ 0 < ps.m ∧
    0 < pt.R :=
  ⟨samplePs, 20, samplePtRad, sample_physicalRad, by norm_num [samplePs, Lepton.mass, CMath.ofReal],
    by norm_num [samplePtRad]⟩

end

end Props

end Sidis
