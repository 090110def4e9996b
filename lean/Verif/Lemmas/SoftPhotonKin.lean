import Verif.Lemmas.SoftPhoton
import Verif.Props.Qed
import Verif.Props.CutRad

/-! # Soft photons: the kinematics of the code -/

namespace Sidis

open Spec Real

section
variable {ps : Particles ℝ} {S : ℝ} {pt : PhaseSpace ℝ}

theorem x_pos_of_samplable (h : Accepted ps S pt) (hs : Samplable ps S pt) :
    0 < pt.x := by
  rcases h.x_nonneg.eq_or_lt with h0 | h0
  · have := hs.angle
    rw [← h0] at this
    simp only [mul_zero, zero_mul, add_zero, sub_zero] at this
    have : 0 ≤ ps.m ^ 2 * (S * pt.y) ^ 2 := by positivity
    linarith
  · exact h0

theorem physical_of_samplable (hm : Massive ps) (h : Accepted ps S pt) (hs : Samplable ps S pt) :
    Physical ps S pt := Props.accepted_physical hm h (x_pos_of_samplable h hs)

/-- The ends of the range of `tau`. -/
noncomputable def tauLo (k : Kinematics ℝ) : ℝ := (k.S_x - k.lambda_Y_sqrt) / (2 * k.M ^ 2)
@[inherit_doc tauLo] noncomputable def tauHi (k : Kinematics ℝ) : ℝ :=
  (k.S_x + k.lambda_Y_sqrt) / (2 * k.M ^ 2)

theorem z_1_dir {k : Kinematics ℝ} (hk : KinRel k) (τ φ R : ℝ) :
    (KinematicsRad.make k τ φ R).z_1 = zDir k.M k.S_x k.lambda_Y_sqrt k.lambda_1 (k.Q_sq * k.S_p)
      (k.S * k.S_x + 2 * k.M ^ 2 * k.Q_sq) τ φ := by
  simp only [zDir, hk.lY_sq, pow_two]
  rfl

theorem z_2_dir {k : Kinematics ℝ} (hk : KinRel k) (τ φ R : ℝ) :
    (KinematicsRad.make k τ φ R).z_2 = zDir k.M k.S_x k.lambda_Y_sqrt k.lambda_1 (k.Q_sq * k.S_p)
      (k.X * k.S_x - 2 * k.M ^ 2 * k.Q_sq) τ φ := by
  simp only [zDir, hk.lY_sq, pow_two]
  rfl

theorem tau_mem_iff {k : Kinematics ℝ} (hk : KinRel k) (τ : ℝ) :
    (tauLo k ≤ τ ∧ τ ≤ tauHi k) ↔ k.M ^ 2 * τ ^ 2 ≤ k.S_x * τ + k.Q_sq := by
  have h := tau_root k (Q := k.Q_sq) (s := k.S_x) hk.M_pos hk.lY_pos (by rw [hk.lY_sq, hk.lY_eq]) τ
  have hM2 := pow_pos hk.M_pos 2
  change _ * ((τ - tauLo k) * (tauHi k - τ)) = _ at h
  have h5 : tauLo k < tauHi k := by
    unfold tauLo tauHi
    apply div_lt_div_of_pos_right _ (by positivity)
    linarith [hk.lY_pos]
  constructor
  · rintro ⟨h1, h2⟩
    have := mul_nonneg (sub_nonneg.2 h1) (sub_nonneg.2 h2)
    nlinarith
  · intro h3
    have h4 : 0 ≤ (τ - tauLo k) * (tauHi k - τ) := by
      by_contra hc
      push Not at hc
      nlinarith
    constructor <;> by_contra hc <;> push Not at hc <;> nlinarith

theorem z_pos_dir (h : Physical ps S pt) (hm : 0 < ps.m)
    (ha : ps.m ^ 2 * ((S * pt.y) ^ 2 + 4 * ps.M ^ 2 * (S * pt.x * pt.y)) <
      (S * pt.x * pt.y) * (S * ((1 - pt.y) * S) - ps.M ^ 2 * (S * pt.x * pt.y)))
    {τ : ℝ} (h1 : tauLo (.make ps S pt) ≤ τ) (h2 : τ ≤ tauHi (.make ps S pt)) (φ R : ℝ) :
    0 < (KinematicsRad.make (.make ps S pt) τ φ R).z_1 ∧
    0 < (KinematicsRad.make (.make ps S pt) τ φ R).z_2 := by
  have hk := kinRel_of_physical h
  have ht := (tau_mem_iff hk τ).1 ⟨h1, h2⟩
  have hp : PhysicalRad ps S ⟨pt.x, pt.y, pt.z, pt.ph_t_sq, pt.phi_h, pt.phi, τ, φ, 1⟩ := ⟨h, ha, ht⟩
  have := z_pos_of_physical hp hm one_pos
  rw [z_1_dir hk, z_2_dir hk]
  change 0 < (KinematicsRad.make (.make ps S pt) τ φ 1).z_1 ∧
    0 < (KinematicsRad.make (.make ps S pt) τ φ 1).z_2 at this
  rwa [z_1_dir hk, z_2_dir hk] at this

theorem lambda_1_pos (h : Physical ps S pt)
    (ha : ps.m ^ 2 * ((S * pt.y) ^ 2 + 4 * ps.M ^ 2 * (S * pt.x * pt.y)) <
      (S * pt.x * pt.y) * (S * ((1 - pt.y) * S) - ps.M ^ 2 * (S * pt.x * pt.y))) :
    0 < (Kinematics.make ps S pt).lambda_1 := by
  have hk := kinRel_of_physical h
  rw [hk.l1_eq, hk.lY_eq]
  have : (Kinematics.make ps S pt).X = (1 - pt.y) * S := rfl
  rw [this]
  exact sub_pos.2 ha

/-- The discriminants of the propagators. -/
theorem disc_eq {k : Kinematics ℝ} (hk : KinRel k) (x : ℝ) :
    4 * k.lambda_Y_sqrt ^ 4 * (k.m ^ 2 + k.Q_sq * (x * (1 - x))) =
      4 * (k.Q_sq * k.S_p) ^ 2 * k.M ^ 2
      - 4 * k.Q_sq * (x * (k.S * k.S_x + 2 * k.M ^ 2 * k.Q_sq)
        + (1 - x) * (k.X * k.S_x - 2 * k.M ^ 2 * k.Q_sq)) ^ 2
      + 4 * (k.Q_sq * k.S_p) * (x * (k.S * k.S_x + 2 * k.M ^ 2 * k.Q_sq)
        + (1 - x) * (k.X * k.S_x - 2 * k.M ^ 2 * k.Q_sq)) * k.S_x
      - 4 * k.lambda_1 * k.lambda_Y_sqrt ^ 2 := by
  rw [show k.lambda_Y_sqrt ^ 4 = (k.lambda_Y_sqrt ^ 2) ^ 2 by ring, hk.lY_sq, hk.l1_eq, hk.lY_eq,
    hk.Sp_eq, hk.X_eq]
  ring

theorem integral_z (h : Physical ps S pt) (hm : 0 < ps.m)
    (ha : ps.m ^ 2 * ((S * pt.y) ^ 2 + 4 * ps.M ^ 2 * (S * pt.x * pt.y)) <
      (S * pt.x * pt.y) * (S * ((1 - pt.y) * S) - ps.M ^ 2 * (S * pt.x * pt.y))) (R : ℝ) :
    let k := Kinematics.make ps S pt
    (∫ τ in tauLo k..tauHi k, ∫ φ in (-π)..π, 1 / (KinematicsRad.make k τ φ R).z_1 ^ 2
      = 2 * π * k.lambda_Y_sqrt / ps.m ^ 2) ∧
    (∫ τ in tauLo k..tauHi k, ∫ φ in (-π)..π, 1 / (KinematicsRad.make k τ φ R).z_2 ^ 2
      = 2 * π * k.lambda_Y_sqrt / ps.m ^ 2) ∧
    ∫ τ in tauLo k..tauHi k, ∫ φ in (-π)..π,
      1 / ((KinematicsRad.make k τ φ R).z_1 * (KinematicsRad.make k τ φ R).z_2)
      = 4 * π * k.lambda_Y_sqrt * logM k.Q_sq ps.m := by
  intro k
  have hk : KinRel k := kinRel_of_physical h
  have hL := hk.lY_pos
  have hl : 0 < k.lambda_1 := lambda_1_pos h ha
  have hLY : k.lambda_Y_sqrt ^ 2 = k.S_x ^ 2 + 4 * k.M ^ 2 * k.Q_sq := by rw [hk.lY_sq, hk.lY_eq]
  have hz : ∀ τ φ, tauLo k ≤ τ → τ ≤ tauHi k →
      0 < zDir k.M k.S_x k.lambda_Y_sqrt k.lambda_1 (k.Q_sq * k.S_p)
        (k.S * k.S_x + 2 * k.M ^ 2 * k.Q_sq) τ φ ∧
      0 < zDir k.M k.S_x k.lambda_Y_sqrt k.lambda_1 (k.Q_sq * k.S_p)
        (k.X * k.S_x - 2 * k.M ^ 2 * k.Q_sq) τ φ := fun τ φ h1 h2 => by
    have := z_pos_dir h hm ha h1 h2 φ R
    rwa [z_1_dir hk, z_2_dir hk] at this
  have hlin : ∀ {B τ : ℝ}, 0 < zDir k.M k.S_x k.lambda_Y_sqrt k.lambda_1 (k.Q_sq * k.S_p) B τ (π / 2) →
      0 < k.Q_sq * k.S_p + B * τ := fun {B τ} this => by
    simp only [zDir, cos_pi_div_two, mul_zero, sub_zero] at this
    have h3 : 0 < k.lambda_Y_sqrt ^ 2 := by positivity
    have h4 := mul_pos h3 this
    rw [← mul_assoc, mul_one_div_cancel h3.ne', one_mul] at h4
    linarith
  have em : k.m = ps.m := rfl
  simp only [z_1_dir hk, z_2_dir hk]
  have hD : 0 < 4 * k.lambda_Y_sqrt ^ 4 * ps.m ^ 2 := by positivity
  refine ⟨?_, ?_, ?_⟩
  · have d := disc_eq hk 1
    simp only [sub_self, mul_zero, zero_mul, one_mul, add_zero, em] at d
    refine (integral_zDir hk.M_pos hL hl hLY d hD fun τ h1 h2 => hlin (hz τ _ h1 h2).1).trans ?_
    field_simp
    ring
  · have d := disc_eq hk 0
    simp only [sub_zero, mul_zero, zero_mul, one_mul, add_zero, zero_add, em] at d
    refine (integral_zDir hk.M_pos hL hl hLY d hD fun τ h1 h2 => hlin (hz τ _ h1 h2).2).trans ?_
    field_simp
    ring
  · exact integral_zDir_mul hk.M_pos hL hl hk.Q2_pos hm hLY (disc_eq hk) hz

/-- The eikonal factor is continuous in the direction of the photon. -/
theorem continuousOn_F_IR (h : Physical ps S pt) (hm : 0 < ps.m)
    (ha : ps.m ^ 2 * ((S * pt.y) ^ 2 + 4 * ps.M ^ 2 * (S * pt.x * pt.y)) <
      (S * pt.x * pt.y) * (S * ((1 - pt.y) * S) - ps.M ^ 2 * (S * pt.x * pt.y))) (R : ℝ) :
    let k := Kinematics.make ps S pt
    ContinuousOn (fun p : ℝ × ℝ => 1 / (KinematicsRad.make k p.1 p.2 R).z_1 ^ 2)
      (Set.Icc (tauLo k) (tauHi k) ×ˢ Set.univ) ∧
    ContinuousOn (fun p : ℝ × ℝ => 1 / (KinematicsRad.make k p.1 p.2 R).z_2 ^ 2)
      (Set.Icc (tauLo k) (tauHi k) ×ˢ Set.univ) ∧
    ContinuousOn (fun p : ℝ × ℝ => 1 /
      ((KinematicsRad.make k p.1 p.2 R).z_1 * (KinematicsRad.make k p.1 p.2 R).z_2))
      (Set.Icc (tauLo k) (tauHi k) ×ˢ Set.univ) := by
  intro k
  have hk : KinRel k := kinRel_of_physical h
  have hz := fun p (hp : p ∈ Set.Icc (tauLo k) (tauHi k) ×ˢ (Set.univ : Set ℝ)) =>
    z_pos_dir h hm ha hp.1.1 hp.1.2 p.2 R
  refine ⟨?_, ?_, ?_⟩
  · refine ContinuousOn.div continuousOn_const ?_ fun p hp => (pow_pos (hz p hp).1 2).ne'
    simp only [k, z_1_dir hk]
    exact ((continuous_zDir _ _ _ _ _ _).pow 2).continuousOn
  · refine ContinuousOn.div continuousOn_const ?_ fun p hp => (pow_pos (hz p hp).2 2).ne'
    simp only [k, z_2_dir hk]
    exact ((continuous_zDir _ _ _ _ _ _).pow 2).continuousOn
  · refine ContinuousOn.div continuousOn_const ?_ fun p hp => (mul_pos (hz p hp).1 (hz p hp).2).ne'
    simp only [k, z_1_dir hk, z_2_dir hk]
    exact ((continuous_zDir _ _ _ _ _ _).mul (continuous_zDir _ _ _ _ _ _)).continuousOn

/-- An iterated integral of a continuous function as an integral over a rectangle. -/
theorem integral_rect {f : ℝ → ℝ → ℝ} {a b c d : ℝ} (hab : a ≤ b) (hcd : c ≤ d)
    (hf : ContinuousOn (fun p : ℝ × ℝ => f p.1 p.2) (Set.Icc a b ×ˢ Set.Icc c d)) :
    MeasureTheory.IntegrableOn (fun p : ℝ × ℝ => f p.1 p.2) (Set.Icc a b ×ˢ Set.Icc c d) ∧
    ∫ x in a..b, ∫ y in c..d, f x y = ∫ p in Set.Icc a b ×ˢ Set.Icc c d, f p.1 p.2 := by
  have hi := hf.integrableOn_compact (μ := MeasureTheory.volume) (isCompact_Icc.prod isCompact_Icc)
  refine ⟨hi, ?_⟩
  simp only [intervalIntegral.integral_of_le hab, intervalIntegral.integral_of_le hcd,
    ← MeasureTheory.integral_Icc_eq_integral_Ioc]
  exact (MeasureTheory.setIntegral_prod (fun p : ℝ × ℝ => f p.1 p.2) hi).symm

/-- The eikonal factor in terms of the propagators. -/
theorem F_IR_eq (k : Kinematics ℝ) (τ φ R : ℝ) :
    (KinematicsRad.make k τ φ R).F_IR
      = k.m ^ 2 * (1 / (KinematicsRad.make k τ φ R).z_1 ^ 2)
        + k.m ^ 2 * (1 / (KinematicsRad.make k τ φ R).z_2 ^ 2)
        - (k.Q_sq + 2 * k.m ^ 2) * (1 /
          ((KinematicsRad.make k τ φ R).z_1 * (KinematicsRad.make k τ φ R).z_2)) := by
  have : (KinematicsRad.make k τ φ R).F_IR = sq k.m * (1 / sq (KinematicsRad.make k τ φ R).z_2
      + 1 / sq (KinematicsRad.make k τ φ R).z_1) - (k.Q_sq + 2 * sq k.m) * (1 /
          ((KinematicsRad.make k τ φ R).z_1 * (KinematicsRad.make k τ φ R).z_2)) := rfl
  rw [this]
  simp only [Sidis.sq, pow_two]
  ring

theorem integral_F_IR (h : Physical ps S pt) (hm : 0 < ps.m)
    (ha : ps.m ^ 2 * ((S * pt.y) ^ 2 + 4 * ps.M ^ 2 * (S * pt.x * pt.y)) <
      (S * pt.x * pt.y) * (S * ((1 - pt.y) * S) - ps.M ^ 2 * (S * pt.x * pt.y))) (R : ℝ) :
    let k := Kinematics.make ps S pt
    ContinuousOn (fun p : ℝ × ℝ => (KinematicsRad.make k p.1 p.2 R).F_IR)
      (Set.Icc (tauLo k) (tauHi k) ×ˢ Set.univ) ∧
    ∫ τ in tauLo k..tauHi k, ∫ φ in (-π)..π, (KinematicsRad.make k τ φ R).F_IR
      = -(4 * π * k.lambda_Y_sqrt) * ((k.Q_sq + 2 * ps.m ^ 2) * logM k.Q_sq ps.m - 1) := by
  intro k
  have hk : KinRel k := kinRel_of_physical h
  have em : k.m = ps.m := rfl
  obtain ⟨c1, c2, c3⟩ := continuousOn_F_IR h hm ha R
  obtain ⟨i1, i2, i3⟩ := integral_z h hm ha R
  have hle : tauLo k ≤ tauHi k := by
    unfold tauLo tauHi
    have := hk.lY_pos
    have := hk.M_pos
    gcongr; linarith
  have hpi : -π ≤ π := by linarith [pi_pos]
  have hsub : Set.Icc (tauLo k) (tauHi k) ×ˢ Set.Icc (-π) π ⊆
      Set.Icc (tauLo k) (tauHi k) ×ˢ Set.univ := Set.prod_mono le_rfl (Set.subset_univ _)
  have hF : ContinuousOn (fun p : ℝ × ℝ => (KinematicsRad.make k p.1 p.2 R).F_IR)
      (Set.Icc (tauLo k) (tauHi k) ×ˢ Set.univ) := by
    simp only [F_IR_eq]
    exact ((c1.const_smul (k.m ^ 2)).add (c2.const_smul (k.m ^ 2))).sub
      (c3.const_smul (k.Q_sq + 2 * k.m ^ 2))
  refine ⟨hF, ?_⟩
  obtain ⟨-, e⟩ := integral_rect hle hpi
    (f := fun τ φ => (KinematicsRad.make k τ φ R).F_IR) (hF.mono hsub)
  obtain ⟨j1, e1⟩ := integral_rect hle hpi
    (f := fun τ φ => 1 / (KinematicsRad.make k τ φ R).z_1 ^ 2) (c1.mono hsub)
  obtain ⟨j2, e2⟩ := integral_rect hle hpi
    (f := fun τ φ => 1 / (KinematicsRad.make k τ φ R).z_2 ^ 2) (c2.mono hsub)
  obtain ⟨j3, e3⟩ := integral_rect hle hpi
    (f := fun τ φ => 1 / ((KinematicsRad.make k τ φ R).z_1 * (KinematicsRad.make k τ φ R).z_2))
    (c3.mono hsub)
  rw [e]
  simp only [F_IR_eq]
  refine (MeasureTheory.integral_sub ((j1.const_mul (k.m ^ 2)).add (j2.const_mul (k.m ^ 2)))
    (j3.const_mul (k.Q_sq + 2 * k.m ^ 2))).trans ?_
  simp only [Pi.add_apply]
  rw [MeasureTheory.integral_add (j1.const_mul (k.m ^ 2)) (j2.const_mul (k.m ^ 2)),
    MeasureTheory.integral_const_mul, MeasureTheory.integral_const_mul,
    MeasureTheory.integral_const_mul, ← e1, ← e2, ← e3, i1, i2, i3, em]
  field_simp
  ring

end
end Sidis
