import Verif.Spec.Asymmetry
import Verif.Lemmas.Azimuth
import Verif.Props.Trento

/-!
# C62: the asymmetries are moments of the cross-section
-/

namespace Sidis.Props

open Spec Asym Azimuth

section Linear

variable (k : Kinematics ℝ) (ph : Phenom) (sf : SfFuns)

private theorem born_parts (eta : Vec3) : xsBorn k ph sf 0 eta
    = (bornBase (bornCoeff k ph)).uu (.make k) (HadLP.make k sf).uu
      + (Vec3.mk ((bornBase (bornCoeff k ph)).ut1 (.make k) (HadLP.make k sf).ut)
        ((bornBase (bornCoeff k ph)).ut2 (.make k) (HadLP.make k sf).ut)
        ((bornBase (bornCoeff k ph)).ul (.make k) (HadLP.make k sf).ul)).dot eta := by
  rw [c54_born]
  simp only [contract, leptonicBorn, hadronic, hadronicOf, bornBase, Vec3.dot, HadLP.make]
  ring

private theorem amm_parts (eta : Vec3) : xsAmm k ph sf 0 eta
    = (ammBase (ammCoeff k ph)).uu (.make k) (HadLP.make k sf).uu
      + (Vec3.mk ((ammBase (ammCoeff k ph)).ut1 (.make k) (HadLP.make k sf).ut)
        ((ammBase (ammCoeff k ph)).ut2 (.make k) (HadLP.make k sf).ut)
        ((ammBase (ammCoeff k ph)).ul (.make k) (HadLP.make k sf).ul)).dot eta := by
  rw [c54_amm]
  simp only [contract, leptonicAmm, hadronic, hadronicOf, ammBase, Vec3.dot, HadLP.make]
  ring

/-- The factor of the Born cross-section in the infrared non-radiative one. -/
private noncomputable def irFactor (d : ℝ) : ℝ :=
  1 + ph.alpha_qed / Real.pi * (d + deltaVacLep k + ph.delta_vac_had)

private theorem nrad_parts {d : ℝ} (hd : deltaVertRadIr k .pinf = .fin d) (eta : Vec3) :
    realOf (xsNradIr k ph sf 0 eta .pinf)
    = (irFactor k ph d * (bornBase (bornCoeff k ph)).uu (.make k) (HadLP.make k sf).uu
        + (ammBase (ammCoeff k ph)).uu (.make k) (HadLP.make k sf).uu)
      + (Vec3.mk (irFactor k ph d * (bornBase (bornCoeff k ph)).ut1 (.make k) (HadLP.make k sf).ut
          + (ammBase (ammCoeff k ph)).ut1 (.make k) (HadLP.make k sf).ut)
        (irFactor k ph d * (bornBase (bornCoeff k ph)).ut2 (.make k) (HadLP.make k sf).ut
          + (ammBase (ammCoeff k ph)).ut2 (.make k) (HadLP.make k sf).ut)
        (irFactor k ph d * (bornBase (bornCoeff k ph)).ul (.make k) (HadLP.make k sf).ul
          + (ammBase (ammCoeff k ph)).ul (.make k) (HadLP.make k sf).ul)).dot eta := by
  rw [c55_rescaled_born k ph sf 0 eta .pinf d hd, born_parts, amm_parts]
  simp only [realOf, Vec3.dot, irFactor]
  ring

private theorem nrad_ut {d : ℝ} (hd : deltaVertRadIr k .pinf = .fin d) (ut : HadBaseUT) (e1 e2 : ℝ) :
    let b := nradBase (.make k ph .pinf)
    .fin e1 * b.ut1 (.make k) ut + .fin e2 * b.ut2 (.make k) ut
      = Fl.fin (e1 * (irFactor k ph d * (bornBase (bornCoeff k ph)).ut1 (.make k) ut
          + (ammBase (ammCoeff k ph)).ut1 (.make k) ut)
        + e2 * (irFactor k ph d * (bornBase (bornCoeff k ph)).ut2 (.make k) ut
          + (ammBase (ammCoeff k ph)).ut2 (.make k) ut)) := by
  simp only [nradBase, NradCoeff.make, hd, Fl.mul_fin, Fl.add_fin, LepNradBaseUU.make, LepNradBaseUP.make,
    bornBase, ammBase, irFactor]
  congr 1
  ring

private theorem nrad_uu {d : ℝ} (hd : deltaVertRadIr k .pinf = .fin d) (uu : HadBaseUU) :
    (nradBase (.make k ph .pinf)).uu (.make k) uu
      = Fl.fin (irFactor k ph d * (bornBase (bornCoeff k ph)).uu (.make k) uu
          + (ammBase (ammCoeff k ph)).uu (.make k) uu) := by
  simp only [nradBase, NradCoeff.make, hd, Fl.mul_fin, Fl.add_fin, LepNradBaseUU.make,
    bornBase, ammBase, irFactor]
  congr 1
  ring

private theorem radF_parts (k : KinematicsRad ℝ) (eta : Vec3) : xsRadF k ph sf 0 eta
    = radFBaseUU (radCoeff k ph) k.R (.make k) (HadRadFLP.make0 k sf (.make k.project sf)).uu
      + (radFBaseUP (radCoeff k ph) k.R (.make k) (.make k)
          (HadRadFLP.make0 k sf (.make k.project sf)).up).dot eta := by
  rw [c54_rad_f, c54_rad_f_integrand]
  simp

private theorem hadUP_eq (k : KinematicsRad ℝ) (h : HadLP) :
    hadRadFBaseUP k sf ⟨h.ul, h.ut⟩ = (HadRadFLP.make0 k sf h).up := by
  unfold hadRadFBaseUP HadRadFLP.make0
  rcases softStep k with _ | d <;> rfl

private theorem hadUU_eq (k : KinematicsRad ℝ) (h : HadLP) :
    hadRadFBaseUU k sf h.uu = (HadRadFLP.make0 k sf h).uu := by
  unfold hadRadFBaseUU HadRadFLP.make0
  rcases softStep k with _ | d <;> rfl

end Linear

variable (E : Env) (ps : Particles ℝ) (S x y z ph_t_sq : ℝ)

/-- An estimate times a number. -/
noncomputable def scaled (c : ℝ) (r : EstErr) : EstErr := ⟨.fin c * r.val, .fin c * r.err⟩

/-- The sum of two estimates with independent errors. -/
noncomputable def summed (r s : EstErr) : EstErr := ⟨r.val + s.val, hypot r.err s.err⟩

private theorem pm {a : ℤ} (ha : a = 1 ∨ a = -1) : ¬(a = 0 ∨ a > 1 ∨ a < -1) := by omega

private theorem sin_l (a b c : ℤ) (t : ℝ) :
    Real.sin (((a + b : ℤ) : ℝ) * t + 0.5 * c * Real.pi) = Real.sin ((a + b) * t + c * (Real.pi / 2)) := by
  congr 1; push_cast; ring

private theorem sin_r (a b c : ℤ) (t : ℝ) :
    Real.sin (((a + b : ℤ) : ℝ) * t + 0.5 * ((c + 1 : ℤ) : ℝ) * Real.pi)
      = Real.sin ((a + b) * t + (c + 1) * (Real.pi / 2)) := by
  congr 1; push_cast; ring

/-- C62: without radiative corrections and for coefficient `±1` of the target azimuth, `ut_integ` is the
integral over the hadron azimuth and (exactly) the target azimuth of the weighted polarised part of the Born
cross-section, whatever the integrator. -/
theorem c62_born {a : ℤ} (ha : a = 1 ∨ a = -1) (b c : ℤ) :
    utInteg E ps S x y z ph_t_sq a b c false = scaled (2 * Real.pi) (E.integ.one (fun phi_h =>
      .fin (targetMoment (xsBorn (.make ps S ⟨x, y, z, ph_t_sq, phi_h, 0⟩) (E.phenom (S * x * y)) E.sf 0)
        a b c phi_h)) (-Real.pi) Real.pi) := by
  unfold utInteg utIntegH
  rw [if_neg (pm ha)]
  dsimp only
  rw [if_pos (by simp)]
  refine congrArg (scaled (2 * Real.pi)) (congrArg (fun f => E.integ.one f (-Real.pi) Real.pi)
    (funext fun phi_h => ?_))
  rw [targetMoment_linear (born_parts _ _ _), if_pos ha]
  simp only [etaAt, sin_l, sin_r]
  norm_num
  rfl

/-- C62: `uu_integ` integrates the unpolarised Born cross-section over the hadron azimuth; the target
azimuth gives `2π`. -/
theorem c62_born_uu :
    uuInteg E ps S x y z ph_t_sq false = scaled (2 * Real.pi) (E.integ.one (fun phi_h =>
      .fin (xsBorn (.make ps S ⟨x, y, z, ph_t_sq, phi_h, 0⟩) (E.phenom (S * x * y)) E.sf 0 .zero))
        (-Real.pi) Real.pi) := by
  unfold uuInteg
  rw [if_pos (by simp)]
  refine congrArg (scaled (2 * Real.pi)) (congrArg (fun f => E.integ.one f (-Real.pi) Real.pi)
    (funext fun phi_h => ?_))
  rw [born_parts]
  simp only [Vec3.dot, Vec3.zero, mul_zero, add_zero]
  rfl

private theorem ir_finite (hm : 0 < ps.m)
    (hx : ps.Mth ^ 2 < (Kinematics.make ps S ⟨x, y, z, ph_t_sq, 0, 0⟩).mx_sq) (phi_h : ℝ) :
    ∃ d, deltaVertRadIr (.make ps S ⟨x, y, z, ph_t_sq, phi_h, 0⟩) .pinf = .fin d := by
  set k := Kinematics.make ps S ⟨x, y, z, ph_t_sq, phi_h, 0⟩
  have h1 : sq k.Mth < k.mx_sq := by unfold sq; rw [← pow_two]; exact hx
  have h2 : 0 < k.mx := Real.sqrt_pos.2 (lt_of_le_of_lt (mul_self_nonneg _) h1)
  have h3 : 0 < (k.mx_sq - sq k.Mth) / (k.m * k.mx) := div_pos (by linarith) (mul_pos hm h2)
  unfold deltaVertRadIr
  rw [if_neg (by simp [LT.lt, Fl.lt])]
  dsimp only
  rw [if_neg (by simp [LT.lt, Fl.lt])]
  simp only [Fl.log, if_pos h3, Fl.mul_fin, Fl.add_fin]
  exact ⟨_, rfl⟩

/-- A value, with zero in place of an undefined one. -/
def orZero : Fl → Fl
  | .nan => .fin 0
  | v => v

theorem nanToZero_eq : nanToZero = orZero := by
  funext v
  cases v <;> simp [nanToZero, orZero, Fl.isNaN]

/-- C62: with radiative corrections the same is true of the two parts: the infrared non-radiative
cross-section integrated over the azimuths, and the finite part of the radiative cross-section integrated over
the azimuths and the photon variables (mapped to the unit cube, with the Jacobian of the map; undefined values
count as zero).  `m > 0` and a missing mass above threshold make the former finite. -/
theorem c62_rc (hm : 0 < ps.m) (hx : ps.Mth ^ 2 < (Kinematics.make ps S ⟨x, y, z, ph_t_sq, 0, 0⟩).mx_sq)
    {a : ℤ} (ha : a = 1 ∨ a = -1) (b c : ℤ) :
    (∀ phi_h eta, (xsNradIr (.make ps S ⟨x, y, z, ph_t_sq, phi_h, 0⟩) (E.phenom (S * x * y)) E.sf 0 eta
      .pinf).isFinite) ∧
    utInteg E ps S x y z ph_t_sq a b c true = scaled (2 * Real.pi) (summed
      (E.integ.one (fun phi_h =>
        .fin (targetMoment (fun eta => realOf (xsNradIr (.make ps S ⟨x, y, z, ph_t_sq, phi_h, 0⟩)
          (E.phenom (S * x * y)) E.sf 0 eta .pinf)) a b c phi_h)) (-Real.pi) Real.pi)
      (E.integ.four (fun ph =>
        let phi_h := -Real.pi + 2 * Real.pi * ph 0
        let kin := Kinematics.make ps S ⟨x, y, z, ph_t_sq, phi_h, 0⟩
        match E.photon kin ![ph 1, ph 2, ph 3] with
        | none => .fin 0
        | some (tau, phi_k, R, jac) => orZero (jac * .fin (2 * Real.pi) * .fin
          (targetMoment (xsRadF (.make kin tau phi_k R) (E.phenom (S * x * y)) E.sf 0) a b c phi_h)))
        (fun _ => 0) (fun _ => 1))) := by
  constructor
  · intro phi_h eta
    obtain ⟨d, hd⟩ := ir_finite ps S x y z ph_t_sq hm hx phi_h
    rw [c55_rescaled_born _ _ _ _ _ _ d hd]
    trivial
  have h1 : ∀ phi_h : ℝ, let kin := kinAt ps S x y z ph_t_sq phi_h
      let b' := nradBase (.make kin (E.phenom kin.Q_sq) .pinf)
      let eta := etaAt 0.5 (a + b) c (0.5 * a) (a + b) (c + 1) phi_h
      .fin eta.x * b'.ut1 (.make kin) (HadLP.make kin E.sf).ut
        + .fin eta.y * b'.ut2 (.make kin) (HadLP.make kin E.sf).ut
      = Fl.fin (targetMoment (fun eta => realOf (xsNradIr kin (E.phenom (S * x * y)) E.sf 0 eta .pinf))
        a b c phi_h) := by
    intro phi_h
    obtain ⟨d, hd⟩ := ir_finite ps S x y z ph_t_sq hm hx phi_h
    change deltaVertRadIr (kinAt ps S x y z ph_t_sq phi_h) _ = _ at hd
    dsimp only
    rw [nrad_ut _ _ hd, targetMoment_linear (nrad_parts _ _ _ hd), if_pos ha]
    simp only [etaAt, sin_l, sin_r]
    change Fl.fin (_ * _ + _ * _) = Fl.fin _
    congr 1
    norm_num
    rfl
  have h2 : ∀ (phi_h tau phi_k R : ℝ), let kin := kinAt ps S x y z ph_t_sq phi_h
      let kin_rad := KinematicsRad.make kin tau phi_k R
      let eta := etaAt 0.5 (a + b) c (0.5 * a) (a + b) (c + 1) phi_h
      eta.dot (radFBaseUP (radCoeff kin_rad (E.phenom kin.Q_sq)) kin_rad.R (.make kin_rad) (.make kin_rad)
        (hadRadFBaseUP kin_rad E.sf ⟨(HadLP.make kin E.sf).ul, (HadLP.make kin E.sf).ut⟩))
      = targetMoment (xsRadF kin_rad (E.phenom (S * x * y)) E.sf 0) a b c phi_h := by
    intro phi_h tau phi_k R
    dsimp only
    rw [targetMoment_linear (radF_parts _ _ _), if_pos ha, hadUP_eq]
    simp only [etaAt, sin_l, sin_r, Vec3.dot]
    norm_num
    rfl
  have h3 : ∀ t, lerpPhiH t = -Real.pi + 2 * Real.pi * t := fun t => by unfold lerpPhiH; ring
  have h4 : sizePhiH = 2 * Real.pi := by unfold sizePhiH; ring
  unfold utInteg utIntegH
  rw [if_neg (pm ha), nanToZero_eq]
  dsimp only
  rw [if_neg (by simp)]
  refine congrArg (scaled (2 * Real.pi)) (congrArg₂ summed
    (congrArg (fun f => E.integ.one f (-Real.pi) Real.pi) (funext fun phi_h => ?_))
    (congrArg (fun f => E.integ.four f (fun _ => 0) (fun _ => 1)) (funext fun ph => ?_)))
  · exact h1 phi_h
  · rw [h3, h4]
    change (match E.photon (kinAt ps S x y z ph_t_sq (-Real.pi + 2 * Real.pi * ph 0)) ![ph 1, ph 2, ph 3]
      with | none => _ | some (tau, phi_k, R, jac) => _) = (match E.photon (kinAt ps S x y z ph_t_sq
        (-Real.pi + 2 * Real.pi * ph 0)) ![ph 1, ph 2, ph 3]
      with | none => _ | some (tau, phi_k, R, jac) => _)
    rcases E.photon (kinAt ps S x y z ph_t_sq (-Real.pi + 2 * Real.pi * ph 0)) ![ph 1, ph 2, ph 3]
      with _ | ⟨tau, phi_k, R, jac⟩
    · rfl
    · exact congrArg (fun r => orZero (jac * .fin (2 * Real.pi) * .fin r))
        (h2 (-Real.pi + 2 * Real.pi * ph 0) tau phi_k R)

/-- C62: `uu_integ` with radiative corrections integrates the same two parts for an unpolarised target. -/
theorem c62_rc_uu (hm : 0 < ps.m)
    (hx : ps.Mth ^ 2 < (Kinematics.make ps S ⟨x, y, z, ph_t_sq, 0, 0⟩).mx_sq) :
    uuInteg E ps S x y z ph_t_sq true = scaled (2 * Real.pi) (summed
      (E.integ.one (fun phi_h => xsNradIr (.make ps S ⟨x, y, z, ph_t_sq, phi_h, 0⟩)
        (E.phenom (S * x * y)) E.sf 0 .zero .pinf) (-Real.pi) Real.pi)
      (E.integ.four (fun ph =>
        let kin := Kinematics.make ps S ⟨x, y, z, ph_t_sq, -Real.pi + 2 * Real.pi * ph 0, 0⟩
        match E.photon kin ![ph 1, ph 2, ph 3] with
        | none => .fin 0
        | some (tau, phi_k, R, jac) => orZero (jac * .fin (2 * Real.pi) * .fin
          (xsRadF (.make kin tau phi_k R) (E.phenom (S * x * y)) E.sf 0 .zero)))
        (fun _ => 0) (fun _ => 1))) := by
  have h3 : ∀ t, lerpPhiH t = -Real.pi + 2 * Real.pi * t := fun t => by unfold lerpPhiH; ring
  have h4 : sizePhiH = 2 * Real.pi := by unfold sizePhiH; ring
  unfold uuInteg
  rw [if_neg (by simp), nanToZero_eq]
  refine congrArg (scaled (2 * Real.pi)) (congrArg₂ summed
    (congrArg (fun f => E.integ.one f (-Real.pi) Real.pi) (funext fun phi_h => ?_))
    (congrArg (fun f => E.integ.four f (fun _ => 0) (fun _ => 1)) (funext fun ph => ?_)))
  · obtain ⟨d, hd⟩ := ir_finite ps S x y z ph_t_sq hm hx phi_h
    have e1 := nrad_parts _ (E.phenom (S * x * y)) E.sf hd .zero
    have e2 := c55_rescaled_born _ (E.phenom (S * x * y)) E.sf 0 .zero .pinf d hd
    rw [e2] at e1 ⊢
    simp only [Vec3.dot, Vec3.zero, mul_zero, add_zero] at e1
    change deltaVertRadIr (kinAt ps S x y z ph_t_sq phi_h) _ = _ at hd
    dsimp only
    rw [nrad_uu _ _ hd]
    exact congrArg Fl.fin e1.symm
  · rw [h3, h4]
    change (match E.photon (kinAt ps S x y z ph_t_sq (-Real.pi + 2 * Real.pi * ph 0)) ![ph 1, ph 2, ph 3]
      with | none => _ | some (tau, phi_k, R, jac) => _) = (match E.photon (kinAt ps S x y z ph_t_sq
        (-Real.pi + 2 * Real.pi * ph 0)) ![ph 1, ph 2, ph 3]
      with | none => _ | some (tau, phi_k, R, jac) => _)
    rcases E.photon (kinAt ps S x y z ph_t_sq (-Real.pi + 2 * Real.pi * ph 0)) ![ph 1, ph 2, ph 3]
      with _ | ⟨tau, phi_k, R, jac⟩
    · rfl
    · refine congrArg (fun r => orZero (jac * .fin (2 * Real.pi) * .fin r)) ?_
      rw [radF_parts]
      simp only [Vec3.dot, Vec3.zero, mul_zero, add_zero]
      rw [← hadUU_eq]
      rfl

/-- C62: for every other coefficient of the target azimuth the moment of every cross-section that is linear
in the polarisation vanishes, and `ut_integ` is zero. -/
theorem c62_other {a : ℤ} (ha : ¬(a = 1 ∨ a = -1)) (b c : ℤ) (include_rc : Bool) :
    utInteg E ps S x y z ph_t_sq a b c include_rc = ⟨.fin 0, .fin 0⟩ ∧
    (∀ k ph sf phi_h, targetMoment (xsBorn k ph sf 0) a b c phi_h = 0) ∧
    (∀ k ph sf phi_h, targetMoment (xsRadF k ph sf 0) a b c phi_h = 0) ∧
    (∀ k ph sf phi_h, (∃ d, deltaVertRadIr k .pinf = .fin d) →
      targetMoment (fun eta => realOf (xsNradIr k ph sf 0 eta .pinf)) a b c phi_h = 0) := by
  refine ⟨?_, fun k ph sf t => ?_, fun k ph sf t => ?_, fun k ph sf t ⟨d, hd⟩ => ?_⟩
  · unfold utInteg
    rw [if_pos (by omega)]
  · rw [targetMoment_linear (born_parts k ph sf), if_neg ha]
  · rw [targetMoment_linear (radF_parts ph sf k), if_neg ha]
  · rw [targetMoment_linear (nrad_parts k ph sf hd), if_neg ha]

/-- At a physical point the weights of the textbook formula are those of a real lepton momentum: `P_T²` is
not negative. -/
theorem transverse_nonneg {ps : Particles ℝ} {S : ℝ} {pt : PhaseSpace ℝ} (hp : Physical ps S pt) :
    0 ≤ 4 * (S * pt.x * pt.y) * (1 - pt.y - 4 * ps.M ^ 2 * pt.x ^ 2 / (S * pt.x * pt.y) * pt.y ^ 2 / 4)
      / (pt.y ^ 2 * (1 + 4 * ps.M ^ 2 * pt.x ^ 2 / (S * pt.x * pt.y))) - 4 * ps.m ^ 2 := by
  have hS : 0 < S := (kinRel_of_physical hp).S_pos
  have hx := hp.x_pos
  have hy := hp.y_pos
  have h := hp.lepton
  rw [sub_nonneg, le_div_iff₀ (by positivity)]
  have e1 : 4 * ps.m ^ 2 * (pt.y ^ 2 * (1 + 4 * ps.M ^ 2 * pt.x ^ 2 / (S * pt.x * pt.y))) * (S ^ 2 / 4)
      = ps.m ^ 2 * ((S * pt.y) ^ 2 + 4 * ps.M ^ 2 * (S * pt.x * pt.y)) := by
    field_simp
  have e2 : 4 * (S * pt.x * pt.y) * (1 - pt.y - 4 * ps.M ^ 2 * pt.x ^ 2 / (S * pt.x * pt.y) * pt.y ^ 2 / 4)
      * (S ^ 2 / 4) = (S * pt.x * pt.y) * (S * ((1 - pt.y) * S) - ps.M ^ 2 * (S * pt.x * pt.y)) := by
    field_simp
  have : 0 < S ^ 2 / 4 := by positivity
  exact le_of_mul_le_mul_right (by rw [e1, e2]; exact h) this

/-- The overall factor is positive. -/
theorem massive_norm_pos {ps : Particles ℝ} {S : ℝ} {pt : PhaseSpace ℝ} (hp : Physical ps S pt) {alpha : ℝ}
    (ha : alpha ≠ 0) : 0 < (massiveWeights alpha ps.M ps.m S pt.x pt.y (S * pt.x * pt.y)).norm := by
  have hS : 0 < S := (kinRel_of_physical hp).S_pos
  have hx := hp.x_pos
  have hy := hp.y_pos
  have hM := hp.M_pos
  have hm := hp.m_nonneg
  have hQ : 0 < S * pt.x * pt.y := by positivity
  have hb : 0 < 1 - 4 * ps.M ^ 2 * ps.m ^ 2 / S ^ 2 := by
    rw [sub_pos, div_lt_one (by positivity)]
    have := hp.beam
    have h0 : 0 ≤ 2 * ps.M * ps.m := by positivity
    nlinarith
  have hT := transverse_nonneg hp
  unfold massiveWeights
  dsimp only
  rw [Real.sq_sqrt hb.le]
  positivity

/-- Longitudinal photons have a weight that is not negative. -/
theorem massive_long_nonneg {ps : Particles ℝ} {S : ℝ} {pt : PhaseSpace ℝ} (hp : Physical ps S pt) (alpha : ℝ) :
    0 ≤ (massiveWeights alpha ps.M ps.m S pt.x pt.y (S * pt.x * pt.y)).long := by
  have hS : 0 < S := (kinRel_of_physical hp).S_pos
  have hx := hp.x_pos
  have hy := hp.y_pos
  have hT := transverse_nonneg hp
  unfold massiveWeights
  dsimp only
  positivity

private theorem physical_phi {ps : Particles ℝ} {S x y z ph_t_sq : ℝ}
    (hp : Physical ps S ⟨x, y, z, ph_t_sq, 0, 0⟩) (phi_h : ℝ) : Physical ps S ⟨x, y, z, ph_t_sq, phi_h, 0⟩ :=
  ⟨hp.M_pos, hp.m_nonneg, hp.beam, hp.x_pos, hp.y_pos, hp.z_pos, hp.ph_t_sq_nonneg, hp.lepton, hp.hadron⟩

/-- The transversely polarised part of the textbook formula is a sum of five sines. -/
private theorem angular_diff (w : PhotonWeights) (F : SfValues) (phi_h t : ℝ) :
    angular w F phi_h t 0 0 1 - angular w F phi_h 0 0 0 0 =
      w.norm * (F.UTT_sin_h_m_S + w.long * F.UTL_sin_h_m_S) * Real.sin (((-1 : ℤ) : ℝ) * t + (1 : ℤ) * phi_h)
      + w.norm * (w.trans * F.UT_sin_h_p_S) * Real.sin (((1 : ℤ) : ℝ) * t + (1 : ℤ) * phi_h)
      + w.norm * (w.trans * F.UT_sin_3h_m_S) * Real.sin (((-1 : ℤ) : ℝ) * t + (3 : ℤ) * phi_h)
      + w.norm * (w.mixed * F.UT_sin_S) * Real.sin (((1 : ℤ) : ℝ) * t + (0 : ℤ) * phi_h)
      + w.norm * (w.mixed * F.UT_sin_2h_m_S) * Real.sin (((-1 : ℤ) : ℝ) * t + (2 : ℤ) * phi_h) := by
  unfold angular
  push_cast
  rw [show (-1 : ℝ) * t + 1 * phi_h = phi_h - t by ring, show (1 : ℝ) * t + 1 * phi_h = phi_h + t by ring,
    show (-1 : ℝ) * t + 3 * phi_h = 3 * phi_h - t by ring, show (1 : ℝ) * t + 0 * phi_h = t by ring,
    show (-1 : ℝ) * t + 2 * phi_h = 2 * phi_h - t by ring]
  ring

/-- The moment of one harmonic. -/
private noncomputable def one (a b c n m : ℤ) (phi_h : ℝ) : ℝ :=
  (if a = n then 1 / 2 * Real.cos ((b - m : ℤ) * phi_h + c * (Real.pi / 2)) else 0)
    - (if a = -n then 1 / 2 * Real.cos ((b + m : ℤ) * phi_h + c * (Real.pi / 2)) else 0)

private theorem one_avg (a b c n m : ℤ) (phi_h : ℝ) :
    ∫ t in -Real.pi..Real.pi, Real.sin (a * t + (b * phi_h + c * (Real.pi / 2))) * Real.sin (n * t + m * phi_h)
      = 2 * Real.pi * one a b c n m phi_h := by
  rw [sin_mul_sin]
  unfold one
  rw [show (b : ℝ) * phi_h + c * (Real.pi / 2) - m * phi_h = (b - m : ℤ) * phi_h + c * (Real.pi / 2) by
      push_cast; ring,
    show (b : ℝ) * phi_h + c * (Real.pi / 2) + m * phi_h = (b + m : ℤ) * phi_h + c * (Real.pi / 2) by
      push_cast; ring]
  split_ifs <;> ring

private theorem one_cont (a b c n m : ℤ) : Continuous (one a b c n m) := by
  unfold one
  split_ifs <;> fun_prop

private theorem one_int (a b c n m : ℤ) :
    ∫ t in -Real.pi..Real.pi, one a b c n m t
      = Real.pi * Real.cos (c * (Real.pi / 2)) * ((if (a, b) = (n, m) then 1 else 0)
        - (if (-a, -b) = (n, m) then 1 else 0)) := by
  unfold one
  have e1 : (a, b) = (n, m) ↔ a = n ∧ b - m = 0 := by simp [sub_eq_zero]
  have e2 : (-a, -b) = (n, m) ↔ a = -n ∧ b + m = 0 := by
    simp only [Prod.mk.injEq]; omega
  simp only [e1, e2]
  have hI : ∀ (P : Prop) [Decidable P] (n : ℤ), ∫ t in -Real.pi..Real.pi,
      (if P then 1 / 2 * Real.cos (n * t + c * (Real.pi / 2)) else 0)
      = Real.pi * Real.cos (c * (Real.pi / 2)) * (if P ∧ n = 0 then 1 else 0) := by
    intro P _ n
    by_cases hP : P
    · simp only [hP, if_true, true_and, intervalIntegral.integral_const_mul, integral_cos_turn]
      split_ifs <;> ring
    · simp [hP]
  rw [intervalIntegral.integral_sub, hI, hI]
  · ring
  all_goals
    split_ifs
    · exact (cos_cont _ _).const_mul _
    · exact intervalIntegrable_const

/-- The moment of the Born cross-section, from the textbook formula. -/
private theorem moment_textbook {ps : Particles ℝ} {S x y z ph_t_sq : ℝ}
    (hp : Physical ps S ⟨x, y, z, ph_t_sq, 0, 0⟩) (hpt : 0 < ph_t_sq)
    (hpl : ph_t_sq + ps.mh ^ 2 < (z * (S * y) / (2 * ps.M)) ^ 2) (ph : Phenom) (sf : SfFuns)
    (a b c : ℤ) (phi_h : ℝ) :
    let w := massiveWeights ph.alpha_qed ps.M ps.m S x y (S * x * y)
    let F := SfValues.at sf ps.hadron x z (S * x * y) ph_t_sq
    targetMoment (xsBorn (.make ps S ⟨x, y, z, ph_t_sq, phi_h, 0⟩) ph sf 0) a b c phi_h
      = w.norm * (F.UTT_sin_h_m_S + w.long * F.UTL_sin_h_m_S) * one a b c (-1) 1 phi_h
      + w.norm * (w.trans * F.UT_sin_h_p_S) * one a b c 1 1 phi_h
      + w.norm * (w.trans * F.UT_sin_3h_m_S) * one a b c (-1) 3 phi_h
      + w.norm * (w.mixed * F.UT_sin_S) * one a b c 1 0 phi_h
      + w.norm * (w.mixed * F.UT_sin_2h_m_S) * one a b c (-1) 2 phi_h := by
  intro w F
  have hp' := physical_phi hp phi_h
  have e1 : ∀ t, xsBorn (.make ps S ⟨x, y, z, ph_t_sq, phi_h, 0⟩) ph sf 0 (transverse phi_h t)
      = angular w F phi_h t 0 0 1 := by
    intro t
    have := c72_textbook hp' hpt hpl ph sf 0 0 1 t
    simp only [one_mul] at this
    exact this
  have e0 : xsBorn (.make ps S ⟨x, y, z, ph_t_sq, phi_h, 0⟩) ph sf 0 .zero = angular w F phi_h 0 0 0 0 := by
    have := c72_textbook hp' hpt hpl ph sf 0 0 0 0
    simp only [zero_mul] at this
    exact this
  unfold targetMoment
  simp_rw [e1, e0, angular_diff, add_assoc (_ * _ : ℝ) (_ * _ : ℝ) (_ * (Real.pi / 2))]
  have hint : ∀ (C : ℝ) (n m : ℤ), IntervalIntegrable (fun t =>
      C * (Real.sin (a * t + (b * phi_h + c * (Real.pi / 2))) * Real.sin (n * t + m * phi_h)))
      MeasureTheory.volume (-Real.pi) Real.pi := fun C n m => sin_sin_int _ _ _ _ _
  have hsum : ∀ (A B C D G : ℝ), (fun t : ℝ => Real.sin (a * t + (b * phi_h + c * (Real.pi / 2))) * (
      A * Real.sin (((-1 : ℤ) : ℝ) * t + (1 : ℤ) * phi_h) + B * Real.sin (((1 : ℤ) : ℝ) * t + (1 : ℤ) * phi_h)
      + C * Real.sin (((-1 : ℤ) : ℝ) * t + (3 : ℤ) * phi_h) + D * Real.sin (((1 : ℤ) : ℝ) * t + (0 : ℤ) * phi_h)
      + G * Real.sin (((-1 : ℤ) : ℝ) * t + (2 : ℤ) * phi_h)))
      = fun t => A * (Real.sin (a * t + (b * phi_h + c * (Real.pi / 2))) * Real.sin (((-1 : ℤ) : ℝ) * t + (1 : ℤ) * phi_h))
      + B * (Real.sin (a * t + (b * phi_h + c * (Real.pi / 2))) * Real.sin (((1 : ℤ) : ℝ) * t + (1 : ℤ) * phi_h))
      + C * (Real.sin (a * t + (b * phi_h + c * (Real.pi / 2))) * Real.sin (((-1 : ℤ) : ℝ) * t + (3 : ℤ) * phi_h))
      + D * (Real.sin (a * t + (b * phi_h + c * (Real.pi / 2))) * Real.sin (((1 : ℤ) : ℝ) * t + (0 : ℤ) * phi_h))
      + G * (Real.sin (a * t + (b * phi_h + c * (Real.pi / 2))) * Real.sin (((-1 : ℤ) : ℝ) * t + (2 : ℤ) * phi_h)) := by
    intro A B C D G; funext t; ring
  rw [hsum]
  rw [intervalIntegral.integral_add ((((hint _ _ _).add (hint _ _ _)).add (hint _ _ _)).add (hint _ _ _))
      (hint _ _ _),
    intervalIntegral.integral_add (((hint _ _ _).add (hint _ _ _)).add (hint _ _ _)) (hint _ _ _),
    intervalIntegral.integral_add ((hint _ _ _).add (hint _ _ _)) (hint _ _ _),
    intervalIntegral.integral_add (hint _ _ _) (hint _ _ _)]
  simp only [intervalIntegral.integral_const_mul, one_avg]
  have := Real.pi_pos
  field_simp

private theorem uu_textbook {ps : Particles ℝ} {S x y z ph_t_sq : ℝ}
    (hp : Physical ps S ⟨x, y, z, ph_t_sq, 0, 0⟩) (hpt : 0 < ph_t_sq)
    (hpl : ph_t_sq + ps.mh ^ 2 < (z * (S * y) / (2 * ps.M)) ^ 2) (ph : Phenom) (sf : SfFuns) (phi_h : ℝ) :
    let w := massiveWeights ph.alpha_qed ps.M ps.m S x y (S * x * y)
    let F := SfValues.at sf ps.hadron x z (S * x * y) ph_t_sq
    xsBorn (.make ps S ⟨x, y, z, ph_t_sq, phi_h, 0⟩) ph sf 0 .zero
      = w.norm * (F.UUT + w.long * F.UUL) * Real.cos (((0 : ℤ) : ℝ) * phi_h + 0)
        + w.norm * (w.mixed * F.UU_cos_h) * Real.cos (((1 : ℤ) : ℝ) * phi_h + 0)
        + w.norm * (w.trans * F.UU_cos_2h) * Real.cos (((2 : ℤ) : ℝ) * phi_h + 0) := by
  intro w F
  have := c72_textbook (physical_phi hp phi_h) hpt hpl ph sf 0 0 0 0
  simp only [zero_mul] at this
  change xsBorn _ _ _ _ ⟨0, 0, 0⟩ = _
  rw [this]
  change angular w F phi_h 0 0 0 0 = _
  unfold angular
  simp
  ring

/-- C62: with an exact integrator, at a physical point, and where the unpolarised part does not vanish, the
asymmetry returned by `ut_asym` for `sin (a phi_S + b phi_h + c π/2)` is the amplitude of that harmonic in
the textbook cross-section divided by the unpolarised part, for all integers `a`, `b` and `c`. -/
theorem c62_harmonics (hE : Exact E.integ) (hp : Physical ps S ⟨x, y, z, ph_t_sq, 0, 0⟩) (hpt : 0 < ph_t_sq)
    (hpl : ph_t_sq + ps.mh ^ 2 < (z * (S * y) / (2 * ps.M)) ^ 2)
    (hα : (E.phenom (S * x * y)).alpha_qed ≠ 0) (a b c : ℤ) :
    let w := massiveWeights (E.phenom (S * x * y)).alpha_qed ps.M ps.m S x y (S * x * y)
    let F := SfValues.at E.sf ps.hadron x z (S * x * y) ph_t_sq
    F.UUT + w.long * F.UUL ≠ 0 →
    (utAsym E ps S x y z ph_t_sq a b c false).val = .fin (harmonic w F a b c) := by
  intro w F hU
  have hN : 0 < w.norm := massive_norm_pos (pt := ⟨x, y, z, ph_t_sq, 0, 0⟩) hp hα
  have hpi := Real.pi_pos
  have huu : (uuInteg E ps S x y z ph_t_sq false).val
      = .fin (2 * Real.pi * (2 * Real.pi * (w.norm * (F.UUT + w.long * F.UUL)))) := by
    rw [c62_born_uu]
    simp_rw [uu_textbook hp hpt hpl]
    dsimp only [scaled]
    rw [hE (fun phi_h => w.norm * (F.UUT + w.long * F.UUL) * Real.cos (((0 : ℤ) : ℝ) * phi_h + 0)
        + w.norm * (w.mixed * F.UU_cos_h) * Real.cos (((1 : ℤ) : ℝ) * phi_h + 0)
        + w.norm * (w.trans * F.UU_cos_2h) * Real.cos (((2 : ℤ) : ℝ) * phi_h + 0)) (by fun_prop),
      intervalIntegral.integral_add (((cos_cont _ _).const_mul _).add ((cos_cont _ _).const_mul _))
        ((cos_cont _ _).const_mul _),
      intervalIntegral.integral_add ((cos_cont _ _).const_mul _) ((cos_cont _ _).const_mul _)]
    simp only [intervalIntegral.integral_const_mul, integral_cos_turn, Fl.mul_fin]
    congr 1
    norm_num
    ring
  have hut : (utInteg E ps S x y z ph_t_sq a b c false).val
      = .fin (2 * Real.pi * (Real.pi * (w.norm * (harmonic w F a b c * (F.UUT + w.long * F.UUL))))) := by
    by_cases ha : a = 1 ∨ a = -1
    · rw [c62_born E ps S x y z ph_t_sq ha]
      simp_rw [moment_textbook hp hpt hpl]
      dsimp only [scaled]
      have hc : ∀ (C : ℝ) (n m : ℤ), IntervalIntegrable (fun t => C * one a b c n m t) MeasureTheory.volume
          (-Real.pi) Real.pi := fun C n m => ((one_cont a b c n m).intervalIntegrable _ _).const_mul _
      have hcc := one_cont a b c
      rw [hE (fun phi_h => w.norm * (F.UTT_sin_h_m_S + w.long * F.UTL_sin_h_m_S) * one a b c (-1) 1 phi_h
          + w.norm * (w.trans * F.UT_sin_h_p_S) * one a b c 1 1 phi_h
          + w.norm * (w.trans * F.UT_sin_3h_m_S) * one a b c (-1) 3 phi_h
          + w.norm * (w.mixed * F.UT_sin_S) * one a b c 1 0 phi_h
          + w.norm * (w.mixed * F.UT_sin_2h_m_S) * one a b c (-1) 2 phi_h)
        (by have h1 := hcc (-1) 1; have h2 := hcc 1 1; have h3 := hcc (-1) 3; have h4 := hcc 1 0
            have h5 := hcc (-1) 2; fun_prop),
        intervalIntegral.integral_add ((((hc _ _ _).add (hc _ _ _)).add (hc _ _ _)).add (hc _ _ _)) (hc _ _ _),
        intervalIntegral.integral_add (((hc _ _ _).add (hc _ _ _)).add (hc _ _ _)) (hc _ _ _),
        intervalIntegral.integral_add ((hc _ _ _).add (hc _ _ _)) (hc _ _ _),
        intervalIntegral.integral_add (hc _ _ _) (hc _ _ _)]
      simp only [intervalIntegral.integral_const_mul, one_int, Fl.mul_fin]
      congr 2
      unfold harmonic
      dsimp only
      rw [div_mul_cancel₀ _ hU]
      have key : ∀ (a b : ℤ), (if (a, b) = ((-1 : ℤ), (1 : ℤ)) then F.UTT_sin_h_m_S + w.long * F.UTL_sin_h_m_S
          else if (a, b) = (1, 1) then w.trans * F.UT_sin_h_p_S
          else if (a, b) = (-1, 3) then w.trans * F.UT_sin_3h_m_S
          else if (a, b) = (1, 0) then w.mixed * F.UT_sin_S
          else if (a, b) = (-1, 2) then w.mixed * F.UT_sin_2h_m_S else 0)
          = (F.UTT_sin_h_m_S + w.long * F.UTL_sin_h_m_S) * (if (a, b) = ((-1 : ℤ), (1 : ℤ)) then 1 else 0)
          + w.trans * F.UT_sin_h_p_S * (if (a, b) = ((1 : ℤ), (1 : ℤ)) then 1 else 0)
          + w.trans * F.UT_sin_3h_m_S * (if (a, b) = ((-1 : ℤ), (3 : ℤ)) then 1 else 0)
          + w.mixed * F.UT_sin_S * (if (a, b) = ((1 : ℤ), (0 : ℤ)) then 1 else 0)
          + w.mixed * F.UT_sin_2h_m_S * (if (a, b) = ((-1 : ℤ), (2 : ℤ)) then 1 else 0) := by
        intro a b
        simp only [Prod.mk.injEq]
        split_ifs <;> first | omega | ring
      rw [key, key]
      ring
    · rw [(c62_other E ps S x y z ph_t_sq ha b c false).1]
      have : harmonic w F a b c = 0 := by
        unfold harmonic
        simp only [Prod.mk.injEq]
        have h1 : ¬a = 1 := fun h => ha (.inl h)
        have h2 : ¬a = -1 := fun h => ha (.inr h)
        have h3 : ¬-a = 1 := by omega
        have h4 : ¬-a = -1 := by omega
        simp [h1, h2, h3, h4]
      rw [this]; simp
  change .fin 2 * (utInteg E ps S x y z ph_t_sq a b c false).val / (uuInteg E ps S x y z ph_t_sq false).val = _
  rw [huu, hut, Fl.mul_fin, Fl.div_fin _ (by positivity)]
  congr 1
  field_simp

/-- C62: the Sivers asymmetry is `(F_UT,T^{sin(phi_h - phi_S)} + ε F_UT,L^{sin(phi_h - phi_S)})` over
`(F_UU,T + ε F_UU,L)`. -/
theorem c62_sivers (hE : Exact E.integ) (hp : Physical ps S ⟨x, y, z, ph_t_sq, 0, 0⟩) (hpt : 0 < ph_t_sq)
    (hpl : ph_t_sq + ps.mh ^ 2 < (z * (S * y) / (2 * ps.M)) ^ 2)
    (hα : (E.phenom (S * x * y)).alpha_qed ≠ 0) :
    let w := massiveWeights (E.phenom (S * x * y)).alpha_qed ps.M ps.m S x y (S * x * y)
    let F := SfValues.at E.sf ps.hadron x z (S * x * y) ph_t_sq
    F.UUT + w.long * F.UUL ≠ 0 → (sivers E ps S x y z ph_t_sq false).val
      = .fin ((F.UTT_sin_h_m_S + w.long * F.UTL_sin_h_m_S) / (F.UUT + w.long * F.UUL)) := by
  intro w F hU
  unfold sivers
  rw [c62_harmonics E ps S x y z ph_t_sq hE hp hpt hpl hα (-1) 1 0 hU]
  simp [harmonic, w, F]

/-- C62: the Collins asymmetry is `ε F_UT^{sin(phi_h + phi_S)}` over `(F_UU,T + ε F_UU,L)`. -/
theorem c62_collins (hE : Exact E.integ) (hp : Physical ps S ⟨x, y, z, ph_t_sq, 0, 0⟩) (hpt : 0 < ph_t_sq)
    (hpl : ph_t_sq + ps.mh ^ 2 < (z * (S * y) / (2 * ps.M)) ^ 2)
    (hα : (E.phenom (S * x * y)).alpha_qed ≠ 0) :
    let w := massiveWeights (E.phenom (S * x * y)).alpha_qed ps.M ps.m S x y (S * x * y)
    let F := SfValues.at E.sf ps.hadron x z (S * x * y) ph_t_sq
    F.UUT + w.long * F.UUL ≠ 0 → (collins E ps S x y z ph_t_sq false).val
      = .fin (w.trans * F.UT_sin_h_p_S / (F.UUT + w.long * F.UUL)) := by
  intro w F hU
  unfold collins
  rw [c62_harmonics E ps S x y z ph_t_sq hE hp hpt hpl hα 1 1 0 hU]
  simp [harmonic, w, F]

/-- C62: when both integrals are non-zero, the error of the asymmetry `2 u / v` is that of the integrals
propagated through its partial derivatives `2 / v` and `-2 u / v²`. -/
theorem c62_error (a b c : ℤ) (include_rc : Bool) {u v du dv : ℝ} (hu : u ≠ 0) (hv : v ≠ 0)
    (h1 : utInteg E ps S x y z ph_t_sq a b c include_rc = ⟨.fin u, .fin du⟩)
    (h2 : uuInteg E ps S x y z ph_t_sq include_rc = ⟨.fin v, .fin dv⟩) :
    utAsym E ps S x y z ph_t_sq a b c include_rc
      = ⟨.fin (2 * u / v), .fin √((2 / v * du) ^ 2 + (-(2 * u) / v ^ 2 * dv) ^ 2)⟩ := by
  unfold utAsym
  simp only [h1, h2, Fl.mul_fin, Fl.div_fin _ hu, Fl.div_fin _ hv, hypot, fabs, EstErr.mk.injEq, Fl.fin.injEq,
    true_and]
  rw [← Real.sqrt_sq_eq_abs, ← Real.sqrt_mul (add_nonneg (mul_self_nonneg _) (mul_self_nonneg _))]
  congr 1
  field_simp

/-- C62: but when the polarised integral is exactly zero, with zero error, the error is NaN.  This happens
for every weight that does not depend on the target azimuth once, whatever the integrator and however small
the error of the unpolarised integral. -/
theorem c62_error_refuted {a : ℤ} (ha : ¬(a = 1 ∨ a = -1)) (b c : ℤ) (include_rc : Bool) {v dv : ℝ}
    (hv : v ≠ 0) (h2 : uuInteg E ps S x y z ph_t_sq include_rc = ⟨.fin v, .fin dv⟩) :
    utAsym E ps S x y z ph_t_sq a b c include_rc = ⟨.fin 0, .nan⟩ := by
  unfold utAsym
  rw [(c62_other E ps S x y z ph_t_sq ha b c include_rc).1, h2]
  have e : (Fl.fin 0 / Fl.fin 0 : Fl) = .nan := by
    change Fl.div _ _ = _
    simp [Fl.div, Fl.infTimes]
  simp only [e, Fl.mul_fin, Fl.div_fin _ hv, hypot, fabs, EstErr.mk.injEq]
  refine ⟨by simp, rfl⟩

open Classical in
/-- An exact integrator. -/
noncomputable def exactInteg : Integrator where
  one f a b := ⟨.fin (∫ t in a..b, realOf (f t)), .fin 0⟩
  four _ _ _ := ⟨.fin 0, .fin 0⟩

theorem exactInteg_exact : Exact exactInteg := fun _ _ _ _ => rfl

/-- Structure functions that are all one. -/
def unitSf : SfFuns := by constructor <;> exact fun _ _ _ _ _ => 1

/-- The hypotheses of the theorems above are met at the sample point: the point is physical, the missing mass
is above threshold, and the Sivers asymmetry of unit structure functions is one. -/
example : let E : Env := ⟨unitSf, fun _ => ⟨0.0073, 0⟩, exactInteg, fun _ _ => some (1, 0, 0.1, .fin 1)⟩
    let p := samplePt
    (sivers E samplePs 20 p.x p.y p.z p.ph_t_sq false).val = .fin 1 ∧ 0 < samplePs.m ∧
      samplePs.Mth ^ 2 < (Kinematics.make samplePs 20 ⟨p.x, p.y, p.z, p.ph_t_sq, 0, 0⟩).mx_sq := by
  intro E p
  have hp : Physical samplePs 20 ⟨p.x, p.y, p.z, p.ph_t_sq, 0, 0⟩ := by
    have h := sample_physical.2
    exact ⟨h.M_pos, h.m_nonneg, h.beam, h.x_pos, h.y_pos, h.z_pos, h.ph_t_sq_nonneg, h.lepton, h.hadron⟩
  have hpt : 0 < p.ph_t_sq := by norm_num [p, samplePt]
  have hpl : p.ph_t_sq + samplePs.mh ^ 2 < (p.z * (20 * p.y) / (2 * samplePs.M)) ^ 2 := by
    norm_num [p, samplePs, samplePt, Nucleus.mass, Hadron.mass, CMath.ofReal]
  have hl := massive_long_nonneg hp (0.0073 : ℝ)
  refine ⟨?_, ?_, ?_⟩
  · have hU := c62_sivers E samplePs 20 p.x p.y p.z p.ph_t_sq exactInteg_exact hp hpt hpl
      (by norm_num [E])
    have e1 : ∀ l : ℝ, (0 : ℝ) ≤ l → 1 + l * 1 ≠ 0 := fun l h => by positivity
    rw [hU (e1 _ hl)]
    congr 1
    exact div_self (e1 _ hl)
  · norm_num [samplePs, Lepton.mass, CMath.ofReal]
  · have hs : ∀ x : ℝ, 0 ≤ x → 0 ≤ CMath.sqrt1p_1m x := fun x hx => by
      change 0 ≤ sqrt1p1mR x
      rw [sqrt1p1mR_eq (by linarith)]
      have : 1 ≤ √(1 + x) := Real.one_le_sqrt.2 (by linarith)
      linarith
    have h : (1.2 : ℝ) < (Kinematics.make samplePs 20 ⟨p.x, p.y, p.z, p.ph_t_sq, 0, 0⟩).mx_sq := by
      norm_num [p, samplePs, samplePt, Kinematics.make, Nucleus.mass, Lepton.mass, Hadron.mass,
        CMath.ofReal, sq]
      have := hs (677874348874024770161645712684601723621060499643071292119 /
        9000000000000000000000000000000000000000000000000000000000) (by norm_num)
      linarith
    exact lt_of_le_of_lt (by norm_num [samplePs]) h

end Sidis.Props
