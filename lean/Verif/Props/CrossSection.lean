import Verif.Spec.CrossSection
import Verif.Props.KinRad
import Mathlib.Tactic.Ring
import Mathlib.Tactic.LinearCombination
import Mathlib.Tactic.FieldSimp
import Mathlib.Analysis.Calculus.LocalExtr.Rolle
import Mathlib.Analysis.Calculus.Deriv.Pow
import Mathlib.Analysis.Calculus.Deriv.Mul
import Mathlib.Analysis.Calculus.Deriv.Add

/-! # Cross-sections: C54 to C58 -/

namespace Sidis.Props

open Sidis.Spec

section General

variable (k : Kinematics ℝ) (ph : Phenom) (sf : SfFuns) (lambda_e : ℝ) (eta : Vec3)

/-- C54: whichever components of the polarisation vanish, `xs::born` is the full contraction of the
leptonic with the hadronic tensor. -/
theorem c54_born : xsBorn k ph sf lambda_e eta
    = bornCoeff k ph * contract (leptonicBorn k) (hadronic k sf eta) lambda_e := by
  unfold xsBorn xsFromBase
  obtain ⟨ex, ey, ez⟩ := eta
  by_cases h0 : lambda_e = 0 <;> by_cases hx : ex = 0 <;> by_cases hy : ey = 0 <;>
    by_cases hz : ez = 0 <;>
    simp only [h0, hx, hy, hz, ne_eq, not_true_eq_false, not_false_eq_true, decide_true, decide_false,
      xsCombine, bornBase, CMath.ofReal, contract, leptonicBorn, hadronic, hadronicOf, HadUU.make,
      HadUL.make, HadUT.make, HadUP.make, HadLU.make, HadLL.make, HadLT.make, HadLP.make] <;> ring

/-- C54: the same for `xs::amm`. -/
theorem c54_amm : xsAmm k ph sf lambda_e eta
    = ammCoeff k ph * contract (leptonicAmm k) (hadronic k sf eta) lambda_e := by
  unfold xsAmm xsFromBase
  obtain ⟨ex, ey, ez⟩ := eta
  by_cases h0 : lambda_e = 0 <;> by_cases hx : ex = 0 <;> by_cases hy : ey = 0 <;>
    by_cases hz : ez = 0 <;>
    simp only [h0, hx, hy, hz, ne_eq, not_true_eq_false, not_false_eq_true, decide_true, decide_false,
      xsCombine, ammBase, CMath.ofReal, contract, leptonicAmm, hadronic, hadronicOf, HadUU.make,
      HadUL.make, HadUT.make, HadUP.make, HadLU.make, HadLL.make, HadLT.make, HadLP.make] <;> ring

/-- C54: the contraction has the documented dependence on the polarisations. -/
theorem contract_polarisationLinear (c : ℝ) (theta : Nine) :
    PolarisationLinear fun l e => c * contract theta (hadronic k sf e) l := by
  let H := HadLP.make k sf
  refine ⟨c * (theta.c1 * H.uu.H_10 + theta.c2 * H.uu.H_20 + theta.c3 * H.uu.H_30
      + theta.c4 * H.uu.H_40), c * (theta.c5 * H.lu.H_50),
    ⟨c * (theta.c6 * H.ut.H_61 + theta.c8 * H.ut.H_81),
      c * (theta.c1 * H.ut.H_12 + theta.c2 * H.ut.H_22 + theta.c3 * H.ut.H_32
        + theta.c4 * H.ut.H_42),
      c * (theta.c6 * H.ul.H_63 + theta.c8 * H.ul.H_83)⟩,
    ⟨c * (theta.c7 * H.lt.H_71 + theta.c9 * H.lt.H_91), c * (theta.c5 * H.lt.H_52),
      c * (theta.c7 * H.ll.H_73 + theta.c9 * H.ll.H_93)⟩, fun l e => ?_⟩
  simp only [contract, hadronic, hadronicOf, Vec3.dot, H, HadLP.make]
  ring

/-- C54: `xs::born` has the documented form `σ_UU + η·σ_UP + λ (σ_LU + η·σ_LP)` with parts that do not
depend on the polarisations. -/
theorem c54_born_linear : PolarisationLinear (xsBorn k ph sf) := by
  have := contract_polarisationLinear k sf (bornCoeff k ph) (leptonicBorn k)
  simpa only [← c54_born] using this

/-- C54: the same for `xs::amm`. -/
theorem c54_amm_linear : PolarisationLinear (xsAmm k ph sf) := by
  have := contract_polarisationLinear k sf (ammCoeff k ph) (leptonicAmm k)
  simpa only [← c54_amm] using this

end General

section Rad

variable (k : KinematicsRad ℝ) (ph : Phenom) (sf : SfFuns) (lambda_e : ℝ) (eta : Vec3)

private theorem vx (a b : Vec3) : (a + b).x = a.x + b.x := rfl
private theorem vy (a b : Vec3) : (a + b).y = a.y + b.y := rfl
private theorem vz (a b : Vec3) : (a + b).z = a.z + b.z := rfl
private theorem wx (a b : Vec3) : (a - b).x = a.x - b.x := rfl
private theorem wy (a b : Vec3) : (a - b).y = a.y - b.y := rfl
private theorem wz (a b : Vec3) : (a - b).z = a.z - b.z := rfl
private theorem sx (s : ℝ) (a : Vec3) : (s • a).x = a.x * s := rfl
private theorem sy (s : ℝ) (a : Vec3) : (s • a).y = a.y * s := rfl
private theorem sz (s : ℝ) (a : Vec3) : (s • a).z = a.z * s := rfl
private theorem dx (s : ℝ) (a : Vec3) : (a / s).x = a.x / s := rfl
private theorem dy (s : ℝ) (a : Vec3) : (a / s).y = a.y / s := rfl
private theorem dz (s : ℝ) (a : Vec3) : (a / s).z = a.z / s := rfl

/-- C54: whichever components of the polarisation vanish, `xs::rad` is the full contraction of the
leptonic with the hadronic tensor. -/
theorem c54_rad : xsRad k ph sf lambda_e eta
    = radCoeff k ph * contract (leptonicRad k) (hadronicRad k sf eta) lambda_e := by
  unfold xsRad
  obtain ⟨ex, ey, ez⟩ := eta
  by_cases h0 : lambda_e = 0 <;> by_cases h : ex ≠ 0 ∨ ey ≠ 0 ∨ ez ≠ 0
  all_goals
    simp only [h0, h, ne_eq, not_true_eq_false, not_false_eq_true, decide_true, decide_false,
      contract, leptonicRad, hadronicRad, HadRadUU.make, HadRadUP.make, HadRadLU.make, HadRadLP.make,
      radBaseUU, radBaseUP, radBaseLU, radBaseLP, Vec3.dot, Vec3.zero, vx, vy, vz, sx, sy, sz]
  · ring
  · simp only [ne_eq, not_or, not_not] at h
    obtain ⟨rfl, rfl, rfl⟩ := h
    ring
  · ring
  · simp only [ne_eq, not_or, not_not] at h
    obtain ⟨rfl, rfl, rfl⟩ := h
    ring

/-- C54: `xs::rad` has the documented dependence on the polarisations. -/
theorem c54_rad_linear : PolarisationLinear (xsRad k ph sf) := by
  let c := radCoeff k ph
  let t := leptonicRad k
  let H := HadRadLP.make k sf
  refine ⟨c * (t.c1 * H.uu.H_10 + t.c2 * H.uu.H_20 + t.c3 * H.uu.H_30 + t.c4 * H.uu.H_40),
    c * (t.c5 * H.lu.H_50),
    c • (t.c1 • H.up.H_1 + t.c2 • H.up.H_2 + t.c3 • H.up.H_3 + t.c4 • H.up.H_4 + t.c6 • H.up.H_6
      + t.c8 • H.up.H_8),
    c • (t.c5 • H.lp.H_5 + t.c7 • H.lp.H_7 + t.c9 • H.lp.H_9), fun l e => ?_⟩
  rw [c54_rad]
  simp only [contract, hadronicRad, Vec3.dot, H, HadRadLP.make, c, t, vx, vy, vz, sx, sy, sz]
  ring

/-- C54: whichever components of the polarisation vanish, the subtracted cross-section computed from
given coefficients `had_0` (as in `xs::rad_f_integ`) is the documented combination of the parts
computed with full polarisation. -/
theorem c54_rad_f_integrand (had_0 : HadLP) :
    xsRadF0 k ph sf had_0 lambda_e eta =
      let c := radCoeff k ph
      let h := HadRadFLP.make0 k sf had_0
      radFBaseUU c k.R (.make k) h.uu + (radFBaseUP c k.R (.make k) (.make k) h.up).dot eta
        + lambda_e * (radFBaseLU c k.R (.make k) h.lu
          + (radFBaseLP c k.R (.make k) (.make k) h.lp).dot eta) := by
  unfold xsRadF0
  obtain ⟨ex, ey, ez⟩ := eta
  rcases hs : softStep k with _ | d
  all_goals
    by_cases h0 : lambda_e = 0 <;> by_cases h : ex ≠ 0 ∨ ey ≠ 0 ∨ ez ≠ 0
  all_goals
    simp only [h0, h, hs, ne_eq, not_true_eq_false, not_false_eq_true, decide_true, decide_false,
      HadRadFUU.make0, HadRadFUP.make0, HadRadFLU.make0, HadRadFLP.make0, HadRadUU.make, HadRadUP.make,
      HadRadLU.make, HadRadLP.make, Vec3.dot, Vec3.zero]
  all_goals
    first
    | ring1
    | (simp only [ne_eq, not_or, not_not] at h
       obtain ⟨rfl, rfl, rfl⟩ := h
       ring1)

/-- C54: `xs::rad_f` is the same with the coefficients of its own kinematics without photon. -/
theorem c54_rad_f : xsRadF k ph sf lambda_e eta
    = xsRadF0 k ph sf (HadLP.make k.project sf) lambda_e eta := by
  unfold xsRadF xsRadF0 HadRadFUU.make HadRadFUP.make HadRadFLU.make HadRadFLP.make
  rfl

/-- C54: `xs::rad_f` has the documented dependence on the polarisations. -/
theorem c54_rad_f_linear : PolarisationLinear (xsRadF k ph sf) := by
  let c := radCoeff k ph
  let h := HadRadFLP.make k sf
  refine ⟨radFBaseUU c k.R (.make k) h.uu, radFBaseLU c k.R (.make k) h.lu,
    radFBaseUP c k.R (.make k) (.make k) h.up, radFBaseLP c k.R (.make k) (.make k) h.lp,
    fun l e => ?_⟩
  rw [c54_rad_f, c54_rad_f_integrand]
  rfl

/-- C57: the leading leptonic components are `4 F_IR` times those of the Born process. -/
theorem c57_leading :
    let uu := LepRadBaseUU.make k
    let up := LepRadBaseUP.make k
    let lu := LepRadBaseLU.make k
    let lp := LepRadBaseLP.make k
    let born := leptonicBorn k.project
    uu.theta_011 = 4 * k.F_IR * born.c1 ∧ uu.theta_021 = 4 * k.F_IR * born.c2
      ∧ uu.theta_031 = 4 * k.F_IR * born.c3 ∧ uu.theta_041 = 4 * k.F_IR * born.c4
      ∧ lu.theta_051 + lu.theta_151 = 4 * k.F_IR * born.c5 ∧ up.theta_061 = 4 * k.F_IR * born.c6
      ∧ lp.theta_071 + lp.theta_171 = 4 * k.F_IR * born.c7 ∧ up.theta_081 = 4 * k.F_IR * born.c8
      ∧ lp.theta_091 + lp.theta_191 = 4 * k.F_IR * born.c9 := by
  refine ⟨?_, ?_, ?_, ?_, ?_, ?_, ?_, ?_, ?_⟩
  all_goals
    simp only [leptonicBorn, LepRadBaseUU.make, LepRadBaseUP.make, LepRadBaseLU.make,
      LepRadBaseLP.make, LepBornBaseUU.make, LepBornBaseLU.make, LepBornBaseUP.make,
      LepBornBaseLP.make, KinematicsRad.project]
  all_goals ring1

/-- C57: away from the soft endpoint the radiative cross-section minus its infrared-finite part is
`-α F_IR / (2 π² R √λ_Y)` times the Born cross-section at the same kinematics and polarisation. -/
theorem c57_infrared_part (hsoft : softStep k = none) :
    xsRad k ph sf lambda_e eta - xsRadF k ph sf lambda_e eta
      = -(ph.alpha_qed * k.F_IR) / (2 * Real.pi ^ 2 * k.R * k.lambda_Y_sqrt)
        * xsBorn k.project ph sf lambda_e eta := by
  have hc : radCoeff k ph = -ph.alpha_qed / (8 * Real.pi ^ 2 * k.lambda_Y_sqrt)
      * bornCoeff k.project ph := by
    simp only [radCoeff, bornCoeff, KinematicsRad.project, sq]
    rw [div_mul_div_comm]
    congr 1 <;> ring
  obtain ⟨h1, h2, h3, h4, h5, h6, h7, h8, h9⟩ := c57_leading k
  rw [c54_rad, c54_rad_f, c54_rad_f_integrand, c54_born, hc]
  simp only [HadRadFLP.make0, hsoft, contract, leptonicRad, hadronicRad, hadronic, hadronicOf,
    HadRadLP.make, HadLP.make, makeHadRadFBaseUUDiff, makeHadRadFBaseUPDiff, makeHadRadFBaseLUDiff,
    makeHadRadFBaseLPDiff, radFBaseUU, radFBaseUP, radFBaseLU, radFBaseLP, Vec3.dot,
    vx, vy, vz, sx, sy, sz, wx, wy, wz, dx, dy, dz, h1, h2, h3, h4, h5, h6, h7, h8, h9]
  ring

/-- The rotation of the hadron frame caused by a photon of zero energy is the identity. -/
theorem hadronFromShift_zero {ps : Particles ℝ} {S : ℝ} {pt : PhaseSpace ℝ} (h : Physical ps S pt)
    (h1 : 0 < (Kinematics.make ps S pt).lambda_1) (hpt : 0 < pt.ph_t_sq) (tau phi_k : ℝ) (v : Vec3) :
    (Frame.hadronFromShift (KinematicsRad.make (Kinematics.make ps S pt) tau phi_k 0)).apply v = v := by
  set kin := Kinematics.make ps S pt with hkin
  set k := KinematicsRad.make kin tau phi_k 0 with hkdef
  have hk : KinRel kin := kinRel_of_physical h
  have hproj := (c18_zero_photon h h1 hpt tau phi_k).1
  have slY : k.shift_lambda_Y = kin.lambda_Y := congrArg Kinematics.lambda_Y hproj
  have slYs : k.shift_lambda_Y_sqrt = kin.lambda_Y_sqrt := congrArg Kinematics.lambda_Y_sqrt hproj
  have spt : k.shift_ph_t = kin.ph_t := congrArg Kinematics.ph_t hproj
  have hY := hk.lY_pos
  have hpt' : 0 < kin.ph_t := Real.sqrt_pos.2 hpt
  have hlY : kin.lambda_Y = kin.lambda_Y_sqrt ^ 2 := hk.lY_sq.symm
  have lRY : k.lambda_RY = 0 := zero_mul _
  have lRV : k.lambda_RV = 0 := by
    change (2 * kin.M) / kin.lambda_Y_sqrt * (2 * (kin.M * kin.M) * 0 * kin.ph_t * √_ * Real.cos _
      + k.lambda_RY * kin.ph_l) = 0
    rw [lRY]; ring
  have vol : k.vol_phi_hk = 0 := by
    change 1 / (2 * kin.lambda_1) * (0 * kin.vol_phi_h * _ + 0 * k.vol_phi_k_R * _) = 0
    ring
  have e1 : k.lambda_Y = kin.lambda_Y := rfl
  have e2 : k.lambda_Y_sqrt = kin.lambda_Y_sqrt := rfl
  have e3 : k.ph_t = kin.ph_t := rfl
  have e4 : k.R = 0 := rfl
  ext <;>
    simp only [Frame.hadronFromShift, Frame.shiftFromHadron, Transform3.transpose, Transform3.apply,
      slY, slYs, spt, lRY, lRV, vol, e1, e2, e3, e4, sq, Vec3.dot] <;>
    simp only [mul_zero, zero_mul, sub_zero, add_zero, zero_add, zero_div, zero_sub, sub_self] <;>
    try rw [hlY]
  all_goals field_simp

/-- C57: for a photon of zero energy the radiative hadronic tensor is the one without photon, so
nothing is left over at the infrared end point. -/
theorem c57_endpoint {ps : Particles ℝ} {S : ℝ} {pt : PhaseSpace ℝ} (h : Physical ps S pt)
    (h1 : 0 < (Kinematics.make ps S pt).lambda_1) (hpt : 0 < pt.ph_t_sq) (tau phi_k : ℝ) :
    let kin := Kinematics.make ps S pt
    hadronicRad (KinematicsRad.make kin tau phi_k 0) sf eta = hadronic kin sf eta := by
  intro kin
  set k := KinematicsRad.make kin tau phi_k 0 with hkdef
  have hproj := (c18_zero_photon h h1 hpt tau phi_k).1
  have hrot : ∀ v, (Frame.hadronFromShift k).apply v = v :=
    hadronFromShift_zero h h1 hpt tau phi_k
  have a1 : k.shift_x = kin.x := congrArg Kinematics.x hproj
  have a2 : k.shift_z = kin.z := congrArg Kinematics.z hproj
  have a3 : k.shift_Q_sq = kin.Q_sq := congrArg Kinematics.Q_sq hproj
  have a4 : k.shift_ph_t_sq = kin.ph_t_sq := congrArg Kinematics.ph_t_sq hproj
  have a5 : k.shift_C_1 = kin.C_1 := congrArg Kinematics.C_1 hproj
  have a6 : k.shift_lambda_Y = kin.lambda_Y := congrArg Kinematics.lambda_Y hproj
  have a7 : k.shift_lambda_Y_sqrt = kin.lambda_Y_sqrt := congrArg Kinematics.lambda_Y_sqrt hproj
  have a8 : k.shift_ph_t = kin.ph_t := congrArg Kinematics.ph_t hproj
  have a9 : k.shift_lambda_2 = kin.lambda_2 := congrArg Kinematics.lambda_2 hproj
  have a10 : k.shift_lambda_3 = kin.lambda_3 := congrArg Kinematics.lambda_3 hproj
  have a11 : k.shift_S_x = kin.S_x := congrArg Kinematics.S_x hproj
  have a12 : k.shift_Q = kin.Q := congrArg Kinematics.Q hproj
  have a13 : k.hadron = kin.hadron := rfl
  ext <;>
    simp only [hadronicRad, hadronic, hadronicOf, makeHadRadBaseUU, makeHadRadBaseUP, makeHadRadBaseLU,
      makeHadRadBaseLP, makeHadBaseUU, makeHadBaseUL, makeHadBaseUT, makeHadBaseLU, makeHadBaseLL,
      makeHadBaseLT, SfFuns.baseUP, SfFuns.baseLP, hrot, a1, a2, a3, a4, a5, a6, a7, a8, a9,
      a10, a11, a12, a13, Vec3.dot] <;> ring

/-- C57, C58: the infrared-finite cross-section is the radiative cross-section in which the term of
the leptonic tensor growing like `1/R` multiplies the difference quotient `(H(R) - H(0)) / R` of the
hadronic tensor; close to the soft endpoint the quotient is extrapolated from `H` at three photon
energies `0`, `δ`, `2δ` along the same photon direction. -/
theorem c57_subtraction :
    xsRadF k ph sf lambda_e eta = radCoeff k ph *
      (contract (leptonicRadRest k) (hadronicRad k sf eta) lambda_e
        + contract (leptonicRadLeading k)
          (match softStep k with
            | none => Nine.map2 (fun h h0 => (h - h0) / k.R) (hadronicRad k sf eta)
                (hadronic k.project sf eta)
            | some d => Nine.map3 (diffR k.R d) (hadronic k.project sf eta)
                (hadronicRad (KinematicsRad.make k.project k.tau k.phi_k d) sf eta)
                (hadronicRad (KinematicsRad.make k.project k.tau k.phi_k (2 * d)) sf eta))
          lambda_e) := by
  rw [c54_rad_f, c54_rad_f_integrand]
  rcases hs : softStep k with _ | d
  all_goals
    simp only [HadRadFLP.make0, hs, contract, leptonicRadRest, leptonicRad, leptonicRadLeading, Nine.map2, Nine.map3,
      hadronicRad, hadronic, hadronicOf, HadRadLP.make, HadLP.make, makeHadRadFBaseUUDiff,
      makeHadRadFBaseUPDiff, makeHadRadFBaseLUDiff, makeHadRadFBaseLPDiff, makeHadRadFBaseUUDeriv,
      makeHadRadFBaseUPDeriv, makeHadRadFBaseLUDeriv, makeHadRadFBaseLPDeriv, diffR, diffRVec,
      radFBaseUU, radFBaseUP, radFBaseLU, radFBaseLP, Vec3.dot,
      vx, vy, vz, sx, sy, sz, wx, wy, wz, dx, dy, dz]
  all_goals ring1

/-- C57, C58: the relation between the radiative and the infrared-finite cross-section also holds in
the extrapolated region when the hadronic tensor is quadratic in the photon energy there. -/
theorem c58_infrared_part {d : ℝ} (hsoft : softStep k = some d) (hR : k.R ≠ 0) (hd : d ≠ 0)
    (b c : Nine)
    (h0 : hadronicRad k sf eta
      = Nine.map3 (fun x y z => x + y * k.R + z * k.R ^ 2) (hadronic k.project sf eta) b c)
    (h1 : ∀ t, t = d ∨ t = 2 * d →
      hadronicRad (KinematicsRad.make k.project k.tau k.phi_k t) sf eta
      = Nine.map3 (fun x y z => x + y * t + z * t ^ 2) (hadronic k.project sf eta) b c) :
    xsRad k ph sf lambda_e eta - xsRadF k ph sf lambda_e eta
      = -(ph.alpha_qed * k.F_IR) / (2 * Real.pi ^ 2 * k.R * k.lambda_Y_sqrt)
        * xsBorn k.project ph sf lambda_e eta := by
  have hc : radCoeff k ph = -ph.alpha_qed / (8 * Real.pi ^ 2 * k.lambda_Y_sqrt)
      * bornCoeff k.project ph := by
    simp only [radCoeff, bornCoeff, KinematicsRad.project, sq]
    rw [div_mul_div_comm]
    congr 1 <;> ring
  have hq : ∀ x y z : ℝ, diffR k.R d x (x + y * d + z * d ^ 2)
      (x + y * (2 * d) + z * (2 * d) ^ 2) = y + z * k.R := fun x y z => by
    simp only [diffR]; field_simp; ring
  have hlead : leptonicRadLeading k = Nine.map2 (fun f t => f * t) ⟨4 * k.F_IR, 4 * k.F_IR, 4 * k.F_IR,
      4 * k.F_IR, 4 * k.F_IR, 4 * k.F_IR, 4 * k.F_IR, 4 * k.F_IR, 4 * k.F_IR⟩
      (leptonicBorn k.project) := by
    obtain ⟨e1, e2, e3, e4, e5, e6, e7, e8, e9⟩ := c57_leading k
    ext <;> simp only [leptonicRadLeading, Nine.map2, e1, e2, e3, e4, e5, e6, e7, e8, e9]
  rw [c54_rad, c57_subtraction, c54_born, hc]
  simp only [hsoft, h1 d (Or.inl rfl), h1 (2 * d) (Or.inr rfl), h0, leptonicRadRest, hlead, Nine.map2,
    Nine.map3, hq, contract]
  field_simp
  ring

/-- Both branches are taken: for an allowed photon direction the direct difference is used at half of
the largest photon energy, and the extrapolation at energy zero. -/
example (kin : Kinematics ℝ) (tau phi_k r : ℝ) (hr : 0 < r) (h : rBoundMax kin tau phi_k = some r) :
    softStep (KinematicsRad.make kin tau phi_k (r / 2)) = none
      ∧ softStep (KinematicsRad.make kin tau phi_k 0) = some (r * deltaRRel) := by
  have hd : deltaRRel ≤ 1 / 2 := by
    unfold deltaRRel
    rw [Real.sqrt_le_left (by norm_num)]
    norm_num
  have hd0 : 0 < deltaRRel := by unfold deltaRRel; positivity
  have e : ∀ R, softStep (KinematicsRad.make kin tau phi_k R)
      = if R < r * deltaRRel then some (r * deltaRRel) else none := fun R => by
    have : (KinematicsRad.make kin tau phi_k R).project = kin := rfl
    unfold softStep
    rw [this]
    change (rBoundMax kin tau phi_k).bind _ = _
    rw [h]
    rfl
  rw [e, e, if_neg (by nlinarith), if_pos (by positivity)]
  exact ⟨rfl, rfl⟩

end Rad

section Nrad

variable (k : Kinematics ℝ) (ph : Phenom) (sf : SfFuns) (lambda_e : ℝ) (eta : Vec3)

/-- C55: whenever the vertex and soft-photon factor is a number `d`, `xs::nrad_ir` is the Born
cross-section times `1 + α/π (d + δ_vac)`, plus the anomalous magnetic moment cross-section, for every
polarisation. -/
theorem c55_rescaled_born (k_0_bar : Fl) (d : ℝ) (hd : deltaVertRadIr k k_0_bar = .fin d) :
    xsNradIr k ph sf lambda_e eta k_0_bar
      = .fin ((1 + ph.alpha_qed / Real.pi * (d + deltaVacLep k + ph.delta_vac_had))
          * xsBorn k ph sf lambda_e eta + xsAmm k ph sf lambda_e eta) := by
  rw [c54_born, c54_amm]
  unfold xsNradIr xsFromBase
  obtain ⟨ex, ey, ez⟩ := eta
  by_cases h0 : lambda_e = 0 <;> by_cases hx : ex = 0 <;> by_cases hy : ey = 0 <;>
    by_cases hz : ez = 0 <;>
    simp only [h0, hx, hy, hz, ne_eq, not_true_eq_false, not_false_eq_true, decide_true, decide_false,
      xsCombine, nradBase, NradCoeff.make, hd, CMath.ofReal, contract, leptonicBorn, leptonicAmm,
      LepNradBaseUU.make, LepNradBaseUP.make, LepNradBaseLU.make, LepNradBaseLP.make,
      hadronic, hadronicOf, HadUU.make, HadUL.make, HadUT.make, HadUP.make, HadLU.make, HadLL.make,
      HadLT.make, HadLP.make, Fl.add_fin, Fl.mul_fin] <;>
    congr 1 <;> ring

/-- C54: when it is a number, `xs::nrad_ir` has the documented dependence on the polarisations. -/
theorem c54_nrad_ir_linear (k_0_bar : Fl) (d : ℝ) (hd : deltaVertRadIr k k_0_bar = .fin d) :
    ∃ f, PolarisationLinear f ∧ ∀ l e, xsNradIr k ph sf l e k_0_bar = .fin (f l e) := by
  refine ⟨_, ?_, fun l e => c55_rescaled_born k ph sf l e k_0_bar d hd⟩
  obtain ⟨a, b, u, v, h⟩ := c54_born_linear k ph sf
  obtain ⟨a', b', u', v', h'⟩ := c54_amm_linear k ph sf
  set c := 1 + ph.alpha_qed / Real.pi * (d + deltaVacLep k + ph.delta_vac_had)
  refine ⟨c * a + a', c * b + b', c • u + u', c • v + v', fun l e => ?_⟩
  change c * xsBorn k ph sf l e + xsAmm k ph sf l e = _
  rw [h, h']
  simp only [Vec3.dot, vx, vy, vz, sx, sy, sz]
  ring

private theorem nonfin_add {a : Fl} (b : Fl) (h : ¬a.isFinite) : ¬(a + b).isFinite := by
  cases a <;> cases b <;> simp_all

private theorem nonfin_add' (a : Fl) {b : Fl} (h : ¬b.isFinite) : ¬(a + b).isFinite := by
  cases a <;> cases b <;> simp_all

private theorem nonfin_infTimes (r : ℝ) : ¬(Fl.infTimes r).isFinite := by
  unfold Fl.infTimes; split_ifs <;> simp

private theorem nonfin_mul {a : Fl} (b : Fl) (h : ¬a.isFinite) : ¬(a * b).isFinite := by
  cases a <;> cases b <;> simp_all [nonfin_infTimes]

private theorem nonfin_mul' (a : Fl) {b : Fl} (h : ¬b.isFinite) : ¬(a * b).isFinite := by
  cases a <;> cases b <;> simp_all [nonfin_infTimes]

/-- C55, C56: with a cut-off that is zero, negative or NaN the non-radiative cross-section is never a
number, whatever the kinematics, structure functions and polarisations. -/
theorem c55_no_cutoff (k_0_bar : Fl) (h : ¬.fin 0 < k_0_bar) :
    ¬(xsNradIr k ph sf lambda_e eta k_0_bar).isFinite := by
  have hd : deltaVertRadIr k k_0_bar = .ninf := if_pos h
  have hb : ¬(NradCoeff.make k ph k_0_bar).coeff_born.isFinite := by
    unfold NradCoeff.make
    rw [hd]
    exact nonfin_mul _ (nonfin_add' _ (nonfin_mul' _ (nonfin_add _ (nonfin_add _ (by simp)))))
  have huu : ∀ had, ¬((nradBase (.make k ph k_0_bar)).uu (.make k) had).isFinite := fun had =>
    nonfin_add _ (nonfin_add _ (nonfin_add _ (nonfin_mul _ (nonfin_add _ (nonfin_mul _ hb)))))
  unfold xsNradIr xsFromBase
  dsimp only
  split <;> exact nonfin_add _ (nonfin_add _ (huu _))

/-- C56: for every positive cut-off, infinite ones included, the soft factor and the hard factor are
numbers whose sum does not depend on the cut-off. -/
theorem c56_cutoff_independent (hm : 0 < k.m) (hmx : 0 < k.mx) (hth : sq k.Mth < k.mx_sq) :
    ∃ total : ℝ, ∀ k_0_bar : Fl, .fin 0 < k_0_bar →
      ∃ soft hard : ℝ, deltaVertRadIr k k_0_bar = .fin soft ∧ deltaRadIrHard k k_0_bar = .fin hard ∧
        soft + hard = total := by
  have hd : 0 < k.mx_sq - sq k.Mth := sub_pos.2 hth
  set c := 2 * ((k.Q_sq + 2 * sq k.m) * logM k.Q_sq k.m - 1) with hc
  have hpos : 0 < (k.mx_sq - sq k.Mth) / (k.m * k.mx) := by positivity
  refine ⟨deltaVertRad0 k + c * Real.log ((k.mx_sq - sq k.Mth) / (k.m * k.mx)), fun k0 h0 => ?_⟩
  by_cases hlt : k0 < .fin ((k.mx_sq - sq k.Mth) / (2 * k.mx))
  · obtain ⟨r, rfl⟩ : ∃ r, k0 = .fin r := by cases k0 <;> simp_all
    have hr : 0 < r := by simpa using h0
    have e1 : Fl.log (.fin 2 * .fin r / .fin k.m) = .fin (Real.log (2 * r / k.m)) := by
      rw [Fl.mul_fin, Fl.div_fin _ hm.ne', Fl.log, if_pos (by positivity)]
    have e2 : Fl.log (.fin (k.mx_sq - sq k.Mth) / (.fin 2 * .fin r * .fin k.mx))
        = .fin (Real.log ((k.mx_sq - sq k.Mth) / (2 * r * k.mx))) := by
      rw [Fl.mul_fin, Fl.mul_fin, Fl.div_fin _ (by positivity), Fl.log, if_pos (by positivity)]
    refine ⟨deltaVertRad0 k + c * Real.log (2 * r / k.m),
      c * Real.log ((k.mx_sq - sq k.Mth) / (2 * r * k.mx)), ?_, ?_, ?_⟩
    · unfold deltaVertRadIr
      simp only [h0, hlt, not_true_eq_false, if_false, if_true]
      rw [e1, Fl.mul_fin, Fl.add_fin, hc]
    · unfold deltaRadIrHard
      simp only [h0, hlt, not_true_eq_false, if_false]
      rw [e2, Fl.mul_fin, hc]
    · rw [add_assoc, ← mul_add, ← Real.log_mul (by positivity) (by positivity)]
      congr 3
      field_simp
  · have e1 : Fl.log (.fin ((k.mx_sq - sq k.Mth) / (k.m * k.mx)))
        = .fin (Real.log ((k.mx_sq - sq k.Mth) / (k.m * k.mx))) := by
      rw [Fl.log, if_pos hpos]
    refine ⟨deltaVertRad0 k + c * Real.log ((k.mx_sq - sq k.Mth) / (k.m * k.mx)), 0, ?_, ?_, ?_⟩
    · unfold deltaVertRadIr
      simp only [h0, hlt, not_true_eq_false, if_false, e1, Fl.mul_fin, Fl.add_fin, hc]
    · unfold deltaRadIrHard
      simp only [h0, hlt, not_true_eq_false, not_false_eq_true, if_false, if_true]
    · ring

/-- C56: with a cut-off that is zero, negative or NaN the soft factor is minus infinity and the hard
factor plus infinity. -/
theorem c56_no_cutoff (k_0_bar : Fl) (h : ¬.fin 0 < k_0_bar) :
    deltaVertRadIr k k_0_bar = .ninf ∧ deltaRadIrHard k k_0_bar = .pinf :=
  ⟨if_pos h, if_pos h⟩

/-- C56: exactly at the production threshold (`mx = Mth`) no positive cut-off gives a number: the soft
factor is infinite or NaN although the cut-off is positive. -/
theorem c56_threshold (hth : k.mx_sq = sq k.Mth) (k_0_bar : Fl) (h : .fin 0 < k_0_bar) :
    ¬(deltaVertRadIr k k_0_bar).isFinite := by
  have hlt : ¬k_0_bar < .fin 0 := by
    cases k_0_bar with
    | fin r => simp only [Fl.lt_fin] at h ⊢; linarith
    | _ => simp_all
  unfold deltaVertRadIr
  simp only [h, hth, sub_self, zero_div, hlt, not_true_eq_false, if_false]
  apply nonfin_add'
  apply nonfin_mul'
  simp [Fl.log]

/-- The kinematics of the sample point meets the hypotheses of C56, and both kinds of cut-off
exist. -/
example : let k := Kinematics.make samplePs 20 samplePt
    0 < k.m ∧ 0 < k.mx ∧ sq k.Mth < k.mx_sq ∧ Fl.fin 0 < .fin 0.01 ∧ Fl.fin 0 < .pinf
      ∧ ¬Fl.fin 0 < .fin 0 ∧ ¬Fl.fin 0 < .nan := by
  have hs : ∀ x : ℝ, 0 ≤ x → 0 ≤ CMath.sqrt1p_1m x := fun x hx => by
    change 0 ≤ sqrt1p1mR x
    rw [sqrt1p1mR_eq (by linarith)]
    have : 1 ≤ √(1 + x) := Real.one_le_sqrt.2 (by linarith)
    linarith
  have h : (1.2 : ℝ) < (Kinematics.make samplePs 20 samplePt).mx_sq := by
    norm_num [samplePs, samplePt, Kinematics.make, Nucleus.mass, Lepton.mass, Hadron.mass,
      CMath.ofReal, sq]
    have := hs (677874348874024770161645712684601723621060499643071292119 /
      9000000000000000000000000000000000000000000000000000000000) (by norm_num)
    linarith
  refine ⟨?_, ?_, ?_, ?_, ?_, ?_, ?_⟩
  · norm_num [samplePs, Kinematics.make, Lepton.mass, CMath.ofReal]
  · have : (0 : ℝ) < (Kinematics.make samplePs 20 samplePt).mx_sq := lt_trans (by norm_num) h
    exact Real.sqrt_pos.2 this
  · refine lt_of_le_of_lt ?_ h
    norm_num [samplePs, Kinematics.make, CMath.ofReal, sq]
  all_goals norm_num

end Nrad

/-- C58: the extrapolation used close to `R = 0` is exact for quadratic functions: it is the difference
quotient that the direct formula computes. -/
theorem c58_quadratic (a b c R d : ℝ) (hd : d ≠ 0) (hR : R ≠ 0) :
    let f := fun t : ℝ => a + b * t + c * t ^ 2
    diffR R d (f 0) (f d) (f (2 * d)) = (f R - f 0) / R := by
  simp only [diffR]
  field_simp
  ring

/-- C58: at `R = 0` it is the derivative of the quadratic. -/
theorem c58_quadratic_zero (a b c d : ℝ) (hd : d ≠ 0) :
    let f := fun t : ℝ => a + b * t + c * t ^ 2
    diffR 0 d (f 0) (f d) (f (2 * d)) = b := by
  simp only [diffR]
  field_simp
  ring

private theorem rolle {g g' : ℝ → ℝ} (hg : ∀ t, HasDerivAt g (g' t) t) {a b : ℝ} (hab : a < b)
    (h : g a = g b) : ∃ c, a < c ∧ c < b ∧ g' c = 0 := by
  obtain ⟨c, ⟨h1, h2⟩, h3⟩ := exists_hasDerivAt_eq_zero hab
    (fun t _ => (hg t).continuousAt.continuousWithinAt) h (fun t _ => hg t)
  exact ⟨c, h1, h2, h3⟩

/-- C58: for a function with a third derivative bounded by `B`, the extrapolation with step `d` differs
from the direct difference quotient by at most `B d² / 3` for every `R` below the step. -/
theorem c58_error (f f1 f2 f3 : ℝ → ℝ) (B R d : ℝ) (hR : 0 < R) (hd : R < d)
    (h1 : ∀ t, HasDerivAt f (f1 t) t) (h2 : ∀ t, HasDerivAt f1 (f2 t) t)
    (h3 : ∀ t, HasDerivAt f2 (f3 t) t) (hB : ∀ t, 0 < t → t < 2 * d → |f3 t| ≤ B) :
    |diffR R d (f 0) (f d) (f (2 * d)) - (f R - f 0) / R| ≤ B * d ^ 2 / 3 := by
  have hd0 : 0 < d := hR.trans hd
  -- the quadratic through the three sample points, and the cubic correction through `R`
  set b := (-3 * f 0 + 4 * f d - f (2 * d)) / (2 * d) with hb
  set c := (f 0 - 2 * f d + f (2 * d)) / (2 * d ^ 2) with hc
  set K := (f R - f 0 - b * R - c * R ^ 2) / (R * (R - d) * (R - 2 * d)) with hK
  have hne : R * (R - d) * (R - 2 * d) ≠ 0 := by
    have : R - d ≠ 0 := by linarith
    have : R - 2 * d ≠ 0 := by linarith
    positivity
  let g : ℝ → ℝ := fun t => f t - f 0 - b * t - c * t ^ 2 - K * (t * (t - d) * (t - 2 * d))
  let g1 : ℝ → ℝ := fun t => f1 t - b - c * (2 * t) - K * (3 * t ^ 2 - 6 * d * t + 2 * d ^ 2)
  let g2 : ℝ → ℝ := fun t => f2 t - c * 2 - K * (6 * t - 6 * d)
  let g3 : ℝ → ℝ := fun t => f3 t - K * 6
  have e1 : ∀ t, HasDerivAt g (g1 t) t := fun t => by
    have hi := hasDerivAt_id' t
    have := ((((h1 t).sub_const (f 0)).sub (hi.const_mul b)).sub ((hi.pow 2).const_mul c)).sub
      (((hi.mul (hi.sub_const d)).mul (hi.sub_const (2 * d))).const_mul K)
    refine this.congr_deriv ?_
    simp only [g1, Pi.mul_apply]; push_cast; ring
  have e2 : ∀ t, HasDerivAt g1 (g2 t) t := fun t => by
    have hi := hasDerivAt_id' t
    have := (((h2 t).sub_const b).sub ((hi.const_mul 2).const_mul c)).sub
      (((((hi.pow 2).const_mul 3).sub (hi.const_mul (6 * d))).add_const (2 * d ^ 2)).const_mul K)
    refine this.congr_deriv ?_
    simp only [g2]; push_cast; ring
  have e3 : ∀ t, HasDerivAt g2 (g3 t) t := fun t => by
    have hi := hasDerivAt_id' t
    have := ((h3 t).sub_const (c * 2)).sub (((hi.const_mul 6).sub_const (6 * d)).const_mul K)
    refine this.congr_deriv ?_
    simp only [g3]; ring
  have g0 : g 0 = 0 := by simp [g]
  have gR : g R = 0 := by
    have : K * (R * (R - d) * (R - 2 * d)) = f R - f 0 - b * R - c * R ^ 2 := by
      rw [hK, div_mul_cancel₀ _ hne]
    simp only [g, this]; ring
  have gd : g d = 0 := by
    simp only [g, hb, hc]; field_simp; ring
  have gdd : g (2 * d) = 0 := by
    simp only [g, hb, hc]; field_simp; ring
  obtain ⟨a1, _, _, za1⟩ := rolle e1 hR (g0.trans gR.symm)
  obtain ⟨a2, _, _, za2⟩ := rolle e1 hd (gR.trans gd.symm)
  obtain ⟨a3, _, _, za3⟩ := rolle e1 (by linarith : d < 2 * d) (gd.trans gdd.symm)
  obtain ⟨b1, _, _, zb1⟩ := rolle e2 (by linarith : a1 < a2) (za1.trans za2.symm)
  obtain ⟨b2, _, _, zb2⟩ := rolle e2 (by linarith : a2 < a3) (za2.trans za3.symm)
  obtain ⟨x, _, _, zx⟩ := rolle e3 (by linarith : b1 < b2) (zb1.trans zb2.symm)
  have hx : |K| * 6 ≤ B := by
    have : f3 x = K * 6 := by simpa [g3, sub_eq_zero] using zx
    have h := hB x (by linarith) (by linarith)
    rwa [this, abs_mul, abs_of_pos (by norm_num : (0 : ℝ) < 6)] at h
  have key : diffR R d (f 0) (f d) (f (2 * d)) - (f R - f 0) / R = -(K * ((R - d) * (R - 2 * d))) := by
    have hKR : K * ((R - d) * (R - 2 * d)) = (f R - f 0 - b * R - c * R ^ 2) / R := by
      rw [eq_div_iff hR.ne']
      calc _ = K * (R * (R - d) * (R - 2 * d)) := by ring
        _ = _ := by rw [hK, div_mul_cancel₀ _ hne]
    rw [hKR]
    simp only [diffR, hb, hc]
    field_simp
    ring
  rw [key, abs_neg, abs_mul]
  have hq : |(R - d) * (R - 2 * d)| ≤ 2 * d ^ 2 := by
    rw [abs_of_nonneg (by nlinarith)]; nlinarith
  calc |K| * |(R - d) * (R - 2 * d)| ≤ |K| * (2 * d ^ 2) := by gcongr
    _ = |K| * 6 * d ^ 2 / 3 := by ring
    _ ≤ B * d ^ 2 / 3 := by gcongr

/-- C58: the extrapolation of vectors is the extrapolation of each component. -/
theorem c58_vector (R d : ℝ) (f0 f1 f2 : Vec3) :
    diffRVec R d f0 f1 f2
      = ⟨diffR R d f0.x f1.x f2.x, diffR R d f0.y f1.y f2.y, diffR R d f0.z f1.z f2.z⟩ := by
  ext <;> simp only [diffRVec, diffR, vx, vy, vz, wx, wy, wz, sx, sy, sz] <;> ring

end Sidis.Props
