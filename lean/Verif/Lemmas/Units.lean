import Verif.Lemmas.UnitsKin

/-! # Lemmas for a change of units: the cross-sections -/

namespace Sidis.Lemmas.Units

open Sidis.Spec Sidis.Props

variable {c : ℝ}

theorem projectR (k : KinematicsRad ℝ) : (kinRadInUnit c k).project = kinInUnit c k.project := rfl

section NoPhoton

variable (k : Kinematics ℝ) (ph : Phenom) (sf : SfFuns) (l : ℝ) (eta : Vec3)

theorem lepBorn_unit (c0 : c ≠ 0) : leptonicBorn (kinInUnit c k) =
    let t := leptonicBorn k
    ⟨c ^ 2 * t.c1, c ^ 4 * t.c2, c ^ 4 * t.c3, c ^ 4 * t.c4, c ^ 4 * t.c5, c ^ 6 * t.c6, c ^ 6 * t.c7,
      c ^ 6 * t.c8, c ^ 6 * t.c9⟩ := by
  simp only [leptonicBorn, LepBornBaseUU.make, LepBornBaseUP.make, LepBornBaseLU.make,
    LepBornBaseLP.make, kinInUnit, Nine.mk.injEq, sq]
  refine ⟨?_, ?_, ?_, ?_, ?_, ?_, ?_, ?_, ?_⟩ <;> first | ring1 | field_simp

theorem lepAmm_unit (c0 : c ≠ 0) : leptonicAmm (kinInUnit c k) =
    let t := leptonicAmm k
    ⟨t.c1, c ^ 2 * t.c2, c ^ 2 * t.c3, c ^ 2 * t.c4, c ^ 2 * t.c5, c ^ 4 * t.c6, c ^ 4 * t.c7,
      c ^ 4 * t.c8, c ^ 4 * t.c9⟩ := by
  simp only [leptonicAmm, LepAmmBaseUU.make, LepAmmBaseUP.make, LepAmmBaseLU.make,
    LepAmmBaseLP.make, kinInUnit, Nine.mk.injEq, sq]
  refine ⟨?_, ?_, ?_, ?_, ?_, ?_, ?_, ?_, ?_⟩ <;>
    first | trivial | ring1 | field_simp

/-- The hadronic components in another unit, with the coefficient `C_1`. -/
noncomputable def hadUnit (c : ℝ) (t : Nine) : Nine :=
  ⟨t.c1 / c ^ 6, t.c2 / c ^ 8, t.c3 / c ^ 8, t.c4 / c ^ 8, t.c5 / c ^ 8, t.c6 / c ^ 10, t.c7 / c ^ 10,
    t.c8 / c ^ 10, t.c9 / c ^ 10⟩

theorem cancel (c0 : c ≠ 0) (a : ℝ) : c ^ 2 * a / c ^ 2 = a := by field_simp

theorem had_unit (c0 : c ≠ 0) :
    hadronic (kinInUnit c k) (sfInUnit c sf) eta = hadUnit c (hadronic k sf eta) := by
  simp only [hadronic, hadronicOf, makeHadBaseUU, makeHadBaseUL, makeHadBaseUT, makeHadBaseLU,
    makeHadBaseLL, makeHadBaseLT, SfFuns.baseUU, SfFuns.baseUL, SfFuns.baseUT, SfFuns.baseLU,
    SfFuns.baseLL, SfFuns.baseLT, sfInUnit, fInUnit, hadUnit, kinInUnit, cancel c0, Nine.mk.injEq, sq]
  refine ⟨?_, ?_, ?_, ?_, ?_, ?_, ?_, ?_, ?_⟩ <;>
    first | ring1 | field_simp

theorem born_unit (c0 : c ≠ 0) :
    xsBorn (kinInUnit c k) ph (sfInUnit c sf) l eta = xsBorn k ph sf l eta / c ^ 4 := by
  rw [c54_born, c54_born, lepBorn_unit k c0, had_unit k sf eta c0]
  have e : bornCoeff (kinInUnit c k) ph = bornCoeff k ph := by
    simp only [bornCoeff, kinInUnit, sq]; field_simp
  rw [e]
  simp only [contract, hadUnit]
  field_simp

theorem logM_unit (hc : 0 < c) (q m : ℝ) : logM (c ^ 2 * q) (c * m) = logM q m / c ^ 2 := by
  have c0 := hc.ne'
  have a : c ^ 2 * q * (c ^ 2 * q + 4 * sq (c * m)) = c ^ (2 * 2) * (q * (q + 4 * sq m)) := by
    unfold sq; ring
  have b : 4 * sq (c * m) / (c ^ 2 * q) = 4 * sq m / q := by unfold sq; field_simp
  have s := sqrt_c hc 2 (q * (q + 4 * sq m))
  unfold logM
  dsimp only
  rw [a, b]
  change 1 / (CMath.sqrt (c ^ (2 * 2) * (q * (q + 4 * sq m)))) * _ = _
  rw [s]
  change 1 / (c ^ 2 * √(q * (q + 4 * sq m))) * _ = _
  field_simp

theorem amm_unit (hc : 0 < c) :
    xsAmm (kinInUnit c k) ph (sfInUnit c sf) l eta = xsAmm k ph sf l eta / c ^ 4 := by
  have c0 := hc.ne'
  rw [c54_amm, c54_amm, lepAmm_unit k c0, had_unit k sf eta c0]
  have e : ammCoeff (kinInUnit c k) ph = c ^ 2 * ammCoeff k ph := by
    simp only [ammCoeff, kinInUnit, sq, logM_unit hc]; field_simp
  rw [e]
  simp only [contract, hadUnit]
  field_simp

end NoPhoton

section Photon

variable (k : KinematicsRad ℝ) (ph : Phenom) (sf : SfFuns) (l : ℝ) (eta : Vec3)

set_option maxHeartbeats 4000000 in
theorem lepUU_unit : LepRadBaseUU.make (kinRadInUnit c k) =
    let t := LepRadBaseUU.make k
    ⟨c ^ 4 * t.theta_011, c ^ 2 * t.theta_012, t.theta_013, c ^ 6 * t.theta_021, c ^ 4 *
      t.theta_022, c ^ 2 * t.theta_023, c ^ 6 * t.theta_031, c ^ 4 * t.theta_032, c ^ 2 *
      t.theta_033, c ^ 6 * t.theta_041, c ^ 4 * t.theta_042, c ^ 2 * t.theta_043⟩ := by
  simp only [LepRadBaseUU.make, LepBornBaseUU.make, KinematicsRad.project, kinRadInUnit,
    LepRadBaseUU.mk.injEq, sq]
  refine ⟨?_, ?_, ?_, ?_, ?_, ?_, ?_, ?_, ?_, ?_, ?_, ?_⟩ <;> first | trivial | ring1

set_option maxHeartbeats 4000000 in
theorem lepUP_unit (c0 : c ≠ 0) : LepRadBaseUP.make (kinRadInUnit c k) =
    let t := LepRadBaseUP.make k
    ⟨c ^ 8 * t.theta_061, c ^ 6 * t.theta_062, c ^ 4 * t.theta_063, c ^ 2 * t.theta_064, c ^ 8
      * t.theta_081, c ^ 6 * t.theta_082, c ^ 4 * t.theta_083, c ^ 2 * t.theta_084⟩ := by
  simp only [LepRadBaseUP.make, LepBornBaseUP.make, KinematicsRad.project, kinRadInUnit,
    LepRadBaseUP.mk.injEq, sq]
  refine ⟨?_, ?_, ?_, ?_, ?_, ?_, ?_, ?_⟩ <;> first | trivial | ring1 | field_simp

set_option maxHeartbeats 4000000 in
theorem lepLU_unit (c0 : c ≠ 0) : LepRadBaseLU.make (kinRadInUnit c k) =
    let t := LepRadBaseLU.make k
    ⟨c ^ 6 * t.theta_051, c ^ 4 * t.theta_052, c ^ 2 * t.theta_053, c ^ 6 * t.theta_151, c ^ 4
      * t.theta_152, c ^ 2 * t.theta_153⟩ := by
  simp only [LepRadBaseLU.make, LepBornBaseLU.make, KinematicsRad.project, kinRadInUnit,
    LepRadBaseLU.mk.injEq, sq]
  refine ⟨?_, ?_, ?_, ?_, ?_, ?_⟩ <;> first | trivial | ring1 | field_simp

set_option maxHeartbeats 4000000 in
theorem lepLP_unit (c0 : c ≠ 0) : LepRadBaseLP.make (kinRadInUnit c k) =
    let t := LepRadBaseLP.make k
    ⟨c ^ 8 * t.theta_071, c ^ 6 * t.theta_072, c ^ 4 * t.theta_073, c ^ 2 * t.theta_074, c ^ 8
      * t.theta_171, c ^ 6 * t.theta_172, c ^ 4 * t.theta_173, c ^ 2 * t.theta_174, c ^ 8 *
      t.theta_091, c ^ 6 * t.theta_092, c ^ 4 * t.theta_093, c ^ 2 * t.theta_094, c ^ 8 *
      t.theta_191, c ^ 6 * t.theta_192, c ^ 4 * t.theta_193, c ^ 2 * t.theta_194⟩ := by
  simp only [LepRadBaseLP.make, LepBornBaseLP.make, KinematicsRad.project, kinRadInUnit,
    LepRadBaseLP.mk.injEq, sq]
  refine ⟨?_, ?_, ?_, ?_, ?_, ?_, ?_, ?_, ?_, ?_, ?_, ?_, ?_, ?_, ?_, ?_⟩ <;> first | trivial | ring1 | field_simp

/-- A vector divided by `c ^ n`. -/
noncomputable def vU (c : ℝ) (n : ℕ) (v : Vec3) : Vec3 := ⟨v.x / c ^ n, v.y / c ^ n, v.z / c ^ n⟩

/-- Hadronic coefficients in another unit. -/
noncomputable def uUU (c : ℝ) (u : HadBaseUU) : HadBaseUU :=
  ⟨u.H_10 / c ^ 6, u.H_20 / c ^ 8, u.H_30 / c ^ 8, u.H_40 / c ^ 8⟩

@[inherit_doc uUU] noncomputable def uLP (c : ℝ) (u : HadLP) : HadLP where
  uu := uUU c u.uu
  ul := ⟨u.ul.H_63 / c ^ 10, u.ul.H_83 / c ^ 10⟩
  ut := ⟨u.ut.H_12 / c ^ 6, u.ut.H_22 / c ^ 8, u.ut.H_32 / c ^ 8, u.ut.H_42 / c ^ 8,
    u.ut.H_61 / c ^ 10, u.ut.H_81 / c ^ 10⟩
  lu := ⟨u.lu.H_50 / c ^ 8⟩
  ll := ⟨u.ll.H_73 / c ^ 10, u.ll.H_93 / c ^ 10⟩
  lt := ⟨u.lt.H_52 / c ^ 8, u.lt.H_71 / c ^ 10, u.lt.H_91 / c ^ 10⟩

@[inherit_doc uUU] noncomputable def uRLP (c : ℝ) (u : HadRadLP) : HadRadLP where
  uu := ⟨u.uu.H_10 / c ^ 6, u.uu.H_20 / c ^ 8, u.uu.H_30 / c ^ 8, u.uu.H_40 / c ^ 8⟩
  up := ⟨vU c 6 u.up.H_1, vU c 8 u.up.H_2, vU c 8 u.up.H_3, vU c 8 u.up.H_4, vU c 10 u.up.H_6,
    vU c 10 u.up.H_8⟩
  lu := ⟨u.lu.H_50 / c ^ 8⟩
  lp := ⟨vU c 8 u.lp.H_5, vU c 10 u.lp.H_7, vU c 10 u.lp.H_9⟩

@[inherit_doc uUU] noncomputable def uFLP (c : ℝ) (u : HadRadFLP) : HadRadFLP where
  uu := ⟨u.uu.H_10 / c ^ 6, u.uu.H_20 / c ^ 8, u.uu.H_30 / c ^ 8, u.uu.H_40 / c ^ 8,
    u.uu.H_10_diff / c ^ 8, u.uu.H_20_diff / c ^ 10, u.uu.H_30_diff / c ^ 10,
    u.uu.H_40_diff / c ^ 10⟩
  up := ⟨vU c 6 u.up.H_1, vU c 8 u.up.H_2, vU c 8 u.up.H_3, vU c 8 u.up.H_4, vU c 10 u.up.H_6,
    vU c 10 u.up.H_8, vU c 8 u.up.H_1_diff, vU c 10 u.up.H_2_diff, vU c 10 u.up.H_3_diff,
    vU c 10 u.up.H_4_diff, vU c 12 u.up.H_6_diff, vU c 12 u.up.H_8_diff⟩
  lu := ⟨u.lu.H_50 / c ^ 8, u.lu.H_50_diff / c ^ 10⟩
  lp := ⟨vU c 8 u.lp.H_5, vU c 10 u.lp.H_7, vU c 10 u.lp.H_9, vU c 10 u.lp.H_5_diff,
    vU c 12 u.lp.H_7_diff, vU c 12 u.lp.H_9_diff⟩

theorem hadLP_unit (c0 : c ≠ 0) (k : Kinematics ℝ) :
    HadLP.make (kinInUnit c k) (sfInUnit c sf) = uLP c (HadLP.make k sf) := by
  simp only [HadLP.make, makeHadBaseUU, makeHadBaseUL, makeHadBaseUT, makeHadBaseLU,
    makeHadBaseLL, makeHadBaseLT, SfFuns.baseUU, SfFuns.baseUL, SfFuns.baseUT, SfFuns.baseLU,
    SfFuns.baseLL, SfFuns.baseLT, sfInUnit, fInUnit, uLP, uUU, kinInUnit, cancel c0,
    HadLP.mk.injEq, HadBaseUU.mk.injEq, HadBaseUL.mk.injEq, HadBaseUT.mk.injEq, HadBaseLU.mk.injEq,
    HadBaseLL.mk.injEq, HadBaseLT.mk.injEq, sq]
  repeat' apply And.intro
  all_goals first | ring1 | field_simp

theorem frame_unit (c0 : c ≠ 0) : Frame.hadronFromShift (kinRadInUnit c k) = Frame.hadronFromShift k := by
  simp only [Frame.hadronFromShift, Frame.shiftFromHadron, kinRadInUnit, sq]
  congr 2 <;> simp only [Vec3.mk.injEq] <;> refine ⟨?_, ?_, ?_⟩ <;> field_simp

theorem apply_unit (T : Transform3) (n : ℕ) (v : Vec3) : T.apply (vU c n v) = vU c n (T.apply v) := by
  ext <;> simp only [Transform3.apply, Vec3.dot, vU] <;> ring

theorem vU_mk (n : ℕ) (x y z : ℝ) : vU c n ⟨x, y, z⟩ = ⟨x / c ^ n, y / c ^ n, z / c ^ n⟩ := rfl

theorem radLP_unit (c0 : c ≠ 0) :
    HadRadLP.make (kinRadInUnit c k) (sfInUnit c sf) = uRLP c (HadRadLP.make k sf) := by
  simp only [HadRadLP.make, makeHadRadBaseUU, makeHadRadBaseUP, makeHadRadBaseLU, makeHadRadBaseLP,
    frame_unit k c0, SfFuns.baseUU, SfFuns.baseUP, SfFuns.baseUL, SfFuns.baseUT, SfFuns.baseLU,
    SfFuns.baseLP, SfFuns.baseLL, SfFuns.baseLT, sfInUnit, fInUnit, uRLP, ← apply_unit, vU_mk]
  simp only [kinRadInUnit, cancel c0, sq, HadRadLP.mk.injEq, HadRadBaseUU.mk.injEq,
    HadRadBaseUP.mk.injEq, HadRadBaseLU.mk.injEq, HadRadBaseLP.mk.injEq]
  have cg (T : Transform3) (v w : Vec3) (h : v = w) : T.apply v = T.apply w := by rw [h]
  refine ⟨⟨?_, ?_, ?_, ?_⟩, ⟨cg _ _ _ ?_, cg _ _ _ ?_, cg _ _ _ ?_, cg _ _ _ ?_, cg _ _ _ ?_,
    cg _ _ _ ?_⟩, ?_, cg _ _ _ ?_, cg _ _ _ ?_, cg _ _ _ ?_⟩
  all_goals try rw [Vec3.mk.injEq]
  all_goals try refine ⟨?_, ?_, ?_⟩
  all_goals first | ring1 | field_simp

theorem rad_unit (c0 : c ≠ 0) :
    xsRad (kinRadInUnit c k) ph (sfInUnit c sf) l eta = xsRad k ph sf l eta / c ^ 6 := by
  rw [c54_rad, c54_rad]
  have e : radCoeff (kinRadInUnit c k) ph = radCoeff k ph / c ^ 2 := by
    simp only [radCoeff, kinRadInUnit, sq]; field_simp
  have H (k : KinematicsRad ℝ) (sf : SfFuns) : hadronicRad k sf eta =
      let u := HadRadLP.make k sf
      ⟨u.uu.H_10 + u.up.H_1.dot eta, u.uu.H_20 + u.up.H_2.dot eta, u.uu.H_30 + u.up.H_3.dot eta,
        u.uu.H_40 + u.up.H_4.dot eta, u.lu.H_50 + u.lp.H_5.dot eta, u.up.H_6.dot eta,
        u.lp.H_7.dot eta, u.up.H_8.dot eta, u.lp.H_9.dot eta⟩ := rfl
  have eR : (kinRadInUnit c k).R = c ^ 2 * k.R := rfl
  rw [e, H, H, radLP_unit k sf c0]
  simp only [contract, leptonicRad, lepUU_unit, lepUP_unit k c0, lepLU_unit k c0, lepLP_unit k c0, eR,
    uRLP, vU, Vec3.dot]
  field_simp

theorem soft_unit (hc : 0 < c) : softStep (kinRadInUnit c k) = (softStep k).map (c ^ 2 * ·) := by
  have c0 := hc.ne'
  have tmin : ((kinInUnit c k.project).S_x - (kinInUnit c k.project).lambda_Y_sqrt)
      / (2 * sq (kinInUnit c k.project).M) = (k.project.S_x - k.project.lambda_Y_sqrt) / (2 * sq k.project.M) := by
    simp only [kinInUnit, sq]; field_simp
  have tmax : ((kinInUnit c k.project).S_x + (kinInUnit c k.project).lambda_Y_sqrt)
      / (2 * sq (kinInUnit c k.project).M) = (k.project.S_x + k.project.lambda_Y_sqrt) / (2 * sq k.project.M) := by
    simp only [kinInUnit, sq]; field_simp
  have mu (a b : ℝ) : Cut.muOf (kinInUnit c k.project) k.tau k.phi_k a b
      = Cut.muOf k.project k.tau k.phi_k a b := by
    simp only [Cut.muOf, kinInUnit, KinematicsRad.project, sq]
    field_simp
  have m : rBoundMax (kinInUnit c k.project) k.tau k.phi_k
      = (rBoundMax k.project k.tau k.phi_k).map (c ^ 2 * ·) := by
    unfold rBoundMax
    dsimp only
    rw [tmin, tmax, mu]
    have q (a : ℝ) : a * ((kinInUnit c k.project).mx_sq - sq (kinInUnit c k.project).Mth)
        = c ^ 2 * (a * (k.project.mx_sq - sq k.project.Mth)) := by
      simp only [kinInUnit, sq]; ring
    rw [q]
    have p (a : ℝ) : 0 ≤ c ^ 2 * a ↔ 0 ≤ a := mul_nonneg_iff_of_pos_left (by positivity)
    generalize 1 / (1 + k.tau - _) * (k.project.mx_sq - sq k.project.Mth) = a
    by_cases h : 0 ≤ a
    · rw [if_pos h, if_pos ((p a).2 h)]; rfl
    · rw [if_neg h, if_neg (mt (p a).1 h)]; rfl
  have eR : (kinRadInUnit c k).R = c ^ 2 * k.R := rfl
  have e : softStep (kinRadInUnit c k) = (rBoundMax (kinInUnit c k.project) k.tau k.phi_k).bind fun r =>
    let delta_R := r * deltaRRel
    open Classical in if c ^ 2 * k.R < delta_R then some delta_R else none := rfl
  rw [e, m]
  unfold softStep
  cases rBoundMax k.project k.tau k.phi_k with
  | none => rfl
  | some r =>
    have p : c ^ 2 * k.R < c ^ 2 * r * deltaRRel ↔ k.R < r * deltaRRel := by
      rw [mul_assoc, mul_lt_mul_iff_right₀ (by positivity)]
    simp only [Option.map_some, Option.bind_some, p]
    split
    · simp only [Option.map_some, mul_assoc]
    · rfl

theorem diffR_unit (c0 : c ≠ 0) (R d a b e : ℝ) (n : ℕ) :
    diffR (c ^ 2 * R) (c ^ 2 * d) (a / c ^ n) (b / c ^ n) (e / c ^ n) = diffR R d a b e / c ^ (n + 2) := by
  have h : c ^ 2 * R / (c ^ 2 * d) = R / d := by field_simp
  simp only [diffR, h, pow_add]
  field_simp

theorem diffRVec_unit (c0 : c ≠ 0) (R d : ℝ) (a b e : Vec3) (n : ℕ) :
    diffRVec (c ^ 2 * R) (c ^ 2 * d) (vU c n a) (vU c n b) (vU c n e)
      = vU c (n + 2) (diffRVec R d a b e) := by
  have h : c ^ 2 * R / (c ^ 2 * d) = R / d := by field_simp
  have q (x y z : ℝ) : ((x / c ^ n * (R / d - 3) - y / c ^ n * (2 * (R / d - 2)))
      + z / c ^ n * (R / d - 1)) * (1 / (2 * (c ^ 2 * d)))
      = (((x * (R / d - 3) - y * (2 * (R / d - 2))) + z * (R / d - 1)) * (1 / (2 * d)))
        / c ^ (n + 2) := by
    rw [pow_add]; field_simp
  unfold diffRVec
  dsimp only
  rw [h]
  ext
  · exact q a.x b.x e.x
  · exact q a.y b.y e.y
  · exact q a.z b.z e.z

theorem divVec_unit (c0 : c ≠ 0) (R : ℝ) (a b : Vec3) (n : ℕ) :
    (vU c n a - vU c n b) / (c ^ 2 * R) = vU c (n + 2) ((a - b) / R) := by
  have q (x y : ℝ) : (x / c ^ n - y / c ^ n) / (c ^ 2 * R) = (x - y) / R / c ^ (n + 2) := by
    rw [pow_add]; field_simp
  ext
  · exact q a.x b.x
  · exact q a.y b.y
  · exact q a.z b.z

theorem div_unit (c0 : c ≠ 0) (R a b : ℝ) (n : ℕ) :
    (a / c ^ n - b / c ^ n) / (c ^ 2 * R) = (a - b) / R / c ^ (n + 2) := by
  rw [pow_add]; field_simp

theorem radFLP_unit (hc : 0 < c) (h0 : HadLP) :
    HadRadFLP.make0 (kinRadInUnit c k) (sfInUnit c sf) (uLP c h0)
      = uFLP c (HadRadFLP.make0 k sf h0) := by
  have c0 := hc.ne'
  have eR : (kinRadInUnit c k).R = c ^ 2 * k.R := rfl
  have z (n : ℕ) : (0 : ℝ) = 0 / c ^ n := by simp
  have v0 (n : ℕ) (y : ℝ) : (⟨0, y / c ^ n, 0⟩ : Vec3) = vU c n ⟨0, y, 0⟩ := by simp [vU]
  have v1 (n : ℕ) (x y : ℝ) : (⟨x / c ^ n, 0, y / c ^ n⟩ : Vec3) = vU c n ⟨x, 0, y⟩ := by simp [vU]
  unfold HadRadFLP.make0
  dsimp only
  rw [soft_unit k hc, radLP_unit k sf c0]
  cases softStep k with
  | none =>
    simp only [Option.map_none, makeHadRadFBaseUUDiff, makeHadRadFBaseUPDiff, makeHadRadFBaseLUDiff,
      makeHadRadFBaseLPDiff, eR, uRLP, uLP, uUU, uFLP, v0, v1, div_unit c0, divVec_unit c0]
  | some d =>
    have m (x : ℝ) : KinematicsRad.make (kinRadInUnit c k).project (kinRadInUnit c k).tau
        (kinRadInUnit c k).phi_k (c ^ 2 * x)
        = kinRadInUnit c (KinematicsRad.make k.project k.tau k.phi_k x) :=
      makeR_unit hc k.project k.tau k.phi_k x
    have t : 2 * (c ^ 2 * d) = c ^ 2 * (2 * d) := by ring
    simp only [Option.map_some, t, m, radLP_unit _ sf c0]
    simp only [makeHadRadFBaseUUDeriv, makeHadRadFBaseUPDeriv, makeHadRadFBaseLUDeriv,
      makeHadRadFBaseLPDeriv, eR, uRLP, uLP, uUU, uFLP, v0, v1, diffR_unit c0, diffRVec_unit c0]

theorem radF_unit (hc : 0 < c) :
    xsRadF (kinRadInUnit c k) ph (sfInUnit c sf) l eta = xsRadF k ph sf l eta / c ^ 6 := by
  have c0 := hc.ne'
  rw [c54_rad_f, c54_rad_f, c54_rad_f_integrand, c54_rad_f_integrand, projectR, hadLP_unit sf c0]
  have e : radCoeff (kinRadInUnit c k) ph = radCoeff k ph / c ^ 2 := by
    simp only [radCoeff, kinRadInUnit, sq]; field_simp
  have eR : (kinRadInUnit c k).R = c ^ 2 * k.R := rfl
  have vx (a b : Vec3) : (a + b).x = a.x + b.x := rfl
  have vy (a b : Vec3) : (a + b).y = a.y + b.y := rfl
  have vz (a b : Vec3) : (a + b).z = a.z + b.z := rfl
  have sx (s : ℝ) (a : Vec3) : (s • a).x = a.x * s := rfl
  have sy (s : ℝ) (a : Vec3) : (s • a).y = a.y * s := rfl
  have sz (s : ℝ) (a : Vec3) : (s • a).z = a.z * s := rfl
  simp only [radFLP_unit k sf hc, e, eR, lepUU_unit, lepUP_unit k c0, lepLU_unit k c0, lepLP_unit k c0,
    uFLP, radFBaseUU, radFBaseUP, radFBaseLU, radFBaseLP, vU, Vec3.dot, vx, vy, vz, sx, sy, sz]
  field_simp

end Photon

section Soft

variable (k : Kinematics ℝ)

theorem sqrt_r (hc : 0 < c) (a : ℝ) : √(c ^ (2 * 2) * a) = c ^ 2 * √a := sqrt_c hc 2 a

theorem vert0_unit (hc : 0 < c) : deltaVertRad0 (kinInUnit c k) = deltaVertRad0 k := by
  have c0 := hc.ne'
  unfold deltaVertRad0
  dsimp only [kinInUnit]
  have hS : c ^ 2 * k.S - c ^ 2 * k.Q_sq - c ^ 2 * k.V_1 = c ^ 2 * (k.S - k.Q_sq - k.V_1) := by ring
  have hX : c ^ 2 * k.X + c ^ 2 * k.Q_sq - c ^ 2 * k.V_2 = c ^ 2 * (k.X + k.Q_sq - k.V_2) := by ring
  rw [hS, hX]
  generalize k.S - k.Q_sq - k.V_1 = S'
  generalize k.X + k.Q_sq - k.V_2 = X'
  generalize k.Q_sq = q
  generalize k.mx_sq = w
  generalize k.m = m
  have hQ : c ^ 2 * q + 2 * sq (c * m) = c ^ 2 * (q + 2 * sq m) := by unfold sq; ring
  have hm : c ^ 2 * q * (c ^ 2 * q + 4 * sq (c * m)) = c ^ (2 * 2) * (q * (q + 4 * sq m)) := by
    unfold sq; ring
  have hl (s : ℝ) : sq (c ^ 2 * s) - 4 * sq (c * m) * (c ^ 2 * w)
      = c ^ (2 * 2) * (sq s - 4 * sq m * w) := by unfold sq; ring
  have dm : 4 * sq (c * m) / (c ^ 2 * q) = 4 * sq m / q := by unfold sq; field_simp
  have dl (s : ℝ) : -(4 * sq (c * m) * (c ^ 2 * w)) / sq (c ^ 2 * s) = -(4 * sq m * w) / sq s := by
    unfold sq; field_simp
  rw [hQ, hm, hl, hl, sqrt_r hc, sqrt_r hc, sqrt_r hc, dm, dl, dl]
  generalize √(q * (q + 4 * sq m)) = L
  generalize √(sq S' - 4 * sq m * w) = LS
  generalize √(sq X' - 4 * sq m * w) = LX
  generalize Real.log ((2 + sqrt1p1mR (4 * sq m / q)) / sqrt1p1mR (4 * sq m / q)) = gm
  generalize Real.log (-(2 + sqrt1p1mR (-(4 * sq m * w) / sq S')) / sqrt1p1mR (-(4 * sq m * w) / sq S'))
    = gS
  generalize Real.log (-(2 + sqrt1p1mR (-(4 * sq m * w) / sq X')) / sqrt1p1mR (-(4 * sq m * w) / sq X'))
    = gX
  generalize 2 + sqrt1p1mR (4 * sq m / q) = um
  generalize 2 + sqrt1p1mR (-(4 * sq m * w) / sq S') = uS
  generalize 2 + sqrt1p1mR (-(4 * sq m * w) / sq X') = uX
  have hr : 1 / (c ^ 2 * L) * ((c ^ 2 * (q + 2 * sq m) + c ^ 2 * L) * (c ^ 2 * S')
      - 2 * sq (c * m) * (c ^ 2 * X'))
      = c ^ 2 * (1 / L * ((q + 2 * sq m + L) * S' - 2 * sq m * X')) := by unfold sq; field_simp
  rw [hr]
  generalize 1 / L * ((q + 2 * sq m + L) * S' - 2 * sq m * X') = rho
  have d1 : 1 - 1 / (uS * (c ^ 2 * S')) * (c ^ 2 * rho) = 1 - 1 / (uS * S') * rho := by field_simp
  have d2 : 1 - uS * (c ^ 2 * S') / (4 * sq (c * m) * (c ^ 2 * w)) * (c ^ 2 * rho)
      = 1 - uS * S' / (4 * sq m * w) * rho := by unfold sq; field_simp
  have d3 : 1 - uX * (c ^ 2 * X') / (c ^ 2 * w * sq um * (c ^ 2 * q)) * (c ^ 2 * rho)
      = 1 - uX * X' / (w * sq um * q) * rho := by unfold sq; field_simp
  have d4 : 1 - 4 * sq (c * m) / (uX * (c ^ 2 * X') * sq um * (c ^ 2 * q)) * (c ^ 2 * rho)
      = 1 - 4 * sq m / (uX * X' * sq um * q) * rho := by unfold sq; field_simp
  have d5 : 2 * (c ^ 2 * L) / (c ^ 2 * q + c ^ 2 * L) = 2 * L / (q + L) := by field_simp
  rw [d1, d2, d3, d4, d5]
  have e0 : c ^ 2 * (q + 2 * sq m) / (c ^ 2 * L) = (q + 2 * sq m) / L := by field_simp
  have e1 (s l g : ℝ) : c ^ (2 * 2) * s * sq (1 / (c ^ 2 * l) * g) = s * sq (1 / l * g) := by
    rw [show 2 * 2 = 4 from rfl]; unfold sq; field_simp
  have e2 (s l g : ℝ) : 1 / 2 * (c ^ 2 * s) * (1 / (c ^ 2 * l) * g) = 1 / 2 * s * (1 / l * g) := by
    field_simp
  have e3 (l g : ℝ) : (3 / 2 * (c ^ 2 * q) + 4 * sq (c * m)) * (1 / (c ^ 2 * l) * g)
      = (3 / 2 * q + 4 * sq m) * (1 / l * g) := by unfold sq; field_simp
  have e4 (s l g : ℝ) : 1 / 2 * (c ^ (2 * 2) * s) * sq (1 / (c ^ 2 * l) * g)
      = 1 / 2 * s * sq (1 / l * g) := by
    rw [show 2 * 2 = 4 from rfl]; unfold sq; field_simp
  rw [e0, e1, e1, e2, e2, e3, e4]

theorem fin_lt_mul (hc : 0 < c) (a : ℝ) (x : Fl) : Fl.fin (c * a) < Fl.fin c * x ↔ Fl.fin a < x := by
  cases x <;> simp [Fl.infTimes, hc, hc.not_gt]

theorem mul_lt_fin (hc : 0 < c) (a : ℝ) (x : Fl) : Fl.fin c * x < Fl.fin (c * a) ↔ x < Fl.fin a := by
  cases x <;> simp [Fl.infTimes, hc, hc.not_gt]

theorem inf_unit (hc : 0 < c) (a : ℝ) : Fl.infTimes (c * a) = Fl.infTimes a := by
  have p : 0 < c * a ↔ 0 < a := mul_pos_iff_of_pos_left hc
  have n : c * a < 0 ↔ a < 0 := by
    constructor
    · intro h; by_contra g; exact absurd (mul_nonneg hc.le (not_lt.1 g)) (not_le.2 h)
    · exact fun h => mul_neg_of_pos_of_neg hc h
  simp only [Fl.infTimes, p, n]

theorem fl_div_unit (hc : 0 < c) (y : Fl) (m : ℝ) : .fin c * y / .fin (c * m) = y / .fin m := by
  have n : c * m < 0 ↔ m < 0 := by
    constructor
    · intro h; by_contra g; exact absurd (mul_nonneg hc.le (not_lt.1 g)) (not_le.2 h)
    · exact fun h => mul_neg_of_pos_of_neg hc h
  cases y with
  | nan => rfl
  | ninf =>
    change Fl.div (Fl.infTimes (-c)) (.fin (c * m)) = Fl.div .ninf (.fin m)
    simp [Fl.infTimes, hc, hc.not_gt, Fl.div, n]
  | pinf =>
    change Fl.div (Fl.infTimes c) (.fin (c * m)) = Fl.div .pinf (.fin m)
    simp [Fl.infTimes, hc, Fl.div, n]
  | fin r =>
    change Fl.div (.fin (c * r)) (.fin (c * m)) = Fl.div (.fin r) (.fin m)
    have c0 := hc.ne'
    simp only [Fl.div, inf_unit hc, mul_eq_zero, c0, false_or]
    rw [mul_div_mul_left _ _ c0]

theorem two_comm (hc : 0 < c) (x : Fl) : .fin 2 * (.fin c * x) = .fin c * (.fin 2 * x) := by
  cases x with
  | nan => rfl
  | ninf =>
    change Fl.mul (.fin 2) (Fl.infTimes (-c)) = Fl.mul (.fin c) (Fl.infTimes (-2))
    have t : ¬(2 : ℝ) < 0 := by norm_num
    simp [Fl.infTimes, hc, hc.not_gt, Fl.mul, t]
  | pinf =>
    change Fl.mul (.fin 2) (Fl.infTimes c) = Fl.mul (.fin c) (Fl.infTimes 2)
    simp [Fl.infTimes, hc, Fl.mul]
  | fin r =>
    change Fl.fin (2 * (c * r)) = Fl.fin (c * (2 * r))
    rw [mul_left_comm]

theorem vert_unit (hc : 0 < c) (x : Fl) :
    deltaVertRadIr (kinInUnit c k) (.fin c * x) = deltaVertRadIr k x := by
  have c0 := hc.ne'
  unfold deltaVertRadIr
  rw [vert0_unit k hc]
  dsimp only [kinInUnit]
  have k0 : (c ^ 2 * k.mx_sq - sq (c * k.Mth)) / (2 * (c * k.mx))
      = c * ((k.mx_sq - sq k.Mth) / (2 * k.mx)) := by unfold sq; field_simp
  have k1 : (c ^ 2 * k.mx_sq - sq (c * k.Mth)) / (c * k.m * (c * k.mx))
      = (k.mx_sq - sq k.Mth) / (k.m * k.mx) := by unfold sq; field_simp
  have hz := fin_lt_mul hc 0 x
  rw [mul_zero] at hz
  have hL : (c ^ 2 * k.Q_sq + 2 * sq (c * k.m)) * logM (c ^ 2 * k.Q_sq) (c * k.m)
      = (k.Q_sq + 2 * sq k.m) * logM k.Q_sq k.m := by
    rw [logM_unit hc]; unfold sq; field_simp
  have hx : .fin 2 * (.fin c * x) / .fin (c * k.m) = .fin 2 * x / .fin k.m := by
    rw [two_comm hc, fl_div_unit hc]
  simp only [k0, k1, hz, hL, mul_lt_fin hc, hx]

theorem hard_unit (hc : 0 < c) (x : Fl) :
    deltaRadIrHard (kinInUnit c k) (.fin c * x) = deltaRadIrHard k x := by
  have c0 := hc.ne'
  unfold deltaRadIrHard
  dsimp only [kinInUnit]
  have k0 : (c ^ 2 * k.mx_sq - sq (c * k.Mth)) / (2 * (c * k.mx))
      = c * ((k.mx_sq - sq k.Mth) / (2 * k.mx)) := by unfold sq; field_simp
  have hz := fin_lt_mul hc 0 x
  rw [mul_zero] at hz
  have hL : (c ^ 2 * k.Q_sq + 2 * sq (c * k.m)) * logM (c ^ 2 * k.Q_sq) (c * k.m)
      = (k.Q_sq + 2 * sq k.m) * logM k.Q_sq k.m := by
    rw [logM_unit hc]; unfold sq; field_simp
  have k1 : c ^ 2 * k.mx_sq - sq (c * k.Mth) = c * (c * (k.mx_sq - sq k.Mth)) := by unfold sq; ring
  simp only [k0, hz, hL, mul_lt_fin hc]
  split
  · rfl
  split
  · rfl
  rename_i h0 h1
  cases x with
  | nan => simp at h0
  | ninf => simp at h0
  | pinf => simp at h1
  | fin r =>
    have e : Fl.fin 2 * (.fin c * .fin r) * .fin (c * k.mx) = .fin (c * (c * (2 * r * k.mx))) := by
      change Fl.fin _ = Fl.fin _
      congr 1
      ring
    have e' : Fl.fin 2 * .fin r * .fin k.mx = .fin (2 * r * k.mx) := rfl
    have m (a b : ℝ) : Fl.fin (a * b) = Fl.fin a * .fin b := rfl
    rw [e, e', k1, m c (c * (k.mx_sq - sq k.Mth)), fl_div_unit hc, m c (k.mx_sq - sq k.Mth), fl_div_unit hc]

end Soft

end Sidis.Lemmas.Units
