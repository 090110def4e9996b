import Verif.Props.CrossSection
import Mathlib.Tactic.Ring

/-! # Lemmas for the symmetries of the cross-sections -/

namespace Sidis.Lemmas.Symmetry

open Sidis.Spec Sidis.Props

/-- Everything odd under a mirror negated; `q` is the new `phi_q`. -/
noncomputable def flipK (q : ℝ) (k : Kinematics ℝ) : Kinematics ℝ :=
  { k with
    phi_h := -k.phi_h, phi := -k.phi, phi_q := q, vol_phi_h := -k.vol_phi_h
    sin_phi_h := -k.sin_phi_h, sin_phi_q := -k.sin_phi_q, sin_phi := -k.sin_phi }

/-- The same with a photon; `q`, `h` and `p` are the new `phi_q`, `shift_phi_h`, `shift_phi_q`. -/
noncomputable def flipR (q h p : ℝ) (k : KinematicsRad ℝ) : KinematicsRad ℝ :=
  { k with
    phi_h := -k.phi_h, phi := -k.phi, phi_q := q, vol_phi_h := -k.vol_phi_h
    sin_phi_h := -k.sin_phi_h, sin_phi_q := -k.sin_phi_q, sin_phi := -k.sin_phi
    phi_k := -k.phi_k, vol_phi_k_R := -k.vol_phi_k_R, vol_phi_hk := -k.vol_phi_hk
    sin_phi_k := -k.sin_phi_k, shift_phi_h := h, shift_phi_q := p
    shift_sin_phi_h := -k.shift_sin_phi_h, shift_sin_phi_q := -k.shift_sin_phi_q
    shift_vol_phi_h := -k.shift_vol_phi_h }

/-- The image of a spin in the mirror, in the hadron frame. -/
def flipSpin (s : Vec3) : Vec3 := ⟨-s.x, s.y, -s.z⟩

theorem cosR (x : ℝ) : CMath.cos x = Real.cos x := rfl
theorem sinR (x : ℝ) : CMath.sin x = Real.sin x := rfl

theorem make_mirror (ps : Particles ℝ) (S : ℝ) (pt : PhaseSpace ℝ) :
    Kinematics.make ps S { pt with phi_h := -pt.phi_h, phi := -pt.phi }
      = flipK (wrapPhiQ (-pt.phi)) (Kinematics.make ps S pt) := by
  simp only [Kinematics.make, flipK, cosR, sinR, Real.cos_neg, Real.sin_neg, mul_neg]

theorem makeR_mirror (k : Kinematics ℝ) (q tau phi_k R : ℝ) : ∃ h p,
    KinematicsRad.make (flipK q k) tau (-phi_k) R
      = flipR q h p (KinematicsRad.make k tau phi_k R) := by
  refine ⟨(KinematicsRad.make (flipK q k) tau (-phi_k) R).shift_phi_h,
    (KinematicsRad.make (flipK q k) tau (-phi_k) R).shift_phi_q, ?_⟩
  have e : -k.phi_h - -phi_k = -(k.phi_h - phi_k) := by ring
  simp only [KinematicsRad.make, flipK, flipR, cosR, sinR, Real.cos_neg, Real.sin_neg, e]
  rw [KinematicsRad.mk.injEq]
  refine ⟨?_, ?_⟩
  · rfl
  repeat' apply And.intro
  all_goals first | rfl | ring

theorem makeR_project (k : Kinematics ℝ) (tau phi_k R : ℝ) :
    (KinematicsRad.make k tau phi_k R).project = k := rfl

theorem flipR_project (q h p : ℝ) (k : KinematicsRad ℝ) : (flipR q h p k).project = flipK q k.project :=
  rfl

section NoPhoton

variable (q : ℝ) (k : Kinematics ℝ) (ph : Phenom) (sf : SfFuns) (l : ℝ) (eta : Vec3)

theorem contract_flip (t t' : Nine) (h1 : t'.c1 = t.c1) (h2 : t'.c2 = t.c2) (h3 : t'.c3 = t.c3)
    (h4 : t'.c4 = t.c4) (h5 : t'.c5 = -t.c5) (h6 : t'.c6 = -t.c6) (h7 : t'.c7 = t.c7)
    (h8 : t'.c8 = -t.c8) (h9 : t'.c9 = t.c9) :
    contract t' (hadronic (flipK q k) sf (flipSpin eta)) (-l) = contract t (hadronic k sf eta) l := by
  have e : hadronic (flipK q k) sf (flipSpin eta) = hadronic k sf (flipSpin eta) := rfl
  rw [e]
  simp only [contract, hadronic, hadronicOf, flipSpin, h1, h2, h3, h4, h5, h6, h7, h8, h9]
  ring

theorem born_flip : xsBorn (flipK q k) ph sf (-l) (flipSpin eta) = xsBorn k ph sf l eta := by
  rw [c54_born, c54_born]
  have e : bornCoeff (flipK q k) ph = bornCoeff k ph := rfl
  rw [e, contract_flip q k sf l eta (leptonicBorn k) (leptonicBorn (flipK q k))]
  all_goals
    simp only [leptonicBorn, LepBornBaseUU.make, LepBornBaseUP.make, LepBornBaseLU.make,
      LepBornBaseLP.make, flipK] <;> ring

theorem amm_flip : xsAmm (flipK q k) ph sf (-l) (flipSpin eta) = xsAmm k ph sf l eta := by
  rw [c54_amm, c54_amm]
  have e : ammCoeff (flipK q k) ph = ammCoeff k ph := rfl
  rw [e, contract_flip q k sf l eta (leptonicAmm k) (leptonicAmm (flipK q k))]
  all_goals
    simp only [leptonicAmm, LepAmmBaseUU.make, LepAmmBaseUP.make, LepAmmBaseLU.make,
      LepAmmBaseLP.make, flipK] <;> ring

theorem infTimes_neg (r : ℝ) : Fl.infTimes (-r) = -Fl.infTimes r := by
  unfold Fl.infTimes
  rcases lt_trichotomy r 0 with h | rfl | h
  · simp [h, h.le, not_lt.2 h.le]
  · simp
  · simp [h, h.le, not_lt.2 h.le]

theorem neg_neg' (a : Fl) : - -a = a := by cases a <;> simp

theorem mul_neg' (a b : Fl) : a * -b = -(a * b) := by
  cases a <;> cases b <;> simp [infTimes_neg, neg_neg']

theorem neg_mul' (a b : Fl) : -a * b = -(a * b) := by
  cases a <;> cases b <;> simp [infTimes_neg, neg_neg']

theorem neg_add' (a b : Fl) : -a + -b = -(a + b) := by
  cases a <;> cases b <;> simp; ring

theorem combine_flip (uu ux uy uz lu lx ly lz : Fl) :
    xsCombine uu ⟨-ux, uy, -uz⟩ (-lu) ⟨lx, -ly, lz⟩ (-l) (flipSpin eta)
      = xsCombine uu ⟨ux, uy, uz⟩ lu ⟨lx, ly, lz⟩ l eta := by
  simp only [xsCombine, flipSpin, CMath.ofReal]
  simp only [← Fl.neg_fin, mul_neg', neg_mul', neg_neg', neg_add']

theorem fromBase_flip {A B C D : Type} (X : XsBase Fl A B C D) {a a' : A} {b b' : B} {c c' : C}
    {d d' : D} (uu : ∀ h, X.uu a' h = X.uu a h) (ul : ∀ h, X.ul b' h = -X.ul b h)
    (ut1 : ∀ h, X.ut1 b' h = -X.ut1 b h) (ut2 : ∀ h, X.ut2 a' h = X.ut2 a h)
    (lu : ∀ h, X.lu c' h = -X.lu c h) (ll : ∀ h, X.ll d' h = X.ll d h)
    (lt1 : ∀ h, X.lt1 d' h = X.lt1 d h) (lt2 : ∀ h, X.lt2 c' h = -X.lt2 c h) :
    xsFromBase X a' b' c' d' k sf (-l) (flipSpin eta) = xsFromBase X a b c d k sf l eta := by
  have z : -(Fl.fin 0) = Fl.fin 0 := by simp
  have o : (CMath.ofReal 0 : Fl) = .fin 0 := rfl
  have d0 : decide (-l ≠ 0) = decide (l ≠ 0) := by simp
  have dx : decide ((flipSpin eta).x ≠ 0) = decide (eta.x ≠ 0) := by simp [flipSpin]
  have dy : decide ((flipSpin eta).y ≠ 0) = decide (eta.y ≠ 0) := rfl
  have dz : decide ((flipSpin eta).z ≠ 0) = decide (eta.z ≠ 0) := by simp [flipSpin]
  unfold xsFromBase
  rw [d0, dx, dy, dz]
  simp only [uu, ut2, ll, lt1, ul, ut1, lu, lt2, o]
  split <;> (conv_rhs => rw [← combine_flip]) <;> simp only [z]

theorem fromBase_hadron {A B C D : Type} (X : XsBase Fl A B C D) (a : A) (b : B) (c : C) (d : D) :
    xsFromBase X a b c d (flipK q k) sf l eta = xsFromBase X a b c d k sf l eta := by
  have huu : HadUU.make (flipK q k) sf = HadUU.make k sf := rfl
  have hul : HadUL.make (flipK q k) sf = HadUL.make k sf := rfl
  have hut : HadUT.make (flipK q k) sf = HadUT.make k sf := rfl
  have hup : HadUP.make (flipK q k) sf = HadUP.make k sf := rfl
  have hlu : HadLU.make (flipK q k) sf = HadLU.make k sf := rfl
  have hll : HadLL.make (flipK q k) sf = HadLL.make k sf := rfl
  have hlt : HadLT.make (flipK q k) sf = HadLT.make k sf := rfl
  have hlp : HadLP.make (flipK q k) sf = HadLP.make k sf := rfl
  unfold xsFromBase
  rw [huu, hul, hut, hup, hlu, hll, hlt, hlp]

theorem nrad_flip (c : Fl) :
    xsNradIr (flipK q k) ph sf (-l) (flipSpin eta) c = xsNradIr k ph sf l eta c := by
  have e : NradCoeff.make (flipK q k) ph c = NradCoeff.make k ph c := rfl
  unfold xsNradIr
  rw [e, fromBase_hadron]
  generalize NradCoeff.make k ph c = b
  have th (x y : ℝ) : b.coeff_born * .fin (-x) + b.coeff_amm * .fin (-y)
      = -(b.coeff_born * .fin x + b.coeff_amm * .fin y) := by
    simp only [← Fl.neg_fin, mul_neg', neg_add']
  have b6 : (LepBornBaseUP.make (flipK q k)).theta_6 = -(LepBornBaseUP.make k).theta_6 := by
    simp only [LepBornBaseUP.make, flipK]; ring
  have b8 : (LepBornBaseUP.make (flipK q k)).theta_8 = -(LepBornBaseUP.make k).theta_8 := by
    simp only [LepBornBaseUP.make, flipK]; ring
  have b5 : (LepBornBaseLU.make (flipK q k)).theta_5 = -(LepBornBaseLU.make k).theta_5 := by
    simp only [LepBornBaseLU.make, flipK]; ring
  have a6 : (LepAmmBaseUP.make (flipK q k)).theta_6 = -(LepAmmBaseUP.make k).theta_6 := by
    simp only [LepAmmBaseUP.make]; ring
  have a8 : (LepAmmBaseUP.make (flipK q k)).theta_8 = -(LepAmmBaseUP.make k).theta_8 := by
    simp only [LepAmmBaseUP.make]; ring
  have a5 : (LepAmmBaseLU.make (flipK q k)).theta_5 = -(LepAmmBaseLU.make k).theta_5 := by
    simp only [LepAmmBaseLU.make, flipK]; ring
  apply fromBase_flip
  · exact fun had => rfl
  · intro had
    simp only [nradBase, LepNradBaseUP.make, b6, b8, a6, a8, th, neg_mul', neg_add']
  · intro had
    simp only [nradBase, LepNradBaseUP.make, b6, b8, a6, a8, th, neg_mul', neg_add']
  · exact fun had => rfl
  · intro had
    simp only [nradBase, LepNradBaseLU.make, b5, a5, th, neg_mul']
  · exact fun had => rfl
  · exact fun had => rfl
  · intro had
    simp only [nradBase, LepNradBaseLU.make, b5, a5, th, neg_mul']

end NoPhoton

section Photon

variable (q h p : ℝ) (k : KinematicsRad ℝ) (ph : Phenom) (sf : SfFuns) (l : ℝ) (eta : Vec3)

/-- The image of a vector odd under the mirror. -/
def flipOdd (s : Vec3) : Vec3 := ⟨s.x, -s.y, s.z⟩

theorem rot_y (r : ℝ) : (Frame.hadronFromShift (flipR q h p k)).apply ⟨0, r, 0⟩
    = flipSpin ((Frame.hadronFromShift k).apply ⟨0, r, 0⟩) := by
  ext <;> simp [flipSpin, Frame.hadronFromShift, Frame.shiftFromHadron, Transform3.transpose,
    Transform3.apply, Vec3.dot, flipR]

theorem rot_xz (a b : ℝ) : (Frame.hadronFromShift (flipR q h p k)).apply ⟨a, 0, b⟩
    = flipOdd ((Frame.hadronFromShift k).apply ⟨a, 0, b⟩) := by
  ext <;> simp [flipOdd, Frame.hadronFromShift, Frame.shiftFromHadron, Transform3.transpose,
    Transform3.apply, Vec3.dot, flipR]
  ring

/-- Coefficients in the mirror. -/
def flipUP (u : HadRadBaseUP) : HadRadBaseUP :=
  ⟨flipSpin u.H_1, flipSpin u.H_2, flipSpin u.H_3, flipSpin u.H_4, flipOdd u.H_6, flipOdd u.H_8⟩

@[inherit_doc flipUP] def flipLP (u : HadRadBaseLP) : HadRadBaseLP :=
  ⟨flipSpin u.H_5, flipOdd u.H_7, flipOdd u.H_9⟩

@[inherit_doc flipUP] def flipFUP (u : HadRadFBaseUP) : HadRadFBaseUP :=
  ⟨flipSpin u.H_1, flipSpin u.H_2, flipSpin u.H_3, flipSpin u.H_4, flipOdd u.H_6, flipOdd u.H_8,
    flipSpin u.H_1_diff, flipSpin u.H_2_diff, flipSpin u.H_3_diff, flipSpin u.H_4_diff,
    flipOdd u.H_6_diff, flipOdd u.H_8_diff⟩

@[inherit_doc flipUP] def flipFLP (u : HadRadFBaseLP) : HadRadFBaseLP :=
  ⟨flipSpin u.H_5, flipOdd u.H_7, flipOdd u.H_9, flipSpin u.H_5_diff, flipOdd u.H_7_diff,
    flipOdd u.H_9_diff⟩

theorem hadUP_flip (u : SfBaseUP) :
    makeHadRadBaseUP (flipR q h p k) u = flipUP (makeHadRadBaseUP k u) := by
  simp only [makeHadRadBaseUP, rot_y, rot_xz, flipUP]
  rfl

theorem hadLP_flip (u : SfBaseLP) :
    makeHadRadBaseLP (flipR q h p k) u = flipLP (makeHadRadBaseLP k u) := by
  simp only [makeHadRadBaseLP, rot_y, rot_xz, flipLP]
  rfl

theorem radLP_flip : HadRadLP.make (flipR q h p k) sf
    = { HadRadLP.make k sf with
        up := flipUP (HadRadLP.make k sf).up, lp := flipLP (HadRadLP.make k sf).lp } := by
  simp only [HadRadLP.make, hadUP_flip, hadLP_flip]
  rfl

theorem lepUU_flip : LepRadBaseUU.make (flipR q h p k) = LepRadBaseUU.make k := rfl
theorem lepLP_flip : LepRadBaseLP.make (flipR q h p k) = LepRadBaseLP.make k := rfl

set_option maxHeartbeats 1000000 in
theorem lepUP_flip : LepRadBaseUP.make (flipR q h p k) =
    let t := LepRadBaseUP.make k
    ⟨-t.theta_061, -t.theta_062, -t.theta_063, -t.theta_064, -t.theta_081, -t.theta_082,
      -t.theta_083, -t.theta_084⟩ := by
  simp only [LepRadBaseUP.make, LepBornBaseUP.make, KinematicsRad.project, flipR,
    LepRadBaseUP.mk.injEq]
  refine ⟨?_, ?_, ?_, ?_, ?_, ?_, ?_, ?_⟩ <;> ring

set_option maxHeartbeats 1000000 in
theorem lepLU_flip : LepRadBaseLU.make (flipR q h p k) =
    let t := LepRadBaseLU.make k
    ⟨-t.theta_051, -t.theta_052, -t.theta_053, -t.theta_151, -t.theta_152, -t.theta_153⟩ := by
  simp only [LepRadBaseLU.make, LepBornBaseLU.make, KinematicsRad.project, flipR,
    LepRadBaseLU.mk.injEq]
  refine ⟨?_, ?_, ?_, ?_, ?_, ?_⟩ <;> ring

theorem dot_flip (a b : Vec3) : (flipSpin a).dot (flipSpin b) = a.dot b := by
  simp only [flipSpin, Vec3.dot]; ring

theorem dot_flipOdd (a b : Vec3) : (flipOdd a).dot (flipSpin b) = -a.dot b := by
  simp only [flipSpin, flipOdd, Vec3.dot]; ring

theorem rad_flip : xsRad (flipR q h p k) ph sf (-l) (flipSpin eta) = xsRad k ph sf l eta := by
  rw [c54_rad, c54_rad]
  have e : radCoeff (flipR q h p k) ph = radCoeff k ph := rfl
  have eR : (flipR q h p k).R = k.R := rfl
  have eU (u) : makeHadRadBaseUU (flipR q h p k) u = makeHadRadBaseUU k u := rfl
  have eL (u) : makeHadRadBaseLU (flipR q h p k) u = makeHadRadBaseLU k u := rfl
  rw [e]
  have H : hadronicRad (flipR q h p k) sf (flipSpin eta) =
      let H := hadronicRad k sf eta
      ⟨H.c1, H.c2, H.c3, H.c4, H.c5, -H.c6, -H.c7, -H.c8, -H.c9⟩ := by
    unfold hadronicRad
    simp only [hadUP_flip, hadLP_flip, flipUP, flipLP, dot_flip, dot_flipOdd, eU, eL]
    rfl
  rw [H]
  simp only [contract, leptonicRad, lepUU_flip, lepUP_flip, lepLU_flip, lepLP_flip, eR]
  ring

theorem soft_flip : softStep (flipR q h p k) = softStep k := by
  have e : -k.phi_h - -k.phi_k = -(k.phi_h - k.phi_k) := by ring
  have mu (a b : ℝ) : Cut.muOf (flipR q h p k).project (flipR q h p k).tau (flipR q h p k).phi_k a b
      = Cut.muOf k.project k.tau k.phi_k a b := by
    simp only [Cut.muOf, flipR, KinematicsRad.project, cosR, e, Real.cos_neg]
  have m : rBoundMax (flipR q h p k).project (flipR q h p k).tau (flipR q h p k).phi_k
      = rBoundMax k.project k.tau k.phi_k := by
    unfold rBoundMax
    dsimp only
    rw [mu]
    rfl
  unfold softStep
  rw [m]
  rfl

theorem fUPDiff_flip (R : ℝ) (u : HadRadBaseUP) (u0 : HadBaseUP) :
    makeHadRadFBaseUPDiff R (flipUP u) u0 = flipFUP (makeHadRadFBaseUPDiff R u u0) := by
  have a (v : Vec3) (r : ℝ) : (flipSpin v - (⟨0, r, 0⟩ : Vec3)) / R
      = flipSpin ((v - (⟨0, r, 0⟩ : Vec3)) / R) := by
    ext
    · change (-v.x - 0) / R = -((v.x - 0) / R); ring
    · rfl
    · change (-v.z - 0) / R = -((v.z - 0) / R); ring
  have b (v : Vec3) (r s : ℝ) : (flipOdd v - (⟨r, 0, s⟩ : Vec3)) / R
      = flipOdd ((v - (⟨r, 0, s⟩ : Vec3)) / R) := by
    ext
    · rfl
    · change (-v.y - 0) / R = -((v.y - 0) / R); ring
    · rfl
  simp only [makeHadRadFBaseUPDiff, flipUP, flipFUP, a, b]

theorem fLPDiff_flip (R : ℝ) (u : HadRadBaseLP) (u0 : HadBaseLP) :
    makeHadRadFBaseLPDiff R (flipLP u) u0 = flipFLP (makeHadRadFBaseLPDiff R u u0) := by
  have a (v : Vec3) (r : ℝ) : (flipSpin v - (⟨0, r, 0⟩ : Vec3)) / R
      = flipSpin ((v - (⟨0, r, 0⟩ : Vec3)) / R) := by
    ext
    · change (-v.x - 0) / R = -((v.x - 0) / R); ring
    · rfl
    · change (-v.z - 0) / R = -((v.z - 0) / R); ring
  have b (v : Vec3) (r s : ℝ) : (flipOdd v - (⟨r, 0, s⟩ : Vec3)) / R
      = flipOdd ((v - (⟨r, 0, s⟩ : Vec3)) / R) := by
    ext
    · rfl
    · change (-v.y - 0) / R = -((v.y - 0) / R); ring
    · rfl
  simp only [makeHadRadFBaseLPDiff, flipLP, flipFLP, a, b]

theorem diffR_flip (R d r : ℝ) (v w : Vec3) :
    diffRVec R d ⟨0, r, 0⟩ (flipSpin v) (flipSpin w) = flipSpin (diffRVec R d ⟨0, r, 0⟩ v w) := by
  ext
  · change ((0 * (R / d - 3) - -v.x * (2 * (R / d - 2))) + -w.x * (R / d - 1)) * (1 / (2 * d))
      = -(((0 * (R / d - 3) - v.x * (2 * (R / d - 2))) + w.x * (R / d - 1)) * (1 / (2 * d)))
    ring
  · rfl
  · change ((0 * (R / d - 3) - -v.z * (2 * (R / d - 2))) + -w.z * (R / d - 1)) * (1 / (2 * d))
      = -(((0 * (R / d - 3) - v.z * (2 * (R / d - 2))) + w.z * (R / d - 1)) * (1 / (2 * d)))
    ring

theorem diffR_flipOdd (R d r s : ℝ) (v w : Vec3) :
    diffRVec R d ⟨r, 0, s⟩ (flipOdd v) (flipOdd w) = flipOdd (diffRVec R d ⟨r, 0, s⟩ v w) := by
  ext
  · rfl
  · change ((0 * (R / d - 3) - -v.y * (2 * (R / d - 2))) + -w.y * (R / d - 1)) * (1 / (2 * d))
      = -(((0 * (R / d - 3) - v.y * (2 * (R / d - 2))) + w.y * (R / d - 1)) * (1 / (2 * d)))
    ring
  · rfl

theorem fUPDeriv_flip (R d : ℝ) (u u1 u2 : HadRadBaseUP) (u0 : HadBaseUP) :
    makeHadRadFBaseUPDeriv R d (flipUP u) u0 (flipUP u1) (flipUP u2)
      = flipFUP (makeHadRadFBaseUPDeriv R d u u0 u1 u2) := by
  simp only [makeHadRadFBaseUPDeriv, flipUP, flipFUP, diffR_flip, diffR_flipOdd]

theorem fLPDeriv_flip (R d : ℝ) (u u1 u2 : HadRadBaseLP) (u0 : HadBaseLP) :
    makeHadRadFBaseLPDeriv R d (flipLP u) u0 (flipLP u1) (flipLP u2)
      = flipFLP (makeHadRadFBaseLPDeriv R d u u0 u1 u2) := by
  simp only [makeHadRadFBaseLPDeriv, flipLP, flipFLP, diffR_flip, diffR_flipOdd]

theorem radFLP_flip (h0 : HadLP) : HadRadFLP.make0 (flipR q h p k) sf h0
    = { HadRadFLP.make0 k sf h0 with
        up := flipFUP (HadRadFLP.make0 k sf h0).up, lp := flipFLP (HadRadFLP.make0 k sf h0).lp } := by
  unfold HadRadFLP.make0
  dsimp only
  rw [soft_flip, radLP_flip]
  cases softStep k with
  | none =>
    simp only [fUPDiff_flip, fLPDiff_flip]
    rfl
  | some d =>
    obtain ⟨h1, p1, e1⟩ := makeR_mirror k.project q k.tau k.phi_k d
    obtain ⟨h2, p2, e2⟩ := makeR_mirror k.project q k.tau k.phi_k (2 * d)
    have c1 : KinematicsRad.make (flipR q h p k).project (flipR q h p k).tau (flipR q h p k).phi_k d
      = flipR q h1 p1 (KinematicsRad.make k.project k.tau k.phi_k d) := e1
    have c2 : KinematicsRad.make (flipR q h p k).project (flipR q h p k).tau (flipR q h p k).phi_k
        (2 * d) = flipR q h2 p2 (KinematicsRad.make k.project k.tau k.phi_k (2 * d)) := e2
    simp only [c1, c2, radLP_flip, fUPDeriv_flip, fLPDeriv_flip]
    rfl

theorem baseUP_flip (c R : ℝ) (u : LepRadBaseUU) (t : LepRadBaseUP) (v : HadRadFBaseUP) :
    (radFBaseUP c R u ⟨-t.theta_061, -t.theta_062, -t.theta_063, -t.theta_064, -t.theta_081,
      -t.theta_082, -t.theta_083, -t.theta_084⟩ (flipFUP v)).dot (flipSpin eta)
    = (radFBaseUP c R u t v).dot eta := by
  rw [← dot_flip (radFBaseUP c R u t v)]
  congr 1
  have vx (a b : Vec3) : (a + b).x = a.x + b.x := rfl
  have vy (a b : Vec3) : (a + b).y = a.y + b.y := rfl
  have vz (a b : Vec3) : (a + b).z = a.z + b.z := rfl
  have sx (s : ℝ) (a : Vec3) : (s • a).x = a.x * s := rfl
  have sy (s : ℝ) (a : Vec3) : (s • a).y = a.y * s := rfl
  have sz (s : ℝ) (a : Vec3) : (s • a).z = a.z * s := rfl
  ext <;> simp only [radFBaseUP, flipFUP, flipSpin, flipOdd, vx, vy, vz, sx, sy, sz] <;> ring

theorem baseLP_flip (c R : ℝ) (t : LepRadBaseLU) (u : LepRadBaseLP) (v : HadRadFBaseLP) :
    (radFBaseLP c R ⟨-t.theta_051, -t.theta_052, -t.theta_053, -t.theta_151, -t.theta_152,
      -t.theta_153⟩ u (flipFLP v)).dot (flipSpin eta)
    = -(radFBaseLP c R t u v).dot eta := by
  rw [← dot_flipOdd (radFBaseLP c R t u v)]
  congr 1
  have vx (a b : Vec3) : (a + b).x = a.x + b.x := rfl
  have vy (a b : Vec3) : (a + b).y = a.y + b.y := rfl
  have vz (a b : Vec3) : (a + b).z = a.z + b.z := rfl
  have sx (s : ℝ) (a : Vec3) : (s • a).x = a.x * s := rfl
  have sy (s : ℝ) (a : Vec3) : (s • a).y = a.y * s := rfl
  have sz (s : ℝ) (a : Vec3) : (s • a).z = a.z * s := rfl
  ext <;> simp only [radFBaseLP, flipFLP, flipSpin, flipOdd, vx, vy, vz, sx, sy, sz] <;> ring

theorem radF_flip : xsRadF (flipR q h p k) ph sf (-l) (flipSpin eta) = xsRadF k ph sf l eta := by
  rw [c54_rad_f, c54_rad_f, c54_rad_f_integrand, c54_rad_f_integrand]
  have e : radCoeff (flipR q h p k) ph = radCoeff k ph := rfl
  have eR : (flipR q h p k).R = k.R := rfl
  have e0 : HadLP.make (flipR q h p k).project sf = HadLP.make k.project sf := rfl
  simp only [e0, radFLP_flip, e, eR, lepUU_flip, lepUP_flip, lepLU_flip, lepLP_flip, baseUP_flip,
    baseLP_flip]
  simp only [radFBaseLU]
  ring

end Photon

section Turn

/-- The azimuth of the lepton about the beam and what depends on it replaced. -/
def turnK (phi phi_q c s cq sq : ℝ) (k : Kinematics ℝ) : Kinematics ℝ :=
  { k with phi := phi, phi_q := phi_q, cos_phi := c, sin_phi := s, cos_phi_q := cq, sin_phi_q := sq }

/-- The same with a photon. -/
def turnR (phi phi_q c s cq sq p pc ps : ℝ) (k : KinematicsRad ℝ) : KinematicsRad ℝ :=
  { k with
    phi := phi, phi_q := phi_q, cos_phi := c, sin_phi := s, cos_phi_q := cq, sin_phi_q := sq
    shift_phi_q := p, shift_cos_phi_q := pc, shift_sin_phi_q := ps }

variable (phi phi_q c s cq sq p pc ps : ℝ) (k : Kinematics ℝ) (r : KinematicsRad ℝ) (ph : Phenom)
  (sf : SfFuns) (l : ℝ) (eta : Vec3)

theorem makeR_turn (tau phi_k R : ℝ) : ∃ p pc ps,
    KinematicsRad.make (turnK phi phi_q c s cq sq k) tau phi_k R
      = turnR phi phi_q c s cq sq p pc ps (KinematicsRad.make k tau phi_k R) :=
  ⟨(KinematicsRad.make (turnK phi phi_q c s cq sq k) tau phi_k R).shift_phi_q,
    (KinematicsRad.make (turnK phi phi_q c s cq sq k) tau phi_k R).shift_cos_phi_q,
    (KinematicsRad.make (turnK phi phi_q c s cq sq k) tau phi_k R).shift_sin_phi_q, rfl⟩

theorem born_turn : xsBorn (turnK phi phi_q c s cq sq k) ph sf l eta = xsBorn k ph sf l eta := rfl
theorem amm_turn : xsAmm (turnK phi phi_q c s cq sq k) ph sf l eta = xsAmm k ph sf l eta := rfl

theorem nrad_turn (k_0_bar : Fl) : xsNradIr (turnK phi phi_q c s cq sq k) ph sf l eta k_0_bar
    = xsNradIr k ph sf l eta k_0_bar := by
  have e : NradCoeff.make (turnK phi phi_q c s cq sq k) ph k_0_bar = NradCoeff.make k ph k_0_bar :=
    rfl
  have a : LepNradBaseUU.make (turnK phi phi_q c s cq sq k) = .make k := rfl
  have b : LepNradBaseUP.make (turnK phi phi_q c s cq sq k) = .make k := rfl
  have c' : LepNradBaseLU.make (turnK phi phi_q c s cq sq k) = .make k := rfl
  have d : LepNradBaseLP.make (turnK phi phi_q c s cq sq k) = .make k := rfl
  unfold xsNradIr
  rw [e, a, b, c', d]
  rfl

theorem radLP_turn : HadRadLP.make (turnR phi phi_q c s cq sq p pc ps r) sf = HadRadLP.make r sf := rfl
theorem lepUU_turn : LepRadBaseUU.make (turnR phi phi_q c s cq sq p pc ps r) = .make r := rfl
theorem lepUP_turn : LepRadBaseUP.make (turnR phi phi_q c s cq sq p pc ps r) = .make r := rfl
theorem lepLU_turn : LepRadBaseLU.make (turnR phi phi_q c s cq sq p pc ps r) = .make r := rfl
theorem lepLP_turn : LepRadBaseLP.make (turnR phi phi_q c s cq sq p pc ps r) = .make r := rfl

theorem rad_turn : xsRad (turnR phi phi_q c s cq sq p pc ps r) ph sf l eta = xsRad r ph sf l eta := by
  rw [c54_rad, c54_rad]
  have e : radCoeff (turnR phi phi_q c s cq sq p pc ps r) ph = radCoeff r ph := rfl
  have h : hadronicRad (turnR phi phi_q c s cq sq p pc ps r) sf eta = hadronicRad r sf eta := rfl
  have eR : (turnR phi phi_q c s cq sq p pc ps r).R = r.R := rfl
  rw [e, h]
  simp only [leptonicRad, lepUU_turn, lepUP_turn, lepLU_turn, lepLP_turn, eR]

theorem radFLP_turn (h0 : HadLP) : HadRadFLP.make0 (turnR phi phi_q c s cq sq p pc ps r) sf h0
    = HadRadFLP.make0 r sf h0 := by
  have e : softStep (turnR phi phi_q c s cq sq p pc ps r) = softStep r := rfl
  unfold HadRadFLP.make0
  dsimp only
  rw [e, radLP_turn]
  cases softStep r with
  | none => rfl
  | some d =>
    have f (x : ℝ) : HadRadLP.make (KinematicsRad.make
          (turnR phi phi_q c s cq sq p pc ps r).project (turnR phi phi_q c s cq sq p pc ps r).tau
          (turnR phi phi_q c s cq sq p pc ps r).phi_k x) sf
        = HadRadLP.make (KinematicsRad.make r.project r.tau r.phi_k x) sf := by
      obtain ⟨p1, pc1, ps1, e1⟩ := makeR_turn phi phi_q c s cq sq r.project r.tau r.phi_k x
      change HadRadLP.make (KinematicsRad.make (turnK phi phi_q c s cq sq r.project) r.tau r.phi_k x)
        sf = _
      rw [e1, radLP_turn]
    simp only [f]
    rfl

theorem radF_turn : xsRadF (turnR phi phi_q c s cq sq p pc ps r) ph sf l eta
    = xsRadF r ph sf l eta := by
  rw [c54_rad_f, c54_rad_f, c54_rad_f_integrand, c54_rad_f_integrand]
  have e : radCoeff (turnR phi phi_q c s cq sq p pc ps r) ph = radCoeff r ph := rfl
  have eR : (turnR phi phi_q c s cq sq p pc ps r).R = r.R := rfl
  have e0 : HadLP.make (turnR phi phi_q c s cq sq p pc ps r).project sf = HadLP.make r.project sf :=
    rfl
  simp only [e0, radFLP_turn, e, eR, lepUU_turn, lepUP_turn, lepLU_turn, lepLP_turn]

end Turn

end Sidis.Lemmas.Symmetry
