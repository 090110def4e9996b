import Verif.Spec.AsymScale
import Verif.Props.Asymmetry

/-! # The asymmetries do not depend on normalisations (C126) -/

namespace Sidis.Props

open Spec Asym

section Fl

variable {c : ℝ} (hc : 0 < c)
include hc

private theorem infTimes_scale (r : ℝ) : Fl.infTimes (c * r) = Fl.infTimes r := by
  have h1 : (0 < c * r) = (0 < r) := propext (mul_pos_iff_of_pos_left hc)
  have h2 : (c * r < 0) = (r < 0) := propext (by constructor <;> intro h <;> nlinarith)
  simp only [Fl.infTimes, h1, h2]

private theorem fin_pinf : Fl.fin c * .pinf = .pinf := by
  rw [Fl.fin_mul_pinf, Fl.infTimes_pos hc]

private theorem fin_ninf : Fl.fin c * .ninf = .ninf := by
  rw [Fl.fin_mul_ninf, Fl.infTimes_neg (by linarith)]

private theorem fin_infTimes (r : ℝ) : Fl.fin c * Fl.infTimes r = Fl.infTimes r := by
  rcases lt_trichotomy r 0 with h | h | h
  · rw [Fl.infTimes_neg h, fin_ninf hc]
  · rw [h, Fl.infTimes_zero, Fl.mul_nan]
  · rw [Fl.infTimes_pos h, fin_pinf hc]

private theorem scale_add (u v : Fl) : Fl.fin c * (u + v) = Fl.fin c * u + Fl.fin c * v := by
  cases u <;> cases v <;> simp [fin_pinf hc, fin_ninf hc, Fl.infTimes_pos hc, Fl.infTimes_neg (neg_neg_of_pos hc),
    mul_add]

private theorem scale_mul_fin (u : Fl) (r : ℝ) : u * .fin (c * r) = .fin c * (u * .fin r) := by
  have e : -(c * r) = c * -r := by ring
  cases u with
  | nan => rfl
  | fin a => simp only [Fl.mul_fin, Fl.fin.injEq]; ring
  | pinf => simp only [Fl.pinf_mul_fin, infTimes_scale hc, fin_infTimes hc]
  | ninf => simp only [Fl.ninf_mul_fin, e, infTimes_scale hc, fin_infTimes hc]

private theorem scale_comm (u : Fl) (r : ℝ) : Fl.fin r * (.fin c * u) = .fin c * (.fin r * u) := by
  cases u with
  | nan => rfl
  | fin a => simp only [Fl.mul_fin, Fl.fin.injEq]; ring
  | pinf => simp only [fin_pinf hc, Fl.fin_mul_pinf, fin_infTimes hc]
  | ninf => simp only [fin_ninf hc, Fl.fin_mul_ninf, fin_infTimes hc]

private theorem scale_hypot (u v : Fl) : hypot (.fin c * u) (.fin c * v) = .fin c * hypot u v := by
  have e : ∀ a b : ℝ, √(c * a * (c * a) + c * b * (c * b)) = c * √(a * a + b * b) := fun a b => by
    rw [show c * a * (c * a) + c * b * (c * b) = c ^ 2 * (a * a + b * b) by ring,
      Real.sqrt_mul (sq_nonneg c), Real.sqrt_sq hc.le]
  cases u <;> cases v <;> simp [fin_pinf hc, fin_ninf hc, Fl.infTimes_pos hc, Fl.infTimes_neg (neg_neg_of_pos hc),
    hypot, e]

private theorem scale_div (u v : Fl) : (.fin c * u) / (.fin c * v) = u / v := by
  cases u with
  | nan => rfl
  | fin a =>
    cases v with
    | nan => rfl
    | fin b =>
      rcases eq_or_ne b 0 with h | h
      · simp only [Fl.mul_fin, h, mul_zero, Fl.div_fin_zero, infTimes_scale hc]
      · simp only [Fl.mul_fin, Fl.div_fin _ h, Fl.div_fin _ (mul_ne_zero hc.ne' h), mul_div_mul_left _ _ hc.ne']
    | pinf => simp only [fin_pinf hc]; rfl
    | ninf => simp only [fin_ninf hc]; rfl
  | pinf =>
    simp only [fin_pinf hc]
    cases v with
    | nan => rfl
    | fin b =>
      rcases lt_or_ge b 0 with h | h
      · rw [Fl.mul_fin, Fl.pinf_div_fin_neg h, Fl.pinf_div_fin_neg (by nlinarith)]
      · rw [Fl.mul_fin, Fl.pinf_div_fin h, Fl.pinf_div_fin (by positivity)]
    | pinf => simp only [fin_pinf hc]
    | ninf => simp only [fin_ninf hc]
  | ninf =>
    simp only [fin_ninf hc]
    cases v with
    | nan => rfl
    | fin b =>
      rcases lt_or_ge b 0 with h | h
      · rw [Fl.mul_fin, Fl.ninf_div_fin_neg h, Fl.ninf_div_fin_neg (by nlinarith)]
      · rw [Fl.mul_fin, Fl.ninf_div_fin h, Fl.ninf_div_fin (by positivity)]
    | pinf => simp only [fin_pinf hc]
    | ninf => simp only [fin_ninf hc]

private theorem scale_nanToZero (u : Fl) : nanToZero (.fin c * u) = .fin c * nanToZero u := by
  cases u <;> simp [nanToZero, fin_pinf hc, fin_ninf hc, Fl.infTimes_pos hc, Fl.infTimes_neg (neg_neg_of_pos hc)]

end Fl

private theorem vx (a b : Vec3) : (a + b).x = a.x + b.x := rfl
private theorem vy (a b : Vec3) : (a + b).y = a.y + b.y := rfl
private theorem vz (a b : Vec3) : (a + b).z = a.z + b.z := rfl
private theorem wx (a b : Vec3) : (a - b).x = a.x - b.x := rfl
private theorem wy (a b : Vec3) : (a - b).y = a.y - b.y := rfl
private theorem wz (a b : Vec3) : (a - b).z = a.z - b.z := rfl
private theorem sx (s : ℝ) (a : Vec3) : (s • a).x = a.x * s := rfl
private theorem sy (s : ℝ) (a : Vec3) : (s • a).y = a.y * s := rfl
private theorem sz (s : ℝ) (a : Vec3) : (s • a).z = a.z * s := rfl
private theorem dx (s : ℝ) (a : Vec3) : (a / s).x = a.x / s := rfl
private theorem dy (s : ℝ) (a : Vec3) : (a / s).y = a.y / s := rfl
private theorem dz (s : ℝ) (a : Vec3) : (a / s).z = a.z / s := rfl

private def sUU (c : ℝ) (f : HadBaseUU) : HadBaseUU := ⟨c * f.H_10, c * f.H_20, c * f.H_30, c * f.H_40⟩
private def sUP (c : ℝ) (f : HadBaseUP) : HadBaseUP :=
  ⟨⟨c * f.ul.H_63, c * f.ul.H_83⟩,
    ⟨c * f.ut.H_12, c * f.ut.H_22, c * f.ut.H_32, c * f.ut.H_42, c * f.ut.H_61, c * f.ut.H_81⟩⟩
private def sRUU (c : ℝ) (f : HadRadBaseUU) : HadRadBaseUU := ⟨c * f.H_10, c * f.H_20, c * f.H_30, c * f.H_40⟩
private noncomputable def sRUP (c : ℝ) (f : HadRadBaseUP) : HadRadBaseUP :=
  ⟨c • f.H_1, c • f.H_2, c • f.H_3, c • f.H_4, c • f.H_6, c • f.H_8⟩

private theorem hadUU (k : Kinematics ℝ) (c : ℝ) (s : SfFuns) (h : Hadron) (x z q p : ℝ) :
    makeHadBaseUU k ((scaleSf c s).baseUU h x z q p) = sUU c (makeHadBaseUU k (s.baseUU h x z q p)) := by
  simp only [sUU, makeHadBaseUU, SfFuns.baseUU, scaleSf, HadBaseUU.mk.injEq]
  refine ⟨?_, ?_, ?_, ?_⟩ <;> ring

private theorem hadUP (k : Kinematics ℝ) (c : ℝ) (s : SfFuns) (h : Hadron) (x z q p : ℝ) :
    makeHadBaseUP k ((scaleSf c s).baseUP h x z q p) = sUP c (makeHadBaseUP k (s.baseUP h x z q p)) := by
  simp only [sUP, makeHadBaseUP, makeHadBaseUL, makeHadBaseUT, SfFuns.baseUP, SfFuns.baseUL, SfFuns.baseUT, scaleSf,
    HadBaseUP.mk.injEq, HadBaseUL.mk.injEq, HadBaseUT.mk.injEq]
  refine ⟨⟨?_, ?_⟩, ?_, ?_, ?_, ?_, ?_, ?_⟩ <;> ring

private theorem radUU (k : KinematicsRad ℝ) (c : ℝ) (s : SfFuns) :
    (HadRadUU.make k (scaleSf c s)).uu = sRUU c (HadRadUU.make k s).uu := by
  simp only [sRUU, HadRadUU.make, makeHadRadBaseUU, SfFuns.baseUU, scaleSf, HadRadBaseUU.mk.injEq]
  refine ⟨?_, ?_, ?_, ?_⟩ <;> ring

private theorem radUP (k : KinematicsRad ℝ) (c : ℝ) (s : SfFuns) :
    (HadRadUP.make k (scaleSf c s)).up = sRUP c (HadRadUP.make k s).up := by
  simp only [sRUP, HadRadUP.make, makeHadRadBaseUP, SfFuns.baseUP, SfFuns.baseUL, SfFuns.baseUT, scaleSf,
    HadRadBaseUP.mk.injEq]
  refine ⟨?_, ?_, ?_, ?_, ?_, ?_⟩ <;>
    (apply Vec3.ext <;> simp only [Transform3.apply, Vec3.dot, vx, vy, vz, sx, sy, sz] <;> ring1)

private theorem radFUU (k : KinematicsRad ℝ) (c C R : ℝ) (L : LepRadBaseUU) (s : SfFuns) (h : HadBaseUU) :
    radFBaseUU C R L (hadRadFBaseUU k (scaleSf c s) (sUU c h)) = c * radFBaseUU C R L (hadRadFBaseUU k s h) := by
  simp only [hadRadFBaseUU, radUU]
  rcases softStep k with _ | d
  all_goals
    simp only [radFBaseUU, makeHadRadFBaseUUDiff, makeHadRadFBaseUUDeriv, diffR, sUU, sRUU]
    ring

private theorem radFUP (k : KinematicsRad ℝ) (c C R : ℝ) (L : LepRadBaseUU) (M : LepRadBaseUP) (s : SfFuns)
    (h : HadBaseUP) (eta : Vec3) :
    eta.dot (radFBaseUP C R L M (hadRadFBaseUP k (scaleSf c s) (sUP c h)))
      = c * eta.dot (radFBaseUP C R L M (hadRadFBaseUP k s h)) := by
  simp only [hadRadFBaseUP, radUP]
  rcases softStep k with _ | d
  all_goals
    simp only [radFBaseUP, makeHadRadFBaseUPDiff, makeHadRadFBaseUPDeriv, diffRVec, sUP, sRUP, Vec3.dot,
      vx, vy, vz, wx, wy, wz, sx, sy, sz, dx, dy, dz]
    ring

section Asym

variable (E : Env) (ps : Particles ℝ) (S x y z ph_t_sq : ℝ) {c : ℝ}

private theorem one_of {I : Integrator} (hI : UnitFree I) (hc : 0 < c) {f g : ℝ → Fl} (a b : ℝ)
    (h : ∀ t, g t = .fin c * f t) : I.one g a b = scaleEst c (I.one f a b) := by
  rw [show g = fun t => .fin c * f t from funext h, hI.one c f a b hc]

private theorem four_of {I : Integrator} (hI : UnitFree I) (hc : 0 < c) {f g : (Fin 4 → ℝ) → Fl} (a b : Fin 4 → ℝ)
    (h : ∀ t, g t = .fin c * f t) : I.four g a b = scaleEst c (I.four f a b) := by
  rw [show g = fun t => .fin c * f t from funext h, hI.four c f a b hc]

private theorem times_of (hc : 0 < c) (k : ℝ) {e e' : EstErr} (h : e' = scaleEst c e) :
    (⟨.fin k * e'.val, .fin k * e'.err⟩ : EstErr) = scaleEst c ⟨.fin k * e.val, .fin k * e.err⟩ := by
  subst h
  simp only [scaleEst, scale_comm hc]

private theorem plus_of (hc : 0 < c) {e e' d d' : EstErr} (h : e' = scaleEst c e) (h' : d' = scaleEst c d) :
    (⟨e'.val + d'.val, hypot e'.err d'.err⟩ : EstErr) = scaleEst c ⟨e.val + d.val, hypot e.err d.err⟩ := by
  subst h
  subst h'
  simp only [scaleEst, scale_add hc, scale_hypot hc]

/-- C126: `asym::uu_integ` is proportional to the structure functions. -/
theorem c126_uu_integ (hI : UnitFree E.integ) (hc : 0 < c) (rc : Bool) :
    uuInteg { E with sf := scaleSf c E.sf } ps S x y z ph_t_sq rc = scaleEst c (uuInteg E ps S x y z ph_t_sq rc) := by
  cases rc
  · simp only [uuInteg, Bool.false_eq_true, not_false_eq_true, if_true, hadUU]
    refine times_of hc _ (one_of hI hc _ _ fun phi_h => ?_)
    simp only [bornBase, sUU, Fl.mul_fin, Fl.fin.injEq]
    ring
  · simp only [uuInteg, not_true_eq_false, if_false, hadUU]
    refine times_of hc _ (plus_of hc (one_of hI hc _ _ fun phi_h => ?_) (four_of hI hc _ _ fun ph => ?_))
    · simp only [nradBase, sUU, scale_mul_fin hc, scale_add hc]
    · rcases E.photon (kinAt ps S x y z ph_t_sq (lerpPhiH (ph 0))) ![ph 1, ph 2, ph 3] with _ | ⟨tau, phi_k, R, jac⟩
      · simp only [Fl.mul_fin, mul_zero]
      · simp only [radFUU, scale_mul_fin hc, scale_nanToZero hc]

/-- C126: so is `asym::ut_integ`, for every moment. -/
theorem c126_ut_integ (hI : UnitFree E.integ) (hc : 0 < c) (l m n : ℤ) (rc : Bool) :
    utInteg { E with sf := scaleSf c E.sf } ps S x y z ph_t_sq l m n rc
      = scaleEst c (utInteg E ps S x y z ph_t_sq l m n rc) := by
  unfold utInteg
  split_ifs
  · simp only [scaleEst, Fl.mul_fin, mul_zero]
  · refine times_of hc _ ?_
    cases rc
    · simp only [utIntegH, Bool.false_eq_true, not_false_eq_true, if_true, hadUP]
      refine one_of hI hc _ _ fun phi_h => ?_
      simp only [bornBase, sUP, Fl.mul_fin, Fl.fin.injEq]
      ring
    · simp only [utIntegH, not_true_eq_false, if_false, hadUP]
      refine plus_of hc (one_of hI hc _ _ fun phi_h => ?_) (four_of hI hc _ _ fun ph => ?_)
      · simp only [nradBase, sUP, scale_mul_fin hc, ← scale_add hc, scale_comm hc]
      · rcases E.photon (kinAt ps S x y z ph_t_sq (lerpPhiH (ph 0))) ![ph 1, ph 2, ph 3]
          with _ | ⟨tau, phi_k, R, jac⟩
        · simp only [Fl.mul_fin, mul_zero]
        · simp only [radFUP, scale_mul_fin hc, scale_nanToZero hc]

private theorem ratio_of (hc : 0 < c) {E E' : Env} {l m n : ℤ} {rc : Bool}
    (h1 : uuInteg E' ps S x y z ph_t_sq rc = scaleEst c (uuInteg E ps S x y z ph_t_sq rc))
    (h2 : utInteg E' ps S x y z ph_t_sq l m n rc = scaleEst c (utInteg E ps S x y z ph_t_sq l m n rc)) :
    utAsym E' ps S x y z ph_t_sq l m n rc = utAsym E ps S x y z ph_t_sq l m n rc := by
  simp only [utAsym, h1, h2, scaleEst, scale_comm hc, scale_div hc]

/-- C126: the asymmetries and their errors do not depend on the normalisation of the structure functions. -/
theorem c126_asym (hI : UnitFree E.integ) (hc : 0 < c) (l m n : ℤ) (rc : Bool) :
    utAsym { E with sf := scaleSf c E.sf } ps S x y z ph_t_sq l m n rc
      = utAsym E ps S x y z ph_t_sq l m n rc :=
  ratio_of ps S x y z ph_t_sq hc (c126_uu_integ E ps S x y z ph_t_sq hI hc rc)
    (c126_ut_integ E ps S x y z ph_t_sq hI hc l m n rc)

/-- C126: nor do the Sivers and Collins asymmetries. -/
theorem c126_named (hI : UnitFree E.integ) (hc : 0 < c) (rc : Bool) :
    sivers { E with sf := scaleSf c E.sf } ps S x y z ph_t_sq rc = sivers E ps S x y z ph_t_sq rc ∧
      collins { E with sf := scaleSf c E.sf } ps S x y z ph_t_sq rc = collins E ps S x y z ph_t_sq rc :=
  ⟨c126_asym E ps S x y z ph_t_sq hI hc (-1) 1 0 rc, c126_asym E ps S x y z ph_t_sq hI hc 1 1 0 rc⟩

/-- C126: without radiative corrections, the asymmetries do not depend on the strength of the electromagnetic
coupling either. -/
theorem c126_coupling (phenom : ℝ → Phenom) (hI : UnitFree E.integ) (l m n : ℤ)
    (h : ∀ Q_sq, (E.phenom Q_sq).alpha_qed ≠ 0) (h' : ∀ Q_sq, (phenom Q_sq).alpha_qed ≠ 0) :
    utAsym { E with phenom := phenom } ps S x y z ph_t_sq l m n false
      = utAsym E ps S x y z ph_t_sq l m n false := by
  set q := (kinAt ps S x y z ph_t_sq 0).Q_sq with hq
  have hQ : ∀ phi_h, (kinAt ps S x y z ph_t_sq phi_h).Q_sq = q := fun _ => rfl
  set r := (phenom q).alpha_qed / (E.phenom q).alpha_qed with hr
  have hrq : (phenom q).alpha_qed = r * (E.phenom q).alpha_qed := (div_mul_cancel₀ _ (h q)).symm
  have hc : 0 < r ^ 2 := by
    have : r ≠ 0 := div_ne_zero (h' q) (h q)
    positivity
  have hb : ∀ phi_h, bornCoeff (kinAt ps S x y z ph_t_sq phi_h) (phenom q)
      = r ^ 2 * bornCoeff (kinAt ps S x y z ph_t_sq phi_h) (E.phenom q) := fun phi_h => by
    simp only [bornCoeff, sq, hrq]
    ring
  refine ratio_of ps S x y z ph_t_sq hc ?_ ?_
  · simp only [uuInteg, Bool.false_eq_true, not_false_eq_true, if_true]
    refine times_of hc _ (one_of hI hc _ _ fun phi_h => ?_)
    simp only [hQ, hb, bornBase, Fl.mul_fin, Fl.fin.injEq]
    ring
  · unfold utInteg
    split_ifs
    · simp only [scaleEst, Fl.mul_fin, mul_zero]
    · refine times_of hc _ ?_
      simp only [utIntegH, Bool.false_eq_true, not_false_eq_true, if_true]
      refine one_of hI hc _ _ fun phi_h => ?_
      simp only [hQ, hb, bornBase, Fl.mul_fin, Fl.fin.injEq]
      ring

/-- C126: the asymmetries do not depend on the structure functions of polarised beams. -/
theorem c126_unpolarised_beam (sf : SfFuns) (l m n : ℤ) (rc : Bool) (h1 : SameUU sf E.sf) (h2 : SameUL sf E.sf)
    (h3 : SameUT sf E.sf) :
    utAsym { E with sf := sf } ps S x y z ph_t_sq l m n rc = utAsym E ps S x y z ph_t_sq l m n rc := by
  obtain ⟨a1, a2, a3, a4⟩ := h1
  obtain ⟨b1, b2⟩ := h2
  obtain ⟨c1, c2, c3, c4, c5, c6⟩ := h3
  simp only [utAsym, uuInteg, utInteg, utIntegH, hadRadFBaseUU, hadRadFBaseUP, HadRadUU.make, HadRadUP.make,
    SfFuns.baseUU, SfFuns.baseUP, SfFuns.baseUL, SfFuns.baseUT, a1, a2, a3, a4, b1, b2, c1, c2, c3, c4, c5, c6]

/-- C126: without radiative corrections, nor do they depend on those of longitudinally polarised targets. -/
theorem c126_transverse (sf : SfFuns) (l m n : ℤ) (h1 : SameUU sf E.sf) (h3 : SameUT sf E.sf) :
    utAsym { E with sf := sf } ps S x y z ph_t_sq l m n false = utAsym E ps S x y z ph_t_sq l m n false := by
  obtain ⟨a1, a2, a3, a4⟩ := h1
  obtain ⟨c1, c2, c3, c4, c5, c6⟩ := h3
  simp only [utAsym, uuInteg, utInteg, utIntegH, Bool.false_eq_true, not_false_eq_true, if_true, makeHadBaseUP,
    SfFuns.baseUU, SfFuns.baseUP, SfFuns.baseUT, a1, a2, a3, a4, c1, c2, c3, c4, c5, c6]

/-- There are different structure functions that agree on those of unpolarised beams. -/
example : let s : SfFuns := { unitSf with F_LL := fun _ _ _ _ _ => 2 }
    SameUU s unitSf ∧ SameUL s unitSf ∧ SameUT s unitSf ∧ s ≠ unitSf := by
  refine ⟨⟨rfl, rfl, rfl, rfl⟩, ⟨rfl, rfl⟩, ⟨rfl, rfl, rfl, rfl, rfl, rfl⟩, fun h => ?_⟩
  have := congrFun (congrFun (congrFun (congrFun (congrFun (congrArg SfFuns.F_LL h) .piP) 0) 0) 0) 0
  norm_num [unitSf] at this

end Asym

/-- The exact integrator has no absolute tolerances. -/
theorem exactInteg_unitFree : UnitFree exactInteg := by
  refine ⟨fun c f a b hc => ?_, fun c f a b hc => ?_⟩
  · have e : ∀ t, realOf (.fin c * f t) = c * realOf (f t) := fun t => by
      cases f t with
      | nan => simp [realOf]
      | fin r => rfl
      | pinf => rw [fin_pinf hc]; simp [realOf]
      | ninf => rw [fin_ninf hc]; simp [realOf]
    simp only [exactInteg, e, scaleEst, Fl.mul_fin, mul_zero, intervalIntegral.integral_const_mul]
  · simp only [exactInteg, scaleEst, Fl.mul_fin, mul_zero]

/-- A midpoint rule with a crude error, as a second integrator without absolute tolerances; its integrals over
photons are not all zero. -/
noncomputable def midInteg : Integrator where
  one f a b := ⟨.fin (b - a) * f ((a + b) / 2), .fin (b - a) * fabs (f a)⟩
  four f a b := ⟨f fun i => (a i + b i) / 2, fabs (f a)⟩

theorem midInteg_unitFree : UnitFree midInteg := by
  have e : ∀ {c : ℝ}, 0 < c → ∀ u : Fl, fabs (.fin c * u) = .fin c * fabs u := fun hc u => by
    cases u with
    | nan => rfl
    | fin r => simp [fabs, abs_mul, abs_of_pos hc]
    | pinf => simp only [fin_pinf hc, fabs]
    | ninf => simp only [fin_pinf hc, fin_ninf hc, fabs]
  refine ⟨fun c f a b hc => ?_, fun c f a b hc => ?_⟩
  · simp only [midInteg, scaleEst, e hc, scale_comm hc]
  · simp only [midInteg, scaleEst, e hc]

/-- An integrator that gives up below an absolute tolerance. -/
noncomputable def giveUpInteg : Integrator where
  one f a b := open Classical in ⟨if f 0 < .fin 1 then .fin 0 else .fin (b - a) * f 0, .fin 0⟩
  four _ _ _ := ⟨.fin 0, .fin 0⟩

/-- The hypothesis on the integrator excludes something. -/
example : ¬ UnitFree giveUpInteg := by
  intro h
  have h1 := congrArg EstErr.val (h.one 2 (fun _ => .fin (1 / 2)) 0 1 (by norm_num))
  simp only [giveUpInteg, scaleEst, Fl.mul_fin, Fl.lt_fin] at h1
  norm_num at h1

/-- Structure functions that are all seven give the Sivers asymmetry of unit structure functions, at the sample
point and with the exact integrator. -/
example (rc : Bool) : let E : Env := ⟨unitSf, fun _ => ⟨0.0073, 0⟩, exactInteg, fun _ _ => some (1, 0, 0.1, .fin 1)⟩
    let p := samplePt
    sivers { E with sf := scaleSf 7 unitSf } samplePs 20 p.x p.y p.z p.ph_t_sq rc
      = sivers E samplePs 20 p.x p.y p.z p.ph_t_sq rc :=
  (c126_named ⟨unitSf, fun _ => ⟨0.0073, 0⟩, exactInteg, fun _ _ => some (1, 0, 0.1, .fin 1)⟩ _ _ _ _ _ _
    exactInteg_unitFree (by norm_num) rc).1

end Sidis.Props
