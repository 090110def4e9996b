import Verif.Spec.SfSum
import Verif.Props.PhotonTables
import Verif.Model.Density
import Mathlib.MeasureTheory.Integral.Bochner.Set

/-! # Cross-sections are sums over the structure functions (C124) -/

namespace Sidis.Props

open Spec Real MeasureTheory PhotonInteg

private theorem nine_ext {a b : Nine} (h1 : a.c1 = b.c1) (h2 : a.c2 = b.c2) (h3 : a.c3 = b.c3) (h4 : a.c4 = b.c4)
    (h5 : a.c5 = b.c5) (h6 : a.c6 = b.c6) (h7 : a.c7 = b.c7) (h8 : a.c8 = b.c8) (h9 : a.c9 = b.c9) : a = b :=
  Nine.ext h1 h2 h3 h4 h5 h6 h7 h8 h9

private theorem hadronic_combine (k : Kinematics ℝ) (a b : ℝ) (s t : SfFuns) (eta : Vec3) :
    hadronic k (combineSf a b s t) eta = .map2 (fun u v => a * u + b * v) (hadronic k s eta) (hadronic k t eta) := by
  apply nine_ext <;>
  simp only [hadronic, hadronicOf, Nine.map2, SfFuns.baseUU, SfFuns.baseUL, SfFuns.baseUT, SfFuns.baseLU,
    SfFuns.baseLL, SfFuns.baseLT, combineSf, makeHadBaseUU, makeHadBaseUL, makeHadBaseUT, makeHadBaseLU,
    makeHadBaseLL, makeHadBaseLT] <;> ring

private theorem hadronicRad_combine (k : KinematicsRad ℝ) (a b : ℝ) (s t : SfFuns) (eta : Vec3) :
    hadronicRad k (combineSf a b s t) eta =
      .map2 (fun u v => a * u + b * v) (hadronicRad k s eta) (hadronicRad k t eta) := by
  apply nine_ext <;>
  simp only [hadronicRad, Nine.map2, SfFuns.baseUU, SfFuns.baseUL, SfFuns.baseUT, SfFuns.baseLU, SfFuns.baseUP,
    SfFuns.baseLP, SfFuns.baseLL, SfFuns.baseLT, combineSf, makeHadRadBaseUU, makeHadRadBaseUP, makeHadRadBaseLU,
    makeHadRadBaseLP, Vec3.dot, Transform3.apply] <;> ring

private theorem contract_combine (theta u v : Nine) (a b l : ℝ) :
    contract theta (.map2 (fun u v => a * u + b * v) u v) l = a * contract theta u l + b * contract theta v l := by
  simp only [contract, Nine.map2]
  ring

/-- C124: `xs::born` is linear in the structure functions. -/
theorem c124_born (k : Kinematics ℝ) (ph : Phenom) (lambda : ℝ) (eta : Vec3) :
    SfLinear fun sf => xsBorn k ph sf lambda eta := by
  intro a b s t
  simp only [c54_born, hadronic_combine, contract_combine]
  ring

/-- C124: so is `xs::amm`. -/
theorem c124_amm (k : Kinematics ℝ) (ph : Phenom) (lambda : ℝ) (eta : Vec3) :
    SfLinear fun sf => xsAmm k ph sf lambda eta := by
  intro a b s t
  simp only [c54_amm, hadronic_combine, contract_combine]
  ring

/-- C124: so is `xs::rad`. -/
theorem c124_rad (k : KinematicsRad ℝ) (ph : Phenom) (lambda : ℝ) (eta : Vec3) :
    SfLinear fun sf => xsRad k ph sf lambda eta := by
  intro a b s t
  simp only [c54_rad, hadronicRad_combine, contract_combine]
  ring

private theorem vx (a b : Vec3) : (a + b).x = a.x + b.x := rfl
private theorem vy (a b : Vec3) : (a + b).y = a.y + b.y := rfl
private theorem vz (a b : Vec3) : (a + b).z = a.z + b.z := rfl
private theorem wx (a b : Vec3) : (a - b).x = a.x - b.x := rfl
private theorem wy (a b : Vec3) : (a - b).y = a.y - b.y := rfl
private theorem wz (a b : Vec3) : (a - b).z = a.z - b.z := rfl
private theorem sx (s : ℝ) (a : Vec3) : (s • a).x = a.x * s := rfl
private theorem sy (s : ℝ) (a : Vec3) : (s • a).y = a.y * s := rfl
private theorem sz (s : ℝ) (a : Vec3) : (s • a).z = a.z * s := rfl
private theorem dx (s : ℝ) (a : Vec3) : (a / s).x = a.x / s := rfl
private theorem dy (s : ℝ) (a : Vec3) : (a / s).y = a.y / s := rfl
private theorem dz (s : ℝ) (a : Vec3) : (a / s).z = a.z / s := rfl

private theorem hadLP_combine (k : Kinematics ℝ) (a b : ℝ) (s t : SfFuns) :
    let f := HadLP.make k s
    let g := HadLP.make k t
    HadLP.make k (combineSf a b s t) = {
      uu := ⟨a * f.uu.H_10 + b * g.uu.H_10, a * f.uu.H_20 + b * g.uu.H_20, a * f.uu.H_30 + b * g.uu.H_30,
        a * f.uu.H_40 + b * g.uu.H_40⟩
      ul := ⟨a * f.ul.H_63 + b * g.ul.H_63, a * f.ul.H_83 + b * g.ul.H_83⟩
      ut := ⟨a * f.ut.H_12 + b * g.ut.H_12, a * f.ut.H_22 + b * g.ut.H_22, a * f.ut.H_32 + b * g.ut.H_32,
        a * f.ut.H_42 + b * g.ut.H_42, a * f.ut.H_61 + b * g.ut.H_61, a * f.ut.H_81 + b * g.ut.H_81⟩
      lu := ⟨a * f.lu.H_50 + b * g.lu.H_50⟩
      ll := ⟨a * f.ll.H_73 + b * g.ll.H_73, a * f.ll.H_93 + b * g.ll.H_93⟩
      lt := ⟨a * f.lt.H_52 + b * g.lt.H_52, a * f.lt.H_71 + b * g.lt.H_71, a * f.lt.H_91 + b * g.lt.H_91⟩ } := by
  simp only [HadLP.make, HadLP.mk.injEq, HadBaseUU.mk.injEq, HadBaseUL.mk.injEq, HadBaseUT.mk.injEq,
    HadBaseLU.mk.injEq, HadBaseLL.mk.injEq, HadBaseLT.mk.injEq, makeHadBaseUU, makeHadBaseUL, makeHadBaseUT,
    makeHadBaseLU, makeHadBaseLL, makeHadBaseLT, SfFuns.baseUU, SfFuns.baseUL, SfFuns.baseUT, SfFuns.baseLU,
    SfFuns.baseLL, SfFuns.baseLT, combineSf]
  refine ⟨⟨?_, ?_, ?_, ?_⟩, ⟨?_, ?_⟩, ⟨?_, ?_, ?_, ?_, ?_, ?_⟩, ?_, ⟨?_, ?_⟩, ?_, ?_, ?_⟩ <;> ring

private theorem hadRadLP_combine (k : KinematicsRad ℝ) (a b : ℝ) (s t : SfFuns) :
    let f := HadRadLP.make k s
    let g := HadRadLP.make k t
    HadRadLP.make k (combineSf a b s t) = {
      uu := ⟨a * f.uu.H_10 + b * g.uu.H_10, a * f.uu.H_20 + b * g.uu.H_20, a * f.uu.H_30 + b * g.uu.H_30,
        a * f.uu.H_40 + b * g.uu.H_40⟩
      up := ⟨a • f.up.H_1 + b • g.up.H_1, a • f.up.H_2 + b • g.up.H_2, a • f.up.H_3 + b • g.up.H_3,
        a • f.up.H_4 + b • g.up.H_4, a • f.up.H_6 + b • g.up.H_6, a • f.up.H_8 + b • g.up.H_8⟩
      lu := ⟨a * f.lu.H_50 + b * g.lu.H_50⟩
      lp := ⟨a • f.lp.H_5 + b • g.lp.H_5, a • f.lp.H_7 + b • g.lp.H_7, a • f.lp.H_9 + b • g.lp.H_9⟩ } := by
  simp only [HadRadLP.make, HadRadLP.mk.injEq, HadRadBaseUU.mk.injEq, HadRadBaseUP.mk.injEq,
    HadRadBaseLU.mk.injEq, HadRadBaseLP.mk.injEq, makeHadRadBaseUU, makeHadRadBaseUP,
    makeHadRadBaseLU, makeHadRadBaseLP, SfFuns.baseUU, SfFuns.baseUP, SfFuns.baseUL, SfFuns.baseUT, SfFuns.baseLU,
    SfFuns.baseLP, SfFuns.baseLL, SfFuns.baseLT, combineSf]
  refine ⟨⟨?_, ?_, ?_, ?_⟩, ⟨?_, ?_, ?_, ?_, ?_, ?_⟩, ?_, ?_, ?_, ?_⟩
  all_goals
    first
    | ring1
    | (apply Vec3.ext <;> simp only [Transform3.apply, Vec3.dot, vx, vy, vz, sx, sy, sz] <;> ring1)

private theorem radFUU_lin (c R a b : ℝ) (L : LepRadBaseUU) (f g : HadRadFBaseUU) :
    radFBaseUU c R L ⟨a * f.H_10 + b * g.H_10, a * f.H_20 + b * g.H_20, a * f.H_30 + b * g.H_30,
      a * f.H_40 + b * g.H_40, a * f.H_10_diff + b * g.H_10_diff, a * f.H_20_diff + b * g.H_20_diff,
      a * f.H_30_diff + b * g.H_30_diff, a * f.H_40_diff + b * g.H_40_diff⟩
      = a * radFBaseUU c R L f + b * radFBaseUU c R L g := by
  simp only [radFBaseUU]
  ring

private theorem radFUP_lin (c R a b : ℝ) (L : LepRadBaseUU) (M : LepRadBaseUP) (f g : HadRadFBaseUP) (eta : Vec3) :
    (radFBaseUP c R L M ⟨a • f.H_1 + b • g.H_1, a • f.H_2 + b • g.H_2, a • f.H_3 + b • g.H_3,
      a • f.H_4 + b • g.H_4, a • f.H_6 + b • g.H_6, a • f.H_8 + b • g.H_8,
      a • f.H_1_diff + b • g.H_1_diff, a • f.H_2_diff + b • g.H_2_diff, a • f.H_3_diff + b • g.H_3_diff,
      a • f.H_4_diff + b • g.H_4_diff, a • f.H_6_diff + b • g.H_6_diff, a • f.H_8_diff + b • g.H_8_diff⟩).dot eta
      = a * (radFBaseUP c R L M f).dot eta + b * (radFBaseUP c R L M g).dot eta := by
  simp only [radFBaseUP, Vec3.dot, vx, vy, vz, sx, sy, sz]
  ring

private theorem radFLU_lin (c R a b : ℝ) (L : LepRadBaseLU) (f g : HadRadFBaseLU) :
    radFBaseLU c R L ⟨a * f.H_50 + b * g.H_50, a * f.H_50_diff + b * g.H_50_diff⟩
      = a * radFBaseLU c R L f + b * radFBaseLU c R L g := by
  simp only [radFBaseLU]
  ring

private theorem radFLP_lin (c R a b : ℝ) (L : LepRadBaseLU) (M : LepRadBaseLP) (f g : HadRadFBaseLP) (eta : Vec3) :
    (radFBaseLP c R L M ⟨a • f.H_5 + b • g.H_5, a • f.H_7 + b • g.H_7, a • f.H_9 + b • g.H_9,
      a • f.H_5_diff + b • g.H_5_diff, a • f.H_7_diff + b • g.H_7_diff, a • f.H_9_diff + b • g.H_9_diff⟩).dot eta
      = a * (radFBaseLP c R L M f).dot eta + b * (radFBaseLP c R L M g).dot eta := by
  simp only [radFBaseLP, Vec3.dot, vx, vy, vz, sx, sy, sz]
  ring

private theorem hadRadF_combine (k : KinematicsRad ℝ) (a b : ℝ) (s t : SfFuns) :
    let f := HadRadFLP.make0 k s (.make k.project s)
    let g := HadRadFLP.make0 k t (.make k.project t)
    HadRadFLP.make0 k (combineSf a b s t) (.make k.project (combineSf a b s t)) = {
      uu := ⟨a * f.uu.H_10 + b * g.uu.H_10, a * f.uu.H_20 + b * g.uu.H_20, a * f.uu.H_30 + b * g.uu.H_30,
        a * f.uu.H_40 + b * g.uu.H_40, a * f.uu.H_10_diff + b * g.uu.H_10_diff,
        a * f.uu.H_20_diff + b * g.uu.H_20_diff, a * f.uu.H_30_diff + b * g.uu.H_30_diff,
        a * f.uu.H_40_diff + b * g.uu.H_40_diff⟩
      up := ⟨a • f.up.H_1 + b • g.up.H_1, a • f.up.H_2 + b • g.up.H_2, a • f.up.H_3 + b • g.up.H_3,
        a • f.up.H_4 + b • g.up.H_4, a • f.up.H_6 + b • g.up.H_6, a • f.up.H_8 + b • g.up.H_8,
        a • f.up.H_1_diff + b • g.up.H_1_diff, a • f.up.H_2_diff + b • g.up.H_2_diff,
        a • f.up.H_3_diff + b • g.up.H_3_diff, a • f.up.H_4_diff + b • g.up.H_4_diff,
        a • f.up.H_6_diff + b • g.up.H_6_diff, a • f.up.H_8_diff + b • g.up.H_8_diff⟩
      lu := ⟨a * f.lu.H_50 + b * g.lu.H_50, a * f.lu.H_50_diff + b * g.lu.H_50_diff⟩
      lp := ⟨a • f.lp.H_5 + b • g.lp.H_5, a • f.lp.H_7 + b • g.lp.H_7, a • f.lp.H_9 + b • g.lp.H_9,
        a • f.lp.H_5_diff + b • g.lp.H_5_diff, a • f.lp.H_7_diff + b • g.lp.H_7_diff,
        a • f.lp.H_9_diff + b • g.lp.H_9_diff⟩ } := by
  intro f g
  simp only [f, g]
  clear f g
  rcases hs : softStep k with _ | d
  all_goals
    simp only [HadRadFLP.make0, hs, hadRadLP_combine, hadLP_combine]
    generalize HadRadLP.make k s = f1
    generalize HadRadLP.make k t = g1
    generalize HadLP.make k.project s = f0
    generalize HadLP.make k.project t = g0
  · simp only [makeHadRadFBaseUUDiff, makeHadRadFBaseUPDiff, makeHadRadFBaseLUDiff, makeHadRadFBaseLPDiff,
      HadRadFLP.mk.injEq, HadRadFBaseUU.mk.injEq, HadRadFBaseUP.mk.injEq, HadRadFBaseLU.mk.injEq,
      HadRadFBaseLP.mk.injEq, true_and, and_assoc]
    refine ⟨?_, ?_, ?_, ?_, ?_, ?_, ?_, ?_, ?_, ?_, ?_, ?_, ?_, ?_⟩
    all_goals
      first
      | ring1
      | (apply Vec3.ext <;> simp only [vx, vy, vz, wx, wy, wz, sx, sy, sz, dx, dy, dz] <;> ring1)
  · generalize HadRadLP.make (KinematicsRad.make k.project k.tau k.phi_k d) s = f2
    generalize HadRadLP.make (KinematicsRad.make k.project k.tau k.phi_k d) t = g2
    generalize HadRadLP.make (KinematicsRad.make k.project k.tau k.phi_k (2 * d)) s = f3
    generalize HadRadLP.make (KinematicsRad.make k.project k.tau k.phi_k (2 * d)) t = g3
    simp only [makeHadRadFBaseUUDeriv, makeHadRadFBaseUPDeriv, makeHadRadFBaseLUDeriv, makeHadRadFBaseLPDeriv,
      diffR, diffRVec,
      HadRadFLP.mk.injEq, HadRadFBaseUU.mk.injEq, HadRadFBaseUP.mk.injEq, HadRadFBaseLU.mk.injEq,
      HadRadFBaseLP.mk.injEq, true_and, and_assoc]
    refine ⟨?_, ?_, ?_, ?_, ?_, ?_, ?_, ?_, ?_, ?_, ?_, ?_, ?_, ?_⟩
    all_goals
      first
      | ring1
      | (apply Vec3.ext <;> simp only [vx, vy, vz, wx, wy, wz, sx, sy, sz] <;> ring1)

/-- C124: so is `xs::rad_f`. -/
theorem c124_rad_f (k : KinematicsRad ℝ) (ph : Phenom) (lambda : ℝ) (eta : Vec3) :
    SfLinear fun sf => xsRadF k ph sf lambda eta := by
  intro a b s t
  simp only [c54_rad_f, c54_rad_f_integrand]
  rw [hadRadF_combine]
  simp only [radFUU_lin, radFUP_lin, radFLU_lin, radFLP_lin]
  ring

/-- C124: so is `xs::nrad_ir`, for a positive cut-off. -/
theorem c124_nrad_ir (k : Kinematics ℝ) (ph : Phenom) (lambda : ℝ) (eta : Vec3) {k_0_bar : Fl}
    {d : ℝ} (hd : deltaVertRadIr k k_0_bar = .fin d) : ∃ xs : SfFuns → ℝ,
    (∀ sf, xsNradIr k ph sf lambda eta k_0_bar = .fin (xs sf)) ∧ SfLinear xs := by
  refine ⟨_, fun sf => c55_rescaled_born k ph sf lambda eta k_0_bar d hd, fun a b s t => ?_⟩
  have h1 := c124_born k ph lambda eta a b s t
  have h2 := c124_amm k ph lambda eta a b s t
  simp only at h1 h2
  rw [h1, h2]
  ring

/-! ## Masks -/

private noncomputable def zeroSf : SfFuns :=
  let o : Hadron → ℝ → ℝ → ℝ → ℝ → ℝ := fun _ _ _ _ _ => 0
  ⟨o, o, o, o, o, o, o, o, o, o, o, o, o, o, o, o, o, o⟩

private noncomputable def sumSf (l : List SfFuns) : SfFuns := l.foldr (combineSf 1 1) zeroSf

private theorem lin_zero {xs : SfFuns → ℝ} (h : SfLinear xs) : xs zeroSf = 0 := by
  have e : combineSf 0 0 zeroSf zeroSf = zeroSf := by simp [combineSf, zeroSf]
  have := h 0 0 zeroSf zeroSf
  rw [e] at this
  simpa using this

private theorem lin_sum {xs : SfFuns → ℝ} (h : SfLinear xs) (l : List SfFuns) : xs (sumSf l) = (l.map xs).sum := by
  induction l with
  | nil => simpa [sumSf] using lin_zero h
  | cons a l ih =>
    have := h 1 1 a (sumSf l)
    rw [one_mul, one_mul, ih] at this
    rw [List.map_cons, List.sum_cons, ← this]
    rfl

private theorem count_sum (ms : List SfMask.Mask) (i : ℕ) (v : ℝ) :
    (ms.map fun m => if m.getD i false then v else 0).sum = (ms.filter fun m => m.getD i false).length * v := by
  induction ms with
  | nil => simp
  | cons m ms ih =>
    rw [List.map_cons, List.sum_cons, ih, List.filter_cons]
    split_ifs with h
    · rw [List.length_cons]; push_cast; ring
    · ring

private theorem val {m : SfMask.Mask} {i : ℕ} {F : SfArgs → Fl} {a : SfArgs} {v w : ℝ}
    (h : SfMask.masked m i F a = .fin w) (hv : F a = .fin v) : w = if m.getD i false then v else 0 := by
  unfold SfMask.masked at h
  rw [hv] at h
  split_ifs at h ⊢ <;> exact (Fl.fin.inj h).symm

private theorem mval {m : SfMask.Mask} {i : ℕ} {F : SfArgs → Fl} {a : SfArgs} {v : ℝ}
    (hv : F a = .fin v) : SfMask.masked m i F a = .fin (if m.getD i false then v else 0) := by
  unfold SfMask.masked
  rw [hv]
  split_ifs <;> rfl

/-- The numbers of a masked set. -/
private noncomputable def maskFuns (m : SfMask.Mask) (f : SfFuns) : SfFuns where
  F_UUL h x z q p := if m.getD 0 false then f.F_UUL h x z q p else 0
  F_UUT h x z q p := if m.getD 1 false then f.F_UUT h x z q p else 0
  F_UU_cos_phih h x z q p := if m.getD 2 false then f.F_UU_cos_phih h x z q p else 0
  F_UU_cos_2phih h x z q p := if m.getD 3 false then f.F_UU_cos_2phih h x z q p else 0
  F_UL_sin_phih h x z q p := if m.getD 4 false then f.F_UL_sin_phih h x z q p else 0
  F_UL_sin_2phih h x z q p := if m.getD 5 false then f.F_UL_sin_2phih h x z q p else 0
  F_UTL_sin_phih_m_phis h x z q p := if m.getD 6 false then f.F_UTL_sin_phih_m_phis h x z q p else 0
  F_UTT_sin_phih_m_phis h x z q p := if m.getD 7 false then f.F_UTT_sin_phih_m_phis h x z q p else 0
  F_UT_sin_2phih_m_phis h x z q p := if m.getD 8 false then f.F_UT_sin_2phih_m_phis h x z q p else 0
  F_UT_sin_3phih_m_phis h x z q p := if m.getD 9 false then f.F_UT_sin_3phih_m_phis h x z q p else 0
  F_UT_sin_phis h x z q p := if m.getD 10 false then f.F_UT_sin_phis h x z q p else 0
  F_UT_sin_phih_p_phis h x z q p := if m.getD 11 false then f.F_UT_sin_phih_p_phis h x z q p else 0
  F_LU_sin_phih h x z q p := if m.getD 12 false then f.F_LU_sin_phih h x z q p else 0
  F_LL h x z q p := if m.getD 13 false then f.F_LL h x z q p else 0
  F_LL_cos_phih h x z q p := if m.getD 14 false then f.F_LL_cos_phih h x z q p else 0
  F_LT_cos_phih_m_phis h x z q p := if m.getD 15 false then f.F_LT_cos_phih_m_phis h x z q p else 0
  F_LT_cos_2phih_m_phis h x z q p := if m.getD 16 false then f.F_LT_cos_2phih_m_phis h x z q p else 0
  F_LT_cos_phis h x z q p := if m.getD 17 false then f.F_LT_cos_phis h x z q p else 0

private theorem maskFuns_values {s : SfMask.SfSet SfArgs} {f : SfFuns} (hv : HasValues s f) (m : SfMask.Mask) :
    HasValues (SfMask.maskSfSet m s) (maskFuns m f) := by
  constructor <;> intro h x z q p
  · exact mval (hv.UUL h x z q p)
  · exact mval (hv.UUT h x z q p)
  · exact mval (hv.UU_cos_phih h x z q p)
  · exact mval (hv.UU_cos_2phih h x z q p)
  · exact mval (hv.UL_sin_phih h x z q p)
  · exact mval (hv.UL_sin_2phih h x z q p)
  · exact mval (hv.UTL_sin_phih_m_phis h x z q p)
  · exact mval (hv.UTT_sin_phih_m_phis h x z q p)
  · exact mval (hv.UT_sin_2phih_m_phis h x z q p)
  · exact mval (hv.UT_sin_3phih_m_phis h x z q p)
  · exact mval (hv.UT_sin_phis h x z q p)
  · exact mval (hv.UT_sin_phih_p_phis h x z q p)
  · exact mval (hv.LU_sin_phih h x z q p)
  · exact mval (hv.LL h x z q p)
  · exact mval (hv.LL_cos_phih h x z q p)
  · exact mval (hv.LT_cos_phih_m_phis h x z q p)
  · exact mval (hv.LT_cos_2phih_m_phis h x z q p)
  · exact mval (hv.LT_cos_phis h x z q p)

/-- C124: a masked set of structure functions that are numbers gives numbers. -/
theorem c124_mask_values {s : SfMask.SfSet SfArgs} {f : SfFuns} (hv : HasValues s f) (m : SfMask.Mask) :
    ∃ g, HasValues (SfMask.maskSfSet m s) g := ⟨_, maskFuns_values hv m⟩

private theorem eq_sum {ms : List SfMask.Mask} (hp : Partition ms) {s : SfMask.SfSet SfArgs} {f : SfFuns}
    (hv : HasValues s f) {g : SfMask.Mask → SfFuns} (hg : ∀ m ∈ ms, HasValues (SfMask.maskSfSet m s) (g m)) :
    f = sumSf (ms.map g) := by
  have comp : ∀ P : SfFuns → ℝ, SfLinear P → ∀ i < 18, (∀ m ∈ ms, P (g m) = if m.getD i false then P f else 0) →
      P f = P (sumSf (ms.map g)) := by
    intro P hP i hi h
    rw [lin_sum hP, List.map_map, List.map_congr_left (g := fun m => if m.getD i false then P f else 0) h, count_sum,
      hp i hi]
    simp
  have ext : ∀ a b : SfFuns, (∀ h x z q p, a.F_UUL h x z q p = b.F_UUL h x z q p ∧
      a.F_UUT h x z q p = b.F_UUT h x z q p ∧
      a.F_UU_cos_phih h x z q p = b.F_UU_cos_phih h x z q p ∧
      a.F_UU_cos_2phih h x z q p = b.F_UU_cos_2phih h x z q p ∧
      a.F_UL_sin_phih h x z q p = b.F_UL_sin_phih h x z q p ∧
      a.F_UL_sin_2phih h x z q p = b.F_UL_sin_2phih h x z q p ∧
      a.F_UTL_sin_phih_m_phis h x z q p = b.F_UTL_sin_phih_m_phis h x z q p ∧
      a.F_UTT_sin_phih_m_phis h x z q p = b.F_UTT_sin_phih_m_phis h x z q p ∧
      a.F_UT_sin_2phih_m_phis h x z q p = b.F_UT_sin_2phih_m_phis h x z q p ∧
      a.F_UT_sin_3phih_m_phis h x z q p = b.F_UT_sin_3phih_m_phis h x z q p ∧
      a.F_UT_sin_phis h x z q p = b.F_UT_sin_phis h x z q p ∧
      a.F_UT_sin_phih_p_phis h x z q p = b.F_UT_sin_phih_p_phis h x z q p ∧
      a.F_LU_sin_phih h x z q p = b.F_LU_sin_phih h x z q p ∧
      a.F_LL h x z q p = b.F_LL h x z q p ∧
      a.F_LL_cos_phih h x z q p = b.F_LL_cos_phih h x z q p ∧
      a.F_LT_cos_phih_m_phis h x z q p = b.F_LT_cos_phih_m_phis h x z q p ∧
      a.F_LT_cos_2phih_m_phis h x z q p = b.F_LT_cos_2phih_m_phis h x z q p ∧
      a.F_LT_cos_phis h x z q p = b.F_LT_cos_phis h x z q p) → a = b := by
    rintro ⟨⟩ ⟨⟩ h
    simp only at h
    simp only [SfFuns.mk.injEq]
    refine ⟨?_, ?_, ?_, ?_, ?_, ?_, ?_, ?_, ?_, ?_, ?_, ?_, ?_, ?_, ?_, ?_, ?_, ?_⟩ <;> (funext a b c d e; simp only [h a b c d e])
  refine ext _ _ fun h x z q p => ⟨?_, ?_, ?_, ?_, ?_, ?_, ?_, ?_, ?_, ?_, ?_, ?_, ?_, ?_, ?_, ?_, ?_, ?_⟩
  · exact comp (fun g => g.F_UUL h x z q p) (fun _ _ _ _ => rfl) 0 (by norm_num) fun m hm => val ((hg m hm).UUL h x z q p) (hv.UUL h x z q p)
  · exact comp (fun g => g.F_UUT h x z q p) (fun _ _ _ _ => rfl) 1 (by norm_num) fun m hm => val ((hg m hm).UUT h x z q p) (hv.UUT h x z q p)
  · exact comp (fun g => g.F_UU_cos_phih h x z q p) (fun _ _ _ _ => rfl) 2 (by norm_num) fun m hm => val ((hg m hm).UU_cos_phih h x z q p) (hv.UU_cos_phih h x z q p)
  · exact comp (fun g => g.F_UU_cos_2phih h x z q p) (fun _ _ _ _ => rfl) 3 (by norm_num) fun m hm => val ((hg m hm).UU_cos_2phih h x z q p) (hv.UU_cos_2phih h x z q p)
  · exact comp (fun g => g.F_UL_sin_phih h x z q p) (fun _ _ _ _ => rfl) 4 (by norm_num) fun m hm => val ((hg m hm).UL_sin_phih h x z q p) (hv.UL_sin_phih h x z q p)
  · exact comp (fun g => g.F_UL_sin_2phih h x z q p) (fun _ _ _ _ => rfl) 5 (by norm_num) fun m hm => val ((hg m hm).UL_sin_2phih h x z q p) (hv.UL_sin_2phih h x z q p)
  · exact comp (fun g => g.F_UTL_sin_phih_m_phis h x z q p) (fun _ _ _ _ => rfl) 6 (by norm_num) fun m hm => val ((hg m hm).UTL_sin_phih_m_phis h x z q p) (hv.UTL_sin_phih_m_phis h x z q p)
  · exact comp (fun g => g.F_UTT_sin_phih_m_phis h x z q p) (fun _ _ _ _ => rfl) 7 (by norm_num) fun m hm => val ((hg m hm).UTT_sin_phih_m_phis h x z q p) (hv.UTT_sin_phih_m_phis h x z q p)
  · exact comp (fun g => g.F_UT_sin_2phih_m_phis h x z q p) (fun _ _ _ _ => rfl) 8 (by norm_num) fun m hm => val ((hg m hm).UT_sin_2phih_m_phis h x z q p) (hv.UT_sin_2phih_m_phis h x z q p)
  · exact comp (fun g => g.F_UT_sin_3phih_m_phis h x z q p) (fun _ _ _ _ => rfl) 9 (by norm_num) fun m hm => val ((hg m hm).UT_sin_3phih_m_phis h x z q p) (hv.UT_sin_3phih_m_phis h x z q p)
  · exact comp (fun g => g.F_UT_sin_phis h x z q p) (fun _ _ _ _ => rfl) 10 (by norm_num) fun m hm => val ((hg m hm).UT_sin_phis h x z q p) (hv.UT_sin_phis h x z q p)
  · exact comp (fun g => g.F_UT_sin_phih_p_phis h x z q p) (fun _ _ _ _ => rfl) 11 (by norm_num) fun m hm => val ((hg m hm).UT_sin_phih_p_phis h x z q p) (hv.UT_sin_phih_p_phis h x z q p)
  · exact comp (fun g => g.F_LU_sin_phih h x z q p) (fun _ _ _ _ => rfl) 12 (by norm_num) fun m hm => val ((hg m hm).LU_sin_phih h x z q p) (hv.LU_sin_phih h x z q p)
  · exact comp (fun g => g.F_LL h x z q p) (fun _ _ _ _ => rfl) 13 (by norm_num) fun m hm => val ((hg m hm).LL h x z q p) (hv.LL h x z q p)
  · exact comp (fun g => g.F_LL_cos_phih h x z q p) (fun _ _ _ _ => rfl) 14 (by norm_num) fun m hm => val ((hg m hm).LL_cos_phih h x z q p) (hv.LL_cos_phih h x z q p)
  · exact comp (fun g => g.F_LT_cos_phih_m_phis h x z q p) (fun _ _ _ _ => rfl) 15 (by norm_num) fun m hm => val ((hg m hm).LT_cos_phih_m_phis h x z q p) (hv.LT_cos_phih_m_phis h x z q p)
  · exact comp (fun g => g.F_LT_cos_2phih_m_phis h x z q p) (fun _ _ _ _ => rfl) 16 (by norm_num) fun m hm => val ((hg m hm).LT_cos_2phih_m_phis h x z q p) (hv.LT_cos_2phih_m_phis h x z q p)
  · exact comp (fun g => g.F_LT_cos_phis h x z q p) (fun _ _ _ _ => rfl) 17 (by norm_num) fun m hm => val ((hg m hm).LT_cos_phis h x z q p) (hv.LT_cos_phis h x z q p)

/-- C124: if every structure function is kept by exactly one of the masks, every quantity that is linear in the
structure functions is the sum over the masked sets. -/
theorem c124_masks {ms : List SfMask.Mask} (hp : Partition ms) {s : SfMask.SfSet SfArgs} {f : SfFuns}
    (hv : HasValues s f) {g : SfMask.Mask → SfFuns} (hg : ∀ m ∈ ms, HasValues (SfMask.maskSfSet m s) (g m))
    {xs : SfFuns → ℝ} (hx : SfLinear xs) : xs f = (ms.map fun m => xs (g m)).sum := by
  rw [eq_sum hp hv hg, lin_sum hx, List.map_map]
  rfl

/-- C124: the masks of the filters of the program that split the structure functions. -/
theorem c124_named : Partition [SfMask.maskLeading, SfMask.maskSubleading] ∧
    Partition [SfMask.maskUU, SfMask.maskUL, SfMask.maskUT, SfMask.maskLU, SfMask.maskLL, SfMask.maskLT] ∧
    Partition [SfMask.maskUU, SfMask.maskUP, SfMask.maskLU, SfMask.maskLP] ∧
    Partition [SfMask.maskUX, SfMask.maskLX] ∧
    Partition [SfMask.maskXU, SfMask.maskXL, SfMask.maskXT] ∧ Partition [SfMask.maskXU, SfMask.maskXP] ∧
    Partition [SfMask.maskXX] := by
  unfold Partition
  decide +kernel

/-! ## Integrals over the photon -/

private theorem integral_sum {X : ℝ × ℝ × ℝ → SfFuns → ℝ} (hX : ∀ v, SfLinear (X v)) (D : Set (ℝ × ℝ × ℝ))
    (l : List SfFuns) (hint : ∀ g ∈ l, IntegrableOn (fun v => X v g) D) :
    IntegrableOn (fun v => X v (sumSf l)) D ∧
      ∫ v in D, X v (sumSf l) = (l.map fun g => ∫ v in D, X v g).sum := by
  induction l with
  | nil =>
    have e : ∀ v, X v (sumSf []) = 0 := fun v => lin_zero (hX v)
    simp only [e]
    exact ⟨integrableOn_zero, by simp⟩
  | cons a l ih =>
    obtain ⟨h1, h2⟩ := ih fun g hg => hint g (List.mem_cons_of_mem _ hg)
    have ha := hint a List.mem_cons_self
    have e : ∀ v, X v (sumSf (a :: l)) = X v a + X v (sumSf l) := fun v => by
      have := hX v 1 1 a (sumSf l)
      rw [one_mul, one_mul] at this
      exact this
    simp only [e]
    refine ⟨ha.add h1, ?_⟩
    rw [integral_add ha h1, h2, List.map_cons, List.sum_cons]

private theorem near_sum (ms : List SfMask.Mask) (w T : SfMask.Mask → ℝ) {ε : ℝ}
    (h : ∀ m ∈ ms, |w m - T m| ≤ ε) : |(ms.map w).sum - (ms.map T).sum| ≤ ms.length * ε := by
  induction ms with
  | nil => simp
  | cons m ms ih =>
    have h1 := abs_le.1 (h m List.mem_cons_self)
    have h2 := abs_le.1 (ih fun m hm => h m (List.mem_cons_of_mem _ hm))
    rw [List.map_cons, List.map_cons, List.sum_cons, List.sum_cons, List.length_cons, abs_le]
    push_cast
    constructor <;> linarith [h1.1, h1.2, h2.1, h2.2]

section
variable {ps : Particles ℝ} {S : ℝ} {pt : PhaseSpace ℝ}

/-- C124: the integrated cross-section of hard photons is, to the accuracy of the integrator, the sum of those of the
masked sets. -/
theorem c124_rad_integ (hm : Massive ps) (h : Accepted ps S pt) (hs : Samplable ps S pt) (ph : Phenom)
    (lambda : ℝ) (eta : Vec3) {c : ℝ} (hc : 0 < c) {I : Integrator3} {ε : ℝ} (hI : Accurate I ε)
    {ms : List SfMask.Mask} (hp : Partition ms) {s : SfMask.SfSet SfArgs} {f : SfFuns}
    (hv : HasValues s f) {g : SfMask.Mask → SfFuns} (hg : ∀ m ∈ ms, HasValues (SfMask.maskSfSet m s) (g m)) :
    let K := Kinematics.make (finPs ps) (.fin S) (finPt pt)
    let k := Kinematics.make ps S pt
    (∀ m ∈ ms, IntegrableOn (fun v : ℝ × ℝ × ℝ => xsRad (.make k v.1 v.2.1 v.2.2) ph (g m) lambda eta)
      (hardPhotons ps S pt c)) →
    ∃ (v : ℝ) (w : SfMask.Mask → ℝ), (radInteg I K k ph f lambda eta (.fin c)).val = .fin v ∧
      (∀ m ∈ ms, (radInteg I K k ph (g m) lambda eta (.fin c)).val = .fin (w m)) ∧
      |v - (ms.map w).sum| ≤ (ms.length + 1) * ε := by
  intro K k hint
  have hw : ∀ m : SfMask.Mask, ∃ w : ℝ, m ∈ ms → (radInteg I K k ph (g m) lambda eta (.fin c)).val = .fin w ∧
      |w - ∫ v in hardPhotons ps S pt c, xsRad (.make k v.1 v.2.1 v.2.2) ph (g m) lambda eta| ≤ ε := by
    intro m
    by_cases hmm : m ∈ ms
    · obtain ⟨w, h1, h2⟩ := c86_hard hm h hs ph (g m) lambda eta hc hI (hint m hmm)
      exact ⟨w, fun _ => ⟨h1, h2⟩⟩
    · exact ⟨0, fun q => absurd q hmm⟩
  choose w hw using hw
  obtain ⟨h1, h2⟩ := integral_sum (X := fun v sf => xsRad (.make k v.1 v.2.1 v.2.2) ph sf lambda eta)
    (fun v => c124_rad _ ph lambda eta) (hardPhotons ps S pt c) (ms.map g) (by
      intro g' hg'
      obtain ⟨m, hmm, rfl⟩ := List.mem_map.1 hg'
      exact hint m hmm)
  rw [← eq_sum hp hv hg] at h1 h2
  obtain ⟨v, e1, e2⟩ := c86_hard hm h hs ph f lambda eta hc hI h1
  refine ⟨v, w, e1, fun m hmm => (hw m hmm).1, ?_⟩
  have e3 := near_sum ms w _ fun m hmm => (hw m hmm).2
  rw [List.map_map] at h2
  rw [h2] at e2
  have a2 := abs_le.1 e2
  have a3 := abs_le.1 e3
  simp only [Function.comp_def] at a2
  rw [abs_le]
  constructor <;> linarith [a2.1, a2.2, a3.1, a3.2]

/-- C124: the same for the cross-section without hard photons. -/
theorem c124_nrad_integ (hm : Massive ps) (h : Accepted ps S pt) (hs : Samplable ps S pt) (ph : Phenom)
    (lambda : ℝ) (eta : Vec3) {c : ℝ} (hc : 0 < c) {I : Integrator3} {ε : ℝ} (hI : Accurate I ε)
    {ms : List SfMask.Mask} (hp : Partition ms) {s : SfMask.SfSet SfArgs} {f : SfFuns}
    (hv : HasValues s f) {g : SfMask.Mask → SfFuns} (hg : ∀ m ∈ ms, HasValues (SfMask.maskSfSet m s) (g m)) :
    let K := Kinematics.make (finPs ps) (.fin S) (finPt pt)
    let k := Kinematics.make ps S pt
    (∀ m ∈ ms, IntegrableOn (fun v : ℝ × ℝ × ℝ => xsRadF (.make k v.1 v.2.1 v.2.2) ph (g m) lambda eta)
      (softPhotons ps S pt c)) →
    ∃ (v : ℝ) (w : SfMask.Mask → ℝ), (nradInteg I K k ph f lambda eta (.fin c)).val = .fin v ∧
      (∀ m ∈ ms, (nradInteg I K k ph (g m) lambda eta (.fin c)).val = .fin (w m)) ∧
      |v - (ms.map w).sum| ≤ (ms.length + 1) * ε := by
  intro K k hint
  obtain ⟨total, ht⟩ := c56_cutoff_independent k hs.m_pos (mx_pos_of_accepted hm h) (by
    have := hs.room
    change ps.Mth * ps.Mth < _
    rwa [← pow_two])
  obtain ⟨d, -, hd, -, -⟩ := ht (.fin c) (by simpa using hc)
  obtain ⟨ir, hir, hlin⟩ := c124_nrad_ir k ph lambda eta hd
  have hw : ∀ m : SfMask.Mask, ∃ w : ℝ, m ∈ ms → (nradInteg I K k ph (g m) lambda eta (.fin c)).val = .fin w ∧
      |w - (ir (g m) + ∫ v in softPhotons ps S pt c, xsRadF (.make k v.1 v.2.1 v.2.2) ph (g m) lambda eta)| ≤ ε := by
    intro m
    by_cases hmm : m ∈ ms
    · obtain ⟨w, h1, h2⟩ := (c86_soft hm h hs ph (g m) lambda eta hc hI (hint m hmm)).2 _ (hir _)
      exact ⟨w, fun _ => ⟨h1, h2⟩⟩
    · exact ⟨0, fun q => absurd q hmm⟩
  choose w hw using hw
  obtain ⟨h1, h2⟩ := integral_sum (X := fun v sf => xsRadF (.make k v.1 v.2.1 v.2.2) ph sf lambda eta)
    (fun v => c124_rad_f _ ph lambda eta) (softPhotons ps S pt c) (ms.map g) (by
      intro g' hg'
      obtain ⟨m, hmm, rfl⟩ := List.mem_map.1 hg'
      exact hint m hmm)
  rw [← eq_sum hp hv hg] at h1 h2
  obtain ⟨v, e1, e2⟩ := (c86_soft hm h hs ph f lambda eta hc hI h1).2 _ (hir _)
  refine ⟨v, w, e1, fun m hmm => (hw m hmm).1, ?_⟩
  have e3 := near_sum ms w _ fun m hmm => (hw m hmm).2
  rw [List.map_map] at h2
  rw [h2, c124_masks hp hv hg hlin] at e2
  have a2 := abs_le.1 e2
  have a3 := abs_le.1 e3
  rw [List.sum_map_add] at a3
  simp only [Function.comp_def] at a2
  rw [abs_le]
  constructor <;> linarith [a2.1, a2.2, a3.1, a3.2]

end

/-- Structure functions that are numbers, as a set. -/
noncomputable def sfSetOf (f : SfFuns) : SfMask.SfSet SfArgs where
  F_UUL a := .fin (f.F_UUL a.1 a.2.1 a.2.2.1 a.2.2.2.1 a.2.2.2.2)
  F_UUT a := .fin (f.F_UUT a.1 a.2.1 a.2.2.1 a.2.2.2.1 a.2.2.2.2)
  F_UU_cos_phih a := .fin (f.F_UU_cos_phih a.1 a.2.1 a.2.2.1 a.2.2.2.1 a.2.2.2.2)
  F_UU_cos_2phih a := .fin (f.F_UU_cos_2phih a.1 a.2.1 a.2.2.1 a.2.2.2.1 a.2.2.2.2)
  F_UL_sin_phih a := .fin (f.F_UL_sin_phih a.1 a.2.1 a.2.2.1 a.2.2.2.1 a.2.2.2.2)
  F_UL_sin_2phih a := .fin (f.F_UL_sin_2phih a.1 a.2.1 a.2.2.1 a.2.2.2.1 a.2.2.2.2)
  F_UTL_sin_phih_m_phis a := .fin (f.F_UTL_sin_phih_m_phis a.1 a.2.1 a.2.2.1 a.2.2.2.1 a.2.2.2.2)
  F_UTT_sin_phih_m_phis a := .fin (f.F_UTT_sin_phih_m_phis a.1 a.2.1 a.2.2.1 a.2.2.2.1 a.2.2.2.2)
  F_UT_sin_2phih_m_phis a := .fin (f.F_UT_sin_2phih_m_phis a.1 a.2.1 a.2.2.1 a.2.2.2.1 a.2.2.2.2)
  F_UT_sin_3phih_m_phis a := .fin (f.F_UT_sin_3phih_m_phis a.1 a.2.1 a.2.2.1 a.2.2.2.1 a.2.2.2.2)
  F_UT_sin_phis a := .fin (f.F_UT_sin_phis a.1 a.2.1 a.2.2.1 a.2.2.2.1 a.2.2.2.2)
  F_UT_sin_phih_p_phis a := .fin (f.F_UT_sin_phih_p_phis a.1 a.2.1 a.2.2.1 a.2.2.2.1 a.2.2.2.2)
  F_LU_sin_phih a := .fin (f.F_LU_sin_phih a.1 a.2.1 a.2.2.1 a.2.2.2.1 a.2.2.2.2)
  F_LL a := .fin (f.F_LL a.1 a.2.1 a.2.2.1 a.2.2.2.1 a.2.2.2.2)
  F_LL_cos_phih a := .fin (f.F_LL_cos_phih a.1 a.2.1 a.2.2.1 a.2.2.2.1 a.2.2.2.2)
  F_LT_cos_phih_m_phis a := .fin (f.F_LT_cos_phih_m_phis a.1 a.2.1 a.2.2.1 a.2.2.2.1 a.2.2.2.2)
  F_LT_cos_2phih_m_phis a := .fin (f.F_LT_cos_2phih_m_phis a.1 a.2.1 a.2.2.1 a.2.2.2.1 a.2.2.2.2)
  F_LT_cos_phis a := .fin (f.F_LT_cos_phis a.1 a.2.1 a.2.2.1 a.2.2.2.1 a.2.2.2.2)

/-- The hypotheses of the two theorems can be met: structure functions at one point, a mask that keeps all and one
that keeps none. -/
example (ph : Phenom) (eta : Vec3) {c : ℝ} :
    let f := pointSf samplePt.x (20 * samplePt.x * samplePt.y)
    let ms := [SfMask.maskXX, []]
    let k := Kinematics.make samplePs 20 samplePt
    HasValues (sfSetOf f) f ∧ Partition ms ∧ ∃ g : SfMask.Mask → SfFuns, ∀ m ∈ ms,
      HasValues (SfMask.maskSfSet m (sfSetOf f)) (g m) ∧
      IntegrableOn (fun v : ℝ × ℝ × ℝ => xsRadF (.make k v.1 v.2.1 v.2.2) ph (g m) 1 eta)
        (softPhotons samplePs 20 samplePt c) := by
  intro f ms k
  have hf : HasValues (sfSetOf f) f := by constructor <;> intros <;> rfl
  obtain ⟨hm, h⟩ := sample_accepted
  have hi := (integrable_point hm h sample_samplable ph 1 eta).mono_set
    (fun v hv => hv.1 : softPhotons samplePs 20 samplePt c ⊆ photons samplePs 20 samplePt)
  refine ⟨hf, by unfold Partition; decide +kernel, fun m => maskFuns m f, fun m hmm => ⟨maskFuns_values hf m, ?_⟩⟩
  simp only [ms, List.mem_cons, List.not_mem_nil, or_false] at hmm
  rcases hmm with rfl | rfl
  · have e : maskFuns SfMask.maskXX f = f := by simp [maskFuns, SfMask.maskXX, SfMask.maskOf]
    simp only [e]
    exact hi
  · have e : maskFuns [] f = zeroSf := by simp [maskFuns, zeroSf]
    have e0 : ∀ v : ℝ × ℝ × ℝ, xsRadF (.make k v.1 v.2.1 v.2.2) ph zeroSf 1 eta = 0 := fun v =>
      lin_zero (c124_rad_f _ ph 1 eta)
    simp only [e, e0]
    exact integrableOn_zero

/-! ## The generator -/

/-- C124: the densities of the generator for two parts of the structure functions add up to that for both exactly
where the parts of the cross-section do not have opposite signs; elsewhere they add up to more. -/
theorem c124_density {j a b : ℝ} (hj : 0 < j) : ∃ u v w : ℝ,
    Density.weigh (.fin j) (.fin a) = .fin u ∧ Density.weigh (.fin j) (.fin b) = .fin v ∧
    Density.weigh (.fin j) (.fin (a + b)) = .fin w ∧ w ≤ u + v ∧ (w = u + v ↔ 0 ≤ a * b) := by
  have e : ∀ x : ℝ, Density.weigh (.fin j) (.fin x) = .fin (j * max x 0) := by
    intro x
    unfold Density.weigh
    by_cases hx : 0 ≤ x
    · rw [if_neg (by simp [hx]), Fl.mul_fin, max_eq_left hx]
    · rw [if_pos (by simp [hx]), max_eq_right (by linarith), mul_zero]
  refine ⟨_, _, _, e a, e b, e _, ?_, ?_⟩
  · rw [← mul_add]
    refine mul_le_mul_of_nonneg_left ?_ hj.le
    exact max_le (add_le_add (le_max_left ..) (le_max_left ..)) (add_nonneg (le_max_right ..) (le_max_right ..))
  · rw [← mul_add, mul_right_inj' hj.ne']
    rcases le_total 0 a with ha | ha <;> rcases le_total 0 b with hb | hb
    · rw [max_eq_left ha, max_eq_left hb, max_eq_left (add_nonneg ha hb)]
      simp [mul_nonneg ha hb]
    · rw [max_eq_left ha, max_eq_right hb, add_zero]
      constructor
      · intro q
        rcases le_total 0 (a + b) with hs | hs
        · rw [max_eq_left hs] at q
          rw [show b = 0 by linarith, mul_zero]
        · rw [max_eq_right hs] at q
          rw [← q, zero_mul]
      · intro q
        rcases eq_or_lt_of_le ha with rfl | ha'
        · simpa using hb
        · have : b = 0 := by
            by_contra hne
            have := mul_neg_of_pos_of_neg ha' (lt_of_le_of_ne hb hne)
            linarith
          rw [this, add_zero, max_eq_left ha]
    · rw [max_eq_right ha, max_eq_left hb, zero_add]
      constructor
      · intro q
        rcases le_total 0 (a + b) with hs | hs
        · rw [max_eq_left hs] at q
          rw [show a = 0 by linarith, zero_mul]
        · rw [max_eq_right hs] at q
          rw [← q, mul_zero]
      · intro q
        rcases eq_or_lt_of_le hb with rfl | hb'
        · simpa using ha
        · have : a = 0 := by
            by_contra hne
            have := mul_neg_of_neg_of_pos (lt_of_le_of_ne ha hne) hb'
            linarith
          rw [this, zero_add, max_eq_left hb]
    · rw [max_eq_right ha, max_eq_right hb, max_eq_right (by linarith)]
      simp [mul_nonneg_of_nonpos_of_nonpos ha hb]

/-- Structure functions with a Sivers effect of half the largest size, as a set. -/
noncomputable def siversSet : SfMask.SfSet SfArgs :=
  let o : SfArgs → Fl := fun _ => .fin 0
  ⟨o, fun _ => .fin 1, o, o, o, o, o, fun _ => .fin (1 / 2), o, o, o, o, o, o, o, o, o, o⟩

/-- C124 (refuted): that the densities of the generator, and with them its cross-sections (C98), for parts of the
structure functions add up to that for all. With a transversely polarised target, the part of the polarised structure
functions is negative in half of the phase space and counts as zero there. -/
theorem c124_generator_refuted : ∃ (ps : Particles ℝ) (S : ℝ) (pt : PhaseSpace ℝ), Physical ps S pt ∧
    ∃ f g₁ g₂ : SfFuns, HasValues siversSet f ∧ HasValues (SfMask.maskSfSet SfMask.maskXU siversSet) g₁ ∧
      HasValues (SfMask.maskSfSet SfMask.maskXP siversSet) g₂ ∧
      ∀ (ph : Phenom) (j : ℝ), ph.alpha_qed ≠ 0 → 0 < j →
        let xs := fun sf => Fl.fin (xsBorn (.make ps S pt) ph sf 0 ⟨0, 1, 0⟩)
        Density.weigh (.fin j) (xs f) ≠ Density.weigh (.fin j) (xs g₁) + Density.weigh (.fin j) (xs g₂) := by
  let o : Hadron → ℝ → ℝ → ℝ → ℝ → ℝ := fun _ _ _ _ _ => 0
  let f : SfFuns := ⟨o, fun _ _ _ _ _ => 1, o, o, o, o, o, fun _ _ _ _ _ => 1 / 2, o, o, o, o, o, o, o, o, o, o⟩
  have hf : HasValues siversSet f := by constructor <;> intros <;> rfl
  have hp := sample_physical.2
  let g₁ := maskFuns SfMask.maskXU f
  let g₂ := maskFuns SfMask.maskXP f
  have h1 : HasValues (SfMask.maskSfSet SfMask.maskXU siversSet) g₁ := maskFuns_values hf _
  have h2 : HasValues (SfMask.maskSfSet SfMask.maskXP siversSet) g₂ := maskFuns_values hf _
  refine ⟨samplePs, 20, samplePt, hp, f, g₁, g₂, hf, h1, h2, fun ph j ha hj => ?_⟩
  have hN := massive_norm_pos hp ha
  have e := fun sf => c72_textbook hp (by norm_num [samplePt])
    (by norm_num [samplePs, samplePt, Nucleus.mass, Hadron.mass, CMath.ofReal]) ph sf 0 0 1 (samplePt.phi_h + π / 2)
  have hz : (⟨1 * cos (samplePt.phi_h + π / 2 - samplePt.phi_h), 1 * sin (samplePt.phi_h + π / 2 - samplePt.phi_h),
      0⟩ : Vec3) = ⟨0, 1, 0⟩ := by
    rw [add_sub_cancel_left]
    simp
  have hsin : sin (samplePt.phi_h - (samplePt.phi_h + π / 2)) = -1 := by
    rw [sub_add_cancel_left, sin_neg, sin_pi_div_two]
  rw [hz] at e
  set w := massiveWeights ph.alpha_qed samplePs.M samplePs.m 20 samplePt.x samplePt.y (20 * samplePt.x * samplePt.y)
  have e1 : xsBorn (.make samplePs 20 samplePt) ph g₁ 0 ⟨0, 1, 0⟩ = w.norm := by
    rw [e]
    simp [angular, SfValues.at, g₁, maskFuns, SfMask.maskXU, SfMask.maskOf, f, o]
  have e2 : xsBorn (.make samplePs 20 samplePt) ph g₂ 0 ⟨0, 1, 0⟩ = -(w.norm / 2) := by
    rw [e]
    simp [angular, SfValues.at, g₂, maskFuns, SfMask.maskXP, SfMask.maskOf, f, o, hsin]
    ring
  have e3 : xsBorn (.make samplePs 20 samplePt) ph f 0 ⟨0, 1, 0⟩ = w.norm + -(w.norm / 2) := by
    have := c124_masks (ms := [SfMask.maskXU, SfMask.maskXP]) c124_named.2.2.2.2.2.1 hf
      (g := fun m => maskFuns m f) (fun m _ => maskFuns_values hf m)
      (c124_born (.make samplePs 20 samplePt) ph 0 ⟨0, 1, 0⟩)
    simp only [List.map_cons, List.map_nil, List.sum_cons, List.sum_nil, add_zero] at this
    rw [this]
    exact congrArg₂ _ e1 e2
  intro xs
  obtain ⟨u, v, w', q1, q2, q3, -, q4⟩ := c124_density (a := w.norm) (b := -(w.norm / 2)) hj
  simp only [xs, e1, e2, e3, q1, q2, q3, Fl.add_fin]
  intro q
  have := q4.1 (Fl.fin.inj q)
  nlinarith

end Sidis.Props
