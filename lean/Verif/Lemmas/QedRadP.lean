import Verif.Lemmas.QedRadU

/-! # The tensor with a radiated photon: the components with polarisation of the beam -/

namespace Sidis.Dirac
open Spec Spec.Qed Matrix
set_option linter.unusedSimpArgs false

theorem eps_add2 (x y b c d : Vec4) : eps b (x + y) c d = eps b x c d + eps b y c d := by
  simp only [eps_expand, Vec4.add_t, Vec4.add_x, Vec4.add_y, Vec4.add_z]; ring
theorem eps_add3 (x y b c d : Vec4) : eps b c (x + y) d = eps b c x d + eps b c y d := by
  simp only [eps_expand, Vec4.add_t, Vec4.add_x, Vec4.add_y, Vec4.add_z]; ring
theorem eps_add4 (x y b c d : Vec4) : eps b c d (x + y) = eps b c d x + eps b c d y := by
  simp only [eps_expand, Vec4.add_t, Vec4.add_x, Vec4.add_y, Vec4.add_z]; ring

set_option maxHeartbeats 4000000 in
theorem radComp7 {K : KinematicsRad ℝ} {p k1 q h k n : Vec4} (hd : RadDots K p k1 q h k)
    (hr : RadRel K) (hn : RadN K p k1 q h k n) (hm : K.m ≠ 0)
    (hR : K.R ≠ 0) (h1 : K.z_1 ≠ 0) (h2 : K.z_2 ≠ 0) :
    -2 * radP k1 (k1 - q) k ((K.S / (K.m * K.lambda_S_sqrt)) • k1 - (2 * K.m / K.lambda_S_sqrt) • p)
      (eik k1 (k1 - q) k) K.m (1 / (K.R * K.z_1)) (1 / (K.R * K.z_2)) p n =
      (leptonicRad K).c7 / K.R := by
  have hS := hr.S0
  rad_setup
  simp only [radP, pairs, E4, tri, eps_sub1, eps_sub2, eps_sub3, eps_sub4, eps_add1, eps_add2, eps_add3,
    eps_add4, eps_smul1, eps_smul2, eps_smul3, eps_smul4, eps_12, eps_13, eps_14, eps_23, eps_24, eps_34,
    eps_swap2 n, eps_swap3 n, eps_swap4 n, en,
    mink_sub_left, mink_sub_right, mink_smul_left, mink_smul_right, mink_add_left, mink_add_right]
  rad_dots
  rad_close

set_option maxHeartbeats 4000000 in
theorem radComp9 {K : KinematicsRad ℝ} {p k1 q h k n : Vec4} (hd : RadDots K p k1 q h k)
    (hr : RadRel K) (hn : RadN K p k1 q h k n) (hm : K.m ≠ 0)
    (hR : K.R ≠ 0) (h1 : K.z_1 ≠ 0) (h2 : K.z_2 ≠ 0) :
    -2 * radP k1 (k1 - q) k ((K.S / (K.m * K.lambda_S_sqrt)) • k1 - (2 * K.m / K.lambda_S_sqrt) • p)
      (eik k1 (k1 - q) k) K.m (1 / (K.R * K.z_1)) (1 / (K.R * K.z_2)) h n =
      (leptonicRad K).c9 / K.R := by
  have hS := hr.S0
  rad_setup
  simp only [radP, pairs, E4, tri, eps_sub1, eps_sub2, eps_sub3, eps_sub4, eps_add1, eps_add2, eps_add3,
    eps_add4, eps_smul1, eps_smul2, eps_smul3, eps_smul4, eps_12, eps_13, eps_14, eps_23, eps_24, eps_34,
    eps_swap2 n, eps_swap3 n, eps_swap4 n, en,
    mink_sub_left, mink_sub_right, mink_smul_left, mink_smul_right, mink_add_left, mink_add_right]
  rad_dots
  rad_close

theorem eps_mul (a b c x y : Vec4) : eps x a b c * eps y a b c =
    -(!![mink x y, mink x a, mink x b, mink x c; mink a y, mink a a, mink a b, mink a c;
      mink b y, mink a b, mink b b, mink b c; mink c y, mink a c, mink b c, mink c c] :
      Matrix (Fin 4) (Fin 4) ℝ).det := by
  simp [Matrix.det_succ_row_zero, Fin.sum_univ_succ, Fin.succAbove, eps_expand, mink]
  ring

theorem eq_of_add_mul {x y r : ℝ} (t : ℝ) (h : r = 0) (e : x = y + t * r) : x = y := by
  rw [e, h, mul_zero, add_zero]

set_option maxHeartbeats 4000000 in
theorem radComp5 {K : KinematicsRad ℝ} {p k1 q h k n : Vec4} (hd : RadDots K p k1 q h k)
    (hr : RadRel K) (hn : RadN K p k1 q h k n) (hm : K.m ≠ 0)
    (hR : K.R ≠ 0) (h1 : K.z_1 ≠ 0) (h2 : K.z_2 ≠ 0) :
    -2 * radP k1 (k1 - q) k ((K.S / (K.m * K.lambda_S_sqrt)) • k1 - (2 * K.m / K.lambda_S_sqrt) • p)
      (eik k1 (k1 - q) k) K.m (1 / (K.R * K.z_1)) (1 / (K.R * K.z_2)) p h =
      (leptonicRad K).c5 / K.R := by
  have hS := hr.S0
  rad_setup
  have p1 := eps_perm h p k1 q
  have p2 := eps_perm h p k1 k
  have p3 := eps_perm k p h q
  have ea := eps_mul p k1 q k k
  have eb := eps_mul p k1 q k h
  simp [Matrix.det_succ_row_zero, Fin.sum_univ_succ, Fin.succAbove] at ea eb
  rw [volk] at ea eb
  rw [vol, evol] at eb
  simp only [pp, pk1, pq, ph, k1k1, k1q, k1h, qq, qh, hh, kk, pk, qk, k1k, hk, m1, m2, m3, m4, m5, m6,
    m7, m8, m9, m10, eM, em, eS, eSx, eQ, eV1, eVm, emh, ez] at ea eb
  have rel := congrArg (fun x => x * K.vol_phi_h) ea
  have rel2 := congrArg (fun x => x * (K.R * K.vol_phi_k_R)) eb
  have rel3 := rel.symm.trans ((by ring : _ = _).trans rel2)
  clear rel rel2 ea eb
  try beta_reduce at rel3
  have rel4 := sub_eq_zero.mpr rel3
  clear rel3
  refine eq_of_add_mul (-32 * K.S / (K.lambda_1 * K.lambda_S_sqrt * K.z_1 ^ 2 * K.R ^ 2)) rel4 ?_
  clear rel4
  simp only [radP, pairs, E4, tri, eps_sub1, eps_sub2, eps_sub3, eps_sub4, eps_add1, eps_add2, eps_add3,
    eps_add4, eps_smul1, eps_smul2, eps_smul3, eps_smul4, eps_12, eps_13, eps_14, eps_23, eps_24, eps_34,
    mink_sub_left, mink_sub_right, mink_smul_left, mink_smul_right, mink_add_left, mink_add_right]
  simp only [p1, p2, p3]
  simp only [vol, svol, volhk, evol]
  rad_dots
  rad_close

end Sidis.Dirac
