import Verif.Lemmas.QedRadC

/-! # The tensor with a radiated photon: the components without polarisation of the beam -/

namespace Sidis.Dirac
open Spec Spec.Qed Matrix
set_option linter.unusedSimpArgs false

theorem eik_eq {K : KinematicsRad ℝ} {p k1 q h k : Vec4} (hd : RadDots K p k1 q h k)
    (hz : K.z_2 = K.z_1 - K.tau) : eik k1 (k1 - q) k =
      (2 / (K.R * K.z_1)) • k1 - (2 / (K.R * K.z_2)) • (k1 - q) := by
  have : mink (k1 - q) k = K.R * K.z_2 / 2 := by rw [mink_sub_left, hd.k1k, hd.qk, hz]; ring
  rw [eik, hd.k1k, this]
  congr 2 <;> field_simp

/-- The products of the normal of the hadronic tensor. -/
structure RadN (K : KinematicsRad ℝ) (p k1 q h k n : Vec4) : Prop where
  pn : mink p n = 0
  hn : mink h n = 0
  k1n : mink k1 n = -K.shift_vol_phi_h
  qn : mink q n = K.vol_phi_hk
  kn : mink k n = K.vol_phi_hk
  en : ∀ d e f, eps n d e f =
    -(mink (q - k) d * (mink p e * mink h f - mink p f * mink h e)
      - mink (q - k) e * (mink p d * mink h f - mink p f * mink h d)
      + mink (q - k) f * (mink p d * mink h e - mink p e * mink h d))

theorem radN {K : KinematicsRad ℝ} {p k1 q h k : Vec4} (hd : RadDots K p k1 q h k) :
    RadN K p k1 q h k (normal (q - k) p h) := by
  have v := hd.dots.vol
  change _ = K.vol_phi_h at v
  constructor
  · rw [mink_normal]; simp only [eps_expand]; ring
  · rw [mink_normal]; simp only [eps_expand]; ring
  · rw [mink_normal]; have := hd.svol; rw [← v] at this
    simp only [eps_expand, Vec4.sub_t, Vec4.sub_x, Vec4.sub_y, Vec4.sub_z] at this ⊢; linear_combination this
  · rw [mink_normal, ← hd.volhk]; simp only [eps_expand, Vec4.sub_t, Vec4.sub_x, Vec4.sub_y, Vec4.sub_z]; ring
  · rw [mink_normal, ← hd.volhk]; simp only [eps_expand, Vec4.sub_t, Vec4.sub_x, Vec4.sub_y, Vec4.sub_z]; ring
  · exact fun d e f => eps_normal _ _ _ _ _ _

set_option hygiene false in
/-- Name the invariants and the relations between the fields. -/
macro "rad_setup" : tactic => `(tactic| (
  rw [eik_eq hd hr.z_2']
  obtain ⟨⟨pp, pk1, pq, ph, k1k1, k1q, k1h, qq, qh, hh, vol⟩, kk, pk, qk, k1k, hk, volk, volhk, svol⟩ := hd
  obtain ⟨n1, n2, n3, n4, n5, en⟩ := hn
  have n1' := (mink_comm n p).trans n1
  have n2' := (mink_comm n h).trans n2
  have n3' := (mink_comm n k1).trans n3
  have n4' := (mink_comm n q).trans n4
  have n5' := (mink_comm n k).trans n5
  have m1 := (mink_comm k1 p).trans pk1
  have m2 := (mink_comm h p).trans ph
  have m3 := (mink_comm h q).trans qh
  have m4 := (mink_comm q p).trans pq
  have m5 := (mink_comm q k1).trans k1q
  have m6 := (mink_comm h k1).trans k1h
  have m7 := (mink_comm k p).trans pk
  have m8 := (mink_comm k q).trans qk
  have m9 := (mink_comm k k1).trans k1k
  have m10 := (mink_comm k h).trans hk
  have eM : K.project.M = K.M := rfl
  have em : K.project.m = K.m := rfl
  have eS : K.project.S = K.S := rfl
  have eSx : K.project.S_x = K.S_x := rfl
  have eQ : K.project.Q_sq = K.Q_sq := rfl
  have eX : K.project.X = K.X := rfl
  have eSp : K.project.S_p = K.S_p := rfl
  have evol : K.project.vol_phi_h = K.vol_phi_h := rfl
  have eV1 : K.project.V_1 = K.V_1 := rfl
  have eV2 : K.project.V_2 = K.V_2 := rfl
  have eVm : K.project.V_m = K.V_m := rfl
  have eVp : K.project.V_p = K.V_p := rfl
  have emh : K.project.mh = K.mh := rfl
  have ez : K.project.z = K.z := rfl
  have eY : K.project.lambda_Y = K.lambda_Y := rfl
  have eLS : K.project.lambda_S_sqrt = K.lambda_S_sqrt := rfl
  have hz := hr.z_2'
  have hV2 : K.V_2 = K.V_1 - 2 * K.V_m := hr.kin.V_2'
  have hVp : K.V_p = 1 / 2 * (K.V_1 + K.V_2) := hr.kin.V_p_eq
  have hY : K.lambda_Y = K.S_x ^ 2 + 4 * K.M ^ 2 * K.Q_sq := hr.kin.lY_eq
  have hL : K.lambda_1 = K.Q_sq * (K.S * K.X - K.M ^ 2 * K.Q_sq) - K.m ^ 2 * K.lambda_Y := hr.kin.l1_eq
  have hLS : K.lambda_S = K.S ^ 2 - 4 * K.M ^ 2 * K.m ^ 2 := hr.kin.lS_eq
  have hL0 : K.lambda_1 ≠ 0 := by
    have e1 : K.lambda_1 = K.lambda_1_sqrt ^ 2 := hr.kin.l1_sq.symm
    rw [e1]; exact pow_ne_zero _ hr.l1_pos.ne'))

set_option hygiene false in
/-- Replace products of momenta by invariants. -/
macro "rad_dots" : tactic => `(tactic|
  simp only [pp, pk1, pq, ph, k1k1, k1q, k1h, qq, qh, hh, kk, pk, qk, k1k, hk, m1, m2, m3, m4, m5, m6,
    m7, m8, m9, m10, n1, n2, n3, n4, n5, n1', n2', n3', n4', n5', eM, em, eS, eSx, eQ, eV1, eVm, emh, ez])

set_option hygiene false in
/-- Compare with the components of the code. -/
macro "rad_close" : tactic => `(tactic| (
  simp only [leptonicRad, LepRadBaseUU.make, LepRadBaseUP.make, LepRadBaseLU.make, LepRadBaseLP.make,
    LepBornBaseUU.make, LepBornBaseUP.make, LepBornBaseLU.make, LepBornBaseLP.make, Sidis.sq, eM, em, eS,
    eSx, eQ, eX, eSp, evol, eV1, eV2, eVm, eVp, emh, ez, eLS, eY,
    hr.F_IR_eq, hr.F_2p_eq, hr.F_2m_eq, hr.F_1p_eq, hr.F_d_eq, hr.F_21_eq, hr.F_22_eq]
  try rw [hr.svol_eq]
  try rw [hr.volhk_eq]
  try simp only [hVp, hV2, hr.Sp_eq]
  rw [hz] at h2 ⊢
  field_simp
  try rw [hL]
  try rw [hY]
  try rw [hr.X_eq]
  try rw [hLS]
  ring))

theorem rtrace_sub (U V : Vec4 → Vec4 → ℝ) :
    rtrace (fun a b => U a b - V a b) = rtrace U - rtrace V := by simp only [rtrace]; ring

theorem rt1 (x y : Vec4) : rtrace (fun a b => T4 x a y b) = -2 * mink x y := by
  simp only [rtrace, T4, mink, bas, Matrix.cons_val]; ring
theorem rt2 (x y : Vec4) : rtrace (fun a b => T4 a x y b) = 4 * mink x y := by
  simp only [rtrace, T4, mink, bas, Matrix.cons_val]; ring
theorem rt3 (x y : Vec4) : rtrace (fun a b => T4 a b x y) = 4 * mink x y := by
  simp only [rtrace, T4, mink, bas, Matrix.cons_val]; ring
theorem rt4 (x y : Vec4) : rtrace (fun a b => T4 x y a b) = 4 * mink x y := by
  simp only [rtrace, T4, mink, bas, Matrix.cons_val]; ring
theorem rt5 (x y z w : Vec4) : rtrace (fun a b => T6 x a y z w b) = -2 * T4 x w z y := by
  simp only [rtrace, T6_eq, T4, mink, bas, Matrix.cons_val]; ring
theorem rt6 (x y z w : Vec4) : rtrace (fun a b => T6 x a y b z w) = -2 * T4 x y z w := by
  simp only [rtrace, T6_eq, T4, mink, bas, Matrix.cons_val]; ring
theorem rt7 (x y z w : Vec4) : rtrace (fun a b => T6 x y z a w b) = -2 * T4 x y z w := by
  simp only [rtrace, T6_eq, T4, mink, bas, Matrix.cons_val]; ring

theorem rtrace_radU (k1 k2 k u : Vec4) (m c1 c2 : ℝ) : rtrace (radU k1 k2 k u m c1 c2) =
    mink u u * (-2 * mink k2 k1 + m ^ 2 * 4)
    - c1 * (-2 * T4 k2 k u k1 + m ^ 2 * (4 * mink u k)) - c2 * (-2 * T4 k2 k1 k u + m ^ 2 * (4 * mink k u))
    - c1 * (-2 * T4 k2 k1 u k + m ^ 2 * (4 * mink k u)) - c2 * (-2 * T4 k2 u k k1 + m ^ 2 * (4 * mink u k))
    + c1 ^ 2 * (-4 * mink k1 k * (-2 * mink k2 k)) + 2 * (c1 * c2 * (4 * m ^ 2 * mink k k))
    + c2 ^ 2 * (-4 * mink k2 k * (-2 * mink k k1)) := by
  have e : rtrace (fun a b => mink a k * mink b k) = mink k k := by
    simp only [rtrace, mink, bas, Matrix.cons_val]; ring
  unfold radU
  simp only [rtrace_add, rtrace_sub, rtrace_mul, rt1, rt2, rt3, rt4, rt5, rt6, rt7, rtrace_metric, e]

set_option maxHeartbeats 4000000 in
theorem radComp1 {K : KinematicsRad ℝ} {p k1 q h k n : Vec4} (hd : RadDots K p k1 q h k)
    (hr : RadRel K) (hn : RadN K p k1 q h k n)
    (hR : K.R ≠ 0) (h1 : K.z_1 ≠ 0) (h2 : K.z_2 ≠ 0) :
    -rtrace (radU k1 (k1 - q) k (eik k1 (k1 - q) k) K.m (1 / (K.R * K.z_1)) (1 / (K.R * K.z_2))) =
      (leptonicRad K).c1 / K.R := by
  rad_setup
  simp only [rtrace_radU, T6_eq, T4, mink_sub_left, mink_sub_right, mink_smul_left, mink_smul_right]
  rad_dots
  rad_close

set_option maxHeartbeats 4000000 in
theorem radComp2 {K : KinematicsRad ℝ} {p k1 q h k n : Vec4} (hd : RadDots K p k1 q h k)
    (hr : RadRel K) (hn : RadN K p k1 q h k n)
    (hR : K.R ≠ 0) (h1 : K.z_1 ≠ 0) (h2 : K.z_2 ≠ 0) :
    radU k1 (k1 - q) k (eik k1 (k1 - q) k) K.m (1 / (K.R * K.z_1)) (1 / (K.R * K.z_2)) p p =
      (leptonicRad K).c2 / K.R := by
  rad_setup
  simp only [radU, T6_eq, T4, mink_sub_left, mink_sub_right, mink_smul_left, mink_smul_right]
  rad_dots
  rad_close

set_option maxHeartbeats 4000000 in
theorem radComp3 {K : KinematicsRad ℝ} {p k1 q h k n : Vec4} (hd : RadDots K p k1 q h k)
    (hr : RadRel K) (hn : RadN K p k1 q h k n)
    (hR : K.R ≠ 0) (h1 : K.z_1 ≠ 0) (h2 : K.z_2 ≠ 0) :
    radU k1 (k1 - q) k (eik k1 (k1 - q) k) K.m (1 / (K.R * K.z_1)) (1 / (K.R * K.z_2)) h h =
      (leptonicRad K).c3 / K.R := by
  rad_setup
  simp only [radU, T6_eq, T4, mink_sub_left, mink_sub_right, mink_smul_left, mink_smul_right]
  rad_dots
  rad_close

set_option maxHeartbeats 4000000 in
theorem radComp4 {K : KinematicsRad ℝ} {p k1 q h k n : Vec4} (hd : RadDots K p k1 q h k)
    (hr : RadRel K) (hn : RadN K p k1 q h k n)
    (hR : K.R ≠ 0) (h1 : K.z_1 ≠ 0) (h2 : K.z_2 ≠ 0) :
    2 * radU k1 (k1 - q) k (eik k1 (k1 - q) k) K.m (1 / (K.R * K.z_1)) (1 / (K.R * K.z_2)) p h =
      (leptonicRad K).c4 / K.R := by
  rad_setup
  simp only [radU, T6_eq, T4, mink_sub_left, mink_sub_right, mink_smul_left, mink_smul_right]
  rad_dots
  rad_close

set_option maxHeartbeats 4000000 in
theorem radComp6 {K : KinematicsRad ℝ} {p k1 q h k n : Vec4} (hd : RadDots K p k1 q h k)
    (hr : RadRel K) (hn : RadN K p k1 q h k n)
    (hR : K.R ≠ 0) (h1 : K.z_1 ≠ 0) (h2 : K.z_2 ≠ 0) :
    2 * radU k1 (k1 - q) k (eik k1 (k1 - q) k) K.m (1 / (K.R * K.z_1)) (1 / (K.R * K.z_2)) p n =
      (leptonicRad K).c6 / K.R := by
  rad_setup
  simp only [radU, T6_eq, T4, mink_sub_left, mink_sub_right, mink_smul_left, mink_smul_right]
  rad_dots
  rad_close

set_option maxHeartbeats 4000000 in
theorem radComp8 {K : KinematicsRad ℝ} {p k1 q h k n : Vec4} (hd : RadDots K p k1 q h k)
    (hr : RadRel K) (hn : RadN K p k1 q h k n)
    (hR : K.R ≠ 0) (h1 : K.z_1 ≠ 0) (h2 : K.z_2 ≠ 0) :
    2 * radU k1 (k1 - q) k (eik k1 (k1 - q) k) K.m (1 / (K.R * K.z_1)) (1 / (K.R * K.z_2)) h n =
      (leptonicRad K).c8 / K.R := by
  rad_setup
  simp only [radU, T6_eq, T4, mink_sub_left, mink_sub_right, mink_smul_left, mink_smul_right]
  rad_dots
  rad_close

end Sidis.Dirac
