import Verif.Lemmas.QedRadP

/-! # The tensor with a radiated photon contracted with the hadronic tensor -/

namespace Sidis.Dirac
open Spec Spec.Qed Matrix

theorem radP_of_conj {k1 k2 k s : Vec4} {m : ℝ} (u : Vec4) (c1 c2 : ℝ) (hk : mink k k = 0)
    (hs : mink k1 s = 0) (lambda : ℝ) (a b : Vec4) :
    lambda * radP₀ k1 k2 k s u m c1 c2 a b = lambda * radP k1 k2 k s u m c1 c2 a b := by
  have h := congrArg Complex.im (radG_conj (k2 := k2) (k := k) (m := m) u c1 c2 hs lambda a b)
  rw [Complex.conj_im, radG_eq u c1 c2 hk hs, radG_eq u c1 c2 hk hs] at h
  have h' : lambda * (4 * radP₀ k1 k2 k s u m c1 c2 a b) = -(lambda * (4 * radP₀ k1 k2 k s u m c1 c2 b a)) := by
    simpa using h
  have := radP_anti hk k1 k2 s u m c1 c2 a b
  linear_combination (1 / 8) * h' + (lambda / 2) * this

theorem rad_full {K : KinematicsRad ℝ} {p k1 q h k : Vec4} (hd : RadDots K p k1 q h k)
    (hr : RadRel K) (hm : K.m ≠ 0) (hR : K.R ≠ 0) (h1 : K.z_1 ≠ 0) (h2 : K.z_2 ≠ 0)
    (lambda : ℝ) (H : Nine) :
    full (radiativeTensor k1 (k1 - q) k K.m lambda
      ((K.S / (K.m * K.lambda_S_sqrt)) • k1 - (2 * K.m / K.lambda_S_sqrt) • p))
      (hadronicTensor H (q - k) p h) = ((-(4 / K.R) * contract (leptonicRad K) H lambda : ℝ) : ℂ) := by
  have hS := hr.S0
  have k1k1 : mink k1 k1 = K.m ^ 2 := hd.dots.k1k1
  have pk1 : mink p k1 = K.S / 2 := hd.dots.pk1
  have k1q : mink k1 q = -K.Q_sq / 2 := hd.dots.k1q
  have qq : mink q q = -K.Q_sq := hd.dots.qq
  have es : mink k1 ((K.S / (K.m * K.lambda_S_sqrt)) • k1 - (2 * K.m / K.lambda_S_sqrt) • p) = 0 := by
    rw [mink_sub_right, mink_smul_right, mink_smul_right, k1k1, mink_comm k1 p, pk1]
    field_simp; ring
  have e2 : mink (k1 - q) (k1 - q) = K.m ^ 2 := by
    rw [mink_sub_left, mink_sub_right, mink_sub_right, mink_comm q k1, k1k1, k1q, qq]; ring
  have eq : k1 - (k1 - q) - k = q - k := by ext <;> simp
  have n1 : mink k1 k ≠ 0 := by rw [hd.k1k]; positivity
  have k2k : mink (k1 - q) k = K.R * K.z_2 / 2 := by
    rw [mink_sub_left, hd.k1k, hd.qk, hr.z_2']; ring
  have n2 : mink (k1 - q) k ≠ 0 := by rw [k2k]; positivity
  have hl := radG_left (s := ((K.S / (K.m * K.lambda_S_sqrt)) • k1 - (2 * K.m / K.lambda_S_sqrt) • p))
    k1k1 e2 hd.kk n1 n2 lambda
  have hr' := radG_right es k1k1 e2 hd.kk n1 n2 lambda
  have hT := radG_tensor es k1k1 e2 hd.kk lambda
  have c1 : 1 / (2 * mink k1 k) = 1 / (K.R * K.z_1) := by rw [hd.k1k]; congr 1; ring
  have c2 : 1 / (2 * mink (k1 - q) k) = 1 / (K.R * K.z_2) := by rw [k2k]; congr 1; ring
  rw [eq] at hl hr'
  rw [c1, c2] at hl hr' hT
  have hn := radN hd
  have r1 := radComp1 hd hr hn hR h1 h2
  have r2 := radComp2 hd hr hn hR h1 h2
  have r3 := radComp3 hd hr hn hR h1 h2
  have r4 := radComp4 hd hr hn hR h1 h2
  have r5 := radComp5 hd hr hn hm hR h1 h2
  have r6 := radComp6 hd hr hn hR h1 h2
  have r7 := radComp7 hd hr hn hm hR h1 h2
  have r8 := radComp8 hd hr hn hR h1 h2
  have r9 := radComp9 hd hr hn hm hR h1 h2
  have hP := radP_of_conj (m := K.m) (k2 := k1 - q) (eik k1 (k1 - q) k) (1 / (K.R * K.z_1)) (1 / (K.R * K.z_2))
    hd.kk es lambda
  revert hl hr' hT r1 r2 r3 r4 r5 r6 r7 r8 r9 hP
  generalize ((K.S / (K.m * K.lambda_S_sqrt)) • k1 - (2 * K.m / K.lambda_S_sqrt) • p) = s at es ⊢
  generalize eik k1 (k1 - q) k = u
  generalize 1 / (K.R * K.z_1) = c1
  generalize 1 / (K.R * K.z_2) = c2
  intro hl hr' hT r1 r2 r3 r4 r5 r6 r7 r8 r9 hP
  rw [full_real (radG_bilin u c1 c2 lambda) hT
    (U := fun a b => -1 * radU k1 (k1 - q) k u K.m c1 c2 a b)
    (P := fun a b => -1 * radP₀ k1 (k1 - q) k s u K.m c1 c2 a b)
    (fun a b => by rw [radG_eq u c1 c2 hd.kk es]; push_cast; ring)
    (fun a b => radG_conj u c1 c2 es lambda a b) H (q - k) p h hl hr']
  rw [rtrace_mul]
  congr 1
  have e5 := hP p h
  have e7 := hP p (normal (q - k) p h)
  have e9 := hP h (normal (q - k) p h)
  rw [contract]
  linear_combination (-4 * H.c1) * r1 - 4 * H.c2 * r2 - 4 * H.c3 * r3 - 4 * H.c4 * r4
    - 4 * lambda * H.c5 * r5 - 4 * H.c6 * r6 - 4 * lambda * H.c7 * r7 - 4 * H.c8 * r8
    - 4 * lambda * H.c9 * r9 + 8 * H.c5 * e5 + 8 * H.c7 * e7 + 8 * H.c9 * e9

end Sidis.Dirac
