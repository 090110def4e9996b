import Verif.Lemmas.Eps
import Verif.Spec.CrossSection
import Verif.Props.Kinematics

/-! # The Born tensor -/

namespace Sidis.Dirac

open Spec Spec.Qed Matrix Props

/-- The invariants of four momenta. -/
structure Dots (K : Kinematics ℝ) (p k1 q h : Vec4) : Prop where
  pp : mink p p = K.M ^ 2
  pk1 : mink p k1 = K.S / 2
  pq : mink p q = K.S_x / 2
  ph : mink p h = K.z * K.S_x / 2
  k1k1 : mink k1 k1 = K.m ^ 2
  k1q : mink k1 q = -K.Q_sq / 2
  k1h : mink k1 h = K.V_1 / 2
  qq : mink q q = -K.Q_sq
  qh : mink q h = K.V_m
  hh : mink h h = K.mh ^ 2
  vol : eps h p k1 q = K.vol_phi_h

theorem dots_of_physical {ps : Particles ℝ} {S : ℝ} {pt : PhaseSpace ℝ} (hp : Physical ps S pt) :
    let k := Kinematics.make ps S pt
    Dots k (momP k) (momK1 k) (momQ k) (momH k) := by
  intro k
  obtain ⟨o1, o2, o3, o4, o5⟩ := c16_on_shell hp
  obtain ⟨i1, i2, -, -, i4, -, i5, -⟩ := c16_invariants hp
  have ev := c16_vol hp
  have hk : KinRel k := kinRel_of_physical hp
  have hM := hk.M_pos.ne'
  have e2 := hk.momK2_eq
  simp only [msq] at o1 o2 o3 o4 o5
  change mink (momK2 k) (momK2 k) = _ at o3
  rw [e2, mink_sub_left, mink_sub_right, mink_sub_right] at o3
  have e1q : mink (momK1 k) (momQ k) = -k.Q_sq / 2 := by
    rw [mink_comm (momQ k) (momK1 k)] at o3
    change mink (momK1 k) (momK1 k) - _ - (_ - mink (momQ k) (momQ k)) = _ at o3
    rw [show mink (momK1 k) (momK1 k) = ps.m ^ 2 from o2,
      show mink (momQ k) (momQ k) = -k.Q_sq from o5] at o3
    linarith
  refine ⟨o1, ?_, ?_, ?_, o2, e1q, ?_, o5, i5, o4, ev.symm⟩
  · linarith
  · linarith
  · have : mink (momP k) (momH k) = k.M * k.ph_0 := by
      simp [mink, momP, momH, momLepton, Vec4.ofVec3]
    rw [this, hk.ph_0_eq]; field_simp
  · linarith

theorem helicity_eq {ps : Particles ℝ} {S : ℝ} {pt : PhaseSpace ℝ} (hp : Physical ps S pt)
    (hm : 0 < ps.m) :
    let k := Kinematics.make ps S pt
    helicity (momK1 k) k.m =
      (k.S / (k.m * k.lambda_S_sqrt)) • momK1 k - (2 * k.m / k.lambda_S_sqrt) • momP k := by
  intro k
  have hk : KinRel k := kinRel_of_physical hp
  have hM := hk.M_pos.ne'
  have hS := hk.lS_pos.ne'
  have hm' : k.m ≠ 0 := hm.ne'
  have e := hk.lS_sq
  rw [hk.lS_eq] at e
  have hl : length (momK1 k).r = k.lambda_S_sqrt / (2 * k.M) := by
    have := hk.lS_pos; have := hk.M_pos
    simp only [momK1, Vec4.r, length, hk.k1_len]
    rw [show (0 : ℝ) ^ 2 + 0 ^ 2 + (k.lambda_S_sqrt / (2 * k.M)) ^ 2
      = (k.lambda_S_sqrt / (2 * k.M)) ^ 2 by ring, Real.sqrt_sq (by positivity)]
  unfold helicity
  rw [hl]
  ext <;> simp [momK1, momP, hk.k1_len]
  · field_simp
    linear_combination e
  · field_simp

/-- The contraction of a current with two vectors. -/
noncomputable def bornG (k1 k2 : Vec4) (m lambda : ℝ) (s a b : Vec4) : ℂ :=
  (unpolarised k2 m * (slash a * polarised k1 m lambda s * slash b)).trace

theorem bornG_eq (k1 k2 : Vec4) (m lambda : ℝ) (s a b : Vec4) : bornG k1 k2 m lambda s a b =
    4 * ((T4 k2 a k1 b + m ^ 2 * mink a b : ℝ) : ℂ)
    + lambda * (4 * Complex.I * ((m * (E4 k2 a s b + E4 a k1 s b) : ℝ) : ℂ)) := by
  rw [bornG, polarised, mul_add, mul_one, mul_smul_comm, mul_add, add_mul, mul_add, trace_add, trU1,
    mul_smul_comm, smul_mul_assoc, mul_smul_comm, trace_smul, trP1]
  rfl

theorem bornG_bilin (k1 k2 : Vec4) (m lambda : ℝ) (s : Vec4) : Bilin (bornG k1 k2 m lambda s) := by
  constructor <;> intros <;>
    simp only [bornG, slash_add, slash_smul, add_mul, mul_add, trace_add, smul_mul_assoc,
      mul_smul_comm, trace_smul, smul_eq_mul]

theorem bornG_tensor (k1 k2 : Vec4) (m lambda : ℝ) (s : Vec4) (μ ν : Fin 4) :
    currentTensor gamma k1 k2 m lambda s μ ν = bornG k1 k2 m lambda s (bas μ) (bas ν) := by
  rw [currentTensor, bornG, slash_bas, slash_bas, gamma_adj]
  simp only [mul_assoc]

theorem on_shell_left {k2 : Vec4} {m : ℝ} (h2 : mink k2 k2 = m ^ 2) :
    unpolarised k2 m * slash k2 = (m : ℂ) • unpolarised k2 m := by
  have h := slash_sq k2
  rw [h2] at h
  rw [unpolarised, add_mul, h, smul_mul_assoc, one_mul, smul_add, smul_smul, add_comm]
  push_cast
  rw [pow_two]

theorem on_shell_right {k1 : Vec4} {m : ℝ} (h1 : mink k1 k1 = m ^ 2) :
    slash k1 * unpolarised k1 m = (m : ℂ) • unpolarised k1 m := by
  have h := slash_sq k1
  rw [h1] at h
  rw [unpolarised, mul_add, h, mul_smul_comm, mul_one, smul_add, smul_smul, add_comm]
  push_cast
  rw [pow_two]

/-- Conservation of the current. -/
theorem bornG_left {k1 k2 s : Vec4} {m : ℝ} (lambda : ℝ) (h1 : mink k1 k1 = m ^ 2)
    (h2 : mink k2 k2 = m ^ 2) (b : Vec4) : bornG k1 k2 m lambda s (k1 - k2) b = 0 := by
  have : unpolarised k2 m * (slash (k1 - k2) * polarised k1 m lambda s * slash b)
      = unpolarised k2 m * (slash k1 * unpolarised k1 m) * ((1 + (lambda : ℂ) • (gamma5 * slash s)) *
          slash b) - (unpolarised k2 m * slash k2) * polarised k1 m lambda s * slash b := by
    rw [slash_sub, polarised]
    simp only [sub_mul, mul_sub, mul_assoc]
  rw [bornG, this, on_shell_left h2, on_shell_right h1, polarised]
  simp only [mul_assoc, smul_mul_assoc, mul_smul_comm, sub_self, trace_zero]

theorem bornG_right {k1 k2 s : Vec4} {m : ℝ} (lambda : ℝ) (h1 : mink k1 k1 = m ^ 2)
    (h2 : mink k2 k2 = m ^ 2) (hs : mink k1 s = 0) (a : Vec4) :
    bornG k1 k2 m lambda s a (k1 - k2) = 0 := by
  have o1 : unpolarised k1 m * slash k1 = (m : ℂ) • unpolarised k1 m := on_shell_left h1
  have o2 : slash k2 * unpolarised k2 m = (m : ℂ) • unpolarised k2 m := on_shell_right h2
  rw [bornG, trace_mul_comm, pol_comm hs]
  have : slash a * ((1 + (lambda : ℂ) • (gamma5 * slash s)) * unpolarised k1 m) * slash (k1 - k2)
        * unpolarised k2 m
      = slash a * ((1 + (lambda : ℂ) • (gamma5 * slash s)) * (unpolarised k1 m * slash k1))
        * unpolarised k2 m - slash a * ((1 + (lambda : ℂ) • (gamma5 * slash s)) * unpolarised k1 m) *
        (slash k2 * unpolarised k2 m) := by
    rw [slash_sub]
    simp only [sub_mul, mul_sub, mul_assoc]
  rw [this, o1, o2]
  simp only [mul_assoc, smul_mul_assoc, mul_smul_comm, sub_self, trace_zero]

theorem mtrace_real {G : Vec4 → Vec4 → ℂ} {U P : Vec4 → Vec4 → ℝ} {c : ℂ}
    (hG : ∀ a b, G a b = 4 * (U a b : ℂ) + c * (P a b : ℂ)) (hP : ∀ a, P a a = 0) :
    mtrace G = 4 * ((U (bas 0) (bas 0) - U (bas 1) (bas 1) - U (bas 2) (bas 2)
      - U (bas 3) (bas 3) : ℝ) : ℂ) := by
  rw [mtrace, hG, hG, hG, hG, hP, hP, hP, hP]
  push_cast; ring

/-- The trace of a real bilinear form. -/
noncomputable def rtrace (U : Vec4 → Vec4 → ℝ) : ℝ :=
  U (bas 0) (bas 0) - U (bas 1) (bas 1) - U (bas 2) (bas 2) - U (bas 3) (bas 3)

theorem rtrace_mink (x y : Vec4) : rtrace (fun a b => mink x a * mink y b) = mink x y := by
  simp only [rtrace, mink, bas, Matrix.cons_val]; ring

theorem rtrace_mink' (x y : Vec4) : rtrace (fun a b => mink x b * mink y a) = mink x y := by
  simp only [rtrace, mink, bas, Matrix.cons_val]; ring

theorem rtrace_metric : rtrace mink = 4 := by
  simp only [rtrace, mink, bas, Matrix.cons_val]; norm_num

theorem rtrace_add (U V : Vec4 → Vec4 → ℝ) :
    rtrace (fun a b => U a b + V a b) = rtrace U + rtrace V := by simp only [rtrace]; ring

theorem rtrace_mul (c : ℝ) (U : Vec4 → Vec4 → ℝ) :
    rtrace (fun a b => c * U a b) = c * rtrace U := by simp only [rtrace]; ring

theorem bar_gamma5 : bar gamma5 = -gamma5 := by
  rw [gamma5_eq]
  unfold bar
  ext i j
  simp only [Matrix.mul_apply, Fin.sum_univ_four, Matrix.conjTranspose_apply, Matrix.neg_apply]
  fin_cases i <;> fin_cases j <;> simp [gamma]

theorem bar_bar (X : Spinor) : bar (bar X) = X := by
  have g : (gamma 0)ᴴ = gamma 0 := by
    ext i j
    rw [Matrix.conjTranspose_apply]
    fin_cases i <;> fin_cases j <;> simp [gamma]
  simp only [bar, Matrix.conjTranspose_mul, Matrix.conjTranspose_conjTranspose, g]
  have : gamma 0 * (gamma 0 * (X * gamma 0)) * gamma 0 = (gamma 0 * gamma 0) * X * (gamma 0 * gamma 0) := by
    simp only [mul_assoc]
  rw [this, gamma0_sq, one_mul, mul_one]

theorem trace_bar (X : Spinor) : (bar X).trace = (starRingEnd ℂ) X.trace := by
  rw [bar, trace_mul_comm, ← mul_assoc, gamma0_sq, one_mul, trace_conjTranspose]; rfl

theorem bar_polarised {k1 s : Vec4} {m : ℝ} (hs : mink k1 s = 0) (lambda : ℝ) :
    bar (polarised k1 m lambda s) = polarised k1 m lambda s := by
  rw [pol_comm hs, bar_mul, bar_unpolarised, bar_add, bar_one, bar_smul, Complex.conj_ofReal, bar_mul,
    bar_slash, bar_gamma5, mul_neg, gamma5_slash, neg_neg, ← pol_comm hs, polarised]

/-- The sum over polarisations of an amplitude and a conjugate amplitude. -/
noncomputable def pairing (k1 k2 : Vec4) (m lambda : ℝ) (s : Vec4) (X Y : Spinor) : ℂ :=
  (unpolarised k2 m * (X * polarised k1 m lambda s * Y)).trace

theorem pairing_conj {k1 s : Vec4} (k2 : Vec4) {m : ℝ} (hs : mink k1 s = 0) (lambda : ℝ)
    (X Y : Spinor) : (starRingEnd ℂ) (pairing k1 k2 m lambda s X Y) =
      pairing k1 k2 m lambda s (bar Y) (bar X) := by
  rw [pairing, ← trace_bar, bar_mul, bar_mul, bar_mul, bar_unpolarised, bar_polarised hs,
    trace_mul_comm, pairing]
  simp only [mul_assoc]

/-- A hermitian tensor contracted with the hadronic tensor. -/
theorem full_real {G : Vec4 → Vec4 → ℂ} (hB : Bilin G) {L : Tensor}
    (hL : ∀ μ ν, L μ ν = G (bas μ) (bas ν)) {U P : Vec4 → Vec4 → ℝ} {lambda : ℝ}
    (hG : ∀ a b, G a b = 4 * (U a b : ℂ) + lambda * (4 * Complex.I * (P a b : ℂ)))
    (hH : ∀ a b, (starRingEnd ℂ) (G a b) = G b a)
    (H : Nine) (q p h : Vec4) (hl : ∀ x, G q x = 0) (hr : ∀ x, G x q = 0) :
    full L (hadronicTensor H q p h) =
      ((4 * (-H.c1 * rtrace U + H.c2 * U p p + H.c3 * U h h + 2 * (H.c4 * U p h)
        + 2 * (H.c6 * U p (normal q p h)) + 2 * (H.c8 * U h (normal q p h))
        - 2 * (lambda * (H.c5 * P p h + H.c7 * P p (normal q p h)
          + H.c9 * P h (normal q p h)))) : ℝ) : ℂ) := by
  have hre : ∀ a b, (G a b).re = 4 * U a b := fun a b => by rw [hG]; simp
  have him : ∀ a b, (G a b).im = lambda * (4 * P a b) := fun a b => by rw [hG]; simp
  have hU : ∀ a b, U a b = U b a := fun a b => by
    have := congrArg Complex.re (hH a b)
    rw [Complex.conj_re, hre, hre] at this
    linarith
  have hP : ∀ a b, lambda * P a b = -(lambda * P b a) := fun a b => by
    have := congrArg Complex.im (hH a b)
    rw [Complex.conj_im, him, him] at this
    linarith
  have hG' : ∀ a b, G a b = 4 * (U a b : ℂ) + 4 * Complex.I * ((lambda * P a b : ℝ) : ℂ) := fun a b => by
    rw [hG]; push_cast; ring
  have hP0 : ∀ a, lambda * P a a = 0 := fun a => by have := hP a a; linarith
  have ht : mtrace G = 4 * ((rtrace U : ℝ) : ℂ) :=
    mtrace_real (P := fun a b => lambda * P a b) (c := 4 * Complex.I) hG' hP0
  rw [full_conserved hB hL H q p h hl hr, ht]
  simp only [hG', hP0]
  rw [hU h p, hU (normal q p h) p, hU (normal q p h) h, hP h p, hP (normal q p h) p,
    hP (normal q p h) h]
  push_cast
  linear_combination (8 * (lambda : ℂ) * (H.c5 * P p h + H.c7 * P p (normal q p h)
          + H.c9 * P h (normal q p h))) * Complex.I_sq

theorem born_full {K : Kinematics ℝ} {p k1 q h : Vec4} (hd : Dots K p k1 q h) (hm : K.m ≠ 0)
    (hS : K.lambda_S_sqrt ≠ 0) (hX : K.X = K.S - K.S_x) (hSp : K.S_p = 2 * K.S - K.S_x)
    (hV2 : K.V_2 = K.V_1 - 2 * K.V_m) (hVp : K.V_p = 1 / 2 * (K.V_1 + K.V_2))
    (hY : K.lambda_Y = K.S_x ^ 2 + 4 * K.M ^ 2 * K.Q_sq)
    (lambda : ℝ) (H : Nine) :
    full (currentTensor gamma k1 (k1 - q) K.m lambda
      ((K.S / (K.m * K.lambda_S_sqrt)) • k1 - (2 * K.m / K.lambda_S_sqrt) • p))
      (hadronicTensor H q p h) = ((4 * contract (leptonicBorn K) H lambda : ℝ) : ℂ) := by
  obtain ⟨pp, pk1, pq, ph, k1k1, k1q, k1h, qq, qh, hh, vol⟩ := hd
  set s := (K.S / (K.m * K.lambda_S_sqrt)) • k1 - (2 * K.m / K.lambda_S_sqrt) • p with hs
  have es : mink k1 s = 0 := by
    rw [hs, mink_sub_right, mink_smul_right, mink_smul_right, k1k1, mink_comm k1 p, pk1]
    field_simp; ring
  have h2 : mink (k1 - q) (k1 - q) = K.m ^ 2 := by
    rw [mink_sub_left, mink_sub_right, mink_sub_right, mink_comm q k1, k1k1, k1q, qq]; ring
  have eq : k1 - (k1 - q) = q := by ext <;> simp
  have hl := bornG_left (s := s) lambda k1k1 h2
  have hr := bornG_right lambda k1k1 h2 es
  rw [eq] at hl hr
  rw [full_real (bornG_bilin k1 (k1 - q) K.m lambda s) (bornG_tensor _ _ _ _ _)
    (U := fun a b => T4 (k1 - q) a k1 b + K.m ^ 2 * mink a b)
    (P := fun a b => K.m * (E4 (k1 - q) a s b + E4 a k1 s b)) (fun a b => bornG_eq _ _ _ _ _ _ _)
    (fun a b => ?_) H q p h hl hr]
  · have pn : ∀ x y z, mink x (normal x y z) = 0 := fun x y z => by
      rw [mink_normal]; simp only [eps_expand]; ring
    have n1 : mink p (normal q p h) = 0 := by rw [mink_normal]; simp only [eps_expand]; ring
    have n2 : mink h (normal q p h) = 0 := by rw [mink_normal]; simp only [eps_expand]; ring
    have n3 : mink q (normal q p h) = 0 := pn _ _ _
    have n4 : mink k1 (normal q p h) = -K.vol_phi_h := by
      rw [mink_normal, ← vol]; simp only [eps_expand]; ring
    have t : rtrace (fun a b => T4 (k1 - q) a k1 b + K.m ^ 2 * mink a b)
        = -2 * mink (k1 - q) k1 + 4 * K.m ^ 2 := by
      simp only [rtrace, T4, mink, bas, Matrix.cons_val]; ring
    have l5 : K.m * (E4 (k1 - q) p s h + E4 p k1 s h) = -(K.S / K.lambda_S_sqrt) * K.vol_phi_h := by
      rw [← vol, hs]
      simp only [E4, eps_expand, Vec4.sub_t, Vec4.sub_x, Vec4.sub_y, Vec4.sub_z, Vec4.smul_t, Vec4.smul_x,
        Vec4.smul_y, Vec4.smul_z]
      field_simp
      ring
    have l0 : ∀ a, K.m * (E4 (k1 - q) a s (normal q p h) + E4 a k1 s (normal q p h))
        = K.m * mink (normal q p h) (normal q s a) := fun a => by
      rw [mink_normal]
      generalize normal q p h = n
      simp only [E4, eps_expand, Vec4.sub_t, Vec4.sub_x, Vec4.sub_y, Vec4.sub_z]
      ring
    simp only [t, l5, l0, normal_normal]
    simp only [T4, hs, mink_sub_left, mink_sub_right, mink_smul_left, mink_smul_right, n1, n2, n3, n4]
    rw [mink_comm k1 p, mink_comm h p, mink_comm h q, mink_comm q p, mink_comm q k1, mink_comm h k1]
    simp only [pp, pk1, pq, ph, k1k1, k1q, k1h, qq, qh, hh]
    congr 1
    simp only [contract, leptonicBorn, LepBornBaseUU.make, LepBornBaseUP.make, LepBornBaseLU.make,
      LepBornBaseLP.make, Sidis.sq, hVp, hV2, hX, hSp, hY]
    field_simp
    ring
  · have := pairing_conj (m := K.m) (k1 - q) es lambda (slash a) (slash b)
    rw [bar_slash, bar_slash] at this
    exact this

end Sidis.Dirac
