import Verif.Lemmas.QedBorn

/-! # The tensor of a lepton with a Pauli form factor -/

namespace Sidis.Dirac

open Spec Spec.Qed Matrix Props

/-- The terms linear in the Pauli form factor. -/
noncomputable def ammG (k1 k2 q : Vec4) (m lambda : ℝ) (s a b : Vec4) : ℂ :=
  (unpolarised k2 m * ((slash a * slash q - slash q * slash a) * polarised k1 m lambda s
    * slash b)).trace
  + (unpolarised k2 m * (slash a * polarised k1 m lambda s *
    (slash q * slash b - slash b * slash q))).trace

/-- The terms quadratic in the Pauli form factor. -/
noncomputable def quadG (k1 k2 q : Vec4) (m lambda : ℝ) (s a b : Vec4) : ℂ :=
  (unpolarised k2 m * ((slash a * slash q - slash q * slash a) * polarised k1 m lambda s *
    (slash q * slash b - slash b * slash q))).trace

theorem pauli_eq (k1 k2 : Vec4) (m F2 : ℝ) (μ : Fin 4) : pauliVertex k1 k2 m F2 μ =
    gamma μ + ((F2 / (4 * m) : ℝ) : ℂ) • (gamma μ * slash (k1 - k2) - slash (k1 - k2) * gamma μ) := by
  have e : k2 - k1 = (-1 : ℝ) • (k1 - k2) := by ext <;> simp
  rw [pauliVertex, e, slash_smul, smul_smul]
  generalize slash (k1 - k2) = Y
  rw [mul_smul_comm, smul_mul_assoc, ← smul_sub, smul_smul]
  congr 2
  push_cast
  linear_combination (-(F2 : ℂ) / (4 * m)) * Complex.I_sq

theorem pauli_bar (k1 k2 : Vec4) (m F2 : ℝ) (μ : Fin 4) : bar (pauliVertex k1 k2 m F2 μ) =
    gamma μ + ((F2 / (4 * m) : ℝ) : ℂ) • (slash (k1 - k2) * gamma μ - gamma μ * slash (k1 - k2)) := by
  rw [pauli_eq, bar_add, bar_smul, Complex.conj_ofReal, gamma_adj, sub_eq_add_neg, bar_add, bar_mul,
    gamma_adj, bar_slash]
  have : -(slash (k1 - k2) * gamma μ) = (-1 : ℂ) • (slash (k1 - k2) * gamma μ) := by simp
  rw [this, bar_smul, bar_mul, gamma_adj, bar_slash]
  simp [sub_eq_add_neg]

theorem pauli_tensor (k1 k2 : Vec4) (m F2 lambda : ℝ) (s : Vec4) (μ ν : Fin 4) :
    currentTensor (pauliVertex k1 k2 m F2) k1 k2 m lambda s μ ν =
      bornG k1 k2 m lambda s (bas μ) (bas ν)
      + ((F2 / (4 * m) : ℝ) : ℂ) * ammG k1 k2 (k1 - k2) m lambda s (bas μ) (bas ν)
      + ((F2 / (4 * m) : ℝ) : ℂ) ^ 2 * quadG k1 k2 (k1 - k2) m lambda s (bas μ) (bas ν) := by
  rw [currentTensor, bornG, ammG, quadG, slash_bas, slash_bas, pauli_bar, pauli_eq]
  generalize ((F2 / (4 * m) : ℝ) : ℂ) = f
  generalize slash (k1 - k2) = Y
  simp only [mul_add, add_mul, smul_mul_assoc, mul_smul_comm, trace_add, trace_smul, smul_eq_mul,
    mul_assoc]
  ring

theorem full_add (L M N : Tensor) (c d : ℂ) (W : Tensor) (P : Tensor)
    (h : ∀ μ ν, L μ ν = M μ ν + c * N μ ν + d * P μ ν) :
    full L W = full M W + c * full N W + d * full P W := by
  simp only [full, h, Fin.sum_univ_four]
  ring

theorem ammG_bilin (k1 k2 q : Vec4) (m lambda : ℝ) (s : Vec4) : Bilin (ammG k1 k2 q m lambda s) := by
  constructor <;> intros <;>
    simp only [ammG, slash_add, slash_smul, add_mul, mul_add, sub_mul, mul_sub, trace_add, trace_sub,
      smul_mul_assoc, mul_smul_comm, trace_smul, smul_eq_mul] <;> ring

section
variable (k1 k2 q s : Vec4) (m : ℝ)

/-- The symmetric part of `ammG`. -/
noncomputable def ammU (a b : Vec4) : ℝ :=
  m * (T4 k2 a q b - T4 k2 q a b + T4 a q k1 b - T4 q a k1 b
    + T4 k2 a q b - T4 k2 a b q + T4 a k1 q b - T4 a k1 b q)

/-- The antisymmetric part of `ammG`. -/
noncomputable def ammP (a b : Vec4) : ℝ :=
  (E6 k2 a q k1 s b - E6 k2 q a k1 s b - E6 k2 a k1 s q b + E6 k2 a k1 s b q)
    + m ^ 2 * (E4 a q s b - E4 q a s b - E4 a s q b + E4 a s b q)

theorem ammG_eq (lambda : ℝ) (a b : Vec4) : ammG k1 k2 q m lambda s a b =
    4 * (ammU k1 k2 q m a b : ℂ) + lambda * (4 * Complex.I * (ammP k1 k2 q s m a b : ℂ)) := by
  rw [ammG, ammU, ammP, polarised]
  simp only [sub_mul, mul_sub, trace_sub]
  norm_tr
  simp only [tr6_5, tr4_5, tr3_5, tr5_5, tr7_5, tr2_5, tr5, tr4, tr3, tr2]
  push_cast
  simp only [smul_eq_mul]
  ring

end

theorem amm_left {k1 k2 s : Vec4} {m : ℝ} (lambda : ℝ) (h1 : mink k1 k1 = m ^ 2)
    (h2 : mink k2 k2 = m ^ 2) (X : Spinor) :
    (unpolarised k2 m * (slash (k1 - k2) * polarised k1 m lambda s * X)).trace = 0 := by
  have : unpolarised k2 m * (slash (k1 - k2) * polarised k1 m lambda s * X)
      = unpolarised k2 m * (slash k1 * unpolarised k1 m) * ((1 + (lambda : ℂ) • (gamma5 * slash s)) *
          X) - (unpolarised k2 m * slash k2) * polarised k1 m lambda s * X := by
    rw [slash_sub, polarised]
    simp only [sub_mul, mul_sub, mul_assoc]
  rw [this, on_shell_left h2, on_shell_right h1, polarised]
  simp only [mul_assoc, smul_mul_assoc, mul_smul_comm, sub_self, trace_zero]

theorem amm_right {k1 k2 s : Vec4} {m : ℝ} (lambda : ℝ) (h1 : mink k1 k1 = m ^ 2)
    (h2 : mink k2 k2 = m ^ 2) (hs : mink k1 s = 0) (X : Spinor) :
    (unpolarised k2 m * (X * polarised k1 m lambda s * slash (k1 - k2))).trace = 0 := by
  have o1 : unpolarised k1 m * slash k1 = (m : ℂ) • unpolarised k1 m := on_shell_left h1
  have o2 : slash k2 * unpolarised k2 m = (m : ℂ) • unpolarised k2 m := on_shell_right h2
  rw [trace_mul_comm, pol_comm hs]
  have : X * ((1 + (lambda : ℂ) • (gamma5 * slash s)) * unpolarised k1 m) * slash (k1 - k2)
        * unpolarised k2 m
      = X * ((1 + (lambda : ℂ) • (gamma5 * slash s)) * (unpolarised k1 m * slash k1))
        * unpolarised k2 m - X * ((1 + (lambda : ℂ) • (gamma5 * slash s)) * unpolarised k1 m) *
        (slash k2 * unpolarised k2 m) := by
    rw [slash_sub]
    simp only [sub_mul, mul_sub, mul_assoc]
  rw [this, o1, o2]
  simp only [mul_assoc, smul_mul_assoc, mul_smul_comm, sub_self, trace_zero]

theorem amm_full {K : Kinematics ℝ} {p k1 q h : Vec4} (hd : Dots K p k1 q h) (hm : K.m ≠ 0)
    (hS : K.lambda_S_sqrt ≠ 0) (hQ : K.Q_sq ≠ 0)
    (hX : K.X = K.S - K.S_x) (hSp : K.S_p = 2 * K.S - K.S_x)
    (hV2 : K.V_2 = K.V_1 - 2 * K.V_m) (hVp : K.V_p = 1 / 2 * (K.V_1 + K.V_2))
    (hY : K.lambda_Y = K.S_x ^ 2 + 4 * K.M ^ 2 * K.Q_sq)
    (lambda : ℝ) (H : Nine) {L : Tensor}
    (hL : ∀ μ ν, L μ ν = ammG k1 (k1 - q) q K.m lambda
      ((K.S / (K.m * K.lambda_S_sqrt)) • k1 - (2 * K.m / K.lambda_S_sqrt) • p) (bas μ) (bas ν)) :
    full L (hadronicTensor H q p h) =
      ((8 * K.m * K.Q_sq * contract (leptonicAmm K) H lambda : ℝ) : ℂ) := by
  obtain ⟨pp, pk1, pq, ph, k1k1, k1q, k1h, qq, qh, hh, vol⟩ := hd
  set s := (K.S / (K.m * K.lambda_S_sqrt)) • k1 - (2 * K.m / K.lambda_S_sqrt) • p with hs
  have es : mink k1 s = 0 := by
    rw [hs, mink_sub_right, mink_smul_right, mink_smul_right, k1k1, mink_comm k1 p, pk1]
    field_simp; ring
  have h2 : mink (k1 - q) (k1 - q) = K.m ^ 2 := by
    rw [mink_sub_left, mink_sub_right, mink_sub_right, mink_comm q k1, k1k1, k1q, qq]; ring
  have eq : k1 - (k1 - q) = q := by ext <;> simp
  have hl := amm_left (s := s) lambda k1k1 h2
  have hr := amm_right lambda k1k1 h2 es
  rw [eq] at hl hr
  rw [full_real (ammG_bilin k1 (k1 - q) q K.m lambda s) hL
    (fun a b => ammG_eq _ _ _ _ _ _ _ _) (fun a b => ?_) H q p h
    (fun x => by rw [ammG, hl, sub_self, zero_mul, zero_mul, mul_zero, trace_zero, add_zero])
    (fun x => by rw [ammG, hr, sub_self, mul_zero, mul_zero, trace_zero, add_zero])]
  · have n1 : mink p (normal q p h) = 0 := by rw [mink_normal]; simp only [eps_expand]; ring
    have n2 : mink h (normal q p h) = 0 := by rw [mink_normal]; simp only [eps_expand]; ring
    have n3 : mink q (normal q p h) = 0 := by rw [mink_normal]; simp only [eps_expand]; ring
    have n4 : mink k1 (normal q p h) = -K.vol_phi_h := by
      rw [mink_normal, ← vol]; simp only [eps_expand]; ring
    have t : rtrace (ammU k1 (k1 - q) q K.m) = -12 * K.m * (mink q (k1 - q) - mink q k1) := by
      simp only [rtrace, ammU, T4, mink, bas, Matrix.cons_val]; ring
    have m1 := (mink_comm k1 p).trans pk1
    have m2 := (mink_comm h p).trans ph
    have m3 := (mink_comm h q).trans qh
    have m4 := (mink_comm q p).trans pq
    have m5 := (mink_comm q k1).trans k1q
    have m6 := (mink_comm h k1).trans k1h
    have l5 : ammP k1 (k1 - q) q s K.m p h =
        -(2 * (2 * K.S + K.S_x) * K.m * K.vol_phi_h) / K.lambda_S_sqrt := by
      obtain ⟨p1, p2, p3, p4, p5, p6, p7, p8, p9, p10, p11, p12, p13, p14, p15, p16, p17, p18, p19,
        p20, p21, p22, p23⟩ := eps_perm h p k1 q
      simp only [ammP, E6_eq, E4, hs, eps_sub1, eps_sub2, eps_sub3, eps_sub4, eps_smul1, eps_smul2,
        eps_smul3, eps_smul4, eps_12, eps_13, eps_14, eps_23, eps_24, eps_34,
        mink_sub_left, mink_sub_right, mink_smul_left, mink_smul_right]
      simp only [p1, p2, p3, p4, p5, p6, p7, p8, p9, p10, p11, p12, p13, p14, p15, p16, p17, p18, p19,
        p20, p21, p22, p23, vol, pp, pk1, pq, ph, k1k1, k1q, k1h, qq, qh, hh, m1, m2, m3, m4, m5, m6]
      field_simp
      ring
    have n1' := (mink_comm _ p).trans n1
    have n2' := (mink_comm _ h).trans n2
    have n3' := (mink_comm _ q).trans n3
    have n4' := (mink_comm _ k1).trans n4
    have l7 : ammP k1 (k1 - q) q s K.m p (normal q p h) =
        -K.m * K.Q_sq * (LepAmmBaseLP.make K).theta_7 := by
      simp only [ammP, E6_eq, E4, hs, eps_sub1, eps_sub2, eps_sub3, eps_sub4, eps_smul1, eps_smul2,
        eps_smul3, eps_smul4, eps_12, eps_13, eps_14, eps_23, eps_24, eps_34,
        mink_sub_left, mink_sub_right, mink_smul_left, mink_smul_right]
      simp only [eps_swap2 (normal q p h), eps_swap3 (normal q p h), eps_swap4 (normal q p h),
        eps_normal, n1, n2, n3, n4, n1', n2', n3', n4']
      obtain ⟨p1, p2, p3, p4, p5, p6, p7, p8, p9, p10, p11, p12, p13, p14, p15, p16, p17, p18, p19,
        p20, p21, p22, p23⟩ := eps_perm h p k1 q
      simp only [p1, p2, p3, p4, p5, p6, p7, p8, p9, p10, p11, p12, p13, p14, p15, p16, p17, p18, p19,
        p20, p21, p22, p23, vol, pp, pk1, pq, ph, k1k1, k1q, k1h, qq, qh, hh, m1, m2, m3, m4, m5, m6]
      simp only [LepAmmBaseLP.make, Sidis.sq, hVp, hV2, hX, hSp]
      field_simp
      ring
    have vs := eps_sq h p k1 q
    simp [Matrix.det_succ_row_zero, Fin.sum_univ_succ, Fin.succAbove] at vs
    simp only [vol, pp, pk1, pq, ph, k1k1, k1q, k1h, qq, qh, hh, m1, m2, m3, m4, m5, m6] at vs
    have l9 : ammP k1 (k1 - q) q s K.m h (normal q p h) =
        -K.m * K.Q_sq * (LepAmmBaseLP.make K).theta_9 := by
      simp only [ammP, E6_eq, E4, hs, eps_sub1, eps_sub2, eps_sub3, eps_sub4, eps_smul1, eps_smul2,
        eps_smul3, eps_smul4, eps_12, eps_13, eps_14, eps_23, eps_24, eps_34,
        mink_sub_left, mink_sub_right, mink_smul_left, mink_smul_right]
      simp only [eps_swap2 (normal q p h), eps_swap3 (normal q p h), eps_swap4 (normal q p h),
        eps_normal, n1, n2, n3, n4, n1', n2', n3', n4']
      obtain ⟨p1, p2, p3, p4, p5, p6, p7, p8, p9, p10, p11, p12, p13, p14, p15, p16, p17, p18, p19,
        p20, p21, p22, p23⟩ := eps_perm h p k1 q
      simp only [p1, p2, p3, p4, p5, p6, p7, p8, p9, p10, p11, p12, p13, p14, p15, p16, p17, p18, p19,
        p20, p21, p22, p23, vol, pp, pk1, pq, ph, k1k1, k1q, k1h, qq, qh, hh, m1, m2, m3, m4, m5, m6]
      simp only [LepAmmBaseLP.make, Sidis.sq, hVp, hV2, hX, hSp]
      field_simp
      linear_combination (-32 * K.m ^ 2) * vs
    simp only [t, l5, l7, l9]
    simp only [ammU, T4, mink_sub_left, mink_sub_right, mink_smul_left, mink_smul_right, n1, n2, n3, n4, n1', n2', n3', n4',
      pp, pk1, pq, ph, k1k1, k1q, k1h, qq, qh, hh, m1, m2, m3, m4, m5, m6]
    congr 1
    simp only [contract, leptonicAmm, LepAmmBaseUU.make, LepAmmBaseUP.make, LepAmmBaseLU.make,
      Sidis.sq, hVp, hV2, hX, hSp, hY]
    field_simp
    ring
  · have e1 := pairing_conj (m := K.m) (k1 - q) es lambda (slash a * slash q - slash q * slash a) (slash b)
    have e2 := pairing_conj (m := K.m) (k1 - q) es lambda (slash a) (slash q * slash b - slash b * slash q)
    have c : ∀ x y, bar (slash x * slash y - slash y * slash x) = slash y * slash x - slash x * slash y := by
      intro x y
      have : slash x * slash y - slash y * slash x = slash x * slash y + (-1 : ℂ) • (slash y * slash x) := by
        module
      rw [this, bar_add, bar_smul, bar_mul, bar_mul, bar_slash, bar_slash, map_neg, map_one]
      module
    rw [c, bar_slash] at e1 e2
    change (starRingEnd ℂ) (pairing _ _ _ _ _ _ _ + pairing _ _ _ _ _ _ _) = pairing _ _ _ _ _ _ _ + pairing _ _ _ _ _ _ _
    rw [map_add, e1, e2, add_comm]

end Sidis.Dirac
