import Verif.Lemmas.PhotonBasis
import Verif.Props.Qed
import Verif.Props.Trento
import Verif.Props.Frame

/-!
# C92: cross-sections are not negative
-/

namespace Sidis

open Spec Spec.Qed Dirac

theorem helicity_norm {k : Vec4} {m : ℝ} (hm : 0 < m) (hk : mink k k = m ^ 2) (hr : 0 < eucl k.r k.r) :
    mink k (helicity k m) = 0 ∧ mink (helicity k m) (helicity k m) = -1 := by
  have hl := length_pos hr
  have hl2 := length_sq k.r
  have e : eucl k.r k.r = k.x ^ 2 + k.y ^ 2 + k.z ^ 2 := by simp [eucl, Vec4.r]; ring
  rw [e] at hl2
  simp only [mink] at hk
  constructor
  · simp only [mink, helicity]
    field_simp
    linear_combination k.t * hl2
  · simp only [mink, helicity]
    field_simp
    linear_combination (k.t ^ 2 + length k.r ^ 2) * hl2 - length k.r ^ 2 * hk

/-- The tensor of a photon matrix. -/
theorem matrix_tensor (F : SfValues) (eta : Vec3) (c : ℝ) (E0 E1 E2 : Fin 4 → ℝ) (μ ν : Fin 4) :
    let T := photonMatrix F eta
    ((c * (T 0 0).re * (E0 μ * E0 ν) + c * (T 1 1).re * (E1 μ * E1 ν) + c * (T 2 2).re * (E2 μ * E2 ν)
        + c * (T 0 1).re * (E0 μ * E1 ν + E1 μ * E0 ν)
        + c * (T 0 2).re * (E0 μ * E2 ν + E2 μ * E0 ν)
        + c * (T 1 2).re * (E1 μ * E2 ν + E2 μ * E1 ν) : ℝ) : ℂ)
      + Complex.I * ((c * (T 0 1).im * (E0 μ * E1 ν - E1 μ * E0 ν) + c * (T 0 2).im * (E0 μ * E2 ν - E2 μ * E0 ν)
        + c * (T 1 2).im * (E1 μ * E2 ν - E2 μ * E1 ν) : ℝ) : ℂ) =
      (c : ℂ) * ∑ a, ∑ b, T a b * ((![E0, E1, E2] a μ * ![E0, E1, E2] b ν : ℝ) : ℂ) := by
  intro T
  have h10 : T 1 0 = starRingEnd ℂ (T 0 1) := rfl
  have h20 : T 2 0 = starRingEnd ℂ (T 0 2) := rfl
  have h21 : T 2 1 = starRingEnd ℂ (T 1 2) := rfl
  have h00 : (T 0 0).im = 0 := by simp [T, photonMatrix]
  have h11 : (T 1 1).im = 0 := by simp [T, photonMatrix]
  have h22 : (T 2 2).im = 0 := by simp [T, photonMatrix]
  simp only [Fin.sum_univ_three, h10, h20, h21]
  generalize T 0 0 = t00 at *
  generalize T 1 1 = t11 at *
  generalize T 2 2 = t22 at *
  generalize T 0 1 = t01 at *
  generalize T 0 2 = t02 at *
  generalize T 1 2 = t12 at *
  apply Complex.ext
  · simp [h00, h11, h22]
    ring
  · simp [h00, h11, h22]
    ring

theorem mink_nonneg {a b : Vec4} (ha : 0 ≤ mink a a) (hb : 0 ≤ mink b b) (ta : 0 ≤ a.t) (tb : 0 ≤ b.t) :
    0 ≤ mink a b := by
  simp only [mink] at ha hb ⊢
  have h4 : (a.x * b.x + a.y * b.y + a.z * b.z) ^ 2 ≤ (a.t * b.t) ^ 2 := by
    have h1 : (a.x * b.x + a.y * b.y + a.z * b.z) ^ 2 ≤
        (a.x ^ 2 + a.y ^ 2 + a.z ^ 2) * (b.x ^ 2 + b.y ^ 2 + b.z ^ 2) := by
      nlinarith [sq_nonneg (a.x * b.y - a.y * b.x), sq_nonneg (a.x * b.z - a.z * b.x),
        sq_nonneg (a.y * b.z - a.z * b.y)]
    rw [mul_pow]
    exact h1.trans (mul_le_mul (by linarith) (by linarith) (by positivity) (by positivity))
  have := abs_le.1 (abs_le_of_sq_le_sq h4 (mul_nonneg ta tb))
  linarith [this.2]

/-- The basis for a target at rest. -/
theorem basis_of_rest {M Q L T Sx l2 l3 : ℝ} {s w : Vec4} (hM : 0 < M) (hQ : 0 < Q) (hQ2 : Q ^ 2 = -mink s s)
    (hL : 0 < L) (hL2 : L ^ 2 = 4 * M ^ 2 * eucl s.r s.r) (hSx : Sx = 2 * (M * s.t)) (ht : s.t ≠ 0)
    (h2 : l2 = mink s w ^ 2 - mink s s * mink w w) (h3 : l3 = mink s w - w.t / s.t * mink s s)
    (hT : 0 < T) (hT2 : T ^ 2 = eucl w.r w.r - eucl w.r s.r ^ 2 / eucl s.r s.r) :
    Basis s ⟨M, 0, 0, 0⟩ w Q L T Sx l2 l3 := by
  have en : eucl s.r s.r = s.t ^ 2 - mink s s := by simp [eucl, mink, Vec4.r]; ring
  have ew : eucl w.r w.r = w.t ^ 2 - mink w w := by simp [eucl, mink, Vec4.r]; ring
  have ec : eucl w.r s.r = s.t * w.t - mink s w := by simp [eucl, mink, Vec4.r]; ring
  have hn : 0 < eucl s.r s.r := by
    have : 0 < 4 * M ^ 2 * eucl s.r s.r := by rw [← hL2]; positivity
    exact (mul_pos_iff_of_pos_left (by positivity)).1 this
  have es : mink s s = -Q ^ 2 := by linarith
  rw [en] at hn hL2 hT2
  rw [ew, ec] at hT2
  rw [es] at hn hL2 hT2 h2 h3
  have p1 : ∀ v : Vec4, mink ⟨M, 0, 0, 0⟩ v = M * v.t := by intro v; simp [mink]
  refine ⟨es, ?_, ?_, ?_, ?_, ?_, hQ, hL, hT⟩
  · rw [p1, hSx]; ring
  · rw [p1, hL2, hSx]; field_simp; ring
  · rw [p1, h3, hSx]; field_simp; ring
  · rw [h2]; field_simp; ring
  · rw [hL2, hT2, h2, h3, hSx]
    field_simp
    ring

namespace Props

section
variable {ps : Particles ℝ} {S : ℝ} {pt : PhaseSpace ℝ}

/-- The momenta of the library and the basis of photon polarisations. -/
theorem basis_of_physical (h : Physical ps S pt) (hpt : 0 < pt.ph_t_sq) :
    let k := Kinematics.make ps S pt
    Basis (momQ k) (momP k) (momH k) k.Q k.lambda_Y_sqrt k.ph_t k.S_x k.lambda_2 k.lambda_3 := by
  intro k
  have hk : KinRel k := kinRel_of_physical h
  have d : Dots k (momP k) (momK1 k) (momQ k) (momH k) := dots_of_physical h
  have hQ := hk.Q_pos
  have hQ2 := hk.Q_sqr
  have hl2 : k.lambda_2 = sq k.V_m + sq k.mh * k.Q_sq := rfl
  have hl3 : k.lambda_3 = k.V_m + k.z * k.Q_sq := rfl
  refine ⟨?_, d.pq, ?_, ?_, ?_, ?_, hQ, hk.lY_pos, Real.sqrt_pos.2 hpt⟩
  · rw [d.qq, hQ2]
  · rw [d.pp, hk.lY_sq, hk.lY_eq, ← hQ2]; field_simp; ring
  · rw [d.ph, d.qh, hl3, ← hQ2]; field_simp; ring
  · rw [d.hh, d.qh, hl2, ← hQ2]; simp only [Sidis.sq]; field_simp; ring
  · rw [lambda_gram hk hl2 hl3, hQ2]

/-- C92: structure functions with which no photon has a negative probability of being absorbed make
the hadronic tensor positive, for every polarisation of the target. -/
theorem c92_tensor (h : Physical ps S pt) (hpt : 0 < pt.ph_t_sq) (sf : SfFuns) {eta : Vec3}
    (hT : ∀ v : Fin 3 → ℂ, 0 ≤ (∑ a, ∑ b, starRingEnd ℂ (v a) *
      photonMatrix (.at sf ps.hadron pt.x pt.z (S * pt.x * pt.y) pt.ph_t_sq) eta a b * v b).re) :
    let k := Kinematics.make ps S pt
    Positive (hadronicTensor (hadronic k sf eta) (momQ k) (momP k) (momH k)) := by
  intro k
  have hk : KinRel k := kinRel_of_physical h
  have B := basis_of_physical h hpt
  change Basis (momQ k) (momP k) (momH k) k.Q k.lambda_Y_sqrt k.ph_t k.S_x k.lambda_2 k.lambda_3 at B
  have hM := hk.M_pos
  have hC : 0 ≤ k.C_1 := by
    have e : k.C_1 = (4 * k.M * k.ph_l * (k.Q_sq + 2 * pt.x * sq k.M)) / sq (sq k.Q_sq) := rfl
    have := hk.ph_l_nonneg
    have := hk.Q2_pos
    have := h.x_pos
    rw [e]
    simp only [Sidis.sq]
    positivity
  set F := SfValues.at sf ps.hadron pt.x pt.z (S * pt.x * pt.y) pt.ph_t_sq with hF
  set T := photonMatrix F eta with hTd
  refine positive_of_basis ![component (Basis.e0 (momQ k) (momP k) k.Q k.lambda_Y_sqrt),
    component (Basis.e1 (momQ k) (momP k) (momH k) k.Q k.lambda_Y_sqrt k.ph_t k.S_x k.lambda_3),
    component (Basis.e2 (momQ k) (momP k) (momH k) k.lambda_Y_sqrt k.ph_t)] hC hT fun μ ν => ?_
  rw [← matrix_tensor]
  have t := B.tensor (a00 := k.C_1 * (T 0 0).re) (a11 := k.C_1 * (T 1 1).re) (a22 := k.C_1 * (T 2 2).re)
    (a01 := k.C_1 * (T 0 1).re) (a02 := k.C_1 * (T 0 2).re) (a12 := k.C_1 * (T 1 2).re)
    (b01 := k.C_1 * (T 0 1).im) (b02 := k.C_1 * (T 0 2).im) (b12 := k.C_1 * (T 1 2).im) μ ν
  refine Eq.trans (congrArg (fun H => hadronicTensor H (momQ k) (momP k) (momH k) μ ν) ?_) t
  have eY := hk.lY_sq
  have ept := hk.ph_t_sqr
  have eQ := hk.Q_sqr
  have hF' : F = SfValues.at sf k.hadron k.x k.z k.Q_sq k.ph_t_sq := rfl
  simp only [hadronic, hadronicOf, makeHadBaseUU, makeHadBaseUL, makeHadBaseUT,
    makeHadBaseLU, makeHadBaseLL, makeHadBaseLT, SfFuns.baseUU, SfFuns.baseUL, SfFuns.baseUT,
    SfFuns.baseLU, SfFuns.baseLL, SfFuns.baseLT, ← eY, ← ept, ← eQ, Sidis.sq]
  simp only [hTd, photonMatrix, hF', SfValues.at, Matrix.cons_val_zero, Matrix.cons_val_one,
    Matrix.cons_val, Complex.ofReal_re, ← ept, ← eQ]
  ext <;> ring

theorem k1_moves (h : Physical ps S pt) :
    0 < eucl (momK1 (Kinematics.make ps S pt)).r (momK1 (Kinematics.make ps S pt)).r := by
  have hM := h.M_pos
  have hm := h.m_nonneg
  have hb := h.beam
  change 0 < 0 * 0 + 0 * 0 + √((S / (2 * ps.M)) ^ 2 - ps.m ^ 2) * √((S / (2 * ps.M)) ^ 2 - ps.m ^ 2)
  have : 0 < (S / (2 * ps.M)) ^ 2 - ps.m ^ 2 := by
    have : ps.m < S / (2 * ps.M) := by rw [lt_div_iff₀ (by positivity)]; linarith
    nlinarith
  rw [Real.mul_self_sqrt this.le]
  linarith

/-- C92: the Born cross-section for a beam and a target of any polarisation is not negative. -/
theorem c92_born (h : Physical ps S pt) (hm : 0 < ps.m) (hpt : 0 < pt.ph_t_sq) (ph : Phenom)
    (sf : SfFuns) {lambda : ℝ} (hl : |lambda| ≤ 1) {eta : Vec3} (he : eucl eta eta ≤ 1)
    (hF : Realisable (.at sf ps.hadron pt.x pt.z (S * pt.x * pt.y) pt.ph_t_sq)) :
    0 ≤ xsBorn (.make ps S pt) ph sf lambda eta := by
  set k := Kinematics.make ps S pt with hkd
  have hk : KinRel k := kinRel_of_physical h
  obtain ⟨-, o2, o3, -, -⟩ := c16_on_shell h
  have hM := hk.M_pos
  have hS := hk.S_pos
  have t1 : 0 < (momK1 k).t := by change 0 < S / (2 * k.M); positivity
  have t2 : 0 < (momK2 k).t := by
    change 0 < k.X / (2 * k.M); exact div_pos (X_pos_of_physical h) (by positivity)
  obtain ⟨n1, n2⟩ := helicity_norm hm o2 (k1_moves h)
  have c := current_nonneg o2 o3 n1 n2 t1 t2 hl gamma (c92_tensor h hpt sf (hF eta he))
  have e := congrArg Complex.re (c80_born h hm ph sf lambda eta)
  rw [Complex.ofReal_re, Complex.re_ofReal_mul] at e
  rw [e]
  refine mul_nonneg ?_ c
  have := hk.ph_l_nonneg
  have hb : 0 ≤ S ^ 2 - 4 * ps.M ^ 2 * ps.m ^ 2 := by
    have := hk.lS_sq
    rw [hk.lS_eq] at this
    change _ = S ^ 2 - 4 * ps.M ^ 2 * ps.m ^ 2 at this
    rw [← this]; positivity
  have hM' : 0 < ps.M := hM
  positivity

/-- C92: for an unpolarised target the conditions of positivity are three inequalities between five
structure functions. -/
theorem c92_unpolarised (F : SfValues) :
    (∀ v : Fin 3 → ℂ, 0 ≤ (∑ a, ∑ b, starRingEnd ℂ (v a) * photonMatrix F .zero a b * v b).re) ↔
      RealisableU F := by
  have e : ∀ v : Fin 3 → ℂ, (∑ a, ∑ b, starRingEnd ℂ (v a) * photonMatrix F .zero a b * v b).re =
      F.UUL * ((v 0).re ^ 2 + (v 0).im ^ 2) + (F.UUT + F.UU_cos_2h) * ((v 1).re ^ 2 + (v 1).im ^ 2)
        + (F.UUT - F.UU_cos_2h) * ((v 2).re ^ 2 + (v 2).im ^ 2)
        - 2 * F.UU_cos_h * ((v 0).re * (v 1).re + (v 0).im * (v 1).im)
        - 2 * F.LU_sin_h * ((v 0).im * (v 1).re - (v 0).re * (v 1).im) := by
    intro v
    simp [Fin.sum_univ_three, photonMatrix, Vec3.zero]
    ring
  simp only [e]
  constructor
  · intro h
    have h0 := h ![1, 0, 0]
    have h1 := h ![0, 1, 0]
    have h2 := h ![0, 0, 1]
    simp at h0 h1 h2
    refine ⟨h0, abs_le.2 ⟨by linarith, by linarith⟩, ?_⟩
    set B := F.UUT + F.UU_cos_2h
    have key : ∀ s w : ℝ, 0 ≤ F.UUL * s ^ 2 * (F.UU_cos_h ^ 2 + F.LU_sin_h ^ 2) + B * w ^ 2
        - 2 * s * w * (F.UU_cos_h ^ 2 + F.LU_sin_h ^ 2) := fun s w => by
      have := h ![⟨s * F.UU_cos_h, s * F.LU_sin_h⟩, w, 0]
      simp at this
      linarith
    by_contra hc
    push Not at hc
    have k1 := key 1 F.UUL
    have k2 := key B (F.UU_cos_h ^ 2 + F.LU_sin_h ^ 2)
    have k3 := key 1 1
    have hd : 0 < F.UU_cos_h ^ 2 + F.LU_sin_h ^ 2 := lt_of_le_of_lt (mul_nonneg h0 h1) hc
    generalize F.UU_cos_h ^ 2 + F.LU_sin_h ^ 2 = d at *
    have hA : F.UUL = 0 := by nlinarith
    rw [hA] at k1 k2 k3 hc
    have hB : B = 0 := by nlinarith [mul_pos hd hd]
    rw [hB] at k3
    linarith
  · rintro ⟨hL, hT, hM⟩ v
    obtain ⟨hT1, hT2⟩ := abs_le.1 hT
    set A := F.UUL
    set B := F.UUT + F.UU_cos_2h with hB
    have h2 : 0 ≤ (F.UUT - F.UU_cos_2h) * ((v 2).re ^ 2 + (v 2).im ^ 2) :=
      mul_nonneg (by linarith) (by positivity)
    have hB0 : 0 ≤ B := by linarith
    generalize F.UU_cos_h = r at *
    generalize F.LU_sin_h = t at *
    generalize (v 0).re = x0 at *
    generalize (v 0).im = y0 at *
    generalize (v 1).re = x1 at *
    generalize (v 1).im = y1 at *
    have key : 0 ≤ A * (x0 ^ 2 + y0 ^ 2) + B * (x1 ^ 2 + y1 ^ 2) - 2 * r * (x0 * x1 + y0 * y1)
        - 2 * t * (y0 * x1 - x0 * y1) := by
      rcases hL.eq_or_lt with hA | hA
      · rw [← hA, zero_mul] at hM
        have r0 : r = 0 := by nlinarith [sq_nonneg r, sq_nonneg t]
        have t0 : t = 0 := by nlinarith [sq_nonneg r, sq_nonneg t]
        rw [← hA, r0, t0]
        have : 0 ≤ B * (x1 ^ 2 + y1 ^ 2) := by positivity
        linarith
      · refine nonneg_of_mul_nonneg_right ?_ hA
        have : A * (A * (x0 ^ 2 + y0 ^ 2) + B * (x1 ^ 2 + y1 ^ 2) - 2 * r * (x0 * x1 + y0 * y1)
          - 2 * t * (y0 * x1 - x0 * y1)) = (A * x0 - r * x1 + t * y1) ^ 2 + (A * y0 - r * y1 - t * x1) ^ 2
            + (A * B - (r ^ 2 + t ^ 2)) * (x1 ^ 2 + y1 ^ 2) := by ring
        rw [this]
        have : 0 ≤ (A * B - (r ^ 2 + t ^ 2)) * (x1 ^ 2 + y1 ^ 2) :=
          mul_nonneg (by linarith) (by positivity)
        positivity
    linarith

end

section
variable {ps : Particles ℝ} {S : ℝ} {pt : PhaseSpaceRad ℝ}

/-- The virtual photon left after the emission is spacelike if its energy is positive. -/
theorem shift_spacelike (h : PhysicalRad ps S pt) (hm : 0 < ps.m) (hR : 0 < pt.R) (hR' : pt.R < S * pt.y) :
    0 < (KinematicsRad.ofPoint ps S pt).shift_Q_sq := by
  set k := KinematicsRad.ofPoint ps S pt with hkd
  have hr : RadRel k := radRel_of_physical h
  obtain ⟨s1, s2, -⟩ := c17_shift h
  obtain ⟨-, o2, o3, -, -⟩ := c16_on_shell h.phys
  obtain ⟨-, z2⟩ := z_pos_of_physical h hm hR
  have hM : 0 < k.M := h.phys.M_pos
  set q := momQ k.project - momK k with hq
  have hX := X_pos_of_physical h.phys
  have t2 : 0 < (momK2 k.project).t := by
    change 0 < k.X / (2 * k.M); exact div_pos hX (by positivity)
  have eR : 0 < k.R := hR
  have tk : 0 < (momK k).t := by rw [hr.k_t']; positivity
  have tq : 0 < q.t := by
    have e : k.shift_S_x = 2 * (k.M * q.t) := by
      rw [s2]; simp [mink, momP, hq]; exact Or.inl rfl
    have : 0 < k.shift_S_x := by rw [hr.sSx_eq]; change 0 < S * pt.y - pt.R; linarith
    rw [e] at this
    by_contra hc
    nlinarith
  have ek : momK1 k.project = momK2 k.project + momK k + q := by
    have := c16_conservation h.phys
    change momQ k.project = momK1 k.project - momK2 k.project at this
    rw [hq, this]
    ext <;> simp
  rw [s1]
  by_contra hc
  have hqq : 0 ≤ mink q q := by
    have : msq q = mink q q := rfl
    linarith
  have o3' : mink (momK2 k.project) (momK2 k.project) = ps.m ^ 2 := o3
  have o2' : mink (momK1 k.project) (momK1 k.project) = ps.m ^ 2 := o2
  have a2 : 0 < mink (momK2 k.project) (momK2 k.project) := by rw [o3']; positivity
  have p2 := mink_pos a2 hr.kk t2 tk
  rw [ek] at o2'
  simp only [mink_add_left, mink_add_right] at o2'
  have q1 : 0 ≤ mink (momK2 k.project) q := mink_nonneg a2.le hqq t2.le tq.le
  have q2 : 0 ≤ mink (momK k) q := mink_nonneg hr.kk.ge hqq tk.le tq.le
  rw [mink_comm (momK k) (momK2 k.project), mink_comm q (momK2 k.project), mink_comm q (momK k), hr.kk] at o2'
  linarith

/-- The shifted kinematics and the basis of photon polarisations. -/
theorem basis_of_physicalRad (h : PhysicalRad ps S pt) (hm : 0 < ps.m) (hR : 0 < pt.R)
    (hR' : pt.R < S * pt.y) :
    let k := KinematicsRad.ofPoint ps S pt
    0 < k.shift_ph_t →
    Basis (momQ k.project - momK k) (momP k.project) (momH k.project) k.shift_Q k.shift_lambda_Y_sqrt
      k.shift_ph_t k.shift_S_x k.shift_lambda_2 k.shift_lambda_3 ∧
    0 < eucl (momQ k.project - momK k).r (momQ k.project - momK k).r := by
  intro k hpt
  have hr : RadRel k := radRel_of_physical h
  have hQ2 : 0 < k.shift_Q_sq := shift_spacelike h hm hR hR'
  obtain ⟨s1, s2, s3, -, -, -, -, -, sz, sQ, -⟩ := c17_shift h
  obtain ⟨l1, -, l2, l3, ls, -⟩ := c17_shift_lambda h
  obtain ⟨o1, -, -, -, o5⟩ := c16_on_shell h.phys
  have hM : 0 < k.M := h.phys.M_pos
  have hQ : 0 < k.shift_Q := by rw [sQ]; exact Real.sqrt_pos.2 hQ2
  have hQs : k.shift_Q ^ 2 = k.shift_Q_sq := by rw [sQ]; exact Real.sq_sqrt hQ2.le
  have hSx : 0 < k.shift_S_x := by rw [hr.sSx_eq]; change 0 < S * pt.y - pt.R; linarith
  have p1 : ∀ v : Vec4, mink (momP k.project) v = k.M * v.t := by
    intro v; simp [mink, momP]; exact Or.inl rfl
  have e2 : k.shift_S_x = 2 * (k.M * (momQ k.project - momK k).t) := by rw [s2, p1]
  have ht : (momQ k.project - momK k).t ≠ 0 := fun e => by rw [e2, e] at hSx; simp at hSx
  have es : msq (momQ k.project - momK k) = mink (momQ k.project - momK k) (momQ k.project - momK k) := rfl
  have hn : 0 < eucl (momQ k.project - momK k).r (momQ k.project - momK k).r := by
    have : eucl (momQ k.project - momK k).r (momQ k.project - momK k).r
      = (momQ k.project - momK k).t ^ 2 - mink (momQ k.project - momK k) (momQ k.project - momK k) := by
        simp [eucl, mink, Vec4.r]; ring
    rw [this, ← es]
    have : 0 < (momQ k.project - momK k).t ^ 2 := by positivity
    linarith
  have hLp : 0 < k.shift_lambda_Y := by rw [l1]; have := h.phys.M_pos; positivity
  obtain ⟨-, n2, n3, -⟩ := c17_shift_hadron h hn
  have hpt2 : k.shift_ph_t ^ 2 = k.shift_ph_t_sq := by
    have : k.shift_ph_t = √k.shift_ph_t_sq := n3
    rw [this] at hpt ⊢
    exact Real.sq_sqrt (Real.sqrt_pos.1 hpt).le
  refine ⟨basis_of_rest hM hQ (by rw [hQs, s1, es]) (by rw [ls]; exact Real.sqrt_pos.2 hLp)
    (by rw [ls, Real.sq_sqrt hLp.le, l1]; rfl) e2 ht l2 ?_ hpt (by rw [hpt2]; exact n2), hn⟩
  have : k.shift_lambda_3 = _ := l3
  rw [this, es]
  have z : k.shift_z = (momH k.project).t / (momQ k.project - momK k).t := by
    have : k.shift_z = _ := sz
    rw [this, p1, p1, mul_div_mul_left _ _ hM.ne']
  rw [z]

/-- C92: the hadronic tensor of the shifted kinematics is the matrix of photon polarisations for the
target polarisation in the shifted frame. -/
theorem c92_rad_tensor (h : PhysicalRad ps S pt) (hm : 0 < ps.m) (hR : 0 < pt.R)
    (hR' : pt.R < S * pt.y) (hpt : 0 < pt.ph_t_sq) (sf : SfFuns) (eta : Vec3) :
    let k := KinematicsRad.ofPoint ps S pt
    0 < k.shift_ph_t →
    ∃ e : Fin 3 → Fin 4 → ℝ, ∀ μ ν,
      hadronicTensor (hadronicRad k sf eta) (momQ k.project - momK k) (momP k.project) (momH k.project) μ ν =
        (k.shift_C_1 : ℂ) * ∑ a, ∑ b, photonMatrix (.at sf ps.hadron k.shift_x k.shift_z k.shift_Q_sq
          k.shift_ph_t_sq) ((Frame.shiftFromHadron k).apply eta) a b * (e a μ * e b ν : ℝ) := by
  intro k hspt
  have hr : RadRel k := radRel_of_physical h
  obtain ⟨B, hn⟩ := basis_of_physicalRad h hm hR hR' hspt
  change Basis (momQ k.project - momK k) (momP k.project) (momH k.project) k.shift_Q k.shift_lambda_Y_sqrt
    k.shift_ph_t k.shift_S_x k.shift_lambda_2 k.shift_lambda_3 at B
  obtain ⟨rot, inv, -⟩ := c21_shift h hpt hspt hn
  have hrot : ∀ v, ((Frame.hadronFromShift k).apply v).dot eta =
      v.dot ((Frame.shiftFromHadron k).apply eta) := fun v => by
    have := rot.1 ((Frame.hadronFromShift k).apply v) eta
    change eucl ((Frame.shiftFromHadron k).apply _) ((Frame.shiftFromHadron k).apply eta) = _ at this
    have i : (Frame.shiftFromHadron k).apply ((Frame.hadronFromShift k).apply v) = v := inv.1 v
    rw [i] at this
    exact this.symm
  set eta' := (Frame.shiftFromHadron k).apply eta with heta
  set F := SfValues.at sf ps.hadron k.shift_x k.shift_z k.shift_Q_sq k.shift_ph_t_sq with hF
  set T := photonMatrix F eta' with hTd
  refine ⟨![component (Basis.e0 (momQ k.project - momK k) (momP k.project) k.shift_Q k.shift_lambda_Y_sqrt),
    component (Basis.e1 (momQ k.project - momK k) (momP k.project) (momH k.project) k.shift_Q
      k.shift_lambda_Y_sqrt k.shift_ph_t k.shift_S_x k.shift_lambda_3),
    component (Basis.e2 (momQ k.project - momK k) (momP k.project) (momH k.project) k.shift_lambda_Y_sqrt
      k.shift_ph_t)], fun μ ν => ?_⟩
  rw [← matrix_tensor]
  have t := B.tensor (a00 := k.shift_C_1 * (T 0 0).re) (a11 := k.shift_C_1 * (T 1 1).re)
    (a22 := k.shift_C_1 * (T 2 2).re)
    (a01 := k.shift_C_1 * (T 0 1).re) (a02 := k.shift_C_1 * (T 0 2).re) (a12 := k.shift_C_1 * (T 1 2).re)
    (b01 := k.shift_C_1 * (T 0 1).im) (b02 := k.shift_C_1 * (T 0 2).im) (b12 := k.shift_C_1 * (T 1 2).im) μ ν
  refine Eq.trans (congrArg (fun H => hadronicTensor H (momQ k.project - momK k) (momP k.project)
    (momH k.project) μ ν) ?_) t
  have hF' : F = SfValues.at sf k.hadron k.shift_x k.shift_z k.shift_Q_sq k.shift_ph_t_sq := rfl
  have eY : k.shift_lambda_Y_sqrt ^ 2 = k.shift_lambda_Y := by
    rw [hr.slYs_eq, Real.sq_sqrt]
    exact (Real.sqrt_pos.1 (hr.slYs_eq ▸ B.L_pos)).le
  have ept : k.shift_ph_t ^ 2 = k.shift_ph_t_sq := by
    rw [hr.spts_eq, Real.sq_sqrt]
    exact (Real.sqrt_pos.1 (hr.spts_eq ▸ B.pt_pos)).le
  have sQ : k.shift_Q = √k.shift_Q_sq := (c17_shift h).2.2.2.2.2.2.2.2.2.1
  have eQ : k.shift_Q ^ 2 = k.shift_Q_sq := by
    rw [sQ]; exact Real.sq_sqrt (shift_spacelike h hm hR hR').le
  simp only [hadronicRad, makeHadRadBaseUU, makeHadRadBaseUP, makeHadRadBaseLU, makeHadRadBaseLP, hrot]
  simp only [Vec3.dot, SfFuns.baseUP, SfFuns.baseLP, SfFuns.baseUU, SfFuns.baseUL, SfFuns.baseUT,
    SfFuns.baseLU, SfFuns.baseLL, SfFuns.baseLT, ← eY, ← ept, ← eQ, Sidis.sq]
  simp only [hTd, photonMatrix, hF', SfValues.at, Matrix.cons_val_zero, Matrix.cons_val_one,
    Matrix.cons_val, Complex.ofReal_re, ← ept, ← eQ]
  ext <;> ring

/-- The radiative cross-section up to positive factors. -/
theorem rad_sign (h : PhysicalRad ps S pt) (hm : 0 < ps.m) (hR : 0 < pt.R)
    (hR' : pt.R < S * pt.y) (hpt : 0 < pt.ph_t_sq) {ph : Phenom} (ha : 0 ≤ ph.alpha_qed)
    (sf : SfFuns) {lambda : ℝ} (hl : |lambda| ≤ 1) {eta : Vec3} (he : eucl eta eta ≤ 1) :
    let k := KinematicsRad.ofPoint ps S pt
    0 < k.shift_ph_t →
    Realisable (.at sf ps.hadron k.shift_x k.shift_z k.shift_Q_sq k.shift_ph_t_sq) →
    ∃ c : ℝ, 0 ≤ c ∧ xsRad k ph sf lambda eta = c * k.shift_ph_l := by
  intro k hspt hF
  have hr : RadRel k := radRel_of_physical h
  have hk : KinRel k.project := hr.kin
  obtain ⟨-, o2, o3, -, -⟩ := c16_on_shell h.phys
  obtain ⟨z1, z2⟩ := z_pos_of_physical h hm hR
  have hM : 0 < k.M := hk.M_pos
  have hS := hk.S_pos
  have eR : 0 < k.R := hR
  obtain ⟨B, hn⟩ := basis_of_physicalRad h hm hR hR' hspt
  obtain ⟨rot, -⟩ := c21_shift h hpt hspt hn
  have t1 : 0 < (momK1 k.project).t := by change 0 < S / (2 * k.M); have : 0 < S := hS; positivity
  have t2 : 0 < (momK2 k.project).t := by
    change 0 < k.X / (2 * k.M); exact div_pos (X_pos_of_physical h.phys) (by positivity)
  have tk : 0 < (momK k).t := by rw [hr.k_t']; positivity
  obtain ⟨n1, n2⟩ := helicity_norm hm o2 (k1_moves h.phys)
  obtain ⟨e, he'⟩ := c92_rad_tensor h hm hR hR' hpt sf eta hspt
  change ∀ μ ν, hadronicTensor (hadronicRad k sf eta) (momQ k.project - momK k) (momP k.project)
    (momH k.project) μ ν = (k.shift_C_1 : ℂ) * _ at he'
  set W : Tensor := fun μ ν => ∑ a, ∑ b, photonMatrix (.at sf ps.hadron k.shift_x k.shift_z k.shift_Q_sq
    k.shift_ph_t_sq) ((Frame.shiftFromHadron k).apply eta) a b * (e a μ * e b ν : ℝ) with hW
  have hWp : Positive W := positive_of_basis e zero_le_one
    (hF _ (by have := rot.1 eta eta; exact (le_of_eq this).trans he)) fun μ ν => by rw [Complex.ofReal_one, one_mul]
  have k1k : mink (momK1 k.project) (momK k) ≠ 0 := by
    rw [mink_comm, hr.kk1]; positivity
  have k2k : mink (momK2 k.project) (momK k) ≠ 0 := by
    rw [mink_comm, hr.kk2]; positivity
  have c := radiative_nonneg o2 o3 n1 n2 t1 t2 hr.kk tk k1k k2k hl hWp
  have eL : ∀ L : Tensor, (full L (hadronicTensor (hadronicRad k sf eta) (momQ k.project - momK k)
      (momP k.project) (momH k.project))).re = k.shift_C_1 * (full L W).re := fun L => by
    have : full L (hadronicTensor (hadronicRad k sf eta) (momQ k.project - momK k)
      (momP k.project) (momH k.project)) = (k.shift_C_1 : ℂ) * full L W := by
      simp only [full, he', Finset.mul_sum]
      refine Finset.sum_congr rfl fun μ _ => Finset.sum_congr rfl fun ν _ => ?_
      rw [hW]
      simp only [Finset.mul_sum]
      refine Finset.sum_congr rfl fun a _ => Finset.sum_congr rfl fun b _ => ?_
      ring
    rw [this, Complex.re_ofReal_mul]
  have x := congrArg Complex.re (c82_rad h hm hR ph sf lambda eta)
  rw [Complex.ofReal_re, Complex.re_ofReal_mul] at x
  have x' : xsRad k ph sf lambda eta = _ := x
  rw [x', eL]
  have hC : k.shift_C_1 = k.shift_ph_l * ((4 * k.M * (k.shift_Q_sq + 2 * k.shift_x * Sidis.sq k.M))
      / Sidis.sq (Sidis.sq k.shift_Q_sq)) := by
    have : k.shift_C_1 = (4 * k.M * k.shift_ph_l * (k.shift_Q_sq + 2 * k.shift_x * Sidis.sq k.M))
      / Sidis.sq (Sidis.sq k.shift_Q_sq) := rfl
    rw [this]; ring
  have hQ2 : 0 < k.shift_Q_sq := shift_spacelike h hm hR hR'
  have hSx : 0 < k.shift_S_x := by rw [hr.sSx_eq]; change 0 < S * pt.y - pt.R; linarith
  have hx : 0 < k.shift_x := by rw [hr.sx_eq]; positivity
  set f := (full (radiativeTensor (momK1 k.project) (momK2 k.project) (momK k) ps.m lambda
    (helicity (momK1 k.project) ps.m)) W).re with hf
  set d := ph.alpha_qed ^ 3 * S * (S * pt.y) ^ 2 * pt.R / (256 * Real.pi ^ 2 * ps.M * k.ph_l *
        (S ^ 2 - 4 * ps.M ^ 2 * ps.m ^ 2) * k.lambda_Y_sqrt) with hd
  set g := (4 * k.M * (k.shift_Q_sq + 2 * k.shift_x * Sidis.sq k.M))
      / Sidis.sq (Sidis.sq k.shift_Q_sq) with hg
  have g0 : 0 ≤ g := by rw [hg]; simp only [Sidis.sq]; positivity
  have d0 : 0 ≤ d := by
    have p1 : 0 ≤ k.ph_l := hk.ph_l_nonneg
    have p2 : 0 < k.lambda_Y_sqrt := hk.lY_pos
    have p3 : 0 ≤ S ^ 2 - 4 * ps.M ^ 2 * ps.m ^ 2 := by
      have := hk.lS_sq
      rw [hk.lS_eq] at this
      change _ = S ^ 2 - 4 * ps.M ^ 2 * ps.m ^ 2 at this
      rw [← this]; positivity
    have p4 : 0 < ps.M := hM
    have p5 : 0 < S := hS
    rw [hd]
    positivity
  refine ⟨d * (g * f), mul_nonneg d0 (mul_nonneg g0 c), ?_⟩
  change d * (k.shift_C_1 * f) = _
  rw [hC]
  ring

/-- C92: the radiative cross-section for a beam and a target of any polarisation is not negative, if
the hadron goes forward along the virtual photon that is left after the emission. -/
theorem c92_rad (h : PhysicalRad ps S pt) (hm : 0 < ps.m) (hR : 0 < pt.R) (hR' : pt.R < S * pt.y)
    (hpt : 0 < pt.ph_t_sq) {ph : Phenom} (ha : 0 ≤ ph.alpha_qed) (sf : SfFuns) {lambda : ℝ}
    (hl : |lambda| ≤ 1) {eta : Vec3} (he : eucl eta eta ≤ 1) :
    let k := KinematicsRad.ofPoint ps S pt
    0 < k.shift_ph_t →
    Realisable (.at sf ps.hadron k.shift_x k.shift_z k.shift_Q_sq k.shift_ph_t_sq) →
    0 ≤ k.shift_ph_l → 0 ≤ xsRad k ph sf lambda eta := by
  intro k hspt hF hpl
  obtain ⟨c, hc, e⟩ := rad_sign h hm hR hR' hpt ha sf hl he hspt hF
  change 0 ≤ xsRad k ph sf lambda eta
  rw [show xsRad k ph sf lambda eta = c * k.shift_ph_l from e]
  exact mul_nonneg hc hpl

/-- C92, a defect: where the hadron goes backward, the radiative cross-section has the wrong sign,
for every set of structure functions with positive probabilities. -/
theorem c92_rad_backward (h : PhysicalRad ps S pt) (hm : 0 < ps.m) (hR : 0 < pt.R) (hR' : pt.R < S * pt.y)
    (hpt : 0 < pt.ph_t_sq) {ph : Phenom} (ha : 0 ≤ ph.alpha_qed) (sf : SfFuns) {lambda : ℝ}
    (hl : |lambda| ≤ 1) {eta : Vec3} (he : eucl eta eta ≤ 1) :
    let k := KinematicsRad.ofPoint ps S pt
    0 < k.shift_ph_t →
    Realisable (.at sf ps.hadron k.shift_x k.shift_z k.shift_Q_sq k.shift_ph_t_sq) →
    k.shift_ph_l ≤ 0 → xsRad k ph sf lambda eta ≤ 0 := by
  intro k hspt hF hpl
  obtain ⟨c, hc, e⟩ := rad_sign h hm hR hR' hpt ha sf hl he hspt hF
  change xsRad k ph sf lambda eta ≤ 0
  rw [show xsRad k ph sf lambda eta = c * k.shift_ph_l from e]
  exact mul_nonpos_of_nonneg_of_nonpos hc hpl

end

/-- C92: the textbook formula is the contraction of the density matrix of the photons emitted by the
lepton with the matrix of the photons absorbed by the target: `photonMatrix` is what the structure
functions of the textbook measure. -/
theorem c92_textbook (w : PhotonWeights) (F : SfValues) (phi_h phi_S lambda_e S_L S_T : ℝ) :
    angular w F phi_h phi_S lambda_e S_L S_T =
      w.norm * (∑ a, ∑ b, photonDensity w phi_h lambda_e a b * starRingEnd ℂ
        (photonMatrix F ⟨S_T * Real.cos (phi_S - phi_h), S_T * Real.sin (phi_S - phi_h), S_L⟩ a b)).re := by
  have t1 : 3 * phi_h - phi_S = 2 * phi_h - (phi_S - phi_h) := by ring
  have t2 : phi_h + phi_S = 2 * phi_h + (phi_S - phi_h) := by ring
  have t3 : 2 * phi_h - phi_S = phi_h - (phi_S - phi_h) := by ring
  have t4 : phi_h - phi_S = -(phi_S - phi_h) := by ring
  rw [angular, t1, t2, t3, t4]
  have t5 : Real.sin phi_S = Real.sin (phi_h + (phi_S - phi_h)) := by ring_nf
  have t6 : Real.cos phi_S = Real.cos (phi_h + (phi_S - phi_h)) := by ring_nf
  rw [t5, t6]
  generalize phi_S - phi_h = D
  simp only [Fin.sum_univ_three, photonDensity, photonMatrix, Matrix.cons_val_zero, Matrix.cons_val_one,
    Matrix.cons_val]
  simp only [Complex.add_re, Complex.mul_re, Complex.conj_re, Complex.conj_im, Complex.ofReal_re,
    Complex.ofReal_im, Complex.conj_conj, Complex.conj_ofReal]
  simp only [Real.sin_add, Real.cos_add, Real.sin_sub, Real.cos_sub, Real.sin_neg, Real.cos_neg,
    Real.sin_two_mul, Real.cos_two_mul]
  ring

/-- Structure functions with a double spin asymmetry of one half and a cosine modulation. -/
noncomputable def spinF : SfValues :=
  ⟨1, 1, 1 / 2, 0, 0, 0, 0, 0, 0, 0, 0, 0, 0, 1 / 2, 0, 0, 0, 0⟩

theorem spinF_realisable : Realisable spinF := by
  intro eta he v
  have hz : eta.z ^ 2 ≤ 1 := by
    simp only [eucl] at he
    nlinarith [mul_self_nonneg eta.x, mul_self_nonneg eta.y]
  have e : (∑ a, ∑ b, starRingEnd ℂ (v a) * photonMatrix spinF eta a b * v b).re =
      ((v 0).re - (v 1).re / 2) ^ 2 + ((v 0).im - (v 1).im / 2) ^ 2
      + ((v 2).re - eta.z / 2 * (v 1).im) ^ 2 + ((v 2).im + eta.z / 2 * (v 1).re) ^ 2
      + (3 / 4 - eta.z ^ 2 / 4) * ((v 1).re ^ 2 + (v 1).im ^ 2) := by
    simp [Fin.sum_univ_three, photonMatrix, spinF]
    ring
  rw [e]
  have : 0 ≤ (3 / 4 - eta.z ^ 2 / 4) * ((v 1).re ^ 2 + (v 1).im ^ 2) :=
    mul_nonneg (by linarith) (by positivity)
  positivity

/-- The same values everywhere. -/
noncomputable def spinSf : SfFuns where
  F_UUL _ _ _ _ _ := 1
  F_UUT _ _ _ _ _ := 1
  F_UU_cos_phih _ _ _ _ _ := 1 / 2
  F_UU_cos_2phih _ _ _ _ _ := 0
  F_UL_sin_phih _ _ _ _ _ := 0
  F_UL_sin_2phih _ _ _ _ _ := 0
  F_UTL_sin_phih_m_phis _ _ _ _ _ := 0
  F_UTT_sin_phih_m_phis _ _ _ _ _ := 0
  F_UT_sin_2phih_m_phis _ _ _ _ _ := 0
  F_UT_sin_3phih_m_phis _ _ _ _ _ := 0
  F_UT_sin_phis _ _ _ _ _ := 0
  F_UT_sin_phih_p_phis _ _ _ _ _ := 0
  F_LU_sin_phih _ _ _ _ _ := 0
  F_LL _ _ _ _ _ := 1 / 2
  F_LL_cos_phih _ _ _ _ _ := 0
  F_LT_cos_phih_m_phis _ _ _ _ _ := 0
  F_LT_cos_2phih_m_phis _ _ _ _ _ := 0
  F_LT_cos_phis _ _ _ _ _ := 0

theorem spinSf_realisable (h : Hadron) (x z Q_sq ph_t_sq : ℝ) :
    Realisable (.at spinSf h x z Q_sq ph_t_sq) := spinF_realisable

example (ph : Phenom) : 0 ≤ xsBorn (.make samplePs 20 samplePt) ph spinSf (-0.8) ⟨0.1, 0.3, 0.7⟩ :=
  c92_born sample_physical.2 (by norm_num [samplePs, Lepton.mass, CMath.ofReal])
    (by norm_num [samplePt]) ph _ (by norm_num [abs_le]) (by norm_num [eucl])
    (spinSf_realisable _ _ _ _ _)

/-- A photon emitted to the side of a hadron of small longitudinal momentum (10 MeV). -/
noncomputable def backwardPt : PhaseSpaceRad ℝ :=
  ⟨0.3, 0.6, 0.1, (0.1 * (20 * 0.6) / (2 * samplePs.M)) ^ 2 - samplePs.mh ^ 2 - 0.0001, 0, 1.1, 0.5, 0, 1⟩

theorem backward_physical : PhysicalRad samplePs 20 backwardPt := by
  refine ⟨?_, ?_, ?_⟩
  · constructor <;> norm_num [samplePs, backwardPt, PhaseSpaceRad.project, Nucleus.mass,
      Lepton.mass, Hadron.mass, CMath.ofReal]
  · norm_num [samplePs, backwardPt, Nucleus.mass, Lepton.mass, Hadron.mass, CMath.ofReal]
  · norm_num [samplePs, backwardPt, Nucleus.mass, Lepton.mass, Hadron.mass, CMath.ofReal]

/-- C92: such photons exist: at this point the hadron goes forward before and backward after the
emission. -/
theorem c92_backward_exists :
    let k := KinematicsRad.ofPoint samplePs 20 backwardPt
    0 < k.ph_l ∧ k.shift_ph_l < 0 ∧ 0 < k.shift_ph_t := by
  intro k
  have hr : RadRel k := radRel_of_physical backward_physical
  have hk : KinRel k.project := hr.kin
  have hM : 0 < k.M := hk.M_pos
  have hY : 0 < k.lambda_Y_sqrt := hr.lY_pos
  have hpl : k.ph_l = 0.01 := by
    have h1 := hk.ph_l_sq
    have h2 : k.project.ph_t ^ 2 = k.project.ph_t_sq := hk.ph_t_sqr
    rw [h2, hk.ph_0_eq] at h1
    have h3 : k.ph_l ^ 2 = 0.01 ^ 2 := by
      change k.ph_l ^ 2 = _ at h1
      rw [h1]
      change (0.1 * (20 * 0.6) / (2 * samplePs.M)) ^ 2
        - ((0.1 * (20 * 0.6) / (2 * samplePs.M)) ^ 2 - samplePs.mh ^ 2 - 0.0001) - samplePs.mh ^ 2 = _
      ring
    exact (pow_left_inj₀ hk.ph_l_nonneg (by norm_num) two_ne_zero).1 h3
  have eS : k.S_x = 12 := by change (20 * 0.6 : ℝ) = 12; norm_num
  have eM : k.M = samplePs.M := rfl
  have hM2 : 0.87 ≤ samplePs.M ^ 2 ∧ samplePs.M ^ 2 ≤ 0.89 := by
    constructor <;> norm_num [samplePs, Nucleus.mass, CMath.ofReal]
  have eτ : k.tau = 0.5 := rfl
  have eR : k.R = 1 := rfl
  have ec : k.cos_phi_h * k.cos_phi_k + k.sin_phi_h * k.sin_phi_k = 1 := by
    change Real.cos 0 * Real.cos 0 + Real.sin 0 * Real.sin 0 = 1
    simp
  have eQ : k.Q_sq = 3.6 := by change (20 * 0.3 * 0.6 : ℝ) = 3.6; norm_num
  have hY2 : k.lambda_Y_sqrt ^ 2 = 144 + 4 * samplePs.M ^ 2 * 3.6 := by
    have h1 : k.lambda_Y_sqrt ^ 2 = k.lambda_Y := hk.lY_sq
    have h2 : k.lambda_Y = k.S_x ^ 2 + 4 * k.M ^ 2 * k.Q_sq := hk.lY_eq
    rw [h1, h2, eS, eM, eQ]
    norm_num
  have hpt2 : k.ph_t ^ 2 = k.ph_t_sq := hk.ph_t_sqr
  have hpt0 : 0 ≤ k.ph_t := hk.ph_t_nonneg
  have hpt : 0.6 ≤ k.ph_t := by
    have : (0.6 : ℝ) ^ 2 ≤ k.ph_t ^ 2 := by
      rw [hpt2]
      change _ ≤ (0.1 * (20 * 0.6) / (2 * samplePs.M)) ^ 2 - samplePs.mh ^ 2 - 0.0001
      norm_num [samplePs, Nucleus.mass, Hadron.mass, CMath.ofReal]
    exact le_of_sq_le_sq this hpt0
  have hT := hr.T_sq
  have hT0 := hr.T_nonneg
  rw [hY2, eS, eM, eτ] at hT
  obtain ⟨m1, m2⟩ := hM2
  have hRV := hr.lRV_eq
  have hRY := hr.lRY_eq
  rw [ec, eR, eM] at hRV
  rw [eR, eS, eM, eτ] at hRY
  obtain ⟨A, hA⟩ : ∃ A, A = 2 * samplePs.M ^ 2 * tauRoot k := ⟨_, rfl⟩
  obtain ⟨m, hm⟩ : ∃ m, m = samplePs.M ^ 2 := ⟨_, rfl⟩
  have hA0 : 0 ≤ A := by rw [hA]; positivity
  have hA2 : A ^ 2 = 144 + 4 * m * 3.6 - (12 - m) ^ 2 := by
    rw [hA, hm]
    linear_combination hT
  rw [← hm] at m1 m2 hRY hY2
  have hA5 : 5 ≤ A := by nlinarith
  have hA6 : A ≤ 6 := by nlinarith
  have hsm : 0 < samplePs.M := hM
  obtain ⟨P, hP⟩ : ∃ P, P = k.lambda_RV / (2 * k.M) := ⟨_, rfl⟩
  have hPL : P * k.lambda_Y_sqrt = A * k.ph_t + (12 - m) * 0.01 := by
    rw [hP, hRV, hRY, hpl, eM, hA]
    field_simp
    ring
  obtain ⟨N, hN⟩ : ∃ N, N = k.lambda_Y_sqrt * k.ph_l - P := ⟨_, rfl⟩
  have hNL : N * k.lambda_Y_sqrt = k.lambda_Y_sqrt ^ 2 * 0.01 - (A * k.ph_t + (12 - m) * 0.01) := by
    rw [hN, hpl]
    linear_combination -hPL
  have b1 : 5 * 0.6 ≤ A * k.ph_t := mul_le_mul hA5 hpt (by norm_num) hA0
  have b2 : A * k.ph_t ≤ 6 * k.ph_t := mul_le_mul_of_nonneg_right hA6 hpt0
  have hN0 : N * k.lambda_Y_sqrt < 0 := by rw [hNL, hY2]; linarith
  have hN1 : -(6 * k.ph_t) ≤ N * k.lambda_Y_sqrt := by rw [hNL, hY2]; linarith
  have hsY : k.shift_lambda_Y = k.lambda_Y_sqrt ^ 2 + 1 - 2 * (12 - m) := by
    have h1 : k.lambda_Y_sqrt ^ 2 = k.lambda_Y := hk.lY_sq
    rw [hr.slY_eq, h1, eR, hRY]
    ring
  have hs : 100 ≤ k.shift_lambda_Y := by rw [hsY, hY2]; linarith
  have hss : 0 < k.shift_lambda_Y_sqrt := by
    rw [hr.slYs_eq]
    exact Real.sqrt_pos.2 (by linarith)
  refine ⟨by rw [hpl]; norm_num, ?_, ?_⟩
  · rw [hr.spl_eq, ← hP, ← hN]
    exact mul_neg_of_pos_of_neg (by positivity) (neg_of_mul_neg_left hN0 hY.le)
  · rw [hr.spts_eq]
    apply Real.sqrt_pos.2
    have e : k.shift_ph_t_sq = k.ph_t_sq + k.ph_l ^ 2 - N ^ 2 / k.shift_lambda_Y := by
      have hRVP : k.lambda_RV = P * (2 * k.M) := by rw [hP]; field_simp
      have hlY : k.lambda_Y_sqrt ^ 2 = k.shift_lambda_Y - (1 ^ 2 - 2 * k.lambda_RY) := by
        rw [hsY, hRY]; ring
      rw [hr.spt_eq, hRVP, hN, eR]
      have : k.shift_lambda_Y ≠ 0 := by linarith
      field_simp
      linear_combination (4 * k.ph_l ^ 2) * hlY
    have h3 : N ^ 2 * k.lambda_Y_sqrt ^ 2 ≤ (6 * k.ph_t) ^ 2 := by
      rw [← mul_pow]
      exact sq_le_sq' hN1 (by linarith)
    have h4 : N ^ 2 / k.shift_lambda_Y < k.ph_t_sq := by
      rw [div_lt_iff₀ (by linarith), ← hpt2]
      have h5 : N ^ 2 * 144 ≤ (6 * k.ph_t) ^ 2 := by
        refine le_trans ?_ h3
        exact mul_le_mul_of_nonneg_left (by rw [hY2]; linarith) (sq_nonneg _)
      have h6 : k.ph_t ^ 2 * 100 ≤ k.ph_t ^ 2 * k.shift_lambda_Y :=
        mul_le_mul_of_nonneg_left hs (sq_nonneg _)
      have h7 : 0 < k.ph_t ^ 2 := by positivity
      linarith
    rw [e]
    linarith [sq_nonneg k.ph_l]

/-- A vector orthogonal to a lightlike one is not timelike. -/
theorem mink_nonpos {w k : Vec4} (hk : mink k k = 0) (tk : 0 < k.t) (h : mink w k = 0) : mink w w ≤ 0 := by
  simp only [mink] at *
  have h1 : (w.x * k.x + w.y * k.y + w.z * k.z) ^ 2 ≤
      (w.x ^ 2 + w.y ^ 2 + w.z ^ 2) * (k.x ^ 2 + k.y ^ 2 + k.z ^ 2) := by
    nlinarith [sq_nonneg (w.x * k.y - w.y * k.x), sq_nonneg (w.x * k.z - w.z * k.x),
      sq_nonneg (w.y * k.z - w.z * k.y)]
  have h2 : w.x * k.x + w.y * k.y + w.z * k.z = w.t * k.t := by linarith
  have h3 : k.x ^ 2 + k.y ^ 2 + k.z ^ 2 = k.t ^ 2 := by linarith
  rw [h2, h3, mul_pow] at h1
  have := le_of_mul_le_mul_right h1 (by positivity : 0 < k.t ^ 2)
  linarith

/-- The eikonal factor is minus a square. -/
theorem F_IR_nonpos {ps : Particles ℝ} {S : ℝ} {pt : PhaseSpaceRad ℝ} (h : PhysicalRad ps S pt) (hm : 0 < ps.m)
    (hR : 0 < pt.R) : (KinematicsRad.ofPoint ps S pt).F_IR ≤ 0 := by
  set k := KinematicsRad.ofPoint ps S pt with hkd
  have hr : RadRel k := radRel_of_physical h
  obtain ⟨z1, z2⟩ := z_pos_of_physical h hm hR
  have z1' : 0 < k.z_1 := z1
  have z2' : 0 < k.z_2 := z2
  obtain ⟨-, o2, o3, -, o5⟩ := c16_on_shell h.phys
  have hM : 0 < k.M := h.phys.M_pos
  have eR : 0 < k.R := hR
  have tk : 0 < (momK k).t := by rw [hr.k_t']; positivity
  have o2' : mink (momK1 k.project) (momK1 k.project) = k.m ^ 2 := o2
  have o3' : mink (momK2 k.project) (momK2 k.project) = k.m ^ 2 := o3
  have hq : mink (momK1 k.project) (momK2 k.project) = k.m ^ 2 + k.Q_sq / 2 := by
    have e := c16_conservation h.phys
    change momQ k.project = momK1 k.project - momK2 k.project at e
    have q : mink (momQ k.project) (momQ k.project) = -k.Q_sq := o5
    rw [e] at q
    simp only [mink_sub_left, mink_sub_right] at q
    rw [mink_comm (momK2 k.project) (momK1 k.project), o2', o3'] at q
    linarith
  have e : k.F_IR = mink ((1 / k.z_1) • momK1 k.project - (1 / k.z_2) • momK2 k.project)
      ((1 / k.z_1) • momK1 k.project - (1 / k.z_2) • momK2 k.project) := by
    simp only [mink_sub_left, mink_sub_right, mink_smul_left, mink_smul_right]
    rw [mink_comm (momK2 k.project) (momK1 k.project), o2', o3', hq, hr.F_IR_eq, hr.F_2p_eq, hr.F_22_eq,
      hr.F_21_eq, hr.F_d_eq]
    field_simp
    ring
  rw [e]
  refine mink_nonpos hr.kk tk ?_
  rw [mink_sub_left, mink_smul_left, mink_smul_left, mink_comm _ (momK k), mink_comm _ (momK k), hr.kk1, hr.kk2]
  field_simp
  ring

/-- Structure functions of longitudinal and transverse photons only, constant. -/
noncomputable def plainSf (l t : ℝ) : SfFuns where
  F_UUL _ _ _ _ _ := l
  F_UUT _ _ _ _ _ := t
  F_UU_cos_phih _ _ _ _ _ := 0
  F_UU_cos_2phih _ _ _ _ _ := 0
  F_UL_sin_phih _ _ _ _ _ := 0
  F_UL_sin_2phih _ _ _ _ _ := 0
  F_UTL_sin_phih_m_phis _ _ _ _ _ := 0
  F_UTT_sin_phih_m_phis _ _ _ _ _ := 0
  F_UT_sin_2phih_m_phis _ _ _ _ _ := 0
  F_UT_sin_3phih_m_phis _ _ _ _ _ := 0
  F_UT_sin_phis _ _ _ _ _ := 0
  F_UT_sin_phih_p_phis _ _ _ _ _ := 0
  F_LU_sin_phih _ _ _ _ _ := 0
  F_LL _ _ _ _ _ := 0
  F_LL_cos_phih _ _ _ _ _ := 0
  F_LT_cos_phih_m_phis _ _ _ _ _ := 0
  F_LT_cos_2phih_m_phis _ _ _ _ _ := 0
  F_LT_cos_phis _ _ _ _ _ := 0

theorem plainSf_realisable {l t : ℝ} (hl : 0 ≤ l) (ht : 0 ≤ t) (h : Hadron) (x z Q_sq ph_t_sq : ℝ) :
    Realisable (.at (plainSf l t) h x z Q_sq ph_t_sq) := by
  intro eta he v
  have e : (∑ a, ∑ b, starRingEnd ℂ (v a) * photonMatrix (.at (plainSf l t) h x z Q_sq ph_t_sq) eta a b * v b).re =
      l * ((v 0).re ^ 2 + (v 0).im ^ 2) + t * ((v 1).re ^ 2 + (v 1).im ^ 2 + (v 2).re ^ 2 + (v 2).im ^ 2) := by
    simp [Fin.sum_univ_three, photonMatrix, SfValues.at, plainSf]
    ring
  rw [e]
  positivity

theorem xsRad_plain (k : KinematicsRad ℝ) (ph : Phenom) (sf : SfFuns) :
    xsRad k ph sf 0 .zero = radBaseUU (radCoeff k ph) k.R (.make k) (HadRadUU.make k sf).uu := by
  simp [xsRad, Vec3.zero, Vec3.dot]

theorem xsRad_split (k : KinematicsRad ℝ) (ph : Phenom) :
    xsRad k ph (plainSf 0 1) 0 .zero = xsRad k ph (plainSf (-1) 1) 0 .zero + xsRad k ph (plainSf 1 0) 0 .zero := by
  simp only [xsRad_plain, radBaseUU, HadRadUU.make, makeHadRadBaseUU, plainSf, SfFuns.baseUU]
  ring

/-- C92, a defect: where the hadron goes backward, the radiative cross-section on transverse photons is
negative. -/
theorem c92_transverse_negative {ps : Particles ℝ} {S : ℝ} {pt : PhaseSpaceRad ℝ} (h : PhysicalRad ps S pt)
    (hm : 0 < ps.m) (hQ : 2 * ps.m ^ 2 ≤ S * pt.x * pt.y) (hR : 0 < pt.R) (hR' : pt.R < S * pt.y)
    (hpt : 0 < pt.ph_t_sq) (hτ : 0 ≤ pt.tau)
    {ph : Phenom} (ha : 0 < ph.alpha_qed) :
    let k := KinematicsRad.ofPoint ps S pt
    0 < k.shift_ph_t → 0 < k.ph_l → k.shift_ph_l < 0 → xsRad k ph (plainSf 0 1) 0 .zero < 0 := by
  intro k hspt hpl hspl
  have hr : RadRel k := radRel_of_physical h
  have hk : KinRel k.project := hr.kin
  rw [xsRad_split]
  have h1 : xsRad k ph (plainSf 1 0) 0 .zero ≤ 0 :=
    c92_rad_backward h hm hR hR' hpt ha.le _ (by simp) (by simp [eucl, Vec3.zero]) hspt
      (plainSf_realisable zero_le_one le_rfl _ _ _ _ _) hspl.le
  obtain ⟨B, -⟩ := basis_of_physicalRad h hm hR hR' hspt
  obtain ⟨z1, z2⟩ := z_pos_of_physical h hm hR
  have z1' : 0 < k.z_1 := z1
  have z2' : 0 < k.z_2 := z2
  have hM : 0 < k.M := h.phys.M_pos
  have eR : 0 < k.R := hR
  have hIR : k.F_IR ≤ 0 := F_IR_nonpos h hm hR
  have hFd : 0 < k.F_d := by rw [hr.F_d_eq]; positivity
  have hQ2 : 0 < k.shift_Q_sq := shift_spacelike h hm hR hR'
  have hSx : 0 < k.shift_S_x := by rw [hr.sSx_eq]; change 0 < S * pt.y - pt.R; linarith
  have hx : 0 < k.shift_x := by rw [hr.sx_eq]; positivity
  have hC : k.shift_C_1 < 0 := by
    have : k.shift_C_1 = (4 * k.M * k.shift_ph_l * (k.shift_Q_sq + 2 * k.shift_x * Sidis.sq k.M))
      / Sidis.sq (Sidis.sq k.shift_Q_sq) := rfl
    rw [this]
    refine div_neg_of_neg_of_pos ?_ (by simp only [Sidis.sq]; positivity)
    refine mul_neg_of_neg_of_pos (mul_neg_of_pos_of_neg (by positivity) hspl) ?_
    simp only [Sidis.sq]; positivity
  have hlY2 : k.shift_lambda_Y = k.shift_lambda_Y_sqrt ^ 2 := by
    have := B.L_pos
    rw [hr.slYs_eq] at this ⊢
    exact (Real.sq_sqrt (Real.sqrt_pos.1 this).le).symm
  have hpt2 : k.shift_ph_t_sq = k.shift_ph_t ^ 2 := by
    have := hspt
    rw [hr.spts_eq] at this ⊢
    exact (Real.sq_sqrt (Real.sqrt_pos.1 this).le).symm
  have hQs : k.shift_Q_sq = k.shift_Q ^ 2 := by
    have sQ : k.shift_Q = √k.shift_Q_sq := (c17_shift h).2.2.2.2.2.2.2.2.2.1
    rw [sQ]; exact (Real.sq_sqrt hQ2.le).symm
  have e : xsRad k ph (plainSf (-1) 1) 0 .zero = radCoeff k ph * (k.shift_C_1 *
      (1 / k.R * (4 * k.F_IR * (k.Q_sq - 2 * k.m ^ 2)) + 4 * k.tau * k.F_IR
        + k.R * (-4 - 2 * k.F_d * k.tau ^ 2))) := by
    have H20 : (HadRadUU.make k (plainSf (-1) 1)).uu.H_20 = 0 := by
      simp only [HadRadUU.make, makeHadRadBaseUU, plainSf, SfFuns.baseUU, Sidis.sq]
      rw [hlY2, hpt2, hQs]
      have := B.pt_eq
      have h1 := B.L_pos
      have h2 := hspt
      have h1' : k.shift_lambda_Y_sqrt ≠ 0 := h1.ne'
      have h2' : k.shift_ph_t ≠ 0 := h2.ne'
      rw [mul_eq_zero]
      right
      linear_combination (-k.shift_C_1) * this
    have H30 : (HadRadUU.make k (plainSf (-1) 1)).uu.H_30 = 0 := by
      simp [HadRadUU.make, makeHadRadBaseUU, plainSf, SfFuns.baseUU]
    have H40 : (HadRadUU.make k (plainSf (-1) 1)).uu.H_40 = 0 := by
      simp [HadRadUU.make, makeHadRadBaseUU, plainSf, SfFuns.baseUU]
    have H10 : (HadRadUU.make k (plainSf (-1) 1)).uu.H_10 = k.shift_C_1 := by
      simp [HadRadUU.make, makeHadRadBaseUU, plainSf, SfFuns.baseUU]
    rw [xsRad_plain, radBaseUU, H10, H20, H30, H40]
    have t1 : (LepRadBaseUU.make k).theta_011 = 4 * k.F_IR * (k.Q_sq - 2 * Sidis.sq k.m) := rfl
    have t2 : (LepRadBaseUU.make k).theta_012 = 4 * k.tau * k.F_IR := rfl
    have t3 : (LepRadBaseUU.make k).theta_013 = -4 - 2 * k.F_d * Sidis.sq k.tau := rfl
    rw [t1, t2, t3]
    simp only [Sidis.sq]
    ring
  have hco : radCoeff k ph < 0 := by
    have p2 : 0 < k.lambda_Y_sqrt := hk.lY_pos
    have p3 : 0 < k.lambda_S := by
      have := hk.lS_sq
      change _ = k.lambda_S at this
      rw [← this]
      have := hk.lS_pos
      positivity
    have p4 : 0 < k.S := hk.S_pos
    have p5 : 0 < k.S_x := hk.Sx_pos
    unfold radCoeff
    simp only [Sidis.sq]
    rw [neg_div]
    exact neg_neg_of_pos (by positivity)
  have hθ : 1 / k.R * (4 * k.F_IR * (k.Q_sq - 2 * k.m ^ 2)) + 4 * k.tau * k.F_IR
        + k.R * (-4 - 2 * k.F_d * k.tau ^ 2) < 0 := by
    have q : 0 ≤ k.Q_sq - 2 * k.m ^ 2 := by
      change 0 ≤ S * pt.x * pt.y - 2 * ps.m ^ 2; linarith
    have τ0 : 0 ≤ k.tau := hτ
    have a1 : 0 ≤ 1 / k.R * (4 * (-k.F_IR) * (k.Q_sq - 2 * k.m ^ 2)) :=
      mul_nonneg (by positivity) (mul_nonneg (by linarith) q)
    have a2 : 0 ≤ 4 * k.tau * (-k.F_IR) := mul_nonneg (by positivity) (by linarith)
    have a3 : 0 < k.R * (4 + 2 * k.F_d * k.tau ^ 2) := by positivity
    nlinarith
  have h2 : xsRad k ph (plainSf (-1) 1) 0 .zero < 0 := by
    rw [e]
    exact mul_neg_of_neg_of_pos hco (mul_pos_of_neg_of_neg hC hθ)
  linarith

/-- C92, refuted for the radiative cross-section as it stands: a physical point, and structure functions
with positive probabilities, with a negative value. -/
theorem c92_rad_refuted : ¬ ∀ (ps : Particles ℝ) (S : ℝ) (pt : PhaseSpaceRad ℝ) (ph : Phenom) (sf : SfFuns),
    PhysicalRad ps S pt → 0 < ps.m → 0 < pt.R → pt.R < S * pt.y → 0 < pt.ph_t_sq → 0 < ph.alpha_qed →
    (∀ h x z Q_sq ph_t_sq, Realisable (.at sf h x z Q_sq ph_t_sq)) →
    0 ≤ xsRad (.ofPoint ps S pt) ph sf 0 .zero := by
  intro hall
  have h1 := hall samplePs 20 backwardPt ⟨0.0073, 0.01⟩ (plainSf 0 1) backward_physical
    (by norm_num [samplePs, Lepton.mass, CMath.ofReal]) (by norm_num [backwardPt]) (by norm_num [backwardPt])
    (by norm_num [backwardPt, samplePs, Nucleus.mass, Hadron.mass, CMath.ofReal]) (by norm_num)
    (plainSf_realisable le_rfl zero_le_one)
  have h2 := c92_transverse_negative backward_physical
    (by norm_num [samplePs, Lepton.mass, CMath.ofReal])
    (by norm_num [backwardPt, samplePs, Lepton.mass, CMath.ofReal]) (by norm_num [backwardPt])
    (by norm_num [backwardPt])
    (by norm_num [backwardPt, samplePs, Nucleus.mass, Hadron.mass, CMath.ofReal]) (by norm_num [backwardPt])
    (ph := ⟨0.0073, 0.01⟩) (by norm_num) c92_backward_exists.2.2 c92_backward_exists.1
    c92_backward_exists.2.1
  exact absurd h1 (not_le.2 h2)

example : xsRad (.ofPoint samplePs 20 backwardPt) ⟨0.0073, 0.01⟩ spinSf (-0.8) ⟨0.1, 0.3, 0.7⟩ ≤ 0 :=
  c92_rad_backward backward_physical (by norm_num [samplePs, Lepton.mass, CMath.ofReal])
    (by norm_num [backwardPt]) (by norm_num [backwardPt])
    (by norm_num [backwardPt, samplePs, Nucleus.mass, Hadron.mass, CMath.ofReal])
    (by norm_num) _ (by norm_num [abs_le]) (by norm_num [eucl])
    c92_backward_exists.2.2 (spinSf_realisable _ _ _ _ _) c92_backward_exists.2.1.le

example : 0 ≤ xsRad (.ofPoint samplePs 20 samplePtRad) ⟨0.0073, 0.01⟩ spinSf (-0.8) ⟨0.1, 0.3, 0.7⟩ := by
  refine c92_rad sample_physicalRad (by norm_num [samplePs, Lepton.mass, CMath.ofReal])
    (by norm_num [samplePtRad]) (by norm_num [samplePtRad]) (by norm_num [samplePtRad])
    (by norm_num) _ (by norm_num [abs_le]) (by norm_num [eucl])
    sampleRad_nondegenerate.2.2.1 (spinSf_realisable _ _ _ _ _) ?_
  set k := KinematicsRad.ofPoint samplePs 20 samplePtRad
  have hr : RadRel k := radRel_of_physical sample_physicalRad
  have hY : 0 < k.lambda_Y_sqrt := hr.lY_pos
  have hM : 0 < k.M := hr.kin.M_pos
  have hpl : 0 ≤ k.ph_l := hr.kin.ph_l_nonneg
  have hQ : 0 < k.Q_sq := hr.kin.Q2_pos
  have ec : k.cos_phi_h * k.cos_phi_k + k.sin_phi_h * k.sin_phi_k = 0 := by
    change Real.cos 0 * Real.cos (Real.pi / 2) + Real.sin 0 * Real.sin (Real.pi / 2) = 0
    simp
  have eS : k.S_x = 12 := by change (20 * 0.6 : ℝ) = 12; norm_num
  have eR : k.R = 1 := rfl
  have eτ : k.tau = 0.5 := rfl
  have e : k.shift_ph_l = k.ph_l * (k.lambda_Y_sqrt ^ 2 - k.lambda_RY) /
      (k.lambda_Y_sqrt * k.shift_lambda_Y_sqrt) := by
    rw [hr.spl_eq, hr.lRV_eq, ec]
    field_simp
    ring
  have h1 : k.lambda_Y_sqrt ^ 2 = k.S_x ^ 2 + 4 * k.M ^ 2 * k.Q_sq := by
    rw [← show k.lambda_Y = k.S_x ^ 2 + 4 * k.M ^ 2 * k.Q_sq from hr.kin.lY_eq]
    exact hr.kin.lY_sq
  rw [e, h1, hr.lRY_eq, eS, eR, eτ, hr.slYs_eq]
  have : 0 < 4 * k.M ^ 2 * k.Q_sq := by positivity
  have h2 : 0 ≤ (12 : ℝ) ^ 2 + 4 * k.M ^ 2 * k.Q_sq - 1 * (12 - 2 * k.M ^ 2 * 0.5) := by
    nlinarith [sq_nonneg k.M]
  positivity

end Props

end Sidis
