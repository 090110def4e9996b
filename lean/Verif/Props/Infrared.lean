import Verif.Lemmas.Infrared
import Verif.Props.SoftPhoton
import Verif.Props.CutRad
import Verif.Props.Dilog
import Verif.Props.Transform

/-! # The vertex correction and the soft photons: the cancellation of the infrared divergence (C91) -/

namespace Sidis.Props

open Real Filter Topology Sidis.Spec Sidis.Spec.Qed Sidis.Lemmas

/-- The product of two future-pointing momenta is at least the product of their masses. -/
theorem mink_ge {a b : Vec4} {α β : ℝ} (hα : 0 ≤ α) (hβ : 0 ≤ β) (ha : mink a a = α ^ 2)
    (hb : mink b b = β ^ 2) (ta : 0 < a.t) (tb : 0 < b.t) : α * β ≤ mink a b := by
  simp only [mink] at *
  have h0 : 0 < a.t * b.t := mul_pos ta tb
  by_contra hc
  push Not at hc
  have hu : a.t * b.t < α * β + (a.x * b.x + a.y * b.y + a.z * b.z) := by linarith
  have h2 := pow_lt_pow_left₀ hu h0.le two_ne_zero
  have e : (a.t * b.t) ^ 2 = (α ^ 2 + (a.x ^ 2 + a.y ^ 2 + a.z ^ 2))
      * (β ^ 2 + (b.x ^ 2 + b.y ^ 2 + b.z ^ 2)) := by
    rw [← ha, ← hb]; ring
  rw [e] at h2
  have p1 := sq_nonneg (β * a.x - α * b.x)
  have p2 := sq_nonneg (β * a.y - α * b.y)
  have p3 := sq_nonneg (β * a.z - α * b.z)
  have q1 := sq_nonneg (a.x * b.y - a.y * b.x)
  have q2 := sq_nonneg (a.x * b.z - a.z * b.x)
  have q3 := sq_nonneg (a.y * b.z - a.z * b.y)
  linarith

section
variable {ps : Particles ℝ} {S : ℝ} {pt : PhaseSpace ℝ}

theorem mx_sq_of_pos (h : 0 < (Kinematics.make ps S pt).mx) :
    (Kinematics.make ps S pt).mx_sq = (Kinematics.make ps S pt).mx ^ 2 :=
  (sq_sqrt (sqrt_pos.1 h).le).symm

/-- Products of the lepton momenta, and of the momentum of the undetected system. -/
theorem lepton_products (hm : Massive ps) (h : Accepted ps S pt) (hs : Samplable ps S pt) :
    let k := Kinematics.make ps S pt
    mink (momK1 k) (momK1 k) = ps.m ^ 2 ∧ mink (momK2 k) (momK2 k) = ps.m ^ 2 ∧
    2 * mink (momK1 k) (momK2 k) = k.Q_sq + 2 * ps.m ^ 2 ∧
    2 * mink (momK1 k) (momX k) = k.S - k.Q_sq - k.V_1 ∧
    2 * mink (momK2 k) (momX k) = k.X + k.Q_sq - k.V_2 ∧
    mink (momX k) (momX k) = k.mx_sq ∧
    0 < (momK1 k).t ∧ 0 < (momK2 k).t ∧ 0 < (momX k).t := by
  intro k
  have hp := physical_of_samplable hm h hs
  have hk : KinRel k := kinRel_of_physical hp
  have hc : momQ k = momK1 k - momK2 k := c16_conservation hp
  obtain ⟨-, s1, s2, -, s4⟩ := c16_on_shell hp
  obtain ⟨i1, -, i3, -, i5, i6, -, -, -, -, i11, -, -⟩ := c16_invariants hp
  obtain ⟨e1, e2, e3, e4, -⟩ := c16_energies hp
  change msq (momQ k) = -k.Q_sq at s4
  simp only [msq] at s1 s2 s4 i11
  change mink (momX k) (momX k) = k.mx_sq at i11
  have lin : ∀ a b c d : Vec4, mink a (b + c - d) = mink a b + mink a c - mink a d := by
    intro a b c d; simp [mink]; ring
  have com : ∀ a b : Vec4, mink a b = mink b a := by intro a b; simp only [mink]; ring
  have sub : ∀ a b c : Vec4, mink a (b - c) = mink a b - mink a c := by
    intro a b c; simp [mink]; ring
  have h12 : 2 * mink (momK1 k) (momK2 k) = k.Q_sq + 2 * ps.m ^ 2 := by
    rw [hc, sub, com _ (momK1 k), com _ (momK2 k), sub, sub, s1, s2, com (momK2 k) (momK1 k)] at s4
    linarith
  have hX0 : 0 < k.X := by
    have ha := hs.angle
    have hQ := hk.Q2_pos
    have hS := hk.S_pos
    by_contra hneg
    push Not at hneg
    have h0 : 0 ≤ ps.m ^ 2 * ((S * pt.y) ^ 2 + 4 * ps.M ^ 2 * (S * pt.x * pt.y)) := by
      have : 0 ≤ S * pt.x * pt.y := hQ.le
      positivity
    have h1 : S * ((1 - pt.y) * S) ≤ 0 := by
      have : (1 - pt.y) * S = k.X := rfl
      rw [this]
      exact mul_nonpos_of_nonneg_of_nonpos hS.le hneg
    have h2 : 0 ≤ ps.M ^ 2 * (S * pt.x * pt.y) := by
      have : 0 ≤ S * pt.x * pt.y := hQ.le
      positivity
    have : (S * pt.x * pt.y) * (S * ((1 - pt.y) * S) - ps.M ^ 2 * (S * pt.x * pt.y)) ≤ 0 :=
      mul_nonpos_of_nonneg_of_nonpos hQ.le (by linarith)
    linarith
  refine ⟨s1, s2, h12, ?_, ?_, i11, e2, ?_, ?_⟩
  · rw [momX, lin, hc, sub, s1, com (momK1 k) (momP k)]
    linarith
  · rw [momX, lin, hc, sub, s2, com (momK2 k) (momP k), com (momK2 k) (momK1 k)]
    linarith
  · change 0 < k.k2_0
    rw [hk.k2_0_eq]
    have := hk.M_pos
    positivity
  · change 0 < k.M + k.q_0 - k.ph_0
    rw [hk.q_0_eq, hk.ph_0_eq]
    have hM := hk.M_pos
    have hz : k.z ≤ 1 := h.z_le
    have : k.z * k.S_x / (2 * k.M) ≤ k.S_x / (2 * k.M) := by
      gcongr
      nlinarith [hk.Sx_pos]
    linarith

/-- The undetected system has a rest frame, and `transform_to` finds it. -/
theorem c91_rest_frame (hm : Massive ps) (h : Accepted ps S pt) (hs : Samplable ps S pt) :
    ∃ L, Transform4.transformTo (momX (.make ps S pt)) ⟨1, 0, 0, 0⟩ = some L ∧ IsProperLorentz L ∧
      L.apply (momX (.make ps S pt)) = ⟨(Kinematics.make ps S pt).mx, 0, 0, 0⟩ := by
  obtain ⟨-, -, -, -, -, hx, -, -, tx⟩ := lepton_products hm h hs
  have hmx := mx_pos_of_accepted hm h
  have hmx2 := mx_sq_of_pos hmx
  obtain ⟨L, h1, h2, h3⟩ := c11_transform_to_future (momX (.make ps S pt)) ⟨1, 0, 0, 0⟩
    (by rw [hx, hmx2]; positivity) (by norm_num [mink]) tx one_pos
  refine ⟨L, h1, h3, ?_⟩
  obtain ⟨a1, a2, -⟩ := c09_unit4 (momX (.make ps S pt)) (by rw [hx, hmx2]; positivity)
  obtain ⟨b1, b2, -⟩ := c09_unit4 ⟨1, 0, 0, 0⟩ (by norm_num [mink])
  generalize momX (.make ps S pt) = v at *
  generalize Vec4.unit ⟨1, 0, 0, 0⟩ = u at *
  generalize Vec4.norm ⟨1, 0, 0, 0⟩ = c at *
  have e : L.apply v = v.norm • u := by
    rw [← h2]
    conv_lhs => rw [← a1]
    exact Transform4.apply_smul _ _ _
  have c0 : c ≠ 0 := b2.ne'
  have ut : u.t * c = 1 := congrArg Vec4.t b1
  have ux : u.x = 0 := (mul_eq_zero.1 (congrArg Vec4.x b1)).resolve_right c0
  have uy : u.y = 0 := (mul_eq_zero.1 (congrArg Vec4.y b1)).resolve_right c0
  have uz : u.z = 0 := (mul_eq_zero.1 (congrArg Vec4.z b1)).resolve_right c0
  have ut0 : 0 < u.t := pos_of_mul_pos_left (by rw [ut]; exact one_pos) b2.le
  have hsq := h3.1 v v
  rw [hx, hmx2, e] at hsq
  simp only [mink, Vec4.smul_t, Vec4.smul_x, Vec4.smul_y, Vec4.smul_z, ux, uy, uz] at hsq
  have ht : u.t * v.norm = (Kinematics.make ps S pt).mx := by
    refine (pow_left_inj₀ (mul_pos ut0 a2).le hmx.le two_ne_zero).1 ?_
    linarith
  rw [e]
  ext <;> simp [ht, ux, uy, uz]

/-- **C91.** The vertex correction and the emission of soft photons, each computed with a photon of mass
`μ`, have a finite sum as `μ` vanishes, and `delta_vert_rad_ir` is that sum: twice the one-loop form
factor of the lepton, plus the probability of emitting a photon of an energy below the cut-off `R` in
the rest frame of the undetected system (reached by any Lorentz transformation `L`).  The cut-off is the
argument `k_0_bar`, or the largest energy a photon can have if that is less.  The lepton must move in
this frame, before and after; the error is that of the dilogarithm. -/
theorem c91_vertex_and_soft (hm : Massive ps) (h : Accepted ps S pt) (hs : Samplable ps S pt)
    {L : Transform4} (hL : IsLorentz L)
    (hrest : L.apply (momX (.make ps S pt)) = ⟨(Kinematics.make ps S pt).mx, 0, 0, 0⟩)
    (hk1 : L.apply (momK1 (.make ps S pt)) ≠ ⟨ps.m, 0, 0, 0⟩)
    (hk2 : L.apply (momK2 (.make ps S pt)) ≠ ⟨ps.m, 0, 0, 0⟩)
    {k_0_bar : Fl} {R : ℝ}
    (hR : (∃ c : ℝ, k_0_bar = .fin c ∧ 0 < c ∧ R = min c (energyMax ps S pt)) ∨
      k_0_bar = .pinf ∧ R = energyMax ps S pt) (alpha : ℝ) :
    let k := Kinematics.make ps S pt
    ∃ sum delta : ℝ,
      Tendsto (fun μ => 2 * diracFormFactor alpha k.Q_sq ps.m μ
        + softEmission alpha (L.apply (momK1 k)) (L.apply (momK2 k)) μ R) (𝓝[>] 0) (𝓝 sum) ∧
      deltaVertRadIr k k_0_bar = .fin delta ∧
      |alpha / π * delta - sum| ≤ |alpha| / π
        * ((k.Q_sq + 2 * ps.m ^ 2) / √(k.Q_sq * (k.Q_sq + 4 * ps.m ^ 2)) * (15 / 4 * 2⁻¹ ^ 53)) := by
  intro k
  obtain ⟨p1, p2, p12, pS, pX, px, t1, t2, tx⟩ := lepton_products hm h hs
  have hp := physical_of_samplable hm h hs
  have hk : KinRel k := kinRel_of_physical hp
  have hmx : 0 < k.mx := mx_pos_of_accepted hm h
  have hmx2 : k.mx_sq = k.mx ^ 2 := mx_sq_of_pos hmx
  have hmp := hs.m_pos
  have rest : ∀ v : Vec4, mink (L.apply v) ⟨k.mx, 0, 0, 0⟩ = k.mx * (L.apply v).t := by
    intro v; simp only [mink]; ring
  have moving : ∀ v : Vec4, mink v v = ps.m ^ 2 → 0 < v.t → L.apply v ≠ ⟨ps.m, 0, 0, 0⟩ →
      0 < (L.apply v).t ∧ 0 < len2 (L.apply v) := by
    intro v hv tv hne
    have e := hL v (momX k)
    rw [hrest, rest] at e
    have hge := mink_ge hmp.le hmx.le hv (by rw [px, hmx2]) tv tx
    have ht : 0 < (L.apply v).t := by
      have : 0 < k.mx * (L.apply v).t := by
        rw [e]; exact lt_of_lt_of_le (mul_pos hmp hmx) hge
      exact pos_of_mul_pos_right this hmx.le
    refine ⟨ht, ?_⟩
    have hsq := hL v v
    rw [hv, mink_self] at hsq
    by_contra hc
    have h0 : len2 (L.apply v) = 0 := le_antisymm (not_lt.1 hc) (by unfold len2; positivity)
    apply hne
    have hx0 : (L.apply v).x = 0 ∧ (L.apply v).y = 0 ∧ (L.apply v).z = 0 := by
      unfold len2 at h0
      refine ⟨?_, ?_, ?_⟩ <;> apply pow_eq_zero_iff two_ne_zero |>.1 <;>
        nlinarith [sq_nonneg (L.apply v).x, sq_nonneg (L.apply v).y, sq_nonneg (L.apply v).z]
    rw [h0, sub_zero] at hsq
    have ht' : (L.apply v).t = ps.m := (pow_left_inj₀ ht.le hmp.le two_ne_zero).1 hsq
    exact Vec4.ext ht' hx0.1 hx0.2.1 hx0.2.2
  obtain ⟨u1, v1⟩ := moving _ p1 t1 hk1
  obtain ⟨u2, v2⟩ := moving _ p2 t2 hk2
  have hmax : 0 < energyMax ps S pt := by
    have hmx' : 0 < √(Kinematics.make ps S pt).mx_sq := hmx
    unfold energyMax
    have := hs.room
    exact div_pos (by linarith) (by linarith)
  have hR0 : 0 < R := by
    rcases hR with ⟨c, -, hc, e⟩ | ⟨-, e⟩
    · rw [e]; exact lt_min hc hmax
    · rw [e]; exact hmax
  have lim := infrared_limit (k := k) (k1 := L.apply (momK1 k)) (k2 := L.apply (momK2 k))
    (alpha := alpha) (R := R) hk.Q2_pos hmp hmx hmx2 hR0 (by rw [hL]; exact p1)
    (by rw [hL]; exact p2) (by rw [hL]; exact p12)
    (by have e := hL (momK1 k) (momX k); rw [hrest, rest] at e; rw [← pS, ← e]; ring)
    (by have e := hL (momK2 k) (momX k); rw [hrest, rest] at e; rw [← pX, ← e]; ring)
    u1 u2 v1 v2
  refine ⟨_, deltaVertRad0 k + 2 * ((k.Q_sq + 2 * ps.m ^ 2) * logM k.Q_sq ps.m - 1)
    * log (2 * R / ps.m), lim, ?_, ?_⟩
  · unfold deltaVertRadIr
    have es : sq k.m = ps.m ^ 2 := by rw [Sidis.sq, ← pow_two]; rfl
    have em : (k.mx_sq - sq k.Mth) / (2 * k.mx) = energyMax ps S pt := by
      rw [Sidis.sq, ← pow_two]; rfl
    have em2 : (k.mx_sq - sq k.Mth) / (k.m * k.mx) = 2 * energyMax ps S pt / ps.m := by
      rw [← em, show k.m = ps.m from rfl]; field_simp
    have hmp' : 0 < k.m := hmp
    rcases hR with ⟨c, rfl, hc, rfl⟩ | ⟨rfl, rfl⟩
    · rw [if_neg (by rw [not_not]; exact (Fl.lt_fin _ _).2 hc)]
      dsimp only
      rw [em, em2]
      by_cases hlt : c < energyMax ps S pt
      · have h3 : 0 < 2 * c / k.m := by positivity
        rw [if_pos ((Fl.lt_fin _ _).2 hlt), min_eq_left hlt.le, Fl.mul_fin, Fl.div_fin _ hmp'.ne']
        simp only [Fl.log, if_pos h3, Fl.mul_fin, Fl.add_fin, es]
        rfl
      · have h3 : 0 < 2 * energyMax ps S pt / ps.m := by positivity
        rw [if_neg (fun h => hlt ((Fl.lt_fin _ _).1 h)), min_eq_right (not_lt.1 hlt)]
        simp only [Fl.log, if_pos h3, Fl.mul_fin, Fl.add_fin, es]
        rfl
    · have h3 : 0 < 2 * energyMax ps S pt / ps.m := by positivity
      rw [if_neg (by simp [LT.lt, Fl.lt])]
      dsimp only
      rw [if_neg (by simp [LT.lt, Fl.lt]), em2]
      simp only [Fl.log, if_pos h3, Fl.mul_fin, Fl.add_fin, es]
      rfl
  · have hclose := deltaWith_close (fun x => (c90_error x).2.1) (k := k) hk.Q2_pos.le
    have e : alpha / π * (deltaVertRad0 k + 2 * ((k.Q_sq + 2 * ps.m ^ 2) * logM k.Q_sq ps.m - 1)
        * log (2 * R / ps.m)) - alpha / π * (deltaWith Li2 k
        + 2 * ((k.Q_sq + 2 * k.m ^ 2) * logM k.Q_sq k.m - 1) * log (2 * R / k.m))
        = alpha / π * (deltaWith dilogR k - deltaWith Li2 k) := by
      rw [deltaVertRad0_with, show k.m = ps.m from rfl]; ring
    rw [e, abs_mul, abs_div, abs_of_pos pi_pos]
    refine mul_le_mul_of_nonneg_left (hclose.trans_eq ?_) (by positivity)
    rw [show k.m = ps.m from rfl]
    ring

/-- Where a lepton at rest with the undetected system would be. -/
theorem at_rest {L : Transform4} (hL : IsLorentz L) {k : Kinematics ℝ} {m : ℝ} {v : Vec4}
    (hrest : L.apply (momX k) = ⟨k.mx, 0, 0, 0⟩) (hv : L.apply v = ⟨m, 0, 0, 0⟩) (w : Vec4) :
    k.mx * mink w v = m * mink w (momX k) := by
  rw [← hL w v, ← hL w (momX k), hrest, hv]
  simp only [mink]
  ring

/-- **C91.** The beam is never at rest with the undetected system, unless it is heavier than the target.
The hypothesis of `c91_vertex_and_soft` on the beam always holds. -/
theorem c91_beam_moves (hm : Massive ps) (h : Accepted ps S pt) (hs : Samplable ps S pt)
    (hmM : ps.m ≤ ps.M) {L : Transform4} (hL : IsLorentz L)
    (hrest : L.apply (momX (.make ps S pt)) = ⟨(Kinematics.make ps S pt).mx, 0, 0, 0⟩) :
    L.apply (momK1 (.make ps S pt)) ≠ ⟨ps.m, 0, 0, 0⟩ := by
  intro hk1
  have hp := physical_of_samplable hm h hs
  obtain ⟨p1, p2, p12, -, -, px, t1, t2, tx⟩ := lepton_products hm h hs
  obtain ⟨s0, -, -, s3, -⟩ := c16_on_shell hp
  obtain ⟨-, -, -, e4, -⟩ := c16_energies hp
  have hc : momQ (.make ps S pt) = _ := c16_conservation hp
  have hmx := mx_pos_of_accepted hm h
  have hmx2 := mx_sq_of_pos hmx
  have hge : ps.M ≤ (Kinematics.make ps S pt).mx := by
    have hMth := h.missing
    rw [hmx2] at hMth
    have h0 : 0 ≤ ps.Mth := by linarith [hm.M_pos, hm.Mth_ge]
    have := (pow_le_pow_iff_left₀ h0 hmx.le two_ne_zero).1 hMth
    linarith [hm.Mth_ge]
  have ar := at_rest hL hrest hk1
  simp only [msq] at s0 s3
  set k := Kinematics.make ps S pt
  have eX : momX k = momP k + (momK1 k - momK2 k) - momH k := by rw [momX, hc]
  have d2 := mink_ge hs.m_pos.le hm.mh_pos.le p2 s3 t2 e4
  have dx2 := mink_ge hs.m_pos.le hmx.le p2 (by rw [px, hmx2]) t2 tx
  have dxh := mink_ge hm.mh_pos.le hmx.le s3 (by rw [px, hmx2]) e4 tx
  have hM2 : ps.M ^ 2 = mink (momX k) (momX k) + mink (momK1 k) (momK1 k)
      + mink (momK2 k) (momK2 k) + mink (momH k) (momH k) + 2 * mink (momK2 k) (momH k)
      - 2 * mink (momX k) (momK1 k) + 2 * (mink (momK2 k) (momX k) + mink (momH k) (momX k))
      - 2 * (mink (momK2 k) (momK1 k) + mink (momH k) (momK1 k)) := by
    rw [← s0, eX]
    simp [mink]
    ring
  have a1 := ar (momX k)
  have a2 := ar (momK2 k)
  have a3 := ar (momH k)
  rw [px, p1, p2, s3] at hM2
  rw [px] at a1
  have b1 : mink (momX k) (momK1 k) = ps.m * k.mx := by
    have : k.mx * mink (momX k) (momK1 k) = k.mx * (ps.m * k.mx) := by rw [a1, hmx2]; ring
    exact mul_left_cancel₀ hmx.ne' this
  have key : k.mx * ps.M ^ 2 = k.mx * ((k.mx - ps.m) ^ 2 + ps.m ^ 2 + ps.mh ^ 2
      + 2 * mink (momK2 k) (momH k))
      + 2 * (k.mx - ps.m) * (mink (momK2 k) (momX k) + mink (momH k) (momX k)) := by
    rw [hM2, b1, hmx2]
    linear_combination -2 * a2 - 2 * a3
  have hd : 0 ≤ k.mx - ps.m := by linarith
  have f1 : (k.mx - ps.m) * (ps.m * k.mx + ps.mh * k.mx)
      ≤ (k.mx - ps.m) * (mink (momK2 k) (momX k) + mink (momH k) (momX k)) :=
    mul_le_mul_of_nonneg_left (add_le_add dx2 dxh) hd
  have f2 : k.mx * (ps.m * ps.mh) ≤ k.mx * mink (momK2 k) (momH k) :=
    mul_le_mul_of_nonneg_left d2 hmx.le
  have f3 : k.mx * (k.mx + ps.mh) ^ 2 ≤ k.mx * ps.M ^ 2 := by rw [key]; linarith
  have f4 := le_of_mul_le_mul_left f3 hmx
  have f5 : ps.M < k.mx + ps.mh := by linarith [hm.mh_pos]
  have := pow_lt_pow_left₀ f5 hm.M_pos.le two_ne_zero
  linarith

end

/-- Non-vacuity of C91: at the sample point the rest frame exists, the lepton moves in it before and after
the scattering, and the sum of the vertex correction and the soft photons below half the largest energy is
`delta_vert_rad_ir`. -/
example (alpha : ℝ) : ∃ L, IsProperLorentz L ∧ ∃ sum delta : ℝ,
    let k := Kinematics.make samplePs 20 samplePt
    Tendsto (fun μ => 2 * diracFormFactor alpha k.Q_sq samplePs.m μ
      + softEmission alpha (L.apply (momK1 k)) (L.apply (momK2 k)) μ (energyMax samplePs 20 samplePt / 2))
      (𝓝[>] 0) (𝓝 sum) ∧
    deltaVertRadIr k (.fin (energyMax samplePs 20 samplePt / 2)) = .fin delta ∧
    |alpha / π * delta - sum| ≤ |alpha| / π
        * ((k.Q_sq + 2 * samplePs.m ^ 2) / √(k.Q_sq * (k.Q_sq + 4 * samplePs.m ^ 2))
          * (15 / 4 * 2⁻¹ ^ 53)) := by
  obtain ⟨hm, h⟩ := sample_accepted
  have hs := sample_samplable
  obtain ⟨L, -, hL, hrest⟩ := c91_rest_frame hm h hs
  have hmx := mx_pos_of_accepted hm h
  have hmx1 : 1 ≤ (Kinematics.make samplePs 20 samplePt).mx := by
    have h0 := h.missing
    rw [mx_sq_of_pos hmx] at h0
    have := (pow_le_pow_iff_left₀ (by norm_num [samplePs]) hmx.le two_ne_zero).1 h0
    have e : samplePs.Mth = 1.07 := rfl
    rw [e] at this
    norm_num at this
    linarith
  have hmax : 0 < energyMax samplePs 20 samplePt := by
    have hmx' : 0 < √(Kinematics.make samplePs 20 samplePt).mx_sq := hmx
    unfold energyMax
    have := hs.room
    exact div_pos (by linarith) (by linarith)
  have hp := sample_physical.2
  obtain ⟨-, -, i3, -⟩ := c16_invariants hp
  have hk := kinRel_of_physical hp
  refine ⟨L, hL, c91_vertex_and_soft hm h hs hL.1 hrest
    (c91_beam_moves hm h hs (by norm_num [samplePs, Nucleus.mass, Lepton.mass, CMath.ofReal]) hL.1 hrest)
    ?_ (Or.inl ⟨_, rfl, by positivity, (min_eq_left (by linarith)).symm⟩) alpha⟩
  intro hk2
  have ar := at_rest hL.1 hrest hk2 (momP (.make samplePs 20 samplePt))
  have e1 : mink (momP (.make samplePs 20 samplePt)) (momK2 (.make samplePs 20 samplePt)) = 4 := by
    have : (Kinematics.make samplePs 20 samplePt).X = 8 := by
      rw [hk.X_eq]; norm_num [Kinematics.make, samplePt]
    simp only [this] at i3
    linarith
  have e2 : mink (momP (.make samplePs 20 samplePt)) (momX (.make samplePs 20 samplePt))
      = samplePs.M * (samplePs.M + (Kinematics.make samplePs 20 samplePt).q_0
        - (Kinematics.make samplePs 20 samplePt).ph_0) := by
    simp [mink, momP, momX, momQ, momH, momLepton, Vec4.ofVec3, Kinematics.make]
  have e3 : samplePs.m * (samplePs.M * (samplePs.M + (Kinematics.make samplePs 20 samplePt).q_0
      - (Kinematics.make samplePs 20 samplePt).ph_0)) < 1 := by
    rw [hk.q_0_eq, hk.ph_0_eq]
    norm_num [Kinematics.make, samplePs, samplePt, Nucleus.mass, Lepton.mass, CMath.ofReal]
  rw [e1, e2] at ar
  linarith

end Sidis.Props
