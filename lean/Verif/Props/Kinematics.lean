import Verif.Spec.Particle
import Verif.Lemmas.KinGeom
import Mathlib.Tactic.NormNum
import Mathlib.Tactic.Positivity

/-! # Properties of particles and of `Kinematics` (C15, C16, C19, C20, C65) -/

namespace Sidis.Props

open Spec

/-! ## C15: particles -/

/-- C15: `Particles(target, beam, hadron, Mth)` succeeds exactly for thresholds between the target
mass and the sum of the target and hadron masses. -/
theorem c15_particles (target : Nucleus) (beam : Lepton) (hadron : Hadron) (Mth : Fl) :
    (Particles.make target beam hadron Mth).isSome ↔
      ∃ r : ℝ, Mth = .fin r ∧ target.mass ≤ r ∧ r ≤ target.mass + hadron.mass := by
  have hM : (target.mass : Fl) = .fin target.mass := by cases target <;> rfl
  have hh : (hadron.mass : Fl) = .fin hadron.mass := by cases hadron <;> rfl
  unfold Particles.make
  rw [hM, hh]
  cases Mth <;> simp [← not_lt]

/-- C15: NaN and infinite thresholds are rejected. -/
theorem c15_special (target : Nucleus) (beam : Lepton) (hadron : Hadron) :
    Particles.make target beam hadron Fl.nan = none ∧
    Particles.make target beam hadron Fl.pinf = none ∧
    Particles.make target beam hadron Fl.ninf = none := by
  refine ⟨?_, ?_, ?_⟩ <;>
  · rw [← Option.not_isSome_iff_eq_none, c15_particles]
    rintro ⟨r, h, -⟩
    exact absurd h (by simp)

/-- C15: the particles reported are the ones requested, with their masses. -/
theorem c15_fields {target : Nucleus} {beam : Lepton} {hadron : Hadron} {Mth : ℝ}
    {ps : Particles ℝ} (h : Particles.make target beam hadron Mth = some ps) :
    ps.target = target ∧ ps.beam = beam ∧ ps.hadron = hadron ∧ ps.M = target.mass ∧
    ps.m = beam.mass ∧ ps.mh = hadron.mass ∧ ps.Mth = Mth ∧
    ps.M ≤ ps.Mth ∧ ps.Mth ≤ ps.M + ps.mh ∧ 0 < ps.M ∧ 0 ≤ ps.m ∧ 0 < ps.mh := by
  unfold Particles.make at h
  simp only at h
  split_ifs at h with hc
  push Not at hc
  obtain rfl := Option.some.inj h
  refine ⟨rfl, rfl, rfl, rfl, rfl, rfl, rfl, hc.1, hc.2, ?_, ?_, ?_⟩
  · cases target <;> simp [Nucleus.mass, CMath.ofReal]
  · cases beam <;> simp only [Lepton.mass, CMath.ofReal] <;> norm_num
  · cases hadron <;> simp [Hadron.mass, CMath.ofReal]

/-- C15: charges follow from the quark content and masses (in GeV) are the tabulated ones within a
relative 10⁻⁴. -/
theorem c15_tables :
    (∀ t : Nucleus, 3 * t.charge = quarkCharge (nucleusQuarks t)) ∧
    (∀ h : Hadron, 3 * h.charge = quarkCharge (hadronQuarks h)) ∧
    (∀ l : Lepton, l.charge = -1) ∧
    (∀ t : Nucleus, |1000 * (t.mass : ℝ) - nucleusMeV t| ≤ nucleusMeV t / 10000) ∧
    (∀ h : Hadron, |1000 * (h.mass : ℝ) - hadronMeV h| ≤ hadronMeV h / 10000) ∧
    (∀ l : Lepton, |1000 * (l.mass : ℝ) - leptonMeV l| ≤ leptonMeV l / 10000) := by
  refine ⟨fun t => by cases t <;> rfl, fun h => by cases h <;> rfl, fun l => by cases l <;> rfl,
    ?_, ?_, ?_⟩
  · intro t; cases t <;> simp only [Nucleus.mass, CMath.ofReal, nucleusMeV] <;> rw [abs_le] <;>
      norm_num
  · intro t; cases t <;> simp only [Hadron.mass, CMath.ofReal, hadronMeV] <;> rw [abs_le] <;>
      norm_num
  · intro t; cases t <;> simp only [Lepton.mass, CMath.ofReal, leptonMeV] <;> rw [abs_le] <;>
      norm_num

/-- A proton target, an electron beam and a positive pion with threshold 1.07 are accepted; a
threshold of 0.9 is not. -/
example : (∃ ps, Particles.make .p .e .piP (1.07 : ℝ) = some ps) ∧
    (Particles.make .p .e .piP (.fin 0.9 : Fl)).isSome = false := by
  constructor
  · refine ⟨⟨.p, .e, .piP, Nucleus.p.mass, Lepton.e.mass, Hadron.piP.mass, 1.07⟩, ?_⟩
    rw [Particles.make, if_neg]
    simp only [Nucleus.mass, Hadron.mass, CMath.ofReal]
    norm_num
  · rw [← Bool.not_eq_true, c15_particles]
    rintro ⟨r, hr, h, -⟩
    simp [Nucleus.mass, CMath.ofReal] at hr h
    subst hr
    norm_num at h

/-! ## C16: the cached quantities are the invariants of physical momenta -/

/-- A realistic point: electron beam on a proton, producing a positive pion. -/
noncomputable def samplePs : Particles ℝ :=
  ⟨.p, .e, .piP, Nucleus.p.mass, Lepton.e.mass, Hadron.piP.mass, 1.07⟩
@[inherit_doc samplePs] noncomputable def samplePt : PhaseSpace ℝ :=
  ⟨0.3, 0.6, 0.5, 0.1, 0.7, 1.1⟩

/-- The sample point is accepted by the constructor and is physical. -/
theorem sample_physical : Particles.make .p .e .piP (1.07 : ℝ) = some samplePs ∧
    Physical samplePs 20 samplePt := by
  constructor
  · rw [Particles.make, if_neg]
    · rfl
    · simp only [Nucleus.mass, Hadron.mass, CMath.ofReal]
      norm_num
  · constructor <;> norm_num [samplePs, samplePt, Nucleus.mass, Lepton.mass, Hadron.mass,
      CMath.ofReal]

section
variable {ps : Particles ℝ} {S : ℝ} {pt : PhaseSpace ℝ}

/-- C16: the particle data and phase-space variables are stored unchanged. -/
theorem c16_inputs (ps : Particles ℝ) (S : ℝ) (pt : PhaseSpace ℝ) :
    let k := Kinematics.make ps S pt
    k.target = ps.target ∧ k.beam = ps.beam ∧ k.hadron = ps.hadron ∧ k.M = ps.M ∧ k.m = ps.m ∧
    k.mh = ps.mh ∧ k.Mth = ps.Mth ∧ k.S = S ∧ k.x = pt.x ∧ k.y = pt.y ∧ k.z = pt.z ∧
    k.ph_t_sq = pt.ph_t_sq ∧ k.phi_h = pt.phi_h ∧ k.phi = pt.phi :=
  ⟨rfl, rfl, rfl, rfl, rfl, rfl, rfl, rfl, rfl, rfl, rfl, rfl, rfl, rfl⟩

/-- C16: momentum is conserved at the lepton vertex. -/
theorem c16_conservation (h : Physical ps S pt) :
    let k := Kinematics.make ps S pt
    momQ k = momK1 k - momK2 k := by
  intro k
  have hk : KinRel k := kinRel_of_physical h
  rw [hk.momK2_eq]
  ext <;> simp

/-- C16: all momenta are on their mass shells and the virtual photon has virtuality `-Q_sq`. -/
theorem c16_on_shell (h : Physical ps S pt) :
    let k := Kinematics.make ps S pt
    msq (momP k) = ps.M ^ 2 ∧ msq (momK1 k) = ps.m ^ 2 ∧ msq (momK2 k) = ps.m ^ 2 ∧
    msq (momH k) = ps.mh ^ 2 ∧ msq (momQ k) = -k.Q_sq := by
  intro k
  have hk : KinRel k := kinRel_of_physical h
  have hM := hk.M_pos.ne'
  have hS := hk.lS_pos.ne'
  have eS := hk.lS_sq
  have e1 := hk.l1_sq
  rw [hk.lS_eq] at eS
  rw [hk.l1_eq, hk.lY_eq, hk.X_eq] at e1
  have hsc := Real.sin_sq_add_cos_sq k.phi
  have hsh := Real.sin_sq_add_cos_sq k.phi_h
  refine ⟨?_, ?_, ?_, ?_, ?_⟩
  · change msq (momP k) = k.M ^ 2
    simp [msq, mink, momP]; ring
  · change msq (momK1 k) = k.m ^ 2
    simp only [msq, mink, momK1, hk.k1_len]
    field_simp
    linear_combination -eS
  · change msq (momK2 k) = k.m ^ 2
    have : msq (momK2 k) = k.k2_0 ^ 2 - k.k2_t ^ 2 - k.k2_l ^ 2 := by
      simp only [msq, mink, momK2]
      linear_combination (-k.k2_t ^ 2) * hsc
    rw [this, hk.k2_0_eq, hk.k2_t_eq, hk.k2_l_eq, hk.X_eq]
    field_simp
    linear_combination ((k.S - k.S_x) ^ 2 - 4 * k.M ^ 2 * k.m ^ 2) * eS - 4 * k.M ^ 2 * e1
  · change msq (momH k) = k.mh ^ 2
    rw [msq, hk.momH_eq, hk.mink_lep, hk.cos_h, hk.sin_h]
    simp only [mink]
    linear_combination (-k.ph_t ^ 2) * hsh - hk.ph_l_sq
  · have : msq (momQ k) = k.q_0 ^ 2 - (k.lambda_Y_sqrt / (2 * k.M)) ^ 2 := by
      rw [msq, hk.momQ_eq, hk.mink_lep]; simp only [mink]; ring
    have eY := hk.lY_sq
    rw [hk.lY_eq] at eY
    rw [this, hk.q_0_eq]
    field_simp
    linear_combination -eY

/-- C16: energies and momenta are physical: every energy is positive for non-zero masses. -/
theorem c16_energies (h : Physical ps S pt) :
    let k := Kinematics.make ps S pt
    0 < (momP k).t ∧ 0 < (momK1 k).t ∧ 0 < (momQ k).t ∧ 0 < (momH k).t ∧ 0 < (momK1 k).z ∧
    0 ≤ k.ph_t ∧ 0 ≤ k.ph_l ∧ 0 ≤ k.q_t := by
  intro k
  have hk : KinRel k := kinRel_of_physical h
  have hM := hk.M_pos
  have hS := hk.S_pos
  have hx := hk.Sx_pos
  have hz := hk.z_pos
  have hl := hk.lS_pos
  have h1 := hk.l1_nonneg
  refine ⟨hM, ?_, ?_, ?_, ?_, hk.ph_t_nonneg, hk.ph_l_nonneg, ?_⟩
  · simp only [momK1]; positivity
  · simp only [momQ, hk.q_0_eq]; positivity
  · simp only [momH, momLepton, Vec4.ofVec3, hk.ph_0_eq]; positivity
  · simp only [momK1, hk.k1_len]; positivity
  · rw [hk.q_t_eq]; positivity

/-- C16: the cached invariants. -/
theorem c16_invariants (h : Physical ps S pt) :
    let k := Kinematics.make ps S pt
    let p := momP k
    let k1 := momK1 k
    let k2 := momK2 k
    let q := momQ k
    let ph := momH k
    2 * mink p k1 = k.S ∧ 2 * mink p q = k.S_x ∧ 2 * mink p k2 = k.X ∧
    2 * mink p (k1 + k2) = k.S_p ∧ 2 * mink k1 ph = k.V_1 ∧ 2 * mink k2 ph = k.V_2 ∧
    mink q ph = k.V_m ∧ mink (k1 + k2) ph = k.V_p ∧
    msq (q - ph) = k.t ∧ msq (p + q) = k.W_sq ∧ msq (p + q - ph) = k.mx_sq ∧
    k.Q = √(-msq q) ∧ k.mx = √(msq (p + q - ph)) := by
  intro k p k1 k2 q ph
  have hk : KinRel k := kinRel_of_physical h
  have hM := hk.M_pos.ne'
  obtain ⟨o1, -, -, o4, o5⟩ := c16_on_shell h
  have ec := hk.momK2_eq
  have bil : ∀ a b c : Vec4, mink (a - b) c = mink a c - mink b c := by
    intro a b c; simp [mink]; ring
  have bil' : ∀ a b c : Vec4, mink c (a - b) = mink c a - mink c b := by
    intro a b c; simp [mink]; ring
  have add : ∀ a b c : Vec4, mink (a + b) c = mink a c + mink b c := by
    intro a b c; simp [mink]; ring
  have add' : ∀ a b c : Vec4, mink c (a + b) = mink c a + mink c b := by
    intro a b c; simp [mink]; ring
  have comm : ∀ a b : Vec4, mink a b = mink b a := by
    intro a b; simp [mink]; ring
  have i1 : 2 * mink p k1 = k.S := by
    simp only [p, k1, mink, momP, momK1]; field_simp; ring
  have i2 : 2 * mink p q = k.S_x := by
    simp only [p, q, mink, momP, momQ, hk.q_0_eq]; field_simp; ring
  have i3 : 2 * mink p k2 = k.X := by
    simp only [k2, ec]; rw [bil', mul_sub, i1, i2, hk.X_eq]
  have i4 : 2 * mink k1 ph = k.V_1 := by
    simp only [k1, ph]
    rw [hk.momK1_eq, hk.momH_eq, hk.mink_lep, hk.V_1']
    simp only [mink]; ring
  have i5 : mink q ph = k.V_m := by
    simp only [q, ph]
    rw [hk.momQ_eq, hk.momH_eq, hk.mink_lep, hk.V_m_eq]
    simp only [mink]; ring
  have i6 : 2 * mink k2 ph = k.V_2 := by
    simp only [k2, ec]; rw [bil, mul_sub, i4, i5, hk.V_2']
  have i7 : mink p ph = k.M * k.ph_0 := by
    simp only [p, ph]
    rw [hk.momP_eq, hk.momH_eq, hk.mink_lep]
    simp only [mink]; ring
  have i8 : msq (q - ph) = k.t := by
    rw [msq, bil, bil', bil', comm ph q, i5, hk.t_eq]
    have a : mink q q = -k.Q_sq := o5
    have b : mink ph ph = k.mh ^ 2 := o4
    rw [a, b]; ring
  have i9 : msq (p + q) = k.W_sq := by
    rw [msq, add, add', add', comm q p, hk.W_eq]
    have a : mink q q = -k.Q_sq := o5
    have b : mink p p = k.M ^ 2 := o1
    rw [a, b]; linear_combination i2
  have i10 : msq (p + q - ph) = k.mx_sq := by
    have e : msq (p + q - ph) = msq p + msq (q - ph) + (2 * mink p q - 2 * mink p ph) := by
      simp only [msq, mink, Vec4.sub_t, Vec4.sub_x, Vec4.sub_y, Vec4.sub_z, Vec4.add_t, Vec4.add_x,
        Vec4.add_y, Vec4.add_z]
      ring
    have b : msq p = k.M ^ 2 := o1
    rw [e, i8, i2, i7, b, hk.mx_eq, hk.ph_0_eq]
    field_simp
  refine ⟨i1, i2, i3, ?_, i4, i6, i5, ?_, i8, i9, i10, ?_, ?_⟩
  · rw [add', mul_add, i1, i3, hk.Sp_eq, hk.X_eq]; ring
  · rw [add, hk.V_p_eq]; linear_combination (1 / 2) * i4 + (1 / 2) * i6
  · rw [show msq q = -k.Q_sq from o5, neg_neg]; rfl
  · rw [i10]; rfl

/-- C16: the phase-space variables are the usual ratios of invariants. -/
theorem c16_phase_space (h : Physical ps S pt) :
    let k := Kinematics.make ps S pt
    let p := momP k
    let q := momQ k
    let ph := momH k
    k.x = -msq q / (2 * mink p q) ∧ k.y = mink p q / mink p (momK1 k) ∧
    k.z = mink p ph / mink p q ∧
    k.ph_t_sq = eucl ph.r ph.r - eucl ph.r q.r ^ 2 / eucl q.r q.r := by
  intro k p q ph
  have hk : KinRel k := kinRel_of_physical h
  have hM := hk.M_pos.ne'
  have hSx := hk.Sx_pos.ne'
  have hS := hk.S_pos.ne'
  have hn := hk.qn_pos.ne'
  obtain ⟨i1, i2, -⟩ := c16_invariants h
  obtain ⟨-, -, -, o4, o5⟩ := c16_on_shell h
  have e1 : mink p q = k.S_x / 2 := by linear_combination (1 / 2) * i2
  have e2 : mink p (momK1 k) = k.S / 2 := by linear_combination (1 / 2) * i1
  have e3 : mink p ph = k.M * k.ph_0 := by
    simp only [p, ph]
    rw [hk.momP_eq, hk.momH_eq, hk.mink_lep]
    simp only [mink]; ring
  have eph : ∀ a b : Vec4, eucl a.r b.r = a.t * b.t - mink a b := by
    intro a b; simp [eucl, mink, Vec4.r]
  refine ⟨?_, ?_, ?_, ?_⟩
  · rw [show msq q = -k.Q_sq from o5, e1, hk.x_eq]; field_simp
  · rw [e1, e2, hk.y_eq]; field_simp
  · rw [e1, e3, hk.ph_0_eq]; field_simp
  · have hsh := Real.sin_sq_add_cos_sq k.phi_h
    have q0 : q.t = k.q_0 := rfl
    have h0 : ph.t = k.ph_0 := rfl
    rw [eph, eph, eph, q0, h0]
    simp only [ph, q]
    rw [hk.momH_eq, hk.momQ_eq, hk.mink_lep, hk.mink_lep, hk.mink_lep, hk.cos_h, hk.sin_h,
      ← hk.ph_t_sqr]
    simp only [mink]
    generalize k.lambda_Y_sqrt / (2 * k.M) = n at *
    field_simp
    linear_combination (-k.ph_t ^ 2 * n ^ 2) * hsh

/-- C16: the cached Källén functions: momenta in the target rest frame, and the angle between
the beam and the virtual photon. -/
theorem c16_lambda (h : Physical ps S pt) :
    let k := Kinematics.make ps S pt
    let q := momQ k
    let ph := momH k
    k.lambda_S = 4 * ps.M ^ 2 * eucl (momK1 k).r (momK1 k).r ∧
    k.lambda_X = 4 * ps.M ^ 2 * eucl (momK2 k).r (momK2 k).r ∧
    k.lambda_Y = 4 * ps.M ^ 2 * eucl q.r q.r ∧
    k.lambda_1 = 4 * ps.M ^ 2 * (eucl q.r q.r * eucl (momK1 k).r (momK1 k).r -
      eucl q.r (momK1 k).r ^ 2) ∧
    k.lambda_2 = mink q ph ^ 2 - msq q * msq ph ∧
    k.lambda_3 = mink q ph - k.z * msq q ∧
    k.lambda_S_sqrt = √k.lambda_S ∧ k.lambda_X_sqrt = √k.lambda_X ∧
    k.lambda_Y_sqrt = √k.lambda_Y ∧ k.lambda_1_sqrt = √k.lambda_1 ∧
    k.lambda_2_sqrt = √k.lambda_2 ∧ k.lambda_3_sqrt = √k.lambda_3 := by
  intro k q ph
  have hk : KinRel k := kinRel_of_physical h
  have hM := hk.M_pos.ne'
  have hS := hk.lS_pos.ne'
  have hY := hk.lY_pos.ne'
  obtain ⟨-, o2, o3, o4, o5⟩ := c16_on_shell h
  obtain ⟨-, -, -, -, -, -, i5, -⟩ := c16_invariants h
  have eph : ∀ a b : Vec4, eucl a.r b.r = a.t * b.t - mink a b := by
    intro a b; simp [eucl, mink, Vec4.r]
  have hMk : ps.M = k.M := rfl
  have hmk : ps.m = k.m := rfl
  refine ⟨?_, ?_, ?_, ?_, ?_, ?_, rfl, rfl, rfl, rfl, rfl, rfl⟩
  · rw [eph, show mink (momK1 k) (momK1 k) = k.m ^ 2 from o2, hk.lS_eq, hMk]
    simp only [momK1]; field_simp; ring
  · rw [eph, show mink (momK2 k) (momK2 k) = k.m ^ 2 from o3, hk.lX_eq, hMk]
    simp only [momK2, hk.k2_0_eq]; field_simp; ring
  · rw [eph, show mink q q = -k.Q_sq from o5, hk.lY_eq, hMk]
    simp only [q, momQ, hk.q_0_eq]; field_simp; ring
  · have e : mink q (momK1 k) = k.q_0 * (k.S / (2 * k.M)) -
        k.lambda_Y_sqrt / (2 * k.M) * k1l k := by
      simp only [q]
      rw [hk.momQ_eq, hk.momK1_eq, hk.mink_lep]; simp only [mink]; ring
    rw [eph, eph, eph, show mink q q = -k.Q_sq from o5,
      show mink (momK1 k) (momK1 k) = k.m ^ 2 from o2, e, hk.l1_eq, hk.lY_eq, hk.X_eq, hMk]
    simp only [q, momQ, momK1, hk.q_0_eq, k1l]
    field_simp
    ring
  · rw [i5, show msq q = -k.Q_sq from o5, show msq ph = k.mh ^ 2 from o4]
    change k.V_m * k.V_m + k.mh * k.mh * k.Q_sq = _
    ring
  · rw [i5, show msq q = -k.Q_sq from o5]
    change k.V_m + k.z * k.Q_sq = _
    ring

/-- C16: the lepton frame used for `phi_h` is the one of the Trento convention: a right-handed
orthonormal basis with the z axis along `q` and the y axis along `q × k1`. -/
theorem c16_axes (h : Physical ps S pt) :
    let k := Kinematics.make ps S pt
    eucl (axisX k) (axisX k) = 1 ∧ eucl (axisY k) (axisY k) = 1 ∧ eucl (axisZ k) (axisZ k) = 1 ∧
    eucl (axisX k) (axisY k) = 0 ∧ eucl (axisY k) (axisZ k) = 0 ∧ eucl (axisZ k) (axisX k) = 0 ∧
    (axisX k).cross (axisY k) = axisZ k ∧
    (∃ c : ℝ, 0 ≤ c ∧ (momQ k).r.cross (momK1 k).r = c • axisY k ∧ (0 < k.lambda_1 → 0 < c)) := by
  intro k
  have hk : KinRel k := kinRel_of_physical h
  have hM := hk.M_pos
  have hS := hk.lS_pos
  have h1 := hk.l1_nonneg
  have ho := hk.lep_orth
  have e := fun i j => congrFun (congrFun (congrArg mat3 ho) i) j
  rw [Transform3.mat3_mul, Transform3.mat3_transpose, Transform3.mat3_one,
    Transform3.mat3_eq] at e
  have e00 := e 0 0
  have e01 := e 0 1
  have e02 := e 0 2
  have e11 := e 1 1
  have e12 := e 1 2
  have e22 := e 2 2
  simp [Matrix.mul_apply, Fin.sum_univ_three] at e00 e01 e02 e11 e12 e22
  refine ⟨?_, ?_, ?_, ?_, ?_, ?_, ?_, ?_⟩
  · rw [hk.axisX_eq]; exact e00
  · rw [hk.axisY_eq]; exact e11
  · rw [hk.axisZ_eq]; exact e22
  · rw [hk.axisX_eq, hk.axisY_eq]; exact e01
  · rw [hk.axisY_eq, hk.axisZ_eq]; exact e12
  · rw [hk.axisX_eq, hk.axisZ_eq]; simp only [eucl]; linarith
  · have hyy : eucl (axisY k) (axisY k) = 1 := by rw [hk.axisY_eq]; exact e11
    have hyz : eucl (axisY k) (axisZ k) = 0 := by rw [hk.axisY_eq, hk.axisZ_eq]; exact e12
    unfold axisX
    generalize axisY k = a at *
    generalize axisZ k = b at *
    simp only [eucl] at hyy hyz
    ext <;> simp [Vec3.cross]
    · linear_combination b.x * hyy - a.x * hyz
    · linear_combination b.y * hyy - a.y * hyz
    · linear_combination b.z * hyy - a.z * hyz
  · refine ⟨k.q_t * (k.lambda_S_sqrt / (2 * k.M)), ?_, ?_, ?_⟩
    · rw [hk.q_t_eq]; positivity
    · simp only [momQ, momK1, hk.k1_len, Vec4.r, axisY]
      ext <;> simp [Vec3.cross] <;> ring
    · intro hl
      have : 0 < k.lambda_1_sqrt := Real.sqrt_pos.2 hl
      rw [hk.q_t_eq]; positivity

/-- C16: the structure function coefficient, in terms of momenta: `8 x M (p_h · q̂) p·(p+q) / Q⁸`. -/
theorem c16_C_1 (h : Physical ps S pt) :
    let k := Kinematics.make ps S pt
    k.C_1 = 8 * k.x * ps.M * (eucl (momH k).r (momQ k).r / length (momQ k).r) *
      mink (momP k) (momP k + momQ k) / (msq (momQ k)) ^ 4 := by
  intro k
  have hk : KinRel k := kinRel_of_physical h
  have hM := hk.M_pos.ne'
  have hY := hk.lY_pos.ne'
  obtain ⟨o1, -, -, -, o5⟩ := c16_on_shell h
  obtain ⟨-, i2, -, -, -, -, i5, -⟩ := c16_invariants h
  have eM : ps.M = k.M := rfl
  have e0 : eucl (momH k).r (momQ k).r = k.ph_l * (k.lambda_Y_sqrt / (2 * k.M)) := by
    have : eucl (momH k).r (momQ k).r = (momQ k).t * (momH k).t - mink (momQ k) (momH k) := by
      simp only [eucl, mink, Vec4.r]; ring
    have e1 : (momQ k).t = k.q_0 := rfl
    have e2 : (momH k).t = k.ph_0 := rfl
    have i5' : mink (momQ k) (momH k) = k.V_m := i5
    rw [this, e1, e2, i5', hk.V_m_eq]; ring
  have e1 : mink (momP k) (momP k + momQ k) = k.M ^ 2 + k.S_x / 2 := by
    have a : mink (momP k) (momP k) = k.M ^ 2 := o1
    have b : 2 * mink (momP k) (momQ k) = k.S_x := i2
    have c : mink (momP k) (momP k + momQ k) = mink (momP k) (momP k) + mink (momP k) (momQ k) := by
      simp [mink]; ring
    rw [c, a]; linarith
  have e2 : msq (momQ k) = -k.Q_sq := o5
  have eC : k.C_1 = 4 * k.M * k.ph_l * (k.Q_sq + 2 * k.x * (k.M * k.M)) /
    (k.Q_sq * k.Q_sq * (k.Q_sq * k.Q_sq)) := rfl
  have ex : k.x * k.S_x = k.Q_sq := by
    change pt.x * (S * pt.y) = S * pt.x * pt.y
    ring
  rw [eC, e0, hk.len_q, e1, e2, eM, ← ex]
  have := hk.Q2_pos
  field_simp
  ring

/-- C16: `vol_phi_h` is the oriented volume spanned by the momenta. -/
theorem c16_vol (h : Physical ps S pt) :
    let k := Kinematics.make ps S pt
    k.vol_phi_h = eps (momH k) (momP k) (momK1 k) (momQ k) := by
  intro k
  have hk : KinRel k := kinRel_of_physical h
  have hM := hk.M_pos.ne'
  have hY := hk.lY_pos.ne'
  rw [hk.momH_eq, hk.momP_eq, hk.momK1_eq, hk.momQ_eq, hk.eps_lep, eps_rest, hk.vol_eq, hk.k1_t_eq]
  simp only
  field_simp
  ring

end

/-- Every hypothesis of the C16 theorems is met by the sample point, where moreover the scattering
angle is not zero. -/
example : Physical samplePs 20 samplePt ∧ 0 < (Kinematics.make samplePs 20 samplePt).lambda_1 := by
  refine ⟨sample_physical.2, ?_⟩
  have h := (kinRel_of_physical sample_physical.2)
  rw [h.l1_eq, h.lY_eq, h.X_eq]
  norm_num [Kinematics.make, samplePs, samplePt, Nucleus.mass, Lepton.mass, Hadron.mass,
    CMath.ofReal]

/-! ## C65: the documentation of `V_m` and `V_p` -/

/-- C65 (refuted): the header documents `V_m = 2 q·ph` and `V_p = 2 (k1 + k2)·ph`; both are wrong
by a factor of two whenever they do not vanish. -/
theorem c65_documented_v_refuted {ps : Particles ℝ} {S : ℝ} {pt : PhaseSpace ℝ}
    (h : Physical ps S pt) :
    let k := Kinematics.make ps S pt
    (k.V_m ≠ 0 → k.V_m ≠ 2 * mink (momQ k) (momH k)) ∧
    (k.V_p ≠ 0 → k.V_p ≠ 2 * mink (momK1 k + momK2 k) (momH k)) := by
  intro k
  obtain ⟨-, -, -, -, -, -, i5, i6, -⟩ := c16_invariants h
  constructor
  · intro h0 h1
    rw [i5] at h1
    exact h0 (by linarith)
  · intro h0 h1
    rw [i6] at h1
    exact h0 (by linarith)

/-! ## C19: adding and forgetting the photon -/

/-- C19: for any number type and any contents of `kin`. -/
theorem c19_project {α : Type} [CMath α] [Add α] [Sub α] [Mul α] [Div α] [Neg α] [One α]
    [OfNat α 2] [OfNat α 4] (kin : Kinematics α) (tau phi_k R : α) :
    (KinematicsRad.make kin tau phi_k R).project = kin := rfl

/-- C19: the photon variables are stored. -/
theorem c19_photon {α : Type} [CMath α] [Add α] [Sub α] [Mul α] [Div α] [Neg α] [One α]
    [OfNat α 2] [OfNat α 4] (kin : Kinematics α) (tau phi_k R : α) :
    let k := KinematicsRad.make kin tau phi_k R
    k.tau = tau ∧ k.phi_k = phi_k ∧ k.R = R := ⟨rfl, rfl, rfl⟩

/-- C19: building from a radiative phase-space point is building from its projection and adding
the photon; so the projection of the kinematics is the kinematics of the projection. -/
theorem c19_point {α : Type} [CMath α] [Add α] [Sub α] [Mul α] [Div α] [Neg α] [One α]
    [OfNat α 2] [OfNat α 4] [LT α] [DecidableLT α] (ps : Particles α) (S : α)
    (pt : PhaseSpaceRad α) :
    (KinematicsRad.ofPoint ps S pt).project = Kinematics.make ps S pt.project := rfl

example : (KinematicsRad.make (Kinematics.make samplePs 20 samplePt) 1 2 3).project.y = 0.6 := rfl

/-! ## C20: the azimuth of the virtual photon -/

/-- C20. -/
theorem c20_phi_q (ps : Particles ℝ) (S : ℝ) (pt : PhaseSpace ℝ) :
    let k := Kinematics.make ps S pt;
    -Real.pi ≤ k.phi_q ∧ k.phi_q ≤ Real.pi ∧
    (∃ n : ℤ, k.phi_q = Real.pi - pt.phi + n * (2 * Real.pi)) ∧
    k.cos_phi_q = Real.cos k.phi_q ∧ k.sin_phi_q = Real.sin k.phi_q ∧
    k.cos_phi = Real.cos pt.phi ∧ k.sin_phi = Real.sin pt.phi ∧
    k.cos_phi_h = Real.cos pt.phi_h ∧ k.sin_phi_h = Real.sin pt.phi_h := by
  obtain ⟨h1, h2, h3⟩ := wrapPhiQ_spec pt.phi
  exact ⟨h1, h2, h3, (cos_wrapPhiQ _).symm, (sin_wrapPhiQ _).symm, rfl, rfl, rfl, rfl⟩

/-- The wrapping is exercised on both sides: far angles come back into `[-π, π]`. -/
example : wrapPhiQ (7 * Real.pi / 2) = -(Real.pi / 2) ∧
    wrapPhiQ (-(7 * Real.pi / 2)) = Real.pi / 2 := by
  have hp := Real.pi_pos
  refine ⟨?_, ?_⟩ <;> obtain ⟨h1, h2, n, hn⟩ := wrapPhiQ_spec _ <;> rw [hn] at h1 h2 ⊢
  · have a : (n : ℝ) < 2 := by nlinarith
    have b : (0 : ℝ) < n := by nlinarith
    have : n = 1 := by norm_cast at a b; omega
    subst this; push_cast; ring
  · have a : (n : ℝ) < -1 := by nlinarith
    have b : (-3 : ℝ) < n := by nlinarith
    have : n = -2 := by
      have a' : n < -1 := by exact_mod_cast a
      have b' : -3 < n := by exact_mod_cast b
      omega
    subst this; push_cast; ring

end Sidis.Props
