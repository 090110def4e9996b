import Verif.Spec.Example
import Verif.Props.TakeAll
import Verif.Lemmas.SfMask
import Mathlib.Tactic.IntervalCases

/-! # C104, C105, C106: the example programs -/

namespace Sidis.Props

open Spec VarMap Example SfMask Asym

theorem example_massive : Massive examplePs ∧ 0 < examplePs.m := by
  refine ⟨⟨?_, ?_, ?_, ?_⟩, ?_⟩ <;>
    norm_num [examplePs, Nucleus.mass, Lepton.mass, Hadron.mass, CMath.ofReal]

theorem example_particles : particles = some (finPs examplePs) := by
  unfold particles Particles.make
  rw [if_neg]
  · rfl
  · simp only [Nucleus.mass, Hadron.mass, CMath.ofReal, Fl.add_fin, Fl.le_fin]
    norm_num

section
variable {ps : Particles ℝ} {S x y z : ℝ}

theorem phTSq_finite (hM : 0 < ps.M) (hS : 0 < S) (hx : 0 ≤ x) (hy : 0 < y) {t : Fl}
    (h : (Cut.phTSqBound (finPs ps) (.fin S) (.fin x) (.fin y) (.fin z)).contains t) :
    ∃ r, t = .fin r := by
  have d1 : 2 * ps.M ≠ 0 := by positivity
  have d2 : 2 * (ps.M * ps.M) ≠ 0 := by positivity
  have hlY : 0 < S * y * (S * y) + 4 * (ps.M * ps.M) * (S * x * y) := by positivity
  simp only [Cut.phTSqBound, finPs, sq, fl_zero, fl_one, fl_two, fl_four, Fl.mul_fin, Fl.add_fin,
    Fl.sub_fin, Fl.div_fin _ d1, Fl.div_fin _ d2, Fl.div_fin _ hlY.ne', Fl.lt_fin] at h
  rw [c01_inter_contains, Bound.positive, Bound.mk'_contains, Bound.mk'_contains] at h
  obtain ⟨-, h1, h2⟩ := h
  split_ifs at h2
  all_goals
    simp only [Fl.mul_fin, Fl.sub_fin] at h2
    exact fl_between h1 h2

theorem xBound_inf (hm : Massive ps) (v : Fl) : ¬ (Cut.xBound (finPs ps) .pinf).contains v := by
  intro h
  have h2 := ((c01_inter_contains _ _ _).1 h).2
  have hD := D_pos hm
  rw [Bound.mk'_contains] at h2
  have e : (Fl.pinf * Fl.fin ((ps.Mth + ps.mh) * (ps.Mth + ps.mh) - ps.M * ps.M)) = .pinf := by
    have : 0 < (ps.Mth + ps.mh) * (ps.Mth + ps.mh) - ps.M * ps.M := by linarith
    simp [Fl.infTimes, this]
  simp only [finPs, sq, fl_two, fl_four, Fl.mul_fin, Fl.add_fin, Fl.sub_fin, e] at h2
  simp at h2

/-- The order of the checks in the program. -/
theorem checks_iff (hm : Massive ps) (hl : 0 < ps.m) (E : Fl) (pt : PhaseSpace Fl) :
    (Cut.SMin (finPs ps) ≤ .fin 2 * .fin ps.M * E ∧
      (Cut.xBound (finPs ps) (.fin 2 * .fin ps.M * E)).contains pt.x ∧
      (Cut.yBound (finPs ps) (.fin 2 * .fin ps.M * E) pt.x).contains pt.y ∧
      (Cut.zBound (finPs ps) (.fin 2 * .fin ps.M * E) pt.x pt.y).contains pt.z ∧
      (Cut.phTSqBound (finPs ps) (.fin 2 * .fin ps.M * E) pt.x pt.y pt.z).contains pt.ph_t_sq) ↔
    ∃ e x y z t : ℝ, E = .fin e ∧ pt.x = .fin x ∧ pt.y = .fin y ∧ pt.z = .fin z ∧ pt.ph_t_sq = .fin t ∧
      ∀ f g, Accepted ps (2 * ps.M * e) ⟨x, y, z, t, f, g⟩ := by
  have hM := hm.M_pos
  have hf : ∀ {e x y z t : ℝ} (f g f' g' : ℝ), Accepted ps (2 * ps.M * e) ⟨x, y, z, t, f, g⟩ →
      Accepted ps (2 * ps.M * e) ⟨x, y, z, t, f', g'⟩ := fun f g f' g' h =>
    ⟨h.S_pos, h.x_nonneg, h.x_le, h.y_pos, h.y_le, h.z_pos, h.z_le, h.ph_t_sq_nonneg, h.beam, h.lepton,
      h.hadron, h.missing, h.missing_le⟩
  obtain ⟨px, py, pz, pt', pf, pg⟩ := pt
  simp only
  constructor
  · rintro ⟨h0, h1, h2, h3, h4⟩
    have hE : ∃ e, E = .fin e := by
      have h2M : 0 < 2 * ps.M := by linarith
      cases E with
      | fin e => exact ⟨e, rfl⟩
      | nan => simp at h0
      | pinf =>
        rw [Fl.mul_fin, Fl.fin_mul_pinf, show Fl.infTimes (2 * ps.M) = .pinf by
          simp [Fl.infTimes, hM]] at h1
        exact absurd h1 (xBound_inf hm _)
      | ninf =>
        rw [Fl.mul_fin, Fl.fin_mul_ninf, show Fl.infTimes (-(2 * ps.M)) = .ninf by
          simp [Fl.infTimes, hM, hM.le]] at h0
        simp [Cut.SMin, finPs, sq, fl_two] at h0
    obtain ⟨e, rfl⟩ := hE
    rw [Fl.mul_fin, Fl.mul_fin] at h0 h1 h2 h3 h4
    have hR := SMin_le_iff.1 h0
    obtain ⟨hS, -, -⟩ := beam_of_reaches hm hR
    obtain ⟨x, rfl⟩ := fl_between (unit_sub h1).1 (unit_sub h1).2
    obtain ⟨y, rfl⟩ := fl_between (unit_sub h2).1 (unit_sub h2).2
    obtain ⟨z, rfl⟩ := fl_between (unit_sub h3).1 (unit_sub h3).2
    obtain ⟨⟨ux0, ux1⟩, xq⟩ := (xBound_iff hm hR _).1 h1
    obtain ⟨x0, x1⟩ := x_strict hm hl hR ux0 ux1 xq
    obtain ⟨⟨uy0, uy1⟩, yW, -⟩ := (yBound_iff hM hS x0 x1 _).1 h2
    have y0 : 0 < y := by
      rcases uy0.lt_or_eq with k | k
      · exact k
      · rw [← k] at yW
        have := D_pos hm
        linarith
    obtain ⟨t, rfl⟩ := phTSq_finite hM hS x0.le y0 h4
    exact ⟨e, x, y, z, t, rfl, rfl, rfl, rfl, rfl, fun f g =>
      (c103_limits hm hl h0 ⟨x, y, z, t, f, g⟩).1 ⟨h1, h2, h3, h4⟩⟩
  · rintro ⟨e, x, y, z, t, rfl, rfl, rfl, rfl, rfl, h⟩
    have ha := h 0 0
    have h0 := SMin_le_iff.2 ((c103_threshold hm hl).2.2 ⟨_, ha⟩)
    rw [Fl.mul_fin, Fl.mul_fin]
    exact ⟨h0, (c103_limits hm hl h0 _).2 ha⟩

/-- The checks on the photon. -/
theorem photon_checks_iff (hm : Massive ps) {pt : PhaseSpace ℝ} (h : Accepted ps S pt)
    (phi_h phi tau phi_k R : Fl) :
    ((Cut.tauBound (.make (finPs ps) (.fin S) { finPt pt with phi_h := phi_h, phi := phi })).contains tau ∧
      (Cut.RBound (.make (finPs ps) (.fin S) { finPt pt with phi_h := phi_h, phi := phi }) tau
        phi_k).contains R) ↔
    ∃ f a b c : ℝ, phi_h = .fin f ∧ tau = .fin a ∧ phi_k = .fin b ∧ R = .fin c ∧
      ∀ g, AcceptedRad ps S { pt with phi_h := f, phi := g } a b c := by
  have hM := hm.M_pos
  have acc : ∀ f g, Accepted ps S { pt with phi_h := f, phi := g } := fun f g =>
    ⟨h.S_pos, h.x_nonneg, h.x_le, h.y_pos, h.y_le, h.z_pos, h.z_le, h.ph_t_sq_nonneg, h.beam, h.lepton,
      h.hadron, h.missing, h.missing_le⟩
  obtain ⟨-, -, -, -, Y2, Y0, -⟩ :=
    real_hadron hM h.S_pos h.x_nonneg h.y_pos h.z_pos h.hadron
  have et : Cut.tauBound (.make (finPs ps) (.fin S) { finPt pt with phi_h := phi_h, phi := phi }) =
      Cut.tauBound (.make (finPs ps) (.fin S) (finPt pt)) := rfl
  have eR : ∀ f, Cut.RBound (.make (finPs ps) (.fin S) { finPt pt with phi_h := .fin f, phi := phi }) =
      Cut.RBound (.make (finPs ps) (.fin S) (finPt { pt with phi_h := f, phi := 0 })) := fun _ => rfl
  rw [et, tauBound_fin hm h]
  constructor
  · rintro ⟨h1, h2⟩
    obtain ⟨a, rfl⟩ := fl_between h1.1 h1.2
    have ht := (tau_range _ hM Y0 Y2 a).1 h1
    have hfin : ∃ f b : ℝ, phi_h = .fin f ∧ phi_k = .fin b := by
      by_contra hc
      push Not at hc
      have hcos : CMath.cos (phi_h - phi_k) = Fl.nan := by
        cases phi_h <;> cases phi_k <;> first | rfl | exact absurd rfl (hc _ _ rfl)
      have hmu : ∀ m M, Cut.muOf (.make (finPs ps) (.fin S) { finPt pt with phi_h := phi_h, phi := phi })
          (.fin a) phi_k m M = .nan := by
        intro m M
        have : (Kinematics.make (finPs ps) (.fin S) { finPt pt with phi_h := phi_h, phi := phi }).phi_h =
          phi_h := rfl
        simp only [Cut.muOf, this, hcos]
        simp
      simp only [Cut.RBound, hmu] at h2
      simp [Bound.mk', Bound.invalid, Bound.contains] at h2
    obtain ⟨f, b, rfl, rfl⟩ := hfin
    rw [eR, RBound_fin hm (acc f 0) b 0 ht] at h2
    obtain ⟨c, rfl⟩ := fl_between h2.1 h2.2
    refine ⟨f, a, b, c, rfl, rfl, rfl, rfl, fun g => ⟨acc f g, ht, h2.1, ?_⟩⟩
    exact (R_le_iff hm (acc f g) (phi_k := b) (R := c) ht).1 h2.2
  · rintro ⟨f, a, b, c, rfl, rfl, rfl, rfl, hr⟩
    have hr := hr 0
    refine ⟨(tau_range _ hM Y0 Y2 a).2 hr.photon, ?_⟩
    rw [eR, RBound_fin hm (acc f 0) b c hr.photon]
    exact ⟨hr.R_nonneg, (R_le_iff hm (acc f 0) hr.photon).2 hr.missing⟩

end

section
variable {A : Type} (std : Std) (prokudin : SfSet A) (F : Funs A)

/-- C104: the program prints the cross-sections exactly when the arguments can be read and the point is
in the phase space, and then the right ones; it ends with the usage exactly when the arguments cannot be
read, and in all other cases by an exception that is not caught. -/
theorem c104_cross_section (args : List (List Char)) :
    (parse std prokudin args = none → crossSection std prokudin F args = .usage) ∧
    ∀ i, parse std prokudin args = some i →
      (Allowed i.beam_energy i.ph_space i.photon → crossSection std prokudin F args = .done (expected F i)) ∧
      (¬ Allowed i.beam_energy i.ph_space i.photon → crossSection std prokudin F args = .abort) := by
  classical
  obtain ⟨hm, hl⟩ := example_massive
  refine ⟨fun h => by simp [crossSection, h], fun i hi => ?_⟩
  have key := checks_iff hm hl i.beam_energy i.ph_space
  unfold crossSection
  simp only [hi, example_particles]
  have eM : (finPs examplePs).M = .fin examplePs.M := rfl
  rw [eM]
  by_cases hall : ∃ e x y z t : ℝ, i.beam_energy = .fin e ∧ i.ph_space.x = .fin x ∧
      i.ph_space.y = .fin y ∧ i.ph_space.z = .fin z ∧ i.ph_space.ph_t_sq = .fin t ∧
      ∀ f g, Accepted examplePs (2 * examplePs.M * e) ⟨x, y, z, t, f, g⟩
  · obtain ⟨c0, c1, c2, c3, c4⟩ := key.2 hall
    simp only [c0, c1, c2, c3, c4, not_true, if_false]
    obtain ⟨e, x, y, z, t, he, hx, hy, hz, ht, hacc⟩ := hall
    cases hph : i.photon with
    | soft k0 =>
      refine ⟨fun _ => ?_, fun hn => absurd ⟨e, x, y, z, t, he, hx, hy, hz, ht, hacc⟩ hn⟩
      simp [expected, hph, printNrad, exampleKin]
    | hard tau phi_k R =>
      have hk : Kinematics.make (finPs examplePs) (.fin 2 * .fin examplePs.M * i.beam_energy) i.ph_space =
          .make (finPs examplePs) (.fin (2 * examplePs.M * e))
            { finPt ⟨x, y, z, t, 0, 0⟩ with phi_h := i.ph_space.phi_h, phi := i.ph_space.phi } := by
        rw [he, Fl.mul_fin, Fl.mul_fin]
        congr 1
        revert hx hy hz ht
        rcases i.ph_space with ⟨a, b, c, d, f, g⟩
        rintro rfl rfl rfl rfl
        rfl
      have k2 := photon_checks_iff hm (hacc 0 0) i.ph_space.phi_h i.ph_space.phi tau phi_k R
      rw [← hk] at k2
      have hiff : Allowed i.beam_energy i.ph_space (.hard tau phi_k R) ↔
          ∃ f a b c : ℝ, i.ph_space.phi_h = .fin f ∧ tau = .fin a ∧ phi_k = .fin b ∧ R = .fin c ∧
            ∀ g, AcceptedRad examplePs (2 * examplePs.M * e) ⟨x, y, z, t, f, g⟩ a b c := by
        constructor
        · rintro ⟨e', x', y', z', t', f, a, b, c, q1, q2, q3, q4, q5, q6, q7, q8, q9, q⟩
          rw [he] at q1; rw [hx] at q2; rw [hy] at q3; rw [hz] at q4; rw [ht] at q5
          simp only [Fl.fin.injEq] at q1 q2 q3 q4 q5
          subst q1 q2 q3 q4 q5
          exact ⟨f, a, b, c, q6, q7, q8, q9, q⟩
        · rintro ⟨f, a, b, c, q6, q7, q8, q9, q⟩
          exact ⟨e, x, y, z, t, f, a, b, c, he, hx, hy, hz, ht, q6, q7, q8, q9, q⟩
      rw [hiff]
      refine ⟨fun hy => ?_, fun hn => ?_⟩
      · obtain ⟨d1, d2⟩ := k2.2 hy
        simp only
        rw [if_neg (not_not.2 d1), if_neg (not_not.2 d2)]
        simp only [expected, hph, exampleKin]
      · have := mt k2.1 hn
        simp only
        by_cases d1 : (Cut.tauBound (Kinematics.make (finPs examplePs)
            (.fin 2 * .fin examplePs.M * i.beam_energy) i.ph_space)).contains tau
        · rw [if_neg (not_not.2 d1), if_pos fun d2 => this ⟨d1, d2⟩]
        · rw [if_pos d1]
  · have hnall : ¬ Allowed i.beam_energy i.ph_space i.photon := by
      intro h
      apply hall
      cases hph : i.photon with
      | soft k0 => rw [hph] at h; exact h
      | hard tau phi_k R =>
        rw [hph] at h
        obtain ⟨e, x, y, z, t, f, a, b, c, q1, q2, q3, q4, q5, -, -, -, -, q⟩ := h
        refine ⟨e, x, y, z, t, q1, q2, q3, q4, q5, fun f' g => ?_⟩
        have h := (q 0).acc
        exact ⟨h.S_pos, h.x_nonneg, h.x_le, h.y_pos, h.y_le, h.z_pos, h.z_le, h.ph_t_sq_nonneg, h.beam,
          h.lepton, h.hadron, h.missing, h.missing_le⟩
    refine ⟨fun h => absurd h hnall, fun _ => ?_⟩
    have := mt key.1 hall
    by_cases c0 : Cut.SMin (finPs examplePs) ≤ .fin 2 * .fin examplePs.M * i.beam_energy
    · by_cases c1 : (Cut.xBound (finPs examplePs) (.fin 2 * .fin examplePs.M * i.beam_energy)).contains
        i.ph_space.x
      · by_cases c2 : (Cut.yBound (finPs examplePs) (.fin 2 * .fin examplePs.M * i.beam_energy)
          i.ph_space.x).contains i.ph_space.y
        · by_cases c3 : (Cut.zBound (finPs examplePs) (.fin 2 * .fin examplePs.M * i.beam_energy)
            i.ph_space.x i.ph_space.y).contains i.ph_space.z
          · have c4 : ¬ (Cut.phTSqBound (finPs examplePs) (.fin 2 * .fin examplePs.M * i.beam_energy)
              i.ph_space.x i.ph_space.y i.ph_space.z).contains i.ph_space.ph_t_sq :=
              fun c4 => this ⟨c0, c1, c2, c3, c4⟩
            simp only [c0, c1, c2, c3, c4, not_true, not_false_eq_true, if_false, if_true]
          · simp only [c0, c1, c2, c3, not_true, not_false_eq_true, if_false, if_true]
        · simp only [c0, c1, c2, not_true, not_false_eq_true, if_false, if_true]
      · simp only [c0, c1, not_true, not_false_eq_true, if_false, if_true]
    · simp only [c0, not_false_eq_true, if_true]

theorem sf_ext {a b : SfSet A} (h : ∀ (n : SfName) (v : A), n.of a v = n.of b v) : a = b := by
  obtain ⟨a0, a1, a2, a3, a4, a5, a6, a7, a8, a9, a10, a11, a12, a13, a14, a15, a16, a17⟩ := a
  obtain ⟨b0, b1, b2, b3, b4, b5, b6, b7, b8, b9, b10, b11, b12, b13, b14, b15, b16, b17⟩ := b
  have e : ∀ n : SfName, n.of _ = n.of _ := fun n => funext (h n)
  have h0 := e .UUL
  have h1 := e .UUT
  have h2 := e .UU_cos_phih
  have h3 := e .UU_cos_2phih
  have h4 := e .UL_sin_phih
  have h5 := e .UL_sin_2phih
  have h6 := e .UTL_sin_phih_m_phis
  have h7 := e .UTT_sin_phih_m_phis
  have h8 := e .UT_sin_2phih_m_phis
  have h9 := e .UT_sin_3phih_m_phis
  have h10 := e .UT_sin_phis
  have h11 := e .UT_sin_phih_p_phis
  have h12 := e .LU_sin_phih
  have h13 := e .LL
  have h14 := e .LL_cos_phih
  have h15 := e .LT_cos_phih_m_phis
  have h16 := e .LT_cos_2phih_m_phis
  have h17 := e .LT_cos_phis
  simp only [SfName.of] at h0 h1 h2 h3 h4 h5 h6 h7 h8 h9 h10 h11 h12 h13 h14 h15 h16 h17
  subst_vars
  rfl

/-- The chosen set has one function different from zero. -/
theorem choose_name (name : SfName) : ∃ sf, chooseSf prokudin (-(name.number + 1 : ℤ)) = some sf ∧
    ∀ (m : SfName) (a : A), m.of sf a = if m = name then .fin 1 else .fin 0 := by
  refine ⟨maskSfSet ((List.replicate numSf false).set name.number true) testSfSet, ?_, fun m a => ?_⟩
  · have hn : name.number < 18 := by cases name <;> decide
    unfold chooseSf
    rw [if_neg (by omega), if_pos (by simp only [numSf]; omega)]
    have : (-(-(name.number + 1 : ℤ)) - 1).toNat = name.number := by omega
    rw [this]
  · rw [Lemmas.SfMask.of_maskSfSet]
    have ht : m.of (testSfSet (A := A)) a = .fin 1 := by cases m <;> rfl
    rw [ht]
    cases name <;> cases m <;> rfl

theorem choose_iff (n : ℤ) (sf : SfSet A) : chooseSf prokudin n = some sf ↔ AsksFor prokudin n sf := by
  constructor
  · intro h
    by_cases h0 : n = 0
    · subst h0
      simp only [chooseSf, if_true, Option.some.injEq] at h
      exact .inl ⟨rfl, h.symm⟩
    · by_cases h1 : n ≤ -1 ∧ -(numSf : ℤ) ≤ n
      · have hn : ∃ name : SfName, n = -(name.number + 1 : ℤ) := by
          obtain ⟨k, hk⟩ : ∃ k : ℕ, n = -(k + 1 : ℤ) := ⟨(-n - 1).toNat, by omega⟩
          have hk18 : k < 18 := by have := h1.2; simp only [numSf] at this; omega
          have : ∃ name : SfName, name.number = k := by
            interval_cases k
            exacts [⟨.UUL, rfl⟩, ⟨.UUT, rfl⟩, ⟨.UU_cos_phih, rfl⟩, ⟨.UU_cos_2phih, rfl⟩, ⟨.UL_sin_phih, rfl⟩,
              ⟨.UL_sin_2phih, rfl⟩, ⟨.UTL_sin_phih_m_phis, rfl⟩, ⟨.UTT_sin_phih_m_phis, rfl⟩,
              ⟨.UT_sin_2phih_m_phis, rfl⟩, ⟨.UT_sin_3phih_m_phis, rfl⟩, ⟨.UT_sin_phis, rfl⟩,
              ⟨.UT_sin_phih_p_phis, rfl⟩, ⟨.LU_sin_phih, rfl⟩, ⟨.LL, rfl⟩, ⟨.LL_cos_phih, rfl⟩,
              ⟨.LT_cos_phih_m_phis, rfl⟩, ⟨.LT_cos_2phih_m_phis, rfl⟩, ⟨.LT_cos_phis, rfl⟩]
          obtain ⟨name, rfl⟩ := this
          exact ⟨name, hk⟩
        obtain ⟨name, rfl⟩ := hn
        obtain ⟨sf', e, hs⟩ := choose_name prokudin name
        rw [e, Option.some.injEq] at h
        subst h
        exact .inr ⟨name, rfl, hs⟩
      · rw [chooseSf, if_neg h0, if_neg h1] at h
        exact absurd h (by simp)
  · rintro (⟨rfl, rfl⟩ | ⟨name, rfl, hs⟩)
    · rfl
    · obtain ⟨sf', e, hs'⟩ := choose_name prokudin name
      rw [e, Option.some.injEq]
      exact sf_ext fun m a => by rw [hs, hs']

/-- C104: the arguments are read as the message on the usage says, and nothing else is accepted. -/
theorem c104_arguments (args : List (List Char)) (i : Input A) :
    parse std prokudin args = some i ↔ Means std prokudin args i := by
  have hb : ∀ s v, beamPol s = some v ↔ (s = ['U'] ∧ v = .fin 0 ∨ s = ['L'] ∧ v = .fin 1) := by
    intro s v
    have e1 : "U".toList = ['U'] := rfl
    have e2 : "L".toList = ['L'] := rfl
    unfold beamPol
    rw [e1, e2]
    by_cases h1 : s = ['U']
    · subst h1; simp [eq_comm]
    · by_cases h2 : s = ['L']
      · subst h2; simp [eq_comm]
      · simp [h1, h2]
  have ht : ∀ s v, targetPol s = some v ↔ (s = ['U'] ∧ v = ⟨.fin 0, .fin 0, .fin 0⟩ ∨
      s = ['L'] ∧ v = ⟨.fin 0, .fin 0, .fin 1⟩ ∨ s = ['T'] ∧ v = ⟨.fin 0, .fin 1, .fin 0⟩) := by
    intro s v
    have e1 : "U".toList = ['U'] := rfl
    have e2 : "L".toList = ['L'] := rfl
    have e3 : "T".toList = ['T'] := rfl
    unfold targetPol
    rw [e1, e2, e3]
    by_cases h1 : s = ['U']
    · subst h1; simp [eq_comm]
    · by_cases h2 : s = ['L']
      · subst h2; simp [eq_comm]
      · by_cases h3 : s = ['T']
        · subst h3; simp [eq_comm]
        · simp [h1, h2, h3]
  have hp : ∀ rest ph, parsePhoton std rest = some ph ↔ (match ph with
      | .soft k0 => ∃ c, rest = [c] ∧ std.stold c = some k0
      | .hard tau phi_k R => ∃ c d e, rest = [c, d, e] ∧ std.stold c = some tau ∧
          std.stold d = some phi_k ∧ std.stold e = some R) := by
    intro rest ph
    unfold parsePhoton
    split
    · cases ph <;> simp [Option.bind_eq_some_iff]
    · cases ph <;> simp [Option.bind_eq_some_iff]
    · rename_i h1 h2
      simp only [reduceCtorEq, false_iff]
      cases ph
      · rintro ⟨c, rfl, -⟩; exact h1 _ rfl
      · rintro ⟨c, d, e, rfl, -⟩; exact h2 _ _ _ rfl
  constructor
  · intro h
    unfold parse at h
    split at h
    · simp only [Option.bind_eq_bind, Option.bind_eq_some_iff, Option.pure_def, Option.some.injEq] at h
      obtain ⟨n, h1, E, h2, x, h3, y, h4, z, h5, p, h6, f, h7, g, h8, ph, h9, sf, h10, b, h11, t, h12, rfl⟩ := h
      exact ⟨_, _, _, _, _, _, _, _, _, _, _, rfl, ⟨n, h1, (choose_iff _ _ _).1 h10⟩, h2, (hb _ _).1 h11,
        (ht _ _).1 h12, h3, h4, h5, h6, h7, h8, (hp _ _).1 h9⟩
    · exact absurd h (by simp)
  · rintro ⟨k, E, b, t, x, y, z, p, f, g, rest, rfl, ⟨n, h1, h10⟩, h2, h11, h12, h3, h4, h5, h6, h7, h8, h9⟩
    simp [parse, h1, h2, h3, h4, h5, h6, h7, h8, (hp _ _).2 h9, (choose_iff _ _ _).2 h10,
      (hb _ _).2 h11, (ht _ _).2 h12]

/-- C104, refuted for points outside the phase space: the program does not end with an error of its own and
exit status 1 but by an exception that nobody catches. -/
theorem c104_abort_refuted (args : List (List Char)) (i : Input A) (h : Means std prokudin args i)
    (hn : ¬ Allowed i.beam_energy i.ph_space i.photon) :
    crossSection std prokudin F args = .abort ∧ crossSection std prokudin F args ≠ .usage := by
  have := ((c104_cross_section std prokudin F args).2 i ((c104_arguments std prokudin args i).2 h)).2 hn
  exact ⟨this, by rw [this]; simp⟩

/-- C104, refuted for the message: a number that is refused is answered with a message that offers 1, which
is refused also, and a range from 18446744073709551598 to -1 where -18 is meant. -/
theorem c104_message_refuted : chooseSf prokudin 1 = none ∧ chooseSf prokudin 18446744073709551598 = none ∧
    (∃ sf, chooseSf prokudin (-18) = some sf) ∧
    chooseMessage = "SF set index must be Prokudin (0), STF (1), or Test (18446744073709551598 to -1)" :=
  ⟨rfl, rfl, ⟨_, rfl⟩, by unfold chooseMessage numSf; rfl⟩

/-- C104, refuted for the angles: with an angle that is not a number the point is not a point of the phase
space for the library, yet the program prints. -/
theorem c104_angle_refuted (args : List (List Char)) (i : Input A) (h : Means std prokudin args i)
    (ha : Allowed i.beam_energy i.ph_space i.photon) (hn : i.ph_space.phi_h = .nan) :
    crossSection std prokudin F args = .done (expected F i) ∧
    Cut.valid (exampleKin i.beam_energy i.ph_space) = false := by
  refine ⟨((c104_cross_section std prokudin F args).2 i ((c104_arguments std prokudin args i).2 h)).1 ha, ?_⟩
  have hk : (exampleKin i.beam_energy i.ph_space).phi_h = .nan := hn
  have hf : ¬ (exampleKin i.beam_energy i.ph_space).phi_h.isFinite := by rw [hk]; simp [Fl.isFinite]
  unfold Cut.valid
  split_ifs <;> rfl

end

theorem take_ok (ps : Particles Fl) (S : Fl) (p : Fin 6 → Fl) : (Cut.take ps S p).ok = true := rfl

theorem takePhotonKin_ok (k : Kinematics Fl) (p : Fin 3 → Fl) : (Cut.takePhotonKin k p).ok = true := rfl

/-- C105: for every beam energy and all random numbers the program ends, and not by an exception. -/
theorem c105_ends (std : Std) (point : Fin 9 → Fl) (args : List (List Char)) :
    randomPhaseSpace std point args = .usage ∨ ∃ out, randomPhaseSpace std point args = .done out := by
  unfold randomPhaseSpace
  split
  · split
    · rw [example_particles]
      right
      exact ⟨_, rfl⟩
    · exact .inl rfl
  · exact .inl rfl

/-- C105: at an energy at which the process is possible, and for all random numbers from 0 to 1, the six
numbers printed are a point of the phase space. -/
theorem c105_point (std : Std) (E mode : List Char) (e : ℝ) (hE : std.stold E = some (.fin e))
    (hmode : mode ∈ ["false".toList, "off".toList, "nrad".toList]) (h : Reaches examplePs (beamS e))
    (p : Fin 9 → ℝ) (hp : ∀ i, 0 ≤ p i ∧ p i ≤ 1) :
    ∃ pt : PhaseSpace ℝ, Accepted examplePs (beamS e) pt ∧
      randomPhaseSpace std (fun i => .fin (p i)) [E, mode] =
        .done [.fin pt.x, .fin pt.y, .fin pt.z, .fin pt.ph_t_sq, .fin pt.phi_h, .fin pt.phi] := by
  obtain ⟨pt, jx, jy, jz, jt, jh, jp, a, -, -, eq, -⟩ :=
    c103_take example_massive.1 example_massive.2 h (fun i => p ⟨i, by omega⟩) (fun i => hp _)
  refine ⟨pt, a, ?_⟩
  have hr : radiative mode = some false := by
    simp only [List.mem_cons, List.not_mem_nil, or_false] at hmode
    rcases hmode with rfl | rfl | rfl <;> rfl
  have g1 : Cut.head6 (fun i => .fin (p i)) = fun i => .fin (p ⟨i, by omega⟩) := rfl
  have hS : Fl.fin 2 * (finPs examplePs).M * .fin e = .fin (beamS e) := by
    simp [beamS, finPs]
  simp only [randomPhaseSpace, hE, hr, example_particles, g1, hS, eq]
  rfl

/-- C105: with energy to spare, and for all random numbers between 0 and 1, the nine numbers printed on
request are a point of the phase space with a photon. -/
theorem c105_rad_point (std : Std) (E mode : List Char) (e : ℝ) (hE : std.stold E = some (.fin e))
    (hmode : mode ∈ ["true".toList, "on".toList, "rad".toList]) (h : Exceeds examplePs (beamS e))
    (p : Fin 9 → ℝ) (hp : ∀ i, 0 < p i ∧ p i < 1) :
    ∃ (pt : PhaseSpace ℝ) (t f r : ℝ), AcceptedRad examplePs (beamS e) pt t f r ∧
      randomPhaseSpace std (fun i => .fin (p i)) [E, mode] =
        .done [.fin pt.x, .fin pt.y, .fin pt.z, .fin pt.ph_t_sq, .fin pt.phi_h, .fin pt.phi, .fin t, .fin f,
          .fin r] := by
  obtain ⟨pt, jx, jy, jz, jt, jh, jp, a, -, eq, -, -, -, -, -, -, -, s⟩ :=
    take_all example_massive.1 example_massive.2 (le_of_lt h) (fun i => p ⟨i, by omega⟩)
      (fun i => ⟨(hp _).1.le, (hp _).2.le⟩)
  obtain ⟨j0, hs⟩ := s h (fun i => hp _)
  obtain ⟨t, f, r, kt, kf, kr, ar, v, e', -⟩ :=
    c103_take_photon example_massive.1 a hs (fun i => p ⟨i + 6, by omega⟩)
      (fun i => ⟨(hp _).1.le, (hp _).2.le⟩)
  refine ⟨pt, t, f, r, ar, ?_⟩
  have hr : radiative mode = some true := by
    simp only [List.mem_cons, List.not_mem_nil, or_false] at hmode
    rcases hmode with rfl | rfl | rfl <;> rfl
  have g1 : Cut.head6 (fun i => .fin (p i)) = fun i => .fin (p ⟨i, by omega⟩) := rfl
  have g2 : Cut.tail3 (fun i => .fin (p i)) = fun i => .fin (p ⟨i + 6, by omega⟩) := rfl
  have hS : Fl.fin 2 * (finPs examplePs).M * .fin e = .fin (beamS e) := by
    simp [beamS, finPs]
  simp only [randomPhaseSpace, hE, hr, example_particles, g1, g2, hS, eq, e']
  rfl

/-- C105: anything else than a number and one of the six words is answered with the usage. -/
theorem c105_usage (std : Std) (point : Fin 9 → Fl) (args : List (List Char)) :
    randomPhaseSpace std point args = .usage ↔
    ¬ ∃ E mode e, args = [E, mode] ∧ std.stold E = some e ∧
      mode ∈ ["true".toList, "on".toList, "rad".toList, "false".toList, "off".toList, "nrad".toList] := by
  have hr : ∀ mode, (∃ b, radiative mode = some b) ↔ mode ∈ ["true".toList, "on".toList, "rad".toList,
      "false".toList, "off".toList, "nrad".toList] := by
    intro mode
    unfold radiative
    simp only [List.mem_cons, List.not_mem_nil, or_false]
    split_ifs with h1 h2
    · simp; tauto
    · simp; tauto
    · simp only [exists_false, false_iff]; tauto
  unfold randomPhaseSpace
  split
  · rename_i E mode
    split
    · rename_i e b h1 h2
      rw [example_particles]
      constructor
      · intro h
        simp only [take_ok, takePhotonKin_ok, not_true, if_false] at h
        exact absurd h (by simp)
      · intro h
        exact absurd ⟨E, mode, e, rfl, h1, (hr mode).1 ⟨b, h2⟩⟩ h
    · rename_i h1
      simp only [true_iff]
      rintro ⟨E', mode', e, h, h2, h3⟩
      obtain ⟨rfl, rfl⟩ : E = E' ∧ mode = mode' := by simpa using h
      obtain ⟨b, h3⟩ := (hr _).2 h3
      exact h1 _ _ h2 h3
  · rename_i h1
    simp only [true_iff]
    rintro ⟨E', mode', e, rfl, -⟩
    exact h1 _ _ rfl

/-- C105, refuted below the threshold: at an energy at which the process is impossible the program prints a
point all the same, with an `x` that is not a number, and ends normally. -/
theorem c105_below_refuted (std : Std) (E mode : List Char) (e : ℝ) (hE : std.stold E = some (.fin e))
    (hmode : mode ∈ ["true".toList, "on".toList, "rad".toList, "false".toList, "off".toList, "nrad".toList])
    (he : examplePs.m ≤ e) (h : ¬ Reaches examplePs (beamS e)) (point : Fin 9 → Fl) :
    ∃ out, randomPhaseSpace std point [E, mode] = .done (.nan :: out) := by
  have hb : 2 * examplePs.M * examplePs.m ≤ beamS e := by
    unfold beamS
    have := example_massive.1.M_pos
    exact mul_le_mul_of_nonneg_left he (by linarith)
  obtain ⟨-, hx, -⟩ := c103_below_refuted example_massive.1 example_massive.2 hb (mt SMin_le_iff.1 h)
    (Cut.head6 point)
  have hr : ∃ b, radiative mode = some b := by
    simp only [List.mem_cons, List.not_mem_nil, or_false] at hmode
    rcases hmode with rfl | rfl | rfl | rfl | rfl | rfl <;> exact ⟨_, rfl⟩
  obtain ⟨b, hr⟩ := hr
  have hS : Fl.fin 2 * (finPs examplePs).M * .fin e = .fin (beamS e) := by
    simp [beamS, finPs]
  simp only [randomPhaseSpace, hE, hr, example_particles, hS, take_ok, takePhotonKin_ok, not_true, if_false, hx]
  exact ⟨_, rfl⟩

/-- C106: the hundred cutoffs go down from 1 to 1/1000, by the same factor each time. -/
theorem c106_cutoffs (xs : EstErr) (f : ℕ → EstErr) :
    (cutoffPoint 0 xs (f 0)).1 = 1 ∧ (cutoffPoint 99 xs (f 99)).1 = 1 / 1000 ∧
    ∃ q : ℝ, 0 < q ∧ q < 1 ∧ ∀ idx, (cutoffPoint (idx + 1) xs (f (idx + 1))).1 =
      q * (cutoffPoint idx xs (f idx)).1 := by
  refine ⟨by norm_num [cutoffPoint], by norm_num [cutoffPoint], 10 ^ (-(3 / 99) : ℝ), by positivity,
    Real.rpow_lt_one_of_one_lt_of_neg (by norm_num) (by norm_num), fun idx => ?_⟩
  simp only [cutoffPoint]
  rw [← Real.rpow_add (by norm_num)]
  congr 1
  push_cast
  ring

/-- C106: the value shown is the share of the hard part in percent, with the sign turned. -/
theorem c106_value (idx : ℕ) {a b ea eb : ℝ} (hb : b ≠ 0) :
    (cutoffPoint idx ⟨.fin b, .fin eb⟩ ⟨.fin a, .fin ea⟩).2.1 = .fin (-(a / b) * 100) := by
  simp only [cutoffPoint, Fl.div_fin _ hb, Fl.mul_fin]
  congr 1
  ring

/-- C106: when the hard part is positive, the error shown is the linear propagation of the two errors, and
so not negative. -/
theorem c106_error_partial (idx : ℕ) {a b ea eb : ℝ} (hb : 0 < b) (ha : 0 < a) :
    (cutoffPoint idx ⟨.fin b, .fin eb⟩ ⟨.fin a, .fin ea⟩).2.2 =
      .fin (100 * (|ea| / b + a * |eb| / b ^ 2)) ∧ 0 ≤ 100 * (|ea| / b + a * |eb| / b ^ 2) := by
  refine ⟨?_, by positivity⟩
  simp only [cutoffPoint, Fl.div_fin _ hb.ne', Fl.div_fin _ ha.ne', Fl.mul_fin, absFl, Fl.add_fin]
  congr 1
  rw [abs_div, abs_div, abs_of_pos hb, abs_of_pos ha]
  field_simp

/-- C106, refuted for a negative hard part (the case the figure is made for, as it shows the negative of the
share): the error is minus that propagation, negative unless both errors are zero. -/
theorem c106_error_refuted (idx : ℕ) {a b ea eb : ℝ} (hb : 0 < b) (ha : a < 0) (h : ea ≠ 0 ∨ eb ≠ 0) :
    (cutoffPoint idx ⟨.fin b, .fin eb⟩ ⟨.fin a, .fin ea⟩).2.2 =
      .fin (-(100 * (|ea| / b + |a| * |eb| / b ^ 2))) ∧ -(100 * (|ea| / b + |a| * |eb| / b ^ 2)) < 0 := by
  have ha' : 0 < |a| := abs_pos.2 ha.ne
  refine ⟨?_, ?_⟩
  · simp only [cutoffPoint, Fl.div_fin _ hb.ne', Fl.div_fin _ ha.ne, Fl.mul_fin, absFl, Fl.add_fin]
    congr 1
    rw [abs_div, abs_div, abs_of_pos hb, abs_of_neg ha]
    have := ha.ne
    field_simp
    ring
  · have : 0 < |ea| / b + |a| * |eb| / b ^ 2 := by
      rcases h with h | h
      · have := abs_pos.2 h
        positivity
      · have := abs_pos.2 h
        positivity
    linarith

/-- A beam of 10 GeV has energy to spare, one of 0.1 GeV not enough. -/
theorem example_beam : Exceeds examplePs (beamS 10) ∧ ¬ Reaches examplePs (beamS (1 / 10)) ∧
    examplePs.m ≤ 1 / 10 := by
  refine ⟨?_, ?_, ?_⟩ <;>
    norm_num [Exceeds, Reaches, beamS, examplePs, Nucleus.mass, Lepton.mass, Hadron.mass, CMath.ofReal]

/-- A reading of one-letter words as the given numbers. -/
noncomputable def letterStd (e x y z p f g a b c : Fl) : Std where
  stoi s := if s = "-2".toList then some (-2) else none
  stold s := match s with
    | ['e'] => some e
    | ['x'] => some x
    | ['y'] => some y
    | ['z'] => some z
    | ['p'] => some p
    | ['f'] => some f
    | ['g'] => some g
    | ['a'] => some a
    | ['b'] => some b
    | ['c'] => some c
    | _ => none

/-- The arguments of a radiative point, with the second structure function, a beam polarized along its
direction and a target across. -/
def letterArgs : List (List Char) :=
  ["-2".toList, ['e'], ['L'], ['T'], ['x'], ['y'], ['z'], ['p'], ['f'], ['g'], ['a'], ['b'], ['c']]

theorem letter_means (e x y z p f g a b c : Fl) : ∃ i : Input Unit,
    Means (letterStd e x y z p f g a b c) testSfSet letterArgs i ∧ i.beam_energy = e ∧
    i.ph_space = ⟨x, y, z, p, f, g⟩ ∧ i.photon = .hard a b c := by
  obtain ⟨sf, e1, -⟩ := choose_name (A := Unit) testSfSet .UUT
  refine ⟨⟨sf, e, .fin 1, ⟨.fin 0, .fin 1, .fin 0⟩, ⟨x, y, z, p, f, g⟩, .hard a b c⟩, ?_, rfl, rfl, rfl⟩
  exact ⟨_, _, _, _, _, _, _, _, _, _, _, rfl, ⟨-2, rfl, (choose_iff _ _ _).1 e1⟩, rfl, .inr ⟨rfl, rfl⟩,
    .inr (.inr ⟨rfl, rfl⟩), rfl, rfl, rfl, rfl, rfl, rfl, _, _, _, rfl, rfl, rfl, rfl⟩

-- Hypotheses of `c104_cross_section` and `c104_arguments`: arguments of a point with a photon.
example : ∃ std args, ∃ i : Input Unit, Means std testSfSet args i ∧
    Allowed i.beam_energy i.ph_space i.photon := by
  obtain ⟨pt, t, f, r, h, -⟩ := c105_rad_point ⟨fun _ => none, fun _ => some (.fin 10)⟩ [] "rad".toList 10 rfl
    (by simp) example_beam.1 (fun _ => 1 / 2) (fun _ => by norm_num)
  obtain ⟨i, hi, h1, h2, h3⟩ := letter_means (.fin 10) (.fin pt.x) (.fin pt.y) (.fin pt.z) (.fin pt.ph_t_sq)
    (.fin pt.phi_h) (.fin pt.phi) (.fin t) (.fin f) (.fin r)
  refine ⟨_, _, i, hi, ?_⟩
  rw [h1, h2, h3]
  refine ⟨10, pt.x, pt.y, pt.z, pt.ph_t_sq, pt.phi_h, t, f, r, rfl, rfl, rfl, rfl, rfl, rfl, rfl, rfl, rfl,
    fun g => ?_⟩
  have a := h.acc
  exact ⟨⟨a.S_pos, a.x_nonneg, a.x_le, a.y_pos, a.y_le, a.z_pos, a.z_le, a.ph_t_sq_nonneg, a.beam,
    a.lepton, a.hadron, a.missing, a.missing_le⟩, h.photon, h.R_nonneg, h.missing⟩

-- Hypotheses of `c104_abort_refuted`: `x` is not a number.
example : ∃ std args, ∃ i : Input Unit, Means std testSfSet args i ∧
    ¬ Allowed i.beam_energy i.ph_space i.photon := by
  obtain ⟨i, hi, h1, h2, h3⟩ := letter_means (.fin 10) .nan (.fin 1) (.fin 1) (.fin 0) (.fin 0) (.fin 0)
    (.fin 0) (.fin 0) (.fin 0)
  refine ⟨_, _, i, hi, ?_⟩
  rw [h1, h2, h3]
  rintro ⟨_, _, _, _, _, _, _, _, _, _, h, -⟩
  exact absurd h (by simp)

-- Hypotheses of `c104_angle_refuted`.
example : ∃ std args, ∃ i : Input Unit, Means std testSfSet args i ∧
    Allowed i.beam_energy i.ph_space i.photon ∧ i.ph_space.phi_h = .nan := by
  obtain ⟨pt, a, -⟩ := c105_point ⟨fun _ => none, fun _ => some (.fin 10)⟩ [] "nrad".toList 10 rfl
    (by simp) (le_of_lt example_beam.1) (fun _ => 1 / 2) (fun _ => by norm_num)
  obtain ⟨sf, e1, -⟩ := choose_name (A := Unit) testSfSet .UUT
  refine ⟨letterStd (.fin 10) (.fin pt.x) (.fin pt.y) (.fin pt.z) (.fin pt.ph_t_sq) .nan (.fin 0) (.fin 1)
    (.fin 0) (.fin 0), ["-2".toList, ['e'], ['L'], ['T'], ['x'], ['y'], ['z'], ['p'], ['f'], ['g'], ['a']],
    ⟨sf, .fin 10, .fin 1, ⟨.fin 0, .fin 1, .fin 0⟩, ⟨.fin pt.x, .fin pt.y, .fin pt.z, .fin pt.ph_t_sq, .nan, .fin 0⟩,
      .soft (.fin 1)⟩, ?_, ?_, rfl⟩
  · exact ⟨_, _, _, _, _, _, _, _, _, _, _, rfl,
      ⟨-2, rfl, (choose_iff _ _ _).1 e1⟩, rfl,
      .inr ⟨rfl, rfl⟩, .inr (.inr ⟨rfl, rfl⟩), rfl, rfl, rfl, rfl, rfl, rfl, _, rfl, rfl⟩
  · exact ⟨10, pt.x, pt.y, pt.z, pt.ph_t_sq, rfl, rfl, rfl, rfl, rfl, fun f g =>
      ⟨a.S_pos, a.x_nonneg, a.x_le, a.y_pos, a.y_le, a.z_pos, a.z_le, a.ph_t_sq_nonneg, a.beam,
        a.lepton, a.hadron, a.missing, a.missing_le⟩⟩

-- Hypotheses of `c105_below_refuted`.
example : ∃ out, randomPhaseSpace ⟨fun _ => none, fun _ => some (.fin (1 / 10))⟩ (fun _ => .fin (1 / 2))
    [[], "nrad".toList] = .done (.nan :: out) :=
  c105_below_refuted _ _ _ (1 / 10) rfl (by simp) example_beam.2.2 example_beam.2.1 _

-- Hypotheses of `c106_error_partial` and `c106_error_refuted`.
example : (cutoffPoint 50 ⟨.fin 4, .fin 1⟩ ⟨.fin 2, .fin 1⟩).2.2 = .fin (300 / 8) ∧
    (cutoffPoint 50 ⟨.fin 4, .fin 1⟩ ⟨.fin (-2), .fin 1⟩).2.2 = .fin (-(300 / 8)) := by
  rw [(c106_error_partial 50 (by norm_num) (by norm_num)).1,
    (c106_error_refuted 50 (by norm_num) (by norm_num) (by norm_num)).1]
  norm_num

end Sidis.Props
