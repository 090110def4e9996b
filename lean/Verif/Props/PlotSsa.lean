import Verif.Model.PlotSsa
import Verif.Props.AsymmetryBound
import Verif.Props.Example

/-! # C119: the programs plot_ssa and quick_start -/

namespace Sidis.Props

open Spec Asym PlotSsa Lemmas

theorem ssa_particles : PlotSsa.particles = some examplePs := by
  rw [PlotSsa.particles, Particles.make, if_neg]
  · rfl
  · simp only [Nucleus.mass, Hadron.mass, CMath.ofReal]
    norm_num

/-- The points of the curves, with room for the hadron and for a photon. -/
theorem ssa_point {z t : ℝ} (h1 : 0.1 ≤ z) (h2 : z ≤ 0.8) (t0 : 0 ≤ t) (t1 : t ≤ 0.49) (f g : ℝ) :
    (Accepted examplePs (sAt examplePs) ⟨0.2, 0.754, z, t, f, g⟩ ∧
      examplePs.Mth ^ 2 < (Kinematics.make examplePs (sAt examplePs) ⟨0.2, 0.754, z, t, f, g⟩).mx_sq) ∧
    t + examplePs.mh ^ 2 < (z * (sAt examplePs * 0.754) / (2 * examplePs.M)) ^ 2 := by
  have hpl : (0.51 : ℝ) < (z * (sAt examplePs * 0.754) / (2 * examplePs.M)) ^ 2 := by
    have e : z * (sAt examplePs * 0.754) / (2 * examplePs.M) = 7.9924 * z := by
      have : examplePs.M ≠ 0 := by norm_num [examplePs, Nucleus.mass, CMath.ofReal]
      simp only [sAt]
      field_simp
      norm_num
    rw [e]
    nlinarith
  have hmh : examplePs.mh ^ 2 < 0.0195 := by norm_num [examplePs, Hadron.mass, CMath.ofReal]
  have ht : t < PtMax examplePs.M examplePs.mh examplePs.Mth (sAt examplePs * 0.754)
      (sAt examplePs * 0.2 * 0.754) z := by
    have e1 : examplePs.M = 0.9382720813 := by norm_num [examplePs, Nucleus.mass, CMath.ofReal]
    have e2 : examplePs.mh = 0.13957061 := by norm_num [examplePs, Hadron.mass, CMath.ofReal]
    have e3 : examplePs.Mth = 0.9382720813 + 0.1349770 := by
      norm_num [examplePs, Hadron.mass, Nucleus.mass, CMath.ofReal]
    have hq : 0 ≤ (z - 0.1) * (0.8 - z) := mul_nonneg (by linarith) (by linarith)
    rw [PtMax, ZDet, sAt, e1, e2, e3]
    rcases le_total 0 (ZDet 0.9382720813 0.13957061 (0.9382720813 + 0.1349770)
      (2 * 0.9382720813 * 10.6 * 0.754) (2 * 0.9382720813 * 10.6 * 0.2 * 0.754) z) with h | h
    · rw [ZDet] at h
      rw [max_eq_left h]
      norm_num
      nlinarith
    · rw [ZDet] at h
      rw [max_eq_right h]
      norm_num
      nlinarith
  refine ⟨?_, by linarith⟩
  have := accepted_of example_massive.1 (S := sAt examplePs) (by
    norm_num [Reaches, sAt, examplePs, Nucleus.mass, Lepton.mass, Hadron.mass, CMath.ofReal])
    ⟨0.2, 0.754, z, t, f, g⟩ (by norm_num) (by norm_num) (by norm_num) (by norm_num)
    (by norm_num [sAt, examplePs, Nucleus.mass, Lepton.mass, Hadron.mass, CMath.ofReal])
    (by norm_num [sAt, examplePs, Nucleus.mass, Lepton.mass, Hadron.mass, CMath.ofReal])
    (by norm_num; linarith)
    (by
      norm_num [sAt, examplePs, Nucleus.mass, Lepton.mass, Hadron.mass, CMath.ofReal]
      linarith) t0 ht.le
  exact ⟨this.1, this.2 ht⟩

/-- **C119.** plot_ssa draws each of the two asymmetries with and without radiative corrections at three
transverse momenta, each once. -/
theorem c119_curves : PlotSsa.particles = some examplePs ∧ zMin < zMax ∧ curves.Nodup ∧
    ∀ c : Curve, c ∈ curves ↔ c.ph_t = 0.7 ∨ c.ph_t = 0.4 ∨ c.ph_t = 0.1 := by
  refine ⟨ssa_particles, by norm_num [zMin, zMax], ?_, ?_⟩
  · simp [curves, phTVals]
    norm_num
  · rintro ⟨a, b, t⟩
    cases a <;> cases b <;> simp [curves, phTVals]

/-- The squares of the transverse momenta. -/
theorem ssa_t {c : Curve} (hc : c ∈ curves) : 0 < c.ph_t * c.ph_t ∧ c.ph_t * c.ph_t ≤ 0.49 := by
  obtain h | h | h := (c119_curves.2.2.2 c).1 hc <;> rw [h] <;> norm_num

/-- **C119.** Every point at which plot_ssa may evaluate an asymmetry is in the phase space, whatever the
azimuths, with room for a radiated photon. -/
theorem c119_points {c : Curve} (hc : c ∈ curves) {z : ℝ} (h1 : zMin ≤ z) (h2 : z ≤ zMax) (phi_h phi : ℝ) :
    Accepted examplePs (sAt examplePs) ⟨xAt, yAt, z, c.ph_t * c.ph_t, phi_h, phi⟩ ∧
    examplePs.Mth ^ 2 <
      (Kinematics.make examplePs (sAt examplePs) ⟨xAt, yAt, z, c.ph_t * c.ph_t, phi_h, phi⟩).mx_sq :=
  (ssa_point h1 h2 (ssa_t hc).1.le (ssa_t hc).2 phi_h phi).1

/-- **C119.** With exact integration the curves without radiative corrections are the textbook ratios of
structure functions. -/
theorem c119_born {c : Curve} (hc : c ∈ curves) (hrc : c.rc = false) {z : ℝ} (h1 : zMin ≤ z) (h2 : z ≤ zMax)
    (E : Env) (hE : Exact E.integ) (hα : (E.phenom (sAt examplePs * xAt * yAt)).alpha_qed ≠ 0) :
    let w := massiveWeights (E.phenom (sAt examplePs * xAt * yAt)).alpha_qed examplePs.M examplePs.m
      (sAt examplePs) xAt yAt (sAt examplePs * xAt * yAt)
    let F := SfValues.at E.sf .piP xAt z (sAt examplePs * xAt * yAt) (c.ph_t * c.ph_t)
    F.UUT + w.long * F.UUL ≠ 0 → c.value E examplePs z = .fin ((if c.collins then w.trans * F.UT_sin_h_p_S
      else F.UTT_sin_h_m_S + w.long * F.UTL_sin_h_m_S) / (F.UUT + w.long * F.UUL)) := by
  intro w F hU
  have hp := accepted_physical example_massive.1 (c119_points hc h1 h2 0 0).1 (by norm_num [xAt])
  have hpl := (ssa_point h1 h2 (ssa_t hc).1.le (ssa_t hc).2 0 0).2
  simp only [Curve.value, hrc]
  by_cases h : c.collins
  · rw [if_pos h, if_pos h]
    exact c62_collins E _ _ _ _ _ _ hE hp (ssa_t hc).1 hpl hα hU
  · rw [if_neg h, if_neg h]
    exact c62_sivers E _ _ _ _ _ _ hE hp (ssa_t hc).1 hpl hα hU

/-- **C119.** The curves with radiative corrections are twice the ratio of the polarised moment to the
unpolarised integral (see `c62_rc`), and at every azimuth and polarisation the corrected cross-section in
them is a number. -/
theorem c119_rc {c : Curve} (hc : c ∈ curves) (hrc : c.rc = true) {z : ℝ} (h1 : zMin ≤ z) (h2 : z ≤ zMax)
    (E : Env) :
    c.value E examplePs z = .fin 2 * (utInteg E examplePs (sAt examplePs) xAt yAt z (c.ph_t * c.ph_t)
        (if c.collins then 1 else -1) 1 0 true).val /
      (uuInteg E examplePs (sAt examplePs) xAt yAt z (c.ph_t * c.ph_t) true).val ∧
    ∀ phi_h eta, (xsNradIr (.make examplePs (sAt examplePs) ⟨xAt, yAt, z, c.ph_t * c.ph_t, phi_h, 0⟩)
      (E.phenom (sAt examplePs * xAt * yAt)) E.sf 0 eta .pinf).isFinite := by
  constructor
  · simp only [Curve.value, hrc]
    by_cases h : c.collins
    · rw [if_pos h, if_pos h]; rfl
    · rw [if_neg h, if_neg h]; rfl
  · exact (c62_rc E _ _ _ _ _ _ example_massive.2 (c119_points hc h1 h2 0 0).2 (.inl rfl) 0 0).1

/-- **C119.** The point of quick_start is in the phase space, and the number printed is the textbook
unpolarised cross-section. -/
theorem c119_quick_start (ph : Phenom) (sf : SfFuns) :
    Accepted examplePs (quickS examplePs) quickPt ∧
    let Q_sq := quickS examplePs * 0.2 * 0.9
    let w := massiveWeights ph.alpha_qed examplePs.M examplePs.m (quickS examplePs) 0.2 0.9 Q_sq
    let F := SfValues.at sf .piP 0.2 0.3 Q_sq 2
    xsBorn (.make examplePs (quickS examplePs) quickPt) ph sf 0 .zero =
      w.norm * (F.UUT + w.long * F.UUL - w.trans * F.UU_cos_2h) := by
  have e1 : examplePs.M = 0.9382720813 := by norm_num [examplePs, Nucleus.mass, CMath.ofReal]
  have e2 : examplePs.mh = 0.13957061 := by norm_num [examplePs, Hadron.mass, CMath.ofReal]
  have e3 : examplePs.Mth = 0.9382720813 + 0.1349770 := by
    norm_num [examplePs, Hadron.mass, Nucleus.mass, CMath.ofReal]
  have hpl : (2 : ℝ) + examplePs.mh ^ 2 < (0.3 * (quickS examplePs * 0.9) / (2 * examplePs.M)) ^ 2 := by
    rw [quickS, e1, e2]; norm_num
  have ht : (2 : ℝ) ≤ PtMax examplePs.M examplePs.mh examplePs.Mth (quickS examplePs * 0.9)
      (quickS examplePs * 0.2 * 0.9) 0.3 := by
    rw [PtMax, quickS, e1, e2, e3]
    rcases le_total 0 (ZDet 0.9382720813 0.13957061 (0.9382720813 + 0.1349770)
      (2 * 10.6 * 0.9382720813 * 0.9) (2 * 10.6 * 0.9382720813 * 0.2 * 0.9) 0.3) with h | h
    · rw [max_eq_left h, ZDet]
      norm_num
    · rw [max_eq_right h]
      norm_num
  have ha : Accepted examplePs (quickS examplePs) quickPt :=
    (accepted_of example_massive.1 (by
      norm_num [Reaches, quickS, examplePs, Nucleus.mass, Lepton.mass, Hadron.mass, CMath.ofReal])
      quickPt (by norm_num [quickPt]) (by norm_num [quickPt]) (by norm_num [quickPt])
      (by norm_num [quickPt])
      (by norm_num [quickPt, quickS, examplePs, Nucleus.mass, Lepton.mass, Hadron.mass, CMath.ofReal])
      (by norm_num [quickPt, quickS, examplePs, Nucleus.mass, Lepton.mass, Hadron.mass, CMath.ofReal])
      (by norm_num [quickPt])
      (by norm_num [quickPt, quickS, examplePs, Nucleus.mass, Lepton.mass, Hadron.mass, CMath.ofReal])
      (by norm_num [quickPt]) ht).1
  refine ⟨ha, ?_⟩
  intro Q_sq w F
  have := c72_textbook (accepted_physical example_massive.1 ha (by norm_num [quickPt])) (by norm_num [quickPt])
    hpl ph sf 0 0 0 0
  simp only [zero_mul] at this
  refine Eq.trans this ?_
  have c1 : Real.cos quickPt.phi_h = 0 := by
    rw [show quickPt.phi_h = Real.pi / 2 by simp only [quickPt]; ring, Real.cos_pi_div_two]
  have c2 : Real.cos (2 * quickPt.phi_h) = -1 := by
    rw [show 2 * quickPt.phi_h = Real.pi by simp only [quickPt]; ring, Real.cos_pi]
  simp only [angular, c1, c2]
  simp only [w, F, Q_sq, quickPt, examplePs]
  ring

/-- The hypotheses of the theorems above are met: a Sivers curve of unit structure functions is one at
`z = 0.5`, and there is a Collins curve with radiative corrections. -/
example : let E : Env := ⟨unitSf, fun _ => ⟨0.0073, 0⟩, exactInteg, fun _ _ => some (1, 0, 0.1, .fin 1)⟩
    (⟨false, false, 0.4⟩ : Curve) ∈ curves ∧ (⟨true, true, 0.4⟩ : Curve) ∈ curves ∧
      (⟨false, false, 0.4⟩ : Curve).value E examplePs 0.5 = .fin 1 := by
  intro E
  have hc : (⟨false, false, 0.4⟩ : Curve) ∈ curves := (c119_curves.2.2.2 _).2 (.inr (.inl rfl))
  refine ⟨hc, (c119_curves.2.2.2 _).2 (.inr (.inl rfl)), ?_⟩
  have hp := accepted_physical example_massive.1 (c119_points hc (z := 0.5) (by norm_num [zMin])
    (by norm_num [zMax]) 0 0).1 (by norm_num [xAt])
  have hl := massive_long_nonneg hp (0.0073 : ℝ)
  have e1 : ∀ l : ℝ, (0 : ℝ) ≤ l → 1 + l * 1 ≠ 0 := fun l h => by positivity
  rw [c119_born hc rfl (by norm_num [zMin]) (by norm_num [zMax]) E exactInteg_exact (by norm_num [E]) (e1 _ hl)]
  congr 1
  exact div_self (e1 _ hl)

end Sidis.Props
