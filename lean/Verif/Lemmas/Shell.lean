import Verif.Lemmas.SoftPhoton
import Mathlib.Analysis.SpecialFunctions.Integrals.Basic

/-! # Integrals over a shell of photon energies -/

namespace Sidis

open MeasureTheory Real

/-- Photon variables `(tau, phi_k, R)` with `h R` between `r` and `s`. -/
def shell (a b c d : ℝ) (h : ℝ × ℝ → ℝ) (r s : ℝ) : Set (ℝ × ℝ × ℝ) :=
  {v | v.1 ∈ Set.Icc a b ∧ v.2.1 ∈ Set.Icc c d ∧ r < h (v.1, v.2.1) * v.2.2 ∧
    h (v.1, v.2.1) * v.2.2 ≤ s}

theorem measurableSet_shell {a b c d : ℝ} {h : ℝ × ℝ → ℝ} (hh : Continuous h) (r s : ℝ) :
    MeasurableSet (shell a b c d h r s) := by
  have hc : Continuous fun v : ℝ × ℝ × ℝ => h (v.1, v.2.1) * v.2.2 := by fun_prop
  have e : shell a b c d h r s = (Prod.fst ⁻¹' Set.Icc a b) ∩
      (((fun v : ℝ × ℝ × ℝ => v.2.1) ⁻¹' Set.Icc c d) ∩
        ((fun v : ℝ × ℝ × ℝ => h (v.1, v.2.1) * v.2.2) ⁻¹' Set.Ioc r s)) := by
    ext v
    simp only [shell, Set.mem_setOf_eq, Set.mem_inter_iff, Set.mem_preimage, Set.mem_Ioc]
  rw [e]
  exact (measurableSet_Icc.preimage (by fun_prop)).inter
    ((measurableSet_Icc.preimage (by fun_prop)).inter (measurableSet_Ioc.preimage hc.measurable))

/-- A function of the direction over the energy, integrated over the shell. -/
theorem integral_shell {a b c d : ℝ} (hab : a ≤ b) (hcd : c ≤ d) {h f : ℝ × ℝ → ℝ}
    (hh : Continuous h) (hpos : ∀ p ∈ Set.Icc a b ×ˢ Set.Icc c d, 0 < h p)
    (hf : ContinuousOn f (Set.Icc a b ×ˢ Set.Icc c d)) {r s : ℝ} (hr : 0 < r) (hrs : r ≤ s) :
    IntegrableOn (fun v : ℝ × ℝ × ℝ => f (v.1, v.2.1) / v.2.2) (shell a b c d h r s) ∧
    ∫ v in shell a b c d h r s, f (v.1, v.2.1) / v.2.2
      = log (s / r) * ∫ x in a..b, ∫ y in c..d, f (x, y) := by
  have hs : 0 < s := hr.trans_le hrs
  have hB : IsCompact (Set.Icc a b ×ˢ Set.Icc c d) := isCompact_Icc.prod isCompact_Icc
  have hne : (Set.Icc a b ×ˢ Set.Icc c d).Nonempty :=
    (Set.nonempty_Icc.2 hab).prod (Set.nonempty_Icc.2 hcd)
  obtain ⟨p0, m0, hmin⟩ := hB.exists_isMinOn hne hh.continuousOn
  obtain ⟨p1, m1, hmax⟩ := hB.exists_isMaxOn hne hh.continuousOn
  have hp0 := hpos p0 m0
  have hp1 := hpos p1 m1
  set K := Set.Icc a b ×ˢ (Set.Icc c d ×ˢ Set.Icc (r / h p1) (s / h p0)) with hK
  have hKc : IsCompact K := isCompact_Icc.prod (isCompact_Icc.prod isCompact_Icc)
  have hg : ContinuousOn (fun v : ℝ × ℝ × ℝ => f (v.1, v.2.1) / v.2.2) K := by
    refine ContinuousOn.div ?_ (by fun_prop) fun v hv =>
      ((div_pos hr hp1).trans_le hv.2.2.1).ne'
    exact hf.comp (f := fun v : ℝ × ℝ × ℝ => (v.1, v.2.1)) (by fun_prop) fun v hv => ⟨hv.1, hv.2.1⟩
  have hgi := hg.integrableOn_compact (μ := volume) hKc
  have hinner : ∀ p ∈ Set.Icc a b ×ˢ Set.Icc c d,
      Set.Ioc (r / h p) (s / h p) ⊆ Set.Icc (r / h p1) (s / h p0) := fun p hp R hR => by
    have a1 : h p ≤ h p1 := hmax hp
    have a2 : h p0 ≤ h p := hmin hp
    have := hpos p hp
    exact ⟨(div_le_div_of_nonneg_left hr.le this a1).trans hR.1.le,
      hR.2.trans (div_le_div_of_nonneg_left hs.le hp0 a2)⟩
  have hmem : ∀ p ∈ Set.Icc a b ×ˢ Set.Icc c d, ∀ R : ℝ,
      (p.1, p.2, R) ∈ shell a b c d h r s ↔ R ∈ Set.Ioc (r / h p) (s / h p) := fun p hp R => by
    have := hpos p hp
    simp only [shell, Set.mem_setOf_eq, Set.mem_Ioc, Prod.mk.eta]
    rw [div_lt_iff₀' this, le_div_iff₀' this]
    exact ⟨fun q => q.2.2, fun q => ⟨hp.1, hp.2, q⟩⟩
  have hE := measurableSet_shell (a := a) (b := b) (c := c) (d := d) hh r s
  have hEK : shell a b c d h r s ⊆ K := fun v hv =>
    ⟨hv.1, hv.2.1, hinner (v.1, v.2.1) ⟨hv.1, hv.2.1⟩
      ((hmem (v.1, v.2.1) ⟨hv.1, hv.2.1⟩ v.2.2).1 hv)⟩
  refine ⟨hgi.mono_set hEK, ?_⟩
  have hin : ∀ p ∈ Set.Icc a b ×ˢ Set.Icc c d,
      ∫ R in Set.Icc (r / h p1) (s / h p0), (shell a b c d h r s).indicator
        (fun v : ℝ × ℝ × ℝ => f (v.1, v.2.1) / v.2.2) (p.1, p.2, R) = log (s / r) * f p := by
    intro p hp
    have hpp := hpos p hp
    have e : (fun R => (shell a b c d h r s).indicator
        (fun v : ℝ × ℝ × ℝ => f (v.1, v.2.1) / v.2.2) (p.1, p.2, R))
        = (Set.Ioc (r / h p) (s / h p)).indicator fun R => f p / R := by
      funext R
      by_cases hR : R ∈ Set.Ioc (r / h p) (s / h p)
      · rw [Set.indicator_of_mem hR, Set.indicator_of_mem ((hmem p hp R).2 hR)]
      · rw [Set.indicator_of_notMem hR, Set.indicator_of_notMem (mt (hmem p hp R).1 hR)]
    rw [e, setIntegral_indicator measurableSet_Ioc, Set.inter_eq_right.2 (hinner p hp),
      ← intervalIntegral.integral_of_le (by gcongr)]
    simp only [div_eq_mul_inv (f p)]
    rw [intervalIntegral.integral_const_mul, integral_inv_of_pos (by positivity) (by positivity)]
    rw [show s / h p / (r / h p) = s / r by field_simp]
    ring
  have h1 : ∫ v in shell a b c d h r s, f (v.1, v.2.1) / v.2.2 = ∫ v in K,
      (shell a b c d h r s).indicator (fun v : ℝ × ℝ × ℝ => f (v.1, v.2.1) / v.2.2) v := by
    rw [setIntegral_indicator hE, Set.inter_eq_right.2 hEK]
  have hind : IntegrableOn ((shell a b c d h r s).indicator
      (fun v : ℝ × ℝ × ℝ => f (v.1, v.2.1) / v.2.2)) K := hgi.indicator hE
  rw [h1, hK, show (volume : Measure (ℝ × ℝ × ℝ)) = volume.prod volume from rfl,
    setIntegral_prod _ hind, ← intervalIntegral.integral_const_mul,
    intervalIntegral.integral_of_le hab, ← integral_Icc_eq_integral_Ioc]
  have hae : ∀ᵐ x ∂(volume.restrict (Set.Icc a b)), IntegrableOn (fun w : ℝ × ℝ =>
      (shell a b c d h r s).indicator (fun v : ℝ × ℝ × ℝ => f (v.1, v.2.1) / v.2.2) (x, w))
      (Set.Icc c d ×ˢ Set.Icc (r / h p1) (s / h p0)) := by
    have := hind
    rw [IntegrableOn, hK, show (volume : Measure (ℝ × ℝ × ℝ)) = volume.prod volume from rfl,
      ← Measure.prod_restrict] at this
    exact this.prod_right_ae
  refine integral_congr_ae ?_
  filter_upwards [hae, ae_restrict_mem measurableSet_Icc] with x hx hxm
  rw [show (volume : Measure (ℝ × ℝ)) = volume.prod volume from rfl, setIntegral_prod _ hx,
    ← intervalIntegral.integral_const_mul, intervalIntegral.integral_of_le hcd,
    ← integral_Icc_eq_integral_Ioc]
  refine setIntegral_congr_fun measurableSet_Icc fun y hy => ?_
  exact hin (x, y) ⟨hxm, hy⟩

end Sidis
