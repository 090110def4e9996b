import Verif.Lemmas.PhotonParts

/-! # The integrals over the photon (C86, C87) -/

namespace Sidis.Props

open Spec Real MeasureTheory PhotonInteg

section
variable {ps : Particles ℝ} {S : ℝ} {pt : PhaseSpace ℝ}

/-- C86: with an integrator of accuracy `ε`, `rad_f_integ` is within `ε` of the integral of `rad_f` over
the photons of energy up to the cut-off, and `nrad_integ` is within `ε` of that integral plus
`nrad_ir`. -/
theorem c86_soft (hm : Massive ps) (h : Accepted ps S pt) (hs : Samplable ps S pt) (ph : Phenom)
    (sf : SfFuns) (lambda : ℝ) (eta : Vec3) {c : ℝ} (hc : 0 < c) {I : Integrator3} {ε : ℝ}
    (hI : Accurate I ε) :
    let K := Kinematics.make (finPs ps) (.fin S) (finPt pt)
    let k := Kinematics.make ps S pt
    let radF := fun v : ℝ × ℝ × ℝ => xsRadF (.make k v.1 v.2.1 v.2.2) ph sf lambda eta
    IntegrableOn radF (softPhotons ps S pt c) →
    (∃ v : ℝ, (radFInteg I K k ph sf lambda eta (.fin c)).val = .fin v ∧
      |v - ∫ w in softPhotons ps S pt c, radF w| ≤ ε) ∧
    ∀ ir : ℝ, xsNradIr k ph sf lambda eta (.fin c) = .fin ir →
      ∃ v : ℝ, (nradInteg I K k ph sf lambda eta (.fin c)).val = .fin v ∧
        |v - (ir + ∫ w in softPhotons ps S pt c, radF w)| ≤ ε := by
  intro K k radF hint
  obtain ⟨g, h1, h2, h3⟩ := soft_integral hm h hs hc fun kr =>
    xsRadF0 kr ph sf (HadLP.make k sf) lambda eta
  have e : radF = fun v : ℝ × ℝ × ℝ =>
      xsRadF0 (.make k v.1 v.2.1 v.2.2) ph sf (HadLP.make k sf) lambda eta := by
    funext v
    exact c54_rad_f _ ph sf lambda eta
  rw [e] at hint ⊢
  obtain ⟨v, hv, hε⟩ := hI _ g h1 (h2.2 hint)
  have hε : |v - ∫ p in unitCube, g p| ≤ ε := hε
  rw [h3] at hε
  refine ⟨⟨v, hv, hε⟩, fun ir hir => ⟨ir + v, ?_, ?_⟩⟩
  · change xsNradIr k ph sf lambda eta (.fin c) + (radFInteg I K k ph sf lambda eta (.fin c)).val = _
    rw [hir, show (radFInteg I K k ph sf lambda eta (.fin c)).val = .fin v from hv, Fl.add_fin]
  · rwa [add_sub_add_left_eq_sub]

/-- C86: with an integrator of accuracy `ε`, `rad_integ` is within `ε` of the integral of `rad` over
the photons of energy above the cut-off. -/
theorem c86_hard (hm : Massive ps) (h : Accepted ps S pt) (hs : Samplable ps S pt) (ph : Phenom)
    (sf : SfFuns) (lambda : ℝ) (eta : Vec3) {c : ℝ} (hc : 0 < c) {I : Integrator3} {ε : ℝ}
    (hI : Accurate I ε) :
    let K := Kinematics.make (finPs ps) (.fin S) (finPt pt)
    let k := Kinematics.make ps S pt
    let rad := fun v : ℝ × ℝ × ℝ => xsRad (.make k v.1 v.2.1 v.2.2) ph sf lambda eta
    IntegrableOn rad (hardPhotons ps S pt c) →
    ∃ v : ℝ, (radInteg I K k ph sf lambda eta (.fin c)).val = .fin v ∧
      |v - ∫ w in hardPhotons ps S pt c, rad w| ≤ ε := by
  intro K k rad hint
  obtain ⟨g, h1, h2, h3⟩ := hard_integral hm h hs hc fun kr => xsRad kr ph sf lambda eta
  obtain ⟨v, hv, hε⟩ := hI _ g h1 (h2.2 hint)
  have hε : |v - ∫ p in unitCube, g p| ≤ ε := hε
  rw [h3] at hε
  exact ⟨v, hv, hε⟩

theorem nradIr_all {c : ℝ} (hc : energyMax ps S pt ≤ c) (hmax : 0 < energyMax ps S pt) {ph : Phenom}
    {sf : SfFuns} {lambda : ℝ} {eta : Vec3} :
    xsNradIr (.make ps S pt) ph sf lambda eta .pinf = xsNradIr (.make ps S pt) ph sf lambda eta (.fin c) := by
  set k := Kinematics.make ps S pt with hk
  have e : deltaVertRadIr k .pinf = deltaVertRadIr k (.fin c) := by
    have em : (k.mx_sq - sq k.Mth) / (2 * k.mx) = energyMax ps S pt := by
      change (k.mx_sq - ps.Mth * ps.Mth) / _ = (k.mx_sq - ps.Mth ^ 2) / _
      rw [pow_two]
      rfl
    unfold deltaVertRadIr
    rw [em]
    simp [not_lt.2 hc, hmax.trans_le hc]
  have e' : NradCoeff.make k ph .pinf = NradCoeff.make k ph (.fin c) := by
    unfold NradCoeff.make
    rw [e]
  unfold xsNradIr
  rw [e']

/-- C86: with the default, infinite, cut-off `rad_f_integ` takes every photon and `rad_integ` none. -/
theorem c86_default (hm : Massive ps) (h : Accepted ps S pt) (hs : Samplable ps S pt) (ph : Phenom)
    (sf : SfFuns) (lambda : ℝ) (eta : Vec3) {I : Integrator3} {ε : ℝ} (hI : Accurate I ε) :
    let K := Kinematics.make (finPs ps) (.fin S) (finPt pt)
    let k := Kinematics.make ps S pt
    let radF := fun v : ℝ × ℝ × ℝ => xsRadF (.make k v.1 v.2.1 v.2.2) ph sf lambda eta
    (IntegrableOn radF (photons ps S pt) →
      (∃ v : ℝ, (radFInteg I K k ph sf lambda eta .pinf).val = .fin v ∧
        |v - ∫ w in photons ps S pt, radF w| ≤ ε) ∧
      ∃ ir v : ℝ, xsNradIr k ph sf lambda eta .pinf = .fin ir ∧
        (nradInteg I K k ph sf lambda eta .pinf).val = .fin v ∧
        |v - (ir + ∫ w in photons ps S pt, radF w)| ≤ ε) ∧
    ∃ v : ℝ, (radInteg I K k ph sf lambda eta .pinf).val = .fin v ∧ |v| ≤ ε := by
  intro K k radF
  constructor
  · intro hint
    obtain ⟨g, h1, h2, h3⟩ := all_integral hm h hs fun kr =>
      xsRadF0 kr ph sf (HadLP.make k sf) lambda eta
    have e : radF = fun v : ℝ × ℝ × ℝ =>
        xsRadF0 (.make k v.1 v.2.1 v.2.2) ph sf (HadLP.make k sf) lambda eta := by
      funext v
      exact c54_rad_f _ ph sf lambda eta
    obtain ⟨ir, hir⟩ : ∃ ir, xsNradIr k ph sf lambda eta .pinf = .fin ir := by
      obtain ⟨total, ht⟩ := c85_cutoff_independent hm h hs ph sf lambda eta hint
      have hmax : 0 < energyMax ps S pt :=
        div_pos (sub_pos.2 hs.room) (mul_pos two_pos (mx_pos_of_accepted hm h))
      obtain ⟨-, ir, hir, -⟩ := ht (max (energyMax ps S pt) (deltaRRel * energyMax ps S pt))
        (lt_max_of_lt_left hmax) (le_max_right _ _)
      rw [← nradIr_all (le_max_left _ _) hmax] at hir
      exact ⟨ir, hir⟩
    rw [e] at hint ⊢
    obtain ⟨v, hv, hε⟩ := hI _ g h1 (h2.2 hint)
    have hε : |v - ∫ p in unitCube, g p| ≤ ε := hε
    rw [h3] at hε
    refine ⟨⟨v, hv, hε⟩, ir, ir + v, hir, ?_, ?_⟩
    · change xsNradIr k ph sf lambda eta .pinf + (radFInteg I K k ph sf lambda eta .pinf).val = _
      rw [hir, show (radFInteg I K k ph sf lambda eta .pinf).val = .fin v from hv, Fl.add_fin]
    · rwa [add_sub_add_left_eq_sub]
  · obtain ⟨v, hv, hε⟩ := hI _ (fun _ => 0)
      (fun p hp => integrand_none hm h hs (fun kr => xsRad kr ph sf lambda eta) hp) (by simp)
    exact ⟨v, hv, by simpa using hε⟩

/-- C87: the sum of `nrad_integ` and `rad_integ` does not depend on the cut-off between them, up to the
errors of the two integrations; the cut-off may be infinite. -/
theorem c87_cutoff (hm : Massive ps) (h : Accepted ps S pt) (hs : Samplable ps S pt) (ph : Phenom)
    (sf : SfFuns) (lambda : ℝ) (eta : Vec3) :
    let K := Kinematics.make (finPs ps) (.fin S) (finPt pt)
    let k := Kinematics.make ps S pt
    let radF := fun v : ℝ × ℝ × ℝ => xsRadF (.make k v.1 v.2.1 v.2.2) ph sf lambda eta
    IntegrableOn radF (photons ps S pt) →
    ∃ total : ℝ, ∀ c : Fl, .fin 0 < c → .fin (deltaRRel * energyMax ps S pt) ≤ c →
      ∀ (I J : Integrator3) (ε δ : ℝ), Accurate I ε → Accurate J δ →
        ∃ n r : ℝ, (nradInteg I K k ph sf lambda eta c).val = .fin n ∧
          (radInteg J K k ph sf lambda eta c).val = .fin r ∧ |n + r - total| ≤ ε + δ := by
  intro K k radF hint
  obtain ⟨total, ht⟩ := c85_cutoff_independent hm h hs ph sf lambda eta hint
  refine ⟨total, fun c hc hc' I J ε δ hI hJ => ?_⟩
  have hmax : 0 < energyMax ps S pt :=
    div_pos (sub_pos.2 hs.room) (mul_pos two_pos (mx_pos_of_accepted hm h))
  cases c with
  | nan => simp at hc
  | ninf => simp at hc
  | fin c =>
    obtain ⟨hr, ir, hir, e⟩ := ht c ((Fl.lt_fin _ _).1 hc) ((Fl.le_fin _ _).1 hc')
    have hsoft : softPhotons ps S pt c ⊆ photons ps S pt := fun v hv => hv.1
    obtain ⟨n, hn, hn'⟩ :=
      (c86_soft hm h hs ph sf lambda eta ((Fl.lt_fin _ _).1 hc) hI (hint.mono_set hsoft)).2 ir hir
    obtain ⟨r, hr', hr''⟩ := c86_hard hm h hs ph sf lambda eta ((Fl.lt_fin _ _).1 hc) hJ hr
    refine ⟨n, r, hn, hr', ?_⟩
    rw [← e]
    rw [abs_le] at hn' hr'' ⊢
    constructor <;> linarith [hn'.1, hn'.2, hr''.1, hr''.2]
  | pinf =>
    obtain ⟨-, ir, n, hir, hn, hn'⟩ := (c86_default hm h hs ph sf lambda eta hI).1 hint
    obtain ⟨r, hr', hr''⟩ := (c86_default hm h hs ph sf lambda eta hJ).2
    refine ⟨n, r, hn, hr', ?_⟩
    obtain ⟨-, ir', hir', e⟩ := ht (max (energyMax ps S pt) (deltaRRel * energyMax ps S pt))
      (lt_max_of_lt_left hmax) (le_max_right _ _)
    rw [← nradIr_all (le_max_left _ _) hmax] at hir'
    obtain rfl : ir = ir' := Fl.fin.inj (hir.symm.trans hir')
    rw [soft_all hm (le_max_left _ _), hard_none hm (le_max_left _ _), setIntegral_empty, add_zero] at e
    rw [← e]
    rw [abs_le] at hn' hr'' ⊢
    constructor <;> linarith [hn'.1, hn'.2, hr''.1, hr''.2]

/-- An exact integrator, up to a fixed offset `ε`. -/
noncomputable def offsetIntegrator (ε : ℝ) : Integrator3 := fun f lo hi =>
  ⟨.fin (ε + ∫ p in {p | ∀ i, lo i ≤ p i ∧ p i ≤ hi i}, match f p with | .fin r => r | _ => 0), 0⟩

theorem accurate_offset (ε : ℝ) : Accurate (offsetIntegrator ε) |ε| := by
  intro f g hf _
  refine ⟨_, rfl, ?_⟩
  have : ∫ p in {p : Fin 3 → ℝ | ∀ i, 0 ≤ p i ∧ p i ≤ 1}, (match f p with | .fin r => r | _ => 0)
      = ∫ p in {p : Fin 3 → ℝ | ∀ i, 0 ≤ p i ∧ p i ≤ 1}, g p := by
    refine setIntegral_congr_fun measurableSet_unitCube fun p hp => ?_
    simp only [hf p hp]
  rw [this, add_sub_cancel_right]

/-- C86, C87: the hypotheses are met at a point with a struck-structure model, by integrators with and
without an error, and for every cut-off from a small fraction of the largest energy. -/
example (ph : Phenom) (eta : Vec3) :
    let K := Kinematics.make (finPs samplePs) (.fin 20) (finPt samplePt)
    let k := Kinematics.make samplePs 20 samplePt
    let sf := pointSf samplePt.x (20 * samplePt.x * samplePt.y)
    Accurate (offsetIntegrator 0) 0 ∧ Accurate (offsetIntegrator (-1)) 1 ∧
    ∃ total : ℝ, ∀ c : Fl, .fin 0 < c → .fin (deltaRRel * energyMax samplePs 20 samplePt) ≤ c →
      ∃ n r : ℝ, (nradInteg (offsetIntegrator 0) K k ph sf 1 eta c).val = .fin n ∧
        (radInteg (offsetIntegrator 0) K k ph sf 1 eta c).val = .fin r ∧ n + r = total := by
  intro K k sf
  obtain ⟨hm, h⟩ := sample_accepted
  have hs := sample_samplable
  have h0 : Accurate (offsetIntegrator 0) 0 := by simpa using accurate_offset 0
  have h1 : Accurate (offsetIntegrator (-1)) 1 := by simpa using accurate_offset (-1)
  obtain ⟨total, ht⟩ := c87_cutoff hm h hs ph sf 1 eta (integrable_point hm h hs ph 1 eta)
  refine ⟨h0, h1, total, fun c hc hc' => ?_⟩
  obtain ⟨n, r, e1, e2, e⟩ := ht c hc hc' _ _ 0 0 h0 h0
  refine ⟨n, r, e1, e2, ?_⟩
  have := abs_nonpos_iff.1 (e.trans_eq (add_zero 0))
  linarith

end
end Sidis.Props
