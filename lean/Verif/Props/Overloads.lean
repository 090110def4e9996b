import Verif.Model.Overloads
import Verif.Props.Phenom
import Verif.Props.Qed
import Verif.Props.PhotonTables

/-! # The functions without phenomenological inputs (C128) -/

namespace Sidis.Props

open Spec Spec.Qed Phen Interp

/-- C128: where the coupling is a number, the functions without phenomenological inputs return one value. -/
theorem c128_born {t : Tables} (ht : Tables.LoopEnds qSqMax t) (k : Kinematics ℝ) (sf : SfFuns) (lambda : ℝ)
    (eta : Vec3) (h1 : qSqBottom ≤ k.Q_sq) (h2 : k.Q_sq ≤ qSqTop) :
    (∃! r, BornReturns t k sf lambda eta r) ∧ (∃! r, AmmReturns t k sf lambda eta r) ∧
      ∀ c, ∃! r, NradIrReturns t k sf lambda eta c r := by
  obtain ⟨⟨a, ha, -⟩, -⟩ := c61_number ht k.Q_sq h1 h2
  have hp : ∀ ph, IsPhenomOf t k ph ↔ ph = ⟨a, deltaVacHad k.Q_sq⟩ := fun ph => by
    obtain ⟨b, d⟩ := ph
    simp only [IsPhenomOf, ha, Res.val.injEq, Fl.fin.injEq, Phenom.mk.injEq]
    exact ⟨fun h => ⟨h.1.symm, h.2⟩, fun h => ⟨h.1.symm, h.2⟩⟩
  simp only [BornReturns, AmmReturns, NradIrReturns, hp, exists_eq_left]
  exact ⟨⟨_, rfl, fun _ h => h⟩, ⟨_, rfl, fun _ h => h⟩, fun c => ⟨_, rfl, fun _ h => h⟩⟩

/-- C128: a point and all its photons are treated with the same phenomenological inputs, so what is proved of sums
of cross-sections with given inputs holds for these functions. -/
theorem c128_same (t : Tables) (k : Kinematics ℝ) (tau phi_k R : ℝ) (ph : Phenom) :
    IsPhenomOf t (KinematicsRad.make k tau phi_k R).project ph ↔ IsPhenomOf t k ph := Iff.rfl

/-- C128: so the soft part is subtracted from `rad` with the Born cross-section of the same function family. -/
theorem c128_infrared {t : Tables} (ht : Tables.LoopEnds qSqMax t) (k : KinematicsRad ℝ) (sf : SfFuns)
    (lambda : ℝ) (eta : Vec3) (h1 : qSqBottom ≤ k.Q_sq) (h2 : k.Q_sq ≤ qSqTop) (hsoft : softStep k = none) :
    ∃ alpha rad radF born, alphaQed t (.fin k.Q_sq) = .val (.fin alpha) ∧ RadReturns t k sf lambda eta rad ∧
      RadFReturns t k sf lambda eta radF ∧ BornReturns t k.project sf lambda eta born ∧
      rad - radF = -(alpha * k.F_IR) / (2 * Real.pi ^ 2 * k.R * k.lambda_Y_sqrt) * born := by
  obtain ⟨⟨a, ha, -⟩, -⟩ := c61_number ht k.Q_sq h1 h2
  let ph : Phenom := ⟨a, deltaVacHad k.Q_sq⟩
  have hp : IsPhenomOf t k.project ph := ⟨ha, rfl⟩
  exact ⟨a, _, _, _, ha, ⟨ph, hp, rfl⟩, ⟨ph, hp, rfl⟩, ⟨ph, hp, rfl⟩, c57_infrared_part k ph sf lambda eta hsoft⟩

open MeasureTheory PhotonInteg in
/-- C128: the photon integrals of the family add up to a cross-section that does not depend on the cut-off, if the
`rad_f` of the family is integrable; and `rad_f_integ` is the integral of that `rad_f`. -/
theorem c128_cutoff {t : Tables} (ht : Tables.LoopEnds qSqMax t) {ps : Particles ℝ} {S : ℝ} {pt : PhaseSpace ℝ}
    (hm : Massive ps) (h : Accepted ps S pt) (hs : Samplable ps S pt) (sf : SfFuns) (lambda : ℝ) (eta : Vec3)
    (h1 : qSqBottom ≤ S * pt.x * pt.y) (h2 : S * pt.x * pt.y ≤ qSqTop) (radF : ℝ × ℝ × ℝ → ℝ)
    (hF : ∀ v, RadFReturns t (.make (.make ps S pt) v.1 v.2.1 v.2.2) sf lambda eta (radF v))
    (hint : IntegrableOn radF (photons ps S pt)) :
    let K := Kinematics.make (finPs ps) (.fin S) (finPt pt)
    let k := Kinematics.make ps S pt
    (∀ (I : Integrator3) (ε : ℝ), Accurate I ε → ∃ e v, RadFIntegReturns t I K k sf lambda eta .pinf ⟨.fin v, e⟩ ∧
      |v - ∫ w in photons ps S pt, radF w| ≤ ε) ∧
    ∃ total : ℝ, ∀ c : Fl, .fin 0 < c → .fin (deltaRRel * energyMax ps S pt) ≤ c →
      ∀ (I J : Integrator3) (ε δ : ℝ), Accurate I ε → Accurate J δ →
        ∃ n r e e', NradIntegReturns t I K k sf lambda eta c ⟨.fin n, e⟩ ∧
          RadIntegReturns t J K k sf lambda eta c ⟨.fin r, e'⟩ ∧ |n + r - total| ≤ ε + δ := by
  intro K k
  obtain ⟨⟨a, ha, -⟩, -⟩ := c61_number ht _ h1 h2
  let ph : Phenom := ⟨a, deltaVacHad (S * pt.x * pt.y)⟩
  have hp : IsPhenomOf t k ph := ⟨ha, rfl⟩
  have hu : ∀ q, IsPhenomOf t k q → q = ph := fun q hq => by
    obtain ⟨b, d⟩ := q
    obtain ⟨e1, e2⟩ := hq
    have e3 : alphaQed t (.fin (S * pt.x * pt.y)) = .val (.fin b) := e1
    rw [ha] at e3
    simp only [Res.val.injEq, Fl.fin.injEq] at e3
    simp only [ph, Phenom.mk.injEq]
    exact ⟨e3.symm, e2⟩
  have hfun : radF = fun v => xsRadF (.make k v.1 v.2.1 v.2.2) ph sf lambda eta := by
    funext v
    obtain ⟨q, hq, e⟩ := hF v
    rw [e, hu q hq]
  subst hfun
  constructor
  · intro I ε hI
    obtain ⟨v, hv, hb⟩ := ((c86_default hm h hs ph sf lambda eta hI).1 hint).1
    exact ⟨_, v, ⟨ph, hp, by rw [← hv]⟩, hb⟩
  · obtain ⟨total, htot⟩ := c87_cutoff hm h hs ph sf lambda eta hint
    refine ⟨total, fun c c0 cm I J ε δ hI hJ => ?_⟩
    obtain ⟨n, r, hn, hr, hb⟩ := htot c c0 cm I J ε δ hI hJ
    exact ⟨n, r, _, _, ⟨ph, hp, by rw [← hn]⟩, ⟨ph, hp, by rw [← hr]⟩, hb⟩

open MeasureTheory PhotonInteg in
/-- The hypotheses of `c128_cutoff` are met at the sample point. -/
example (eta : Vec3) : ∃ t radF, Tables.LoopEnds qSqMax t ∧ Massive samplePs ∧ Accepted samplePs 20 samplePt ∧
    Samplable samplePs 20 samplePt ∧ qSqBottom ≤ 20 * samplePt.x * samplePt.y ∧
    20 * samplePt.x * samplePt.y ≤ qSqTop ∧ IntegrableOn radF (photons samplePs 20 samplePt) ∧
    ∀ v : ℝ × ℝ × ℝ, RadFReturns t (.make (.make samplePs 20 samplePt) v.1 v.2.1 v.2.2)
      (pointSf samplePt.x (20 * samplePt.x * samplePt.y)) 1 eta (radF v) := by
  obtain ⟨t, ht⟩ := exists_end
  obtain ⟨hm, h⟩ := sample_accepted
  have hs := sample_samplable
  have h1 : qSqBottom ≤ 20 * samplePt.x * samplePt.y := by norm_num [qSqBottom, massE, samplePt]
  have h2 : 20 * samplePt.x * samplePt.y ≤ qSqTop := by norm_num [qSqTop, samplePt]
  obtain ⟨⟨a, ha, -⟩, -⟩ := c61_number ht _ h1 h2
  exact ⟨t, _, ht, hm, h, hs, h1, h2,
    integrable_point hm h hs ⟨a, deltaVacHad (20 * samplePt.x * samplePt.y)⟩ 1 eta, fun v =>
      ⟨⟨a, deltaVacHad (20 * samplePt.x * samplePt.y)⟩, ⟨ha, rfl⟩, rfl⟩⟩

private theorem vac_le {Q : ℝ} (hQ : 2 * massE ^ 2 ≤ Q) :
    deltaVacLepTerm Q massE ≤ 2 / 3 * (Real.log (Q / massE ^ 2) - 0.01) := by
  have hm := massE_pos
  have hm2 : 0 < massE ^ 2 := by positivity
  have hQ0 : 0 < Q := by linarith
  rw [← integral_vac hQ0 hm]
  have hb : ∀ x ∈ Set.Icc (0 : ℝ) 1, x * (1 - x) * Real.log (1 + Q * (x * (1 - x)) / massE ^ 2)
      ≤ x * (1 - x) * (Real.log (Q / massE ^ 2) - 0.01) := by
    intro x hx
    have h0 : 0 ≤ x * (1 - x) := mul_nonneg hx.1 (by linarith [hx.2])
    have h4 : x * (1 - x) ≤ 1 / 4 := by nlinarith [sq_nonneg (x - 1 / 2)]
    refine mul_le_mul_of_nonneg_left ?_ h0
    set r := Q / massE ^ 2 with hr
    have hr2 : 2 ≤ r := by rw [hr, le_div_iff₀ hm2]; linarith
    have e1 : Q * (x * (1 - x)) / massE ^ 2 = r * (x * (1 - x)) := by rw [hr]; ring
    rw [e1]
    have e2 : Real.log r - 0.01 = Real.log (r * Real.exp (-0.01)) := by
      rw [Real.log_mul (by positivity) (Real.exp_pos _).ne', Real.log_exp]; ring
    rw [e2]
    refine Real.log_le_log (by nlinarith) ?_
    have := Real.add_one_le_exp (-0.01 : ℝ)
    nlinarith
  have hc : Continuous fun x : ℝ => x * (1 - x) * (Real.log (Q / massE ^ 2) - 0.01) := by fun_prop
  have hi : IntervalIntegrable (fun x : ℝ => x * (1 - x) * Real.log (1 + Q * (x * (1 - x)) / massE ^ 2))
      MeasureTheory.volume 0 1 := by
    refine ContinuousOn.intervalIntegrable fun x hx => ?_
    rw [Set.uIcc_of_le zero_le_one] at hx
    have h0 : 0 ≤ x * (1 - x) := mul_nonneg hx.1 (by linarith [hx.2])
    have : 1 + Q * (x * (1 - x)) / massE ^ 2 ≠ 0 := by positivity
    have hl : ContinuousAt (fun x : ℝ => Real.log (1 + Q * (x * (1 - x)) / massE ^ 2)) x :=
      ContinuousAt.log (by fun_prop) this
    have hp : ContinuousAt (fun x : ℝ => x * (1 - x)) x := by fun_prop
    exact (hp.mul hl).continuousWithinAt
  have hI := intervalIntegral.integral_mono_on zero_le_one hi (hc.intervalIntegrable 0 1) hb
  have e : ∫ x in (0 : ℝ)..1, x * (1 - x) * (Real.log (Q / massE ^ 2) - 0.01)
      = 1 / 6 * (Real.log (Q / massE ^ 2) - 0.01) := by
    rw [intervalIntegral.integral_mul_const]
    congr 1
    have : (fun x : ℝ => x * (1 - x)) = fun x => x - x ^ 2 := by funext x; ring
    rw [this, intervalIntegral.integral_sub (by simp) (by simp), integral_id, integral_pow]
    norm_num
  rw [e] at hI
  linarith

/-- C128: the coupling that these functions supply already contains the vacuum polarisation by electrons. -/
theorem c128_running {t : Tables} (ht : Tables.LoopEnds qSqMax t) {Q a : ℝ} (h1 : 2 * qSqBottom ≤ Q)
    (h2 : Q ≤ qSqTop) (ha : alphaQed t (.fin Q) = .val (.fin a)) :
    (1 / 137.03599) ^ 2 * (1 + 2 * vacuumPolarisation (1 / 137.03599) Q Lepton.e.mass) ≤ a ^ 2 := by
  have hm := massE_pos
  have hb : 2 * massE ^ 2 ≤ Q := h1
  have hm2 : 0 < massE ^ 2 := by positivity
  have hQ0 : 0 < Q := by linarith
  have hpi := Real.pi_pos
  have hfirst : qSqFirst ≤ Q := by
    have : Real.exp 0.01 ≤ 2 := by
      have := Real.exp_bound_div_one_sub_of_interval (x := 0.01) (by norm_num) (by norm_num)
      refine this.trans (by norm_num)
    rw [qSqFirst]
    nlinarith
  have hbot : qSqBottom ≤ Q := by rw [qSqBottom]; linarith
  obtain ⟨a', ha', hlow⟩ := (c61_number ht Q hbot h2).1
  obtain rfl : a' = a := by rw [ha'] at ha; simpa using ha
  have ha0 : 0 < a' := lt_of_lt_of_le (by norm_num) hlow
  have hone := (c61_one_loop ht hfirst h2 ha').2
  have hv := vac_le hb
  rw [show Lepton.e.mass = massE by norm_num [Lepton.mass, CMath.ofReal, massE],
    ← c83_vac_term hQ0 hm]
  set L := Real.log (Q / massE ^ 2) - 0.01 with hL
  set u := L / (3 * Real.pi) with hu
  -- `1 / a ≤ 137 - u`
  have hinv : 0 < 1 / a' := by positivity
  have hL0 : 0 ≤ u := by
    have : 0.01 ≤ Real.log (Q / massE ^ 2) := by
      rw [Real.le_log_iff_exp_le (by positivity), le_div_iff₀ hm2]
      rw [qSqFirst] at hfirst
      linarith
    rw [hu, hL]
    exact div_nonneg (by linarith) (by positivity)
  have hA : 1 ≤ a' * (137.03599 - u) := by
    have := mul_le_mul_of_nonneg_left hone ha0.le
    rwa [mul_one_div_cancel ha0.ne'] at this
  have hw : 0 < 137.03599 - u := lt_of_lt_of_le hinv hone
  have hT : 1 / 137.03599 / Real.pi * deltaVacLepTerm Q massE ≤ 2 * u / 137.03599 := by
    have : 1 / 137.03599 / Real.pi * deltaVacLepTerm Q massE ≤ 1 / 137.03599 / Real.pi * (2 / 3 * L) :=
      mul_le_mul_of_nonneg_left hv (by positivity)
    refine this.trans (le_of_eq ?_)
    rw [hu]
    field_simp
  -- `(1 + 2 u / 137) (137 - u)² ≤ 137²`
  have hs : (1 + 2 * u / 137.03599) * (137.03599 - u) ^ 2 ≤ 137.03599 ^ 2 := by
    have : (1 + 2 * u / 137.03599) * (137.03599 - u) ^ 2
        = 137.03599 ^ 2 - u ^ 2 * (3 - 2 * u / 137.03599) := by ring
    rw [this]
    have : 0 ≤ u ^ 2 * (3 - 2 * u / 137.03599) := mul_nonneg (sq_nonneg u) (by
      have : 2 * u / 137.03599 ≤ 2 := by rw [div_le_iff₀ (by norm_num)]; linarith
      linarith)
    linarith
  have hsq : 1 ≤ a' ^ 2 * (137.03599 - u) ^ 2 := by
    have := one_le_pow₀ hA (n := 2)
    rwa [mul_pow] at this
  have hfin : (1 / 137.03599 : ℝ) ^ 2 * (1 + 2 * u / 137.03599) ≤ a' ^ 2 := by
    have h3 : (0 : ℝ) < (137.03599 - u) ^ 2 := by positivity
    have : (1 / 137.03599 : ℝ) ^ 2 * (1 + 2 * u / 137.03599) * (137.03599 - u) ^ 2
        ≤ a' ^ 2 * (137.03599 - u) ^ 2 := by
      refine le_trans ?_ hsq
      have := mul_le_mul_of_nonneg_left hs (show (0 : ℝ) ≤ (1 / 137.03599) ^ 2 by positivity)
      rw [mul_assoc]
      refine this.trans (le_of_eq ?_)
      norm_num
    exact le_of_mul_le_mul_right this h3
  refine le_trans (mul_le_mul_of_nonneg_left ?_ (by positivity)) hfin
  linarith

private theorem born_coupling (k : Kinematics ℝ) (a b v : ℝ) (hb : b ≠ 0) (sf : SfFuns) (lambda : ℝ) (eta : Vec3) :
    xsBorn k ⟨a, v⟩ sf lambda eta = a ^ 2 / b ^ 2 * xsBorn k ⟨b, v⟩ sf lambda eta := by
  rw [c54_born, c54_born]
  simp only [bornCoeff, Sidis.sq]
  have : a ^ 2 / b ^ 2 * (b * b) = a * a := by field_simp
  linear_combination (-(k.S * (k.S_x * k.S_x) / (8 * k.M * k.ph_l * k.lambda_S)
    * contract (leptonicBorn k) (hadronic k sf eta) lambda)) * this

/-- C128, false as one would expect it: with the inputs that these functions supply, the vacuum polarisation by each
lepton is not included once.  `nrad_ir`, less the anomalous magnetic moment and the vertex, soft photon and hadronic
corrections, is at least the Born cross-section of the coupling at zero momentum with the vacuum polarisation
by electrons counted twice: in the running coupling, and in the correction for leptons. -/
theorem c128_vacuum_once_refuted {t : Tables} (ht : Tables.LoopEnds qSqMax t) {ps : Particles ℝ} {S : ℝ}
    {pt : PhaseSpace ℝ} (hp : Physical ps S pt) (sf : SfFuns) (lambda : ℝ) (eta : Vec3) (c : Fl) (d : ℝ)
    (h1 : 2 * qSqBottom ≤ S * pt.x * pt.y) (h2 : S * pt.x * pt.y ≤ qSqTop)
    (hd : deltaVertRadIr (.make ps S pt) c = .fin d)
    (hb : 0 ≤ xsBorn (.make ps S pt) ⟨1 / 137.03599, deltaVacHad (S * pt.x * pt.y)⟩ sf lambda eta) :
    let pol : Lepton → ℝ := fun l => vacuumPolarisation (1 / 137.03599) (S * pt.x * pt.y) l.mass
    ∃ alpha born amm v, alphaQed t (.fin (S * pt.x * pt.y)) = .val (.fin alpha) ∧
      BornReturns t (.make ps S pt) sf lambda eta born ∧ AmmReturns t (.make ps S pt) sf lambda eta amm ∧
      NradIrReturns t (.make ps S pt) sf lambda eta c (.fin v) ∧
      (1 + 2 * (2 * pol .e + pol .mu + pol .tau))
          * xsBorn (.make ps S pt) ⟨1 / 137.03599, deltaVacHad (S * pt.x * pt.y)⟩ sf lambda eta
        ≤ v - amm - alpha / Real.pi * (d + deltaVacHad (S * pt.x * pt.y)) * born := by
  intro pol
  have hS : 0 < S := lt_of_le_of_lt (by have := hp.m_nonneg; have := hp.M_pos; positivity) hp.beam
  have hQ : 0 < S * pt.x * pt.y := mul_pos (mul_pos hS hp.x_pos) hp.y_pos
  have hbot : qSqBottom ≤ S * pt.x * pt.y := by
    have : 0 < qSqBottom := by have := massE_pos; rw [qSqBottom]; positivity
    linarith
  obtain ⟨a, ha, hlow⟩ := (c61_number ht _ hbot h2).1
  let ph : Phenom := ⟨a, deltaVacHad (S * pt.x * pt.y)⟩
  have hph : IsPhenomOf t (.make ps S pt) ph := ⟨ha, rfl⟩
  refine ⟨a, _, _, _, ha, ⟨ph, hph, rfl⟩, ⟨ph, hph, rfl⟩, ⟨ph, hph, (c55_rescaled_born _ ph sf lambda eta c d hd).symm⟩, ?_⟩
  have hrun : (1 / 137.03599) ^ 2 * (1 + 2 * pol .e) ≤ a ^ 2 := c128_running ht h1 h2 ha
  have hvac : 1 / 137.03599 / Real.pi * deltaVacLep (.make ps S pt) = 2 * (pol .e + pol .mu + pol .tau) :=
    c83_vac hp (1 / 137.03599)
  have hnn := c83_vac_nonneg hp
  have hpi := Real.pi_pos
  have hpol : ∀ l : Lepton, 0 ≤ pol l := fun l => by
    refine mul_nonneg (by positivity) (intervalIntegral.integral_nonneg zero_le_one fun x hx => ?_)
    have hx' : 0 ≤ x * (1 - x) := mul_nonneg hx.1 (by linarith [hx.2])
    refine mul_nonneg hx' (Real.log_nonneg ?_)
    have : 0 ≤ S * pt.x * pt.y * (x * (1 - x)) / l.mass ^ 2 := by positivity
    linarith
  have he := hpol .e
  have hmu := hpol .mu
  have hta := hpol .tau
  have hV : 1 + 2 * (pol .e + pol .mu + pol .tau) ≤ 1 + a / Real.pi * deltaVacLep (.make ps S pt) := by
    have : 1 / 137.03599 / Real.pi * deltaVacLep (.make ps S pt) ≤ a / Real.pi * deltaVacLep (.make ps S pt) := by
      gcongr
    rw [hvac] at this
    linarith
  have hR : 1 + 2 * pol .e ≤ a ^ 2 / (1 / 137.03599) ^ 2 := by
    rw [le_div_iff₀ (by norm_num)]
    linarith
  have hB := born_coupling (.make ps S pt) a (1 / 137.03599) (deltaVacHad (S * pt.x * pt.y)) (by norm_num) sf lambda eta
  set B := xsBorn (.make ps S pt) ⟨1 / 137.03599, deltaVacHad (S * pt.x * pt.y)⟩ sf lambda eta
  have e : (1 + ph.alpha_qed / Real.pi * (d + deltaVacLep (.make ps S pt) + ph.delta_vac_had))
        * xsBorn (.make ps S pt) ph sf lambda eta + xsAmm (.make ps S pt) ph sf lambda eta
        - xsAmm (.make ps S pt) ph sf lambda eta
        - a / Real.pi * (d + deltaVacHad (S * pt.x * pt.y)) * xsBorn (.make ps S pt) ph sf lambda eta
      = (1 + a / Real.pi * deltaVacLep (.make ps S pt)) * (a ^ 2 / (1 / 137.03599) ^ 2) * B := by
    rw [mul_assoc _ _ B, ← hB]
    simp only [ph]
    ring
  rw [e]
  refine mul_le_mul_of_nonneg_right ?_ hb
  calc 1 + 2 * (2 * pol .e + pol .mu + pol .tau) ≤ (1 + 2 * (pol .e + pol .mu + pol .tau)) * (1 + 2 * pol .e) := by nlinarith
    _ ≤ _ := mul_le_mul hV hR (by linarith) (by linarith)

example : ∃ t : Tables, Tables.LoopEnds qSqMax t ∧ Physical samplePs 20 samplePt ∧
    2 * qSqBottom ≤ 20 * samplePt.x * samplePt.y ∧ 20 * samplePt.x * samplePt.y ≤ qSqTop ∧
    (∀ c : Fl, .fin 0 < c → ∃ d, deltaVertRadIr (.make samplePs 20 samplePt) c = .fin d) ∧
    0 < xsBorn (.make samplePs 20 samplePt) ⟨1 / 137.03599, deltaVacHad (20 * samplePt.x * samplePt.y)⟩
      transverseSf 0 .zero := by
  obtain ⟨t, ht⟩ := exists_end
  have hp := sample_physical.2
  refine ⟨t, ht, hp, by norm_num [qSqBottom, massE, samplePt], by norm_num [qSqTop, samplePt], fun c hc => ?_, ?_⟩
  · have h1 : Sidis.sq (Kinematics.make samplePs 20 samplePt).Mth < (Kinematics.make samplePs 20 samplePt).mx_sq :=
      by rw [Sidis.sq, ← pow_two]; exact sample_samplable.room
    have h2 : 0 < (Kinematics.make samplePs 20 samplePt).mx :=
      Real.sqrt_pos.2 (lt_of_le_of_lt (mul_self_nonneg _) h1)
    obtain ⟨_, h⟩ := c56_cutoff_independent (Kinematics.make samplePs 20 samplePt)
      (by norm_num [Kinematics.make, samplePs, Lepton.mass, CMath.ofReal]) h2 h1
    obtain ⟨d, _, hd, -⟩ := h c hc
    exact ⟨d, hd⟩
  · have e := c72_textbook hp (by norm_num [samplePt])
      (by norm_num [samplePs, samplePt, Nucleus.mass, Hadron.mass, CMath.ofReal])
      ⟨1 / 137.03599, deltaVacHad (20 * samplePt.x * samplePt.y)⟩ transverseSf 0 0 0 0
    have hz : (⟨0 * Real.cos (0 - samplePt.phi_h), 0 * Real.sin (0 - samplePt.phi_h), 0⟩ : Vec3) = .zero := by
      simp [Vec3.zero]
    rw [hz] at e
    rw [e]
    have := massive_norm_pos hp (show (1 / 137.03599 : ℝ) ≠ 0 by norm_num)
    simpa [angular, SfValues.at, transverseSf] using this

/-- The hypotheses of `c128_infrared` are met at the sample point, by a photon of half the largest energy. -/
example : ∃ k : KinematicsRad ℝ, qSqBottom ≤ k.Q_sq ∧ k.Q_sq ≤ qSqTop ∧ softStep k = none := by
  obtain ⟨hm, h⟩ := sample_accepted
  have hmx := mx_pos_of_accepted hm h
  have ht : samplePs.M ^ 2 * (0 : ℝ) ^ 2 ≤ 20 * samplePt.y * 0 + 20 * samplePt.x * samplePt.y := by
    norm_num [samplePt]
  have hr := recoil_pos (φ := 0) hm h ht
  have hE : 0 ≤ energyMax samplePs 20 samplePt :=
    div_nonneg (sub_nonneg.2 sample_samplable.room.le) (mul_nonneg zero_le_two (Real.sqrt_nonneg _))
  have hd : deltaRRel ≤ 1 / 2 := by
    unfold deltaRRel
    rw [Real.sqrt_le_left (by norm_num)]
    norm_num
  refine ⟨.make (.make samplePs 20 samplePt) 0 0 (energyMax samplePs 20 samplePt / 2
    * (2 * (Kinematics.make samplePs 20 samplePt).mx) / recoil (.make samplePs 20 samplePt) (0, 0)), ?_, ?_,
    softStep_none hm h ht ?_⟩
  · change qSqBottom ≤ 20 * samplePt.x * samplePt.y
    norm_num [qSqBottom, massE, samplePt]
  · change 20 * samplePt.x * samplePt.y ≤ qSqTop
    norm_num [qSqTop, samplePt]
  · rw [energyBar_eq]
    dsimp only
    rw [mul_div_cancel₀ _ hr.ne', mul_div_cancel_right₀ _ (by positivity)]
    nlinarith

end Sidis.Props
