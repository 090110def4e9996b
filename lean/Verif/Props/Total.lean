import Verif.Spec.Total
import Verif.Props.SamplingXs
import Verif.Props.RandomBias

/-! # C98: the reported cross-sections are those of the phase space under the cuts -/

namespace Sidis.Props

open Spec Density Format Codec Gen StatsLib Lemmas.Random MeasureTheory ProbabilityTheory Set
open scoped ENNReal

variable {S K : Type} [StatsLib S] {Ω : Type} [MeasurableSpace Ω]

theorem fin_mul_fin {v w : ℝ} {e : Fl} (h : Fl.fin w = Fl.fin v * e) : ∃ r, e = .fin r ∧ w = v * r := by
  cases e with
  | fin r => exact ⟨r, rfl, by simpa using h⟩
  | nan => simp at h
  | pinf =>
    simp only [Fl.fin_mul_pinf, Fl.infTimes] at h
    split_ifs at h
  | ninf =>
    simp only [Fl.fin_mul_ninf, Fl.infTimes] at h
    split_ifs at h

/-- The mean weight, divided by the inverse prime, is the integral of the density. -/
theorem mean_weight {U : Type} (P : Measure Ω) [IsProbabilityMeasure P] (lots : Ω → ℕ → ℕ → Lot K)
    (i : ℕ) {μ : Measure ℝ} [IsProbabilityMeasure μ] (h0 : ∀ᵐ w ∂μ, 0 ≤ w)
    (h2 : Integrable (fun w => w ^ 2) μ) (hind : Independent P lots i μ) {prime : ℝ} (hp : 0 < prime)
    {point : Ω → U} {weight : Ω → ℝ} {avg : (U → ℝ≥0∞) → ℝ≥0∞} {f : U → Fl}
    (hfair : Fair P point weight prime avg fun u => mass (f u))
    (hdraw : ∀ᵐ ω ∂P, Fl.fin (lots ω i 0).weight = drawWeight (.fin (weight ω)) (f (point ω))) :
    avg (fun u => mass (f u)) ≠ ⊤ ∧
    (∫ w, w ∂μ) / (1 / prime) = (avg fun u => mass (f u)).toReal := by
  have e1 : ∫⁻ w, ENNReal.ofReal w ∂μ = ∫⁻ ω, ENNReal.ofReal (lots ω i 0).weight ∂P := by
    have hfst : μ = P.map fun ω => (lots ω i 0).weight := by
      have := congrArg (Measure.map Prod.fst) (hind.law 0)
      rw [Measure.map_map measurable_fst (hind.measurable 0), Measure.map_fst_prod] at this
      simp at this
      exact this.symm
    conv_lhs => rw [hfst]
    exact lintegral_map ENNReal.measurable_ofReal (measurable_fst.comp (hind.measurable 0))
  have e2 : ∀ᵐ ω ∂P, ENNReal.ofReal (lots ω i 0).weight =
      ENNReal.ofReal (weight ω) * mass (f (point ω)) := by
    filter_upwards [hfair.nonneg, hdraw] with ω hn hd
    obtain ⟨r, hr, hw⟩ := fin_mul_fin hd
    rw [hr, hw, mass, ENNReal.ofReal_mul hn]
  have e3 := hfair.fair
  rw [← lintegral_congr_ae e2, ← e1] at e3
  have e4 : ENNReal.ofReal (∫ w, w ∂μ) = ∫⁻ w, ENNReal.ofReal w ∂μ :=
    ofReal_integral_eq_lintegral_ofReal (integrable_of_sq h2) h0
  rw [← e4, ← ENNReal.ofReal_mul hp.le] at e3
  rw [← e3]
  refine ⟨ENNReal.ofReal_ne_top, ?_⟩
  rw [ENNReal.toReal_ofReal (mul_nonneg hp.le (integral_nonneg_of_ae h0)), div_div_eq_mul_div, div_one,
    mul_comm]

open Classical in
/-- C98. The cross-section reported for non-radiative events tends to the integral of the differential
cross-section over the phase space allowed by the cuts, as the number of events grows, with probability
one.  The draws are independent, with weights of finite variance; a weight is that of a random point of
the unit cube times the density there, and the points are drawn fairly. -/
theorem c98_nrad (hS : Counts S) (hA : Averages S) (hR : RootMeanSquare S)
    (P : Measure Ω) [IsProbabilityMeasure P] (lots : Ω → ℕ → ℕ → Lot K)
    (gens : List (Gen.EventType × ℝ × ℝ)) (hgens : ∀ g ∈ gens, 0 < g.2.1 ∧ 0 ≤ g.2.2)
    (μ : ℕ → Measure ℝ) (hμ : ∀ i < gens.length, IsProbabilityMeasure (μ i) ∧
      (∀ᵐ w ∂μ i, 0 ≤ w) ∧ Integrable (fun w => w ^ 2) (μ i))
    (hind : ∀ i < gens.length, Independent P lots i (μ i))
    {p : Format.P} {d : Setup} (h : nradMake p = .ok d) {inp : Inputs} (hi : inp.Of p)
    {ps : Particles ℝ} (hps : d.ps = finPs ps) (hl : 0 < ps.m) {s : ℝ} (hs : d.S = .fin s)
    (hQ : ∀ lo hi, actual p "cut.Q_sq" = some (.bound lo hi) → lo.toFl ≤ hi.toFl → hi ≠ .pinf)
    (hW : ∀ lo hi, actual p "cut.W_sq" = some (.bound lo hi) → lo.toFl ≤ hi.toFl →
      ∃ w : ℚ, lo = .fin w ∧ 0 < s ^ 2 - 4 * ps.M ^ 2 * ps.m ^ 2 + ps.M ^ 2 * (w - ps.M ^ 2))
    (hh : FiniteTurn p "cut.phi_h") (hf : FiniteTurn p "cut.phi") (F : XsFuns)
    {i : ℕ} {prime scale : ℝ} (hp : 0 < prime) (hg : gens[i]? = some (.nrad, 1 / prime, scale))
    {point : Ω → Fin 6 → ℝ} {weight : Ω → ℝ}
    (hfair : Fair P point weight prime mean6 fun u => mass (d.eval F fun j => .fin (u j)))
    (hdraw : ∀ᵐ ω ∂P, Fl.fin (lots ω i 0).weight =
      drawWeight (.fin (weight ω)) (d.eval F fun j => .fin (point ω j))) :
    ∃ σ : ℝ, 0 ≤ σ ∧ ENNReal.ofReal σ =
      (integral6 (turn p "cut.phi_h") (turn p "cut.phi") fun pt =>
        let k := Kinematics.make (finPs ps) (.fin s) (finPt pt)
        if Cut.valid k = true ∧ ∀ row ∈ cutRows, CutHolds p row.1 row.2.1 (row.2.2 k) then
          counted (nradXs F inp.rc k inp.beamPol.toFl (F.hadronFromTarget k
            ⟨inp.targetPol.1.toFl, inp.targetPol.2.1.toFl, inp.targetPol.2.2.toFl⟩) inp.soft.toFl)
        else 0) ∧
    ∀ᵐ ω ∂P, ∀ ε > 0, ∃ N : ℕ, ∀ (fuel : ℕ) (numEvents : ℤ) (st : State S (Engine K) K),
      N ≤ numEvents →
      generate (engine K) fuel (loaded gens) numEvents (fresh (lots ω)) = .done st →
      ∀ g : GenTuple S, st.gens[i]? = some g → ∃ v, g.integ.total.integ = .fin v ∧ |v - σ| < ε := by
  have hlen : i < gens.length := by
    by_contra hc
    rw [List.getElem?_eq_none (not_lt.1 hc)] at hg
    cases hg
  obtain ⟨_, h0, h2⟩ := hμ i hlen
  obtain ⟨ht, he⟩ := mean_weight (f := fun u : Fin 6 → ℝ => d.eval F fun j => .fin (u j)) P lots i h0 h2
    (hind i hlen) hp hfair hdraw
  rw [c93_nrad_total h hi hps hl hs hQ hW hh hf F] at ht he
  refine ⟨_, ENNReal.toReal_nonneg, ENNReal.ofReal_toReal ht, ?_⟩
  filter_upwards [c94_converges hS hA hR P lots gens hgens μ hμ hind] with ω hω ε hε
  obtain ⟨N, hN⟩ := hω ε hε
  refine ⟨N, fun fuel n st hn hrun g hgs => ?_⟩
  rw [← he]
  exact hN fuel n st hn hrun i _ g hg hgs

open Classical in
/-- C98. The cross-section reported for radiative events tends to the integral of the differential
cross-section over the phase space allowed by the cuts and above the soft threshold. -/
theorem c98_rad (hS : Counts S) (hA : Averages S) (hR : RootMeanSquare S)
    (P : Measure Ω) [IsProbabilityMeasure P] (lots : Ω → ℕ → ℕ → Lot K)
    (gens : List (Gen.EventType × ℝ × ℝ)) (hgens : ∀ g ∈ gens, 0 < g.2.1 ∧ 0 ≤ g.2.2)
    (μ : ℕ → Measure ℝ) (hμ : ∀ i < gens.length, IsProbabilityMeasure (μ i) ∧
      (∀ᵐ w ∂μ i, 0 ≤ w) ∧ Integrable (fun w => w ^ 2) (μ i))
    (hind : ∀ i < gens.length, Independent P lots i (μ i))
    {p : Format.P} {d : RadSetup} (h : radMake p = .ok d) {inp : Inputs} (hi : inp.Of p)
    (he : actual p "mc.rad.enable" = some (.bool true)) (hsoft : .fin 0 < inp.soft.toFl)
    {ps : Particles ℝ} (hps : d.ps = finPs ps) (hl : 0 < ps.m) {s : ℝ} (hs : d.S = .fin s)
    (hQ : ∀ lo hi, actual p "cut.Q_sq" = some (.bound lo hi) → lo.toFl ≤ hi.toFl → hi ≠ .pinf)
    (hW : ∀ lo hi, actual p "cut.W_sq" = some (.bound lo hi) → lo.toFl ≤ hi.toFl →
      ∃ w : ℚ, lo = .fin w ∧ 0 < s ^ 2 - 4 * ps.M ^ 2 * ps.m ^ 2 + ps.M ^ 2 * (w - ps.M ^ 2))
    (hh : FiniteTurn p "cut.phi_h") (hf : FiniteTurn p "cut.phi") (hk : FiniteTurn p "cut.phi_k")
    (F : XsFuns)
    {i : ℕ} {prime scale : ℝ} (hp : 0 < prime) (hg : gens[i]? = some (.rad, 1 / prime, scale))
    {point : Ω → Fin 9 → ℝ} {weight : Ω → ℝ}
    (hfair : Fair P point weight prime mean9 fun u => mass (d.eval F fun j => .fin (u j)))
    (hdraw : ∀ᵐ ω ∂P, Fl.fin (lots ω i 0).weight =
      drawWeight (.fin (weight ω)) (d.eval F fun j => .fin (point ω j))) :
    ∃ σ : ℝ, 0 ≤ σ ∧ ENNReal.ofReal σ =
      (integral6 (turn p "cut.phi_h") (turn p "cut.phi") fun pt =>
        integral3 (turn p "cut.phi_k") fun tau phi_k R =>
        let k := KinematicsRad.make (.make (finPs ps) (.fin s) (finPt pt)) (.fin tau) (.fin phi_k)
          (.fin R)
        if (Cut.valid k.project = true ∧ Cut.validRad k = true) ∧
            (∀ row ∈ cutRows, CutHolds p row.1 row.2.1 (row.2.2 k.project)) ∧
            (∀ row ∈ photonRows, CutHolds p row.1 row.2.1 (row.2.2 k)) ∧
            inp.soft.toFl ≤ k.k_0_bar then
          counted (F.rad k inp.beamPol.toFl (F.hadronFromTarget k.project
            ⟨inp.targetPol.1.toFl, inp.targetPol.2.1.toFl, inp.targetPol.2.2.toFl⟩))
        else 0) ∧
    ∀ᵐ ω ∂P, ∀ ε > 0, ∃ N : ℕ, ∀ (fuel : ℕ) (numEvents : ℤ) (st : State S (Engine K) K),
      N ≤ numEvents →
      generate (engine K) fuel (loaded gens) numEvents (fresh (lots ω)) = .done st →
      ∀ g : GenTuple S, st.gens[i]? = some g → ∃ v, g.integ.total.integ = .fin v ∧ |v - σ| < ε := by
  have hlen : i < gens.length := by
    by_contra hc
    rw [List.getElem?_eq_none (not_lt.1 hc)] at hg
    cases hg
  obtain ⟨_, h0, h2⟩ := hμ i hlen
  obtain ⟨ht, he'⟩ := mean_weight (f := fun u : Fin 9 → ℝ => d.eval F fun j => .fin (u j)) P lots i h0
    h2 (hind i hlen) hp hfair hdraw
  rw [c93_rad_total h hi he hsoft hps hl hs hQ hW hh hf hk F] at ht he'
  refine ⟨_, ENNReal.toReal_nonneg, ENNReal.ofReal_toReal ht, ?_⟩
  filter_upwards [c94_converges hS hA hR P lots gens hgens μ hμ hind] with ω hω ε hε
  obtain ⟨N, hN⟩ := hω ε hε
  refine ⟨N, fun fuel n st hn hrun g hgs => ?_⟩
  rw [← he']
  exact hN fuel n st hn hrun i _ g hg hgs

/-! ## Non-vacuity -/

theorem integral6_prod {Ah Ap : Set ℝ} {a b c d e g : ℝ → ℝ≥0∞} (ha : Measurable a) (hb : Measurable b)
    (hc : Measurable c) (hd : Measurable d) (he : Measurable e) (hg : Measurable g) :
    integral6 Ah Ap (fun pt => a pt.x * (b pt.y * (c pt.z * (d pt.ph_t_sq * (e pt.phi_h * g pt.phi))))) =
    (∫⁻ x, a x) * ((∫⁻ x, b x) * ((∫⁻ x, c x) * ((∫⁻ x, d x) *
      ((∫⁻ x in Ah, e x) * ∫⁻ x in Ap, g x)))) := by
  have s1 : ∀ C, ∫⁻ u in Ah, ∫⁻ v in Ap, C * (e u * g v) = C * ((∫⁻ x in Ah, e x) * ∫⁻ x in Ap, g x) := by
    intro C
    simp_rw [← mul_assoc C, lintegral_const_mul _ hg]
    rw [lintegral_mul_const _ (he.const_mul C), lintegral_const_mul _ he]
  have s2 : ∀ C, ∫⁻ t, ∫⁻ u in Ah, ∫⁻ v in Ap, C * (d t * (e u * g v)) =
      C * ((∫⁻ x, d x) * ((∫⁻ x in Ah, e x) * ∫⁻ x in Ap, g x)) := by
    intro C
    simp_rw [← mul_assoc C, s1]
    rw [lintegral_mul_const _ (hd.const_mul C), lintegral_const_mul _ hd]
  have s3 : ∀ C, ∫⁻ z, ∫⁻ t, ∫⁻ u in Ah, ∫⁻ v in Ap, C * (c z * (d t * (e u * g v))) =
      C * ((∫⁻ x, c x) * ((∫⁻ x, d x) * ((∫⁻ x in Ah, e x) * ∫⁻ x in Ap, g x))) := by
    intro C
    simp_rw [← mul_assoc C, s2]
    rw [lintegral_mul_const _ (hc.const_mul C), lintegral_const_mul _ hc]
  have s4 : ∀ C, ∫⁻ y, ∫⁻ z, ∫⁻ t, ∫⁻ u in Ah, ∫⁻ v in Ap, C * (b y * (c z * (d t * (e u * g v)))) =
      C * ((∫⁻ x, b x) * ((∫⁻ x, c x) * ((∫⁻ x, d x) * ((∫⁻ x in Ah, e x) * ∫⁻ x in Ap, g x)))) := by
    intro C
    simp_rw [← mul_assoc C, s3]
    rw [lintegral_mul_const _ (hb.const_mul C), lintegral_const_mul _ hb]
  unfold integral6
  simp_rw [s4]
  rw [lintegral_mul_const _ ha]

theorem sample_box {x y z t : ℝ} (f g : ℝ) (hx : 0.3 ≤ x) (hx' : x ≤ 0.31) (hy : 0.6 ≤ y) (hy' : y ≤ 0.601)
    (hz : 0.49 ≤ z) (hz' : z ≤ 0.5) (ht : 0.09 ≤ t) (ht' : t ≤ 0.1) :
    Accepted samplePs 20 ⟨x, y, z, t, f, g⟩ := by
  have hm := sample_accepted.1
  have hxy : 0.3 * 0.6 ≤ x * y := mul_le_mul hx hy (by norm_num) (by linarith)
  have hxy' : x * y ≤ 0.31 * 0.601 := mul_le_mul hx' hy' (by linarith) (by norm_num)
  have hzy : 0.49 * 0.6 ≤ z * y := mul_le_mul hz hy (by norm_num) (by linarith)
  have hzy' : z * y ≤ 0.5 * 0.601 := mul_le_mul hz' hy' (by linarith) (by norm_num)
  have hyy : 0.6 * 0.6 ≤ y * y := mul_le_mul hy hy (by norm_num) (by linarith)
  have hyy' : y * y ≤ 0.601 * 0.601 := mul_le_mul hy' hy' (by linarith) (by norm_num)
  have hxyxy' : (x * y) * (x * y) ≤ (0.31 * 0.601) * (0.31 * 0.601) := mul_le_mul hxy' hxy' (by linarith) (by norm_num)
  have hxyy' : (x * y) * y ≤ (0.31 * 0.601) * 0.601 := mul_le_mul hxy' hy' (by linarith) (by norm_num)
  have hzyzy : (0.49 * 0.6) * (0.49 * 0.6) ≤ (z * y) * (z * y) := mul_le_mul hzy hzy (by norm_num) (by linarith)
  have hzyzy' : (z * y) * (z * y) ≤ (0.5 * 0.601) * (0.5 * 0.601) := mul_le_mul hzy' hzy' (by linarith) (by norm_num)
  have hzyy : (0.49 * 0.6) * 0.6 ≤ (z * y) * y := mul_le_mul hzy hy (by norm_num) (by linarith)
  have hzyy' : (z * y) * y ≤ (0.5 * 0.601) * 0.601 := mul_le_mul hzy' hy' (by linarith) (by norm_num)
  have hp : Physical samplePs 20 ⟨x, y, z, t, f, g⟩ := by
    constructor <;>
    norm_num [samplePs, Nucleus.mass, Lepton.mass, Hadron.mass, CMath.ofReal] <;> linarith
  obtain ⟨h1, h2, -, -, h3, h4, hV⟩ := real_hadron hm.M_pos (by norm_num : (0 : ℝ) < 20)
    hp.x_pos.le hp.y_pos hp.z_pos hp.hadron
  have e : (Kinematics.make samplePs 20 ⟨x, y, z, t, f, g⟩).mx_sq = samplePs.M * samplePs.M +
      (samplePs.mh * samplePs.mh - 20 * x * y -
      2 * (Kinematics.make samplePs 20 ⟨x, y, z, t, f, g⟩).V_m) +
      (1 - z) * (20 * y) := rfl
  rw [hV] at e
  set l := (Kinematics.make samplePs 20 ⟨x, y, z, t, f, g⟩).lambda_Y_sqrt
  set p := (Kinematics.make samplePs 20 ⟨x, y, z, t, f, g⟩).ph_l
  have hl : (12.5 : ℝ) ≤ l ∧ l ≤ 12.9 := by
    norm_num [samplePs, Nucleus.mass, CMath.ofReal] at h3
    constructor <;> by_contra hc <;> push Not at hc
    · have := mul_self_lt_mul_self h4.le hc
      linarith
    · have := mul_self_lt_mul_self (by norm_num) hc
      linarith
  have hpl : (3.05 : ℝ) ≤ p ∧ p ≤ 3.3 := by
    norm_num [samplePs, Nucleus.mass, Hadron.mass, CMath.ofReal] at h2
    constructor <;> by_contra hc <;> push Not at hc
    · have := mul_self_lt_mul_self h1 hc
      linarith
    · have := mul_self_lt_mul_self (by norm_num) hc
      linarith
  have hlp : (12.5 : ℝ) * 3.05 ≤ l * p ∧ l * p ≤ 12.9 * 3.3 :=
    ⟨mul_le_mul hl.1 hpl.1 (by norm_num) h4.le, mul_le_mul hl.2 hpl.2 h1 (by norm_num)⟩
  have hmx : samplePs.Mth ^ 2 ≤ (Kinematics.make samplePs 20 ⟨x, y, z, t, f, g⟩).mx_sq ∧
      (Kinematics.make samplePs 20 ⟨x, y, z, t, f, g⟩).mx_sq ≤
        20 + samplePs.M ^ 2 - samplePs.mh ^ 2 := by
    rw [e]
    norm_num [samplePs, Nucleus.mass, Hadron.mass, CMath.ofReal] at hlp ⊢
    constructor <;> linarith
  constructor
  case missing => exact hmx.1
  case missing_le => exact hmx.2
  case lepton => exact hp.lepton
  case hadron => exact hp.hadron
  all_goals
    norm_num [samplePs, Nucleus.mass, Lepton.mass, Hadron.mass, CMath.ofReal] <;> linarith

/-- The cuts of the sample parameters hold for all points with `phi_h` between 0 and 1. -/
theorem sample_rows {pt : PhaseSpace ℝ} (h0 : 0 ≤ pt.phi_h) (h1 : pt.phi_h ≤ 1) :
    ∀ row ∈ cutRows, CutHolds (sampleSetup .exact) row.1 row.2.1
      (row.2.2 (.make (finPs samplePs) (.fin 20) (finPt pt))) := by
  have hbnd : ∀ n ∈ ["cut.x", "cut.y", "cut.z", "cut.ph_t_sq", "cut.phi", "cut.Q_sq", "cut.t",
      "cut.W_sq", "cut.r", "cut.mx_sq", "cut.qt_to_Q", "cut.lab.mom_q", "cut.lab.mom_k2",
      "cut.lab.mom_h", "cut.lab.theta_q", "cut.lab.theta_k2", "cut.lab.theta_h"],
      actual (sampleSetup .exact) n = some (.bound .nan .nan) := by decide +kernel
  have hphi : actual (sampleSetup .exact) "cut.phi_h" = some (.bound (.fin (-90)) (.fin 90)) := by
    decide +kernel
  have h3 := Real.two_le_pi
  intro row hrow
  by_cases hn : row.1 = "cut.phi_h"
  · have : row = ("cut.phi_h", deg, fun k => k.phi_h) := by
      simp only [cutRows, List.mem_cons, List.not_mem_nil, or_false] at hrow
      rcases hrow with rfl | rfl | rfl | rfl | rfl | rfl | rfl | rfl | rfl | rfl | rfl | rfl |
        rfl | rfl | rfl | rfl | rfl | rfl <;> first | rfl | simp at hn
    subst this
    intro lo hi hb _
    rw [hphi] at hb
    cases hb
    show Fl.fin ((-90 : ℚ) : ℝ) * .fin deg ≤ .fin pt.phi_h ∧
      Fl.fin pt.phi_h ≤ Fl.fin ((90 : ℚ) : ℝ) * .fin deg
    simp only [Fl.mul_fin, Fl.le_fin, deg]
    constructor <;> push_cast <;> linarith
  · intro lo hi hb hl
    have : row.1 ∈ ["cut.x", "cut.y", "cut.z", "cut.ph_t_sq", "cut.phi", "cut.Q_sq", "cut.t",
      "cut.W_sq", "cut.r", "cut.mx_sq", "cut.qt_to_Q", "cut.lab.mom_q", "cut.lab.mom_k2",
      "cut.lab.mom_h", "cut.lab.theta_q", "cut.lab.theta_k2", "cut.lab.theta_h"] := by
      simp only [cutRows, List.mem_cons, List.not_mem_nil, or_false] at hrow
      rcases hrow with rfl | rfl | rfl | rfl | rfl | rfl | rfl | rfl | rfl | rfl | rfl | rfl |
        rfl | rfl | rfl | rfl | rfl | rfl <;> first | exact absurd rfl hn | simp
    rw [hbnd _ this] at hb
    cases hb
    simp [Dbl.toFl] at hl

/-- The angles of the sample parameters: 0 to 1 is among them, and they are bounded. -/
theorem sample_arcs : ∀ n ∈ ["cut.phi_h", "cut.phi", "cut.phi_k"],
    Icc 0 1 ⊆ turn (sampleSetup .exact) n ∧ volume (turn (sampleSetup .exact) n) ≠ ⊤ := by
  have h3 := Real.two_le_pi
  have h1 : actual (sampleSetup .exact) "cut.phi_h" = some (.bound (.fin (-90)) (.fin 90)) := by
    decide +kernel
  have h2 : ∀ n ∈ ["cut.phi", "cut.phi_k"],
      actual (sampleSetup .exact) n = some (.bound .nan .nan) := by decide +kernel
  intro n hn
  constructor
  · intro a ha
    simp only [List.mem_cons, List.not_mem_nil, or_false] at hn
    rcases hn with rfl | hn
    · refine ⟨_, _, h1, .inl ?_⟩
      simp only [Dbl.toFl, Fl.mul_fin, Fl.le_fin, deg]
      refine ⟨by norm_num, ?_, ?_⟩ <;> push_cast <;> linarith [ha.1, ha.2]
    · exact ⟨_, _, h2 n (by simpa using hn), .inr ⟨by simp [Dbl.toFl], by linarith [ha.1],
        by linarith [ha.2]⟩⟩
  · refine (measure_lt_top_of_subset (s := Icc (-Real.pi) Real.pi) (t := turn (sampleSetup .exact) n) ?_ ((isCompact_Icc (a := -Real.pi) (b := Real.pi)).measure_lt_top (μ := volume)).ne).ne
    rintro a ⟨lo, hi, hb, h⟩
    simp only [List.mem_cons, List.not_mem_nil, or_false] at hn
    rcases hn with rfl | hn
    · rw [h1] at hb
      cases hb
      rcases h with ⟨-, h⟩ | h
      · simp only [Dbl.toFl, Fl.mul_fin, Fl.le_fin, deg] at h
        push_cast at h
        exact ⟨by linarith, by linarith⟩
      · exact h.2
    · rw [h2 n (by simpa using hn)] at hb
      cases hb
      rcases h with ⟨h, -⟩ | h
      · simp [Dbl.toFl] at h
      · exact h.2

open Classical in
/-- Cross-sections: one in a box of the phase space, zero outside. -/
noncomputable def boxXs : XsFuns :=
  ⟨fun _ a => a, fun _ _ _ => .fin 1, fun _ _ _ _ => .fin 1,
    fun k _ _ _ => if (.fin 0 ≤ k.x ∧ k.x ≤ .fin 1) ∧ (.fin 0 ≤ k.y ∧ k.y ≤ .fin 1) ∧
      (.fin 0 ≤ k.z ∧ k.z ≤ .fin 1) ∧ (.fin 0 ≤ k.ph_t_sq ∧ k.ph_t_sq ≤ .fin 1) then .fin 1 else .fin 0,
    fun k _ _ => if (.fin 0 ≤ k.x ∧ k.x ≤ .fin 1) ∧ (.fin 0 ≤ k.y ∧ k.y ≤ .fin 1) ∧
      (.fin 0 ≤ k.z ∧ k.z ≤ .fin 1) ∧ (.fin 0 ≤ k.ph_t_sq ∧ k.ph_t_sq ≤ .fin 1) ∧
      (.fin 0 ≤ k.tau ∧ k.tau ≤ .fin 1) ∧ (.fin 0 ≤ k.R ∧ k.R ≤ .fin 1) then .fin 1 else .fin 0⟩

theorem integral6_mono {Ah Ap : Set ℝ} {F G : PhaseSpace ℝ → ℝ≥0∞} (h : ∀ pt, F pt ≤ G pt) :
    integral6 Ah Ap F ≤ integral6 Ah Ap G :=
  lintegral_mono fun _ => lintegral_mono fun _ => lintegral_mono fun _ => lintegral_mono fun _ =>
    lintegral_mono fun _ => lintegral_mono fun _ => h _

/-- A bounded function that vanishes outside of a box has a finite integral. -/
theorem integral6_box {Ah Ap : Set ℝ} (hh : volume Ah ≠ ⊤) (hp : volume Ap ≠ ⊤) {C : ℝ≥0∞} (hC : C ≠ ⊤)
    {F : PhaseSpace ℝ → ℝ≥0∞} (h1 : ∀ pt, F pt ≤ C)
    (h0 : ∀ pt, ¬ (pt.x ∈ Icc (0 : ℝ) 1 ∧ pt.y ∈ Icc (0 : ℝ) 1 ∧ pt.z ∈ Icc (0 : ℝ) 1 ∧
      pt.ph_t_sq ∈ Icc (0 : ℝ) 1) → F pt = 0) : integral6 Ah Ap F ≠ ⊤ := by
  let I : ℝ≥0∞ → ℝ → ℝ≥0∞ := fun c => indicator (Icc (0 : ℝ) 1) fun _ => c
  have hi : ∀ c, Measurable (I c) := fun c => measurable_const.indicator measurableSet_Icc
  have hI : ∀ c, ∫⁻ x, I c x = c := fun c => by
    simp only [I]
    rw [lintegral_indicator measurableSet_Icc]
    simp
  have e := integral6_prod (Ah := Ah) (Ap := Ap) (hi 1) (hi 1) (hi 1) (hi C)
    (measurable_const : Measurable fun _ : ℝ => (1 : ℝ≥0∞))
    (measurable_const : Measurable fun _ : ℝ => (1 : ℝ≥0∞))
  refine ne_top_of_le_ne_top ?_ ((integral6_mono fun pt => ?_).trans e.le)
  · simp only [hI, one_mul, lintegral_const, Measure.restrict_apply_univ]
    exact ENNReal.mul_ne_top hC (ENNReal.mul_ne_top hh hp)
  · by_cases h : pt.x ∈ Icc (0 : ℝ) 1 ∧ pt.y ∈ Icc (0 : ℝ) 1 ∧ pt.z ∈ Icc (0 : ℝ) 1 ∧
      pt.ph_t_sq ∈ Icc (0 : ℝ) 1
    · simp only [I, indicator_of_mem h.1, indicator_of_mem h.2.1, indicator_of_mem h.2.2.1,
        indicator_of_mem h.2.2.2, one_mul, mul_one]
      exact h1 pt
    · rw [h0 pt h]
      exact zero_le

/-- The integral of a function that is one in a box is positive. -/
theorem integral6_pos {Ah Ap : Set ℝ} (hh : Icc 0 1 ⊆ Ah) (hp : Icc 0 1 ⊆ Ap)
    {F : PhaseSpace ℝ → ℝ≥0∞}
    (h : ∀ pt, pt.x ∈ Icc (0.3 : ℝ) 0.31 → pt.y ∈ Icc (0.6 : ℝ) 0.601 → pt.z ∈ Icc (0.49 : ℝ) 0.5 →
      pt.ph_t_sq ∈ Icc (0.09 : ℝ) 0.1 → pt.phi_h ∈ Icc (0 : ℝ) 1 → 1 ≤ F pt) : 0 < integral6 Ah Ap F := by
  let I : Set ℝ → ℝ → ℝ≥0∞ := fun s => indicator s fun _ => 1
  have hi : ∀ a b, Measurable (I (Icc a b)) := fun a b => measurable_const.indicator measurableSet_Icc
  have hI : ∀ a b, ∫⁻ x, I (Icc a b) x = ENNReal.ofReal (b - a) := fun a b => by
    simp only [I]
    rw [lintegral_indicator measurableSet_Icc]
    simp
  have hA : ∀ A : Set ℝ, Icc 0 1 ⊆ A → 0 < ∫⁻ x in A, I (Icc 0 1) x := fun A hA => by
    refine lt_of_lt_of_le ?_ (lintegral_mono_set hA)
    simp only [I]
    rw [lintegral_indicator measurableSet_Icc, Measure.restrict_restrict measurableSet_Icc]
    simp
  have e := integral6_prod (Ah := Ah) (Ap := Ap) (hi 0.3 0.31) (hi 0.6 0.601) (hi 0.49 0.5)
    (hi 0.09 0.1) (hi 0 1) (hi 0 1)
  refine lt_of_lt_of_le ?_ (e.ge.trans (integral6_mono fun pt => ?_))
  · simp only [hI]
    refine ENNReal.mul_pos ?_ (ENNReal.mul_pos ?_ (ENNReal.mul_pos ?_ (ENNReal.mul_pos ?_
      (ENNReal.mul_pos (hA _ hh).ne' (hA _ hp).ne').ne').ne').ne').ne' <;>
    · rw [ne_eq, ENNReal.ofReal_eq_zero]
      norm_num
  · by_cases hb : pt.x ∈ Icc (0.3 : ℝ) 0.31 ∧ pt.y ∈ Icc (0.6 : ℝ) 0.601 ∧ pt.z ∈ Icc (0.49 : ℝ) 0.5 ∧
      pt.ph_t_sq ∈ Icc (0.09 : ℝ) 0.1 ∧ pt.phi_h ∈ Icc (0 : ℝ) 1 ∧ pt.phi ∈ Icc (0 : ℝ) 1
    · obtain ⟨h1, h2, h3, h4, h5, h6⟩ := hb
      simp only [I, indicator_of_mem h1, indicator_of_mem h2, indicator_of_mem h3,
        indicator_of_mem h4, indicator_of_mem h5, indicator_of_mem h6, mul_one]
      exact h pt h1 h2 h3 h4 h5
    · refine le_of_eq_of_le ?_ zero_le
      simp only [not_and_or] at hb
      rcases hb with hb | hb | hb | hb | hb | hb <;> simp [I, indicator_of_notMem hb]

theorem mean_zero {F : ℝ → ℝ≥0∞} (h : ∀ p ∈ Icc (0 : ℝ) 1, F p = 0) : Spec.mean F = 0 := by
  unfold Spec.mean
  rw [setLIntegral_congr_fun measurableSet_Icc h]
  simp

theorem mean6_ne_zero {F : (Fin 6 → ℝ) → ℝ≥0∞} (h : mean6 F ≠ 0) :
    ∃ u : Fin 6 → ℝ, (∀ i, 0 ≤ u i ∧ u i ≤ 1) ∧ F u ≠ 0 := by
  by_contra hc
  push Not at hc
  refine h (mean_zero fun a ha => mean_zero fun b hb => mean_zero fun c hc' => mean_zero fun d hd =>
    mean_zero fun e he => mean_zero fun f hf => hc _ ?_)
  intro i
  fin_cases i <;> assumption

theorem mean9_ne_zero {F : (Fin 9 → ℝ) → ℝ≥0∞} (h : mean9 F ≠ 0) :
    ∃ u : Fin 9 → ℝ, (∀ i, 0 ≤ u i ∧ u i ≤ 1) ∧ F u ≠ 0 := by
  by_contra hc
  push Not at hc
  refine h (mean_zero fun a ha => mean_zero fun b hb => mean_zero fun c hc' => mean_zero fun d hd =>
    mean_zero fun e he => mean_zero fun f hf => mean_zero fun g hg => mean_zero fun x hx =>
    mean_zero fun y hy => hc _ ?_)
  intro i
  fin_cases i <;> assumption

/-- The random histories in which the weights from generator `i` are `2 T i` or nothing. -/
noncomputable def tossP (T : ℕ → ℝ) : Measure (ℕ × ℕ → ℝ × ℝ) := Measure.infinitePi fun q =>
  (coin (1 / 2) (2 * T q.1)).prod (volume.restrict (Set.Ioc (0 : ℝ) 1))

instance (T : ℕ → ℝ) (i : ℕ) : IsProbabilityMeasure (coin (1 / 2) (2 * T i)) :=
  coin_prob (by norm_num) (by norm_num)

instance (T : ℕ → ℝ) : IsProbabilityMeasure (tossP T) := by unfold tossP; infer_instance

theorem toss_fair {k : ℕ} {T : ℕ → ℝ} (i : ℕ) (hT : 0 ≤ T i) {f : (Fin k → ℝ) → Fl}
    {avg : ((Fin k → ℝ) → ℝ≥0∞) → ℝ≥0∞} {u : Fin k → ℝ} {e : ℝ} (he : 0 ≤ e) (hf : f u = .fin e)
    (h0 : e = 0 → T i = 0) (ha : avg (fun u => mass (f u)) = ENNReal.ofReal (T i)) :
    Fair (tossP T) (fun _ => u) (fun ω => (ω (i, 0)).1 / e) 1 avg (fun u => mass (f u)) ∧
    ∀ᵐ ω ∂tossP T, Fl.fin (exLots ω i 0).weight = drawWeight (.fin ((ω (i, 0)).1 / e)) (f u) := by
  have hind := independent_draws (fun i => coin (1 / 2) (2 * T i)) i
  have hmap : (tossP T).map (fun ω => (ω (i, 0)).1) = coin (1 / 2) (2 * T i) := by
    have := congrArg (Measure.map Prod.fst) (hind.law 0)
    rw [Measure.map_map measurable_fst (hind.measurable 0), Measure.map_fst_prod] at this
    simpa [tossP, Function.comp_def] using this
  have hm : Measurable fun ω : ℕ × ℕ → ℝ × ℝ => (ω (i, 0)).1 :=
    measurable_fst.comp (measurable_pi_apply (i, 0))
  have hnn : ∀ᵐ ω ∂tossP T, 0 ≤ (ω (i, 0)).1 := by
    have := coin_nonneg (a := 1 / 2) (w := 2 * T i) (by linarith)
    rw [← hmap] at this
    exact ae_of_ae_map hm.aemeasurable this
  have hz : e = 0 → ∀ᵐ ω ∂tossP T, (ω (i, 0)).1 = 0 := by
    intro h
    have : ∀ᵐ v ∂coin (1 / 2) (2 * T i), v = 0 := by
      rw [h0 h, mul_zero]
      unfold coin
      rw [ae_add_measure_iff]
      constructor <;> refine Measure.ae_smul_measure ?_ _ <;> simp [ae_dirac_eq]
    rw [← hmap] at this
    exact ae_of_ae_map hm.aemeasurable this
  have hw : ∀ᵐ ω ∂tossP T, (ω (i, 0)).1 / e * e = (ω (i, 0)).1 := by
    by_cases h : e = 0
    · filter_upwards [hz h] with ω hω
      rw [hω, zero_div, zero_mul]
    · exact .of_forall fun ω => div_mul_cancel₀ _ h
  refine ⟨⟨?_, ?_⟩, ?_⟩
  · filter_upwards [hnn] with ω hω using div_nonneg hω he
  · have e1 : ∀ᵐ ω ∂tossP T, ENNReal.ofReal ((ω (i, 0)).1 / e) * mass (f u) =
        ENNReal.ofReal (ω (i, 0)).1 := by
      filter_upwards [hw, hnn] with ω hω hn
      rw [hf, mass, ← ENNReal.ofReal_mul (div_nonneg hn he), hω]
    rw [lintegral_congr_ae e1, ENNReal.ofReal_one, one_mul, ha,
      ← lintegral_map (f := ENNReal.ofReal) ENNReal.measurable_ofReal hm, hmap,
      ← ofReal_integral_eq_lintegral_ofReal (coin_integrable _ _ _) (coin_nonneg (by linarith)),
      coin_integral (by norm_num) (by norm_num) fun v => v]
    congr 1
    ring
  · filter_upwards [hw] with ω hω
    rw [hf, drawWeight, Fl.mul_fin, hω]
    rfl

/-- The sums over the phase space for the sample parameters. -/
noncomputable def boxTotal : ℝ≥0∞ :=
  open Classical in
  integral6 (turn (sampleSetup .exact) "cut.phi_h") (turn (sampleSetup .exact) "cut.phi") fun pt =>
    let k := Kinematics.make (finPs samplePs) (.fin 20) (finPt pt)
    if Cut.valid k = true ∧ ∀ row ∈ cutRows, CutHolds (sampleSetup .exact) row.1 row.2.1 (row.2.2 k) then
      counted (nradXs boxXs .exact k (.fin ((0 : ℚ) : ℝ)) (boxXs.hadronFromTarget k
        ⟨.fin ((0 : ℚ) : ℝ), .fin ((0 : ℚ) : ℝ), .fin ((0 : ℚ) : ℝ)⟩) (.fin ((1 / 100 : ℚ) : ℝ)))
    else 0

@[inherit_doc boxTotal] noncomputable def boxTotalRad : ℝ≥0∞ :=
  open Classical in
  integral6 (turn (sampleSetup .exact) "cut.phi_h") (turn (sampleSetup .exact) "cut.phi") fun pt =>
    integral3 (turn (sampleSetup .exact) "cut.phi_k") fun tau phi_k R =>
    let k := KinematicsRad.make (.make (finPs samplePs) (.fin 20) (finPt pt)) (.fin tau) (.fin phi_k)
      (.fin R)
    if (Cut.valid k.project = true ∧ Cut.validRad k = true) ∧
        (∀ row ∈ cutRows, CutHolds (sampleSetup .exact) row.1 row.2.1 (row.2.2 k.project)) ∧
        (∀ row ∈ photonRows, CutHolds (sampleSetup .exact) row.1 row.2.1 (row.2.2 k)) ∧
        .fin ((1 / 100 : ℚ) : ℝ) ≤ k.k_0_bar then
      counted (boxXs.rad k (.fin ((0 : ℚ) : ℝ)) (boxXs.hadronFromTarget k.project
        ⟨.fin ((0 : ℚ) : ℝ), .fin ((0 : ℚ) : ℝ), .fin ((0 : ℚ) : ℝ)⟩))
    else 0

theorem boxTotal_fin : 0 < boxTotal ∧ boxTotal ≠ ⊤ := by
  constructor
  · refine integral6_pos (sample_arcs _ (by simp)).1 (sample_arcs _ (by simp)).1 ?_
    rintro ⟨x, y, z, t, f, g⟩ hx hy hz ht hf
    have ha := sample_box f g hx.1 hx.2 hy.1 hy.2 hz.1 hz.2 ht.1 ht.2
    have hv := (valid_iff sample_accepted.1).2 ha
    dsimp only
    rw [if_pos ⟨hv, sample_rows (pt := ⟨x, y, z, t, f, g⟩) hf.1 hf.2⟩]
    have : nradXs boxXs .exact (Kinematics.make (finPs samplePs) (.fin 20) (finPt ⟨x, y, z, t, f, g⟩))
        (.fin ((0 : ℚ) : ℝ)) (boxXs.hadronFromTarget (Kinematics.make (finPs samplePs) (.fin 20)
          (finPt ⟨x, y, z, t, f, g⟩))
        ⟨.fin ((0 : ℚ) : ℝ), .fin ((0 : ℚ) : ℝ), .fin ((0 : ℚ) : ℝ)⟩) (.fin ((1 / 100 : ℚ) : ℝ)) = .fin 1 := by
      refine if_pos ⟨⟨?_, ?_⟩, ⟨?_, ?_⟩, ⟨?_, ?_⟩, ⟨?_, ?_⟩⟩ <;> show (_ : ℝ) ≤ _ <;>
        simp only [mem_Icc] at hx hy hz ht <;> linarith
    rw [this]
    simp [counted]
  · refine integral6_box (sample_arcs _ (by simp)).2 (sample_arcs _ (by simp)).2 ENNReal.one_ne_top
      (fun pt => ?_) fun pt hn => ?_
    · dsimp only
      split_ifs
      · show counted (ite _ _ _) ≤ 1
        split_ifs <;> simp [counted]
      · exact zero_le
    · dsimp only
      split_ifs
      · show counted (ite _ _ _) = 0
        rw [if_neg]
        · simp [counted]
        · rintro ⟨⟨a, b⟩, ⟨c, d⟩, ⟨e, f⟩, ⟨g, h⟩⟩
          exact hn ⟨⟨a, b⟩, ⟨c, d⟩, ⟨e, f⟩, ⟨g, h⟩⟩
      · rfl

theorem boxTotalRad_fin : boxTotalRad ≠ ⊤ := by
  refine integral6_box (sample_arcs _ (by simp)).2 (sample_arcs _ (by simp)).2
    (C := volume (turn (sampleSetup .exact) "cut.phi_k")) (sample_arcs _ (by simp)).2
    (fun pt => ?_) fun pt hn => ?_
  · let I : ℝ → ℝ≥0∞ := indicator (Icc (0 : ℝ) 1) fun _ => 1
    have hI : ∫⁻ x, I x = 1 := by
      simp only [I]
      rw [lintegral_indicator measurableSet_Icc]
      simp
    have hi : Measurable I := measurable_const.indicator measurableSet_Icc
    have e : integral3 (turn (sampleSetup .exact) "cut.phi_k") (fun tau _ R => I tau * I R) =
        volume (turn (sampleSetup .exact) "cut.phi_k") := by
      unfold integral3
      simp_rw [lintegral_const_mul _ hi, hI, mul_one, lintegral_const, Measure.restrict_apply_univ]
      rw [lintegral_mul_const _ hi, hI, one_mul]
    refine le_trans ?_ e.le
    refine lintegral_mono fun tau => lintegral_mono fun phi_k => lintegral_mono fun R => ?_
    dsimp only
    split_ifs
    · show counted (ite _ _ _) ≤ _
      split_ifs with h
      · obtain ⟨-, -, -, -, ⟨a, b⟩, ⟨c, d⟩⟩ := h
        have m1 : tau ∈ Icc (0 : ℝ) 1 := ⟨a, b⟩
        have m2 : R ∈ Icc (0 : ℝ) 1 := ⟨c, d⟩
        simp [counted, I, indicator_of_mem m1, indicator_of_mem m2]
      · simp [counted]
    · exact zero_le
  · have : ∀ tau phi_k R : ℝ, _ = (0 : ℝ≥0∞) := fun tau phi_k R => by
      have : boxXs.rad (KinematicsRad.make (.make (finPs samplePs) (.fin 20) (finPt pt)) (.fin tau)
          (.fin phi_k) (.fin R)) (.fin ((0 : ℚ) : ℝ)) (boxXs.hadronFromTarget (KinematicsRad.make
          (.make (finPs samplePs) (.fin 20) (finPt pt)) (.fin tau) (.fin phi_k) (.fin R)).project
        ⟨.fin ((0 : ℚ) : ℝ), .fin ((0 : ℚ) : ℝ), .fin ((0 : ℚ) : ℝ)⟩) = .fin 0 := by
        refine if_neg ?_
        rintro ⟨⟨a, b⟩, ⟨c, d⟩, ⟨e, f⟩, ⟨g, h⟩, -⟩
        exact hn ⟨⟨a, b⟩, ⟨c, d⟩, ⟨e, f⟩, ⟨g, h⟩⟩
      exact congrArg counted this |>.trans (by simp [counted])
    unfold integral3
    simp only [this, ite_self, lintegral_zero]

/-- The hypotheses of C98 hold: pion production off protons, with a cross-section of one in a box of the
phase space.  The cross-sections reported for the two types of events come as near as one likes to the
two integrals, the first of which is positive. -/
example : ∃ σ σ' : ℝ, 0 < σ ∧ ENNReal.ofReal σ = boxTotal ∧ ENNReal.ofReal σ' = boxTotalRad ∧
    ∃ P : Measure (ℕ × ℕ → ℝ × ℝ), IsProbabilityMeasure P ∧
    ∀ᵐ ω ∂P, ∀ ε > 0, ∃ N : ℕ, ∀ (fuel : ℕ) (numEvents : ℤ)
      (s : State Lemmas.Bag (Engine Unit) Unit), N ≤ numEvents →
      generate (engine Unit) fuel (loaded [(.nrad, 1 / 1, 0), (.rad, 1 / 1, 0)]) numEvents
        (fresh (exLots ω)) = .done s →
      ∀ g₁ g₂, s.gens = [g₁, g₂] → (∃ v, g₁.integ.total.integ = .fin v ∧ |v - σ| < ε) ∧
        ∃ v, g₂.integ.total.integ = .fin v ∧ |v - σ'| < ε := by
  obtain ⟨d, hd⟩ := sample_densities.1
  obtain ⟨d', hd'⟩ := sample_densities.2
  obtain ⟨hps, hS, -⟩ := sample_take hd
  have ed : d = d'.toSetup := by
    have := nrad_ok hd
    rw [(rad_ok hd').1] at this
    exact (Except.ok.inj this).symm
  have hsoft : .fin 0 < (sampleInputs .exact).soft.toFl := by
    simp only [sampleInputs, Dbl.toFl, Fl.lt_fin]; norm_num
  have hrad : actual (sampleSetup .exact) "mc.rad.enable" = some (.bool true) := by decide +kernel
  have hQ := fun lo hi h hl => (sample_no_cut "cut.Q_sq" (by simp) lo hi h) hl
  have hW := fun lo hi h hl => (sample_no_cut "cut.W_sq" (by simp) lo hi h) hl
  have hh := sample_turns "cut.phi_h" (by simp)
  have hf := sample_turns "cut.phi" (by simp)
  have hk := sample_turns "cut.phi_k" (by simp)
  have t1 : mean6 (fun u => mass (d.eval boxXs fun i => .fin (u i))) = boxTotal :=
    c93_nrad_total hd (sample_inputs _) hps sample_m hS
      (fun lo hi h hl => (hQ lo hi h hl).elim) (fun lo hi h hl => (hW lo hi h hl).elim) hh hf boxXs
  have t2 : mean9 (fun u => mass (d'.eval boxXs fun i => .fin (u i))) = boxTotalRad :=
    c93_rad_total hd' (sample_inputs _) hrad hsoft (by rw [← ed]; exact hps) sample_m
      (by rw [← ed]; exact hS)
      (fun lo hi h hl => (hQ lo hi h hl).elim) (fun lo hi h hl => (hW lo hi h hl).elim) hh hf hk boxXs
  let T : ℕ → ℝ := fun i => if i = 0 then boxTotal.toReal else boxTotalRad.toReal
  have hT : ∀ i, 0 ≤ T i := by
    intro i
    simp only [T]
    split_ifs <;> exact ENNReal.toReal_nonneg
  have e1 : ENNReal.ofReal (T 0) = boxTotal := ENNReal.ofReal_toReal boxTotal_fin.2
  have e2 : ENNReal.ofReal (T 1) = boxTotalRad := ENNReal.ofReal_toReal boxTotalRad_fin
  obtain ⟨u, hu, hu0⟩ := mean6_ne_zero (t1.trans_ne boxTotal_fin.1.ne')
  obtain ⟨e, -, he, -, ef, -⟩ := c47_nrad_density hd (sample_inputs _) boxXs u hu
  have p1 := toss_fair 0 (hT 0) (f := fun u : Fin 6 → ℝ => d.eval boxXs fun i => .fin (u i)) he ef
    (fun h => absurd (by rw [ef, h]; simp [mass]) hu0) (t1.trans e1.symm)
  obtain ⟨u', e', he', ef', he0⟩ : ∃ (u' : Fin 9 → ℝ) (e' : ℝ), 0 ≤ e' ∧
      d'.eval boxXs (fun i => .fin (u' i)) = .fin e' ∧ (e' = 0 → T 1 = 0) := by
    by_cases h0 : boxTotalRad = 0
    · obtain ⟨e, -, he, -, ef, -⟩ := c47_rad_density hd' (sample_inputs _) hrad hsoft boxXs (fun _ => 0)
        (by simp)
      exact ⟨_, e, he, ef, fun _ => by simp [T, h0]⟩
    · obtain ⟨u, hu, hu0⟩ := mean9_ne_zero (t2.trans_ne h0)
      obtain ⟨e, -, he, -, ef, -⟩ := c47_rad_density hd' (sample_inputs _) hrad hsoft boxXs u hu
      exact ⟨u, e, he, ef, fun h => absurd (by rw [ef, h]; simp [mass]) hu0⟩
  have p2 := toss_fair 1 (hT 1) (f := fun u : Fin 9 → ℝ => d'.eval boxXs fun i => .fin (u i)) he' ef'
    he0 (t2.trans e2.symm)
  have hg : ∀ g ∈ [((Gen.EventType.nrad, 1 / 1, 0) : Gen.EventType × ℝ × ℝ), (.rad, 1 / 1, 0)],
      0 < g.2.1 ∧ 0 ≤ g.2.2 := by
    intro g hg
    simp only [List.mem_cons, List.not_mem_nil, or_false] at hg
    rcases hg with rfl | rfl <;> norm_num
  have hμ : ∀ i < [((Gen.EventType.nrad, 1 / 1, 0) : Gen.EventType × ℝ × ℝ), (.rad, 1 / 1, 0)].length,
      IsProbabilityMeasure (coin (1 / 2) (2 * T i)) ∧ (∀ᵐ w ∂coin (1 / 2) (2 * T i), 0 ≤ w) ∧
      Integrable (fun w => w ^ 2) (coin (1 / 2) (2 * T i)) :=
    fun i _ => ⟨inferInstance, coin_nonneg (by linarith [hT i]), coin_integrable _ _ _⟩
  have hind : ∀ i < [((Gen.EventType.nrad, 1 / 1, 0) : Gen.EventType × ℝ × ℝ), (.rad, 1 / 1, 0)].length,
      Independent (tossP T) exLots i (coin (1 / 2) (2 * T i)) :=
    fun i _ => independent_draws (fun i => coin (1 / 2) (2 * T i)) i
  obtain ⟨σ, hσ, eσ, r1⟩ := c98_nrad Lemmas.Bag.counts Lemmas.Bag.averages Lemmas.Bag.rms (tossP T)
    exLots _ hg _ hμ hind hd (sample_inputs _) hps sample_m hS
    (fun lo hi h hl => (hQ lo hi h hl).elim) (fun lo hi h hl => (hW lo hi h hl).elim) hh hf boxXs
    one_pos (i := 0) rfl p1.1 p1.2
  obtain ⟨σ', -, eσ', r2⟩ := c98_rad Lemmas.Bag.counts Lemmas.Bag.averages Lemmas.Bag.rms (tossP T)
    exLots _ hg _ hμ hind hd' (sample_inputs _) hrad hsoft (by rw [← ed]; exact hps) sample_m
    (by rw [← ed]; exact hS)
    (fun lo hi h hl => (hQ lo hi h hl).elim) (fun lo hi h hl => (hW lo hi h hl).elim) hh hf hk boxXs
    one_pos (i := 1) rfl p2.1 p2.2
  refine ⟨σ, σ', ?_, eσ, eσ', tossP T, inferInstance, ?_⟩
  · have h1 : ENNReal.ofReal σ = boxTotal := eσ
    have h2 := boxTotal_fin.1
    rw [← h1] at h2
    exact ENNReal.ofReal_pos.1 h2
  · filter_upwards [r1, r2] with ω h1 h2 ε hε
    obtain ⟨N, hN⟩ := h1 ε hε
    obtain ⟨N', hN'⟩ := h2 ε hε
    refine ⟨max N N', fun fuel n s hn hrun g₁ g₂ hgs => ⟨?_, ?_⟩⟩
    · exact hN fuel n s (le_trans (by exact_mod_cast le_max_left N N') hn) hrun g₁ (by rw [hgs]; rfl)
    · exact hN' fuel n s (le_trans (by exact_mod_cast le_max_right N N') hn) hrun g₂ (by rw [hgs]; rfl)

end Sidis.Props
