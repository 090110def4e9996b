import Verif.Props.Sampling

/-! # C93: the mean of the generator's densities is the total cross-section -/

namespace Sidis

open Spec Props Density Format Codec MeasureTheory Set
open scoped ENNReal

theorem mass_weigh {j : ℝ} (hj : 0 ≤ j) (xs : Fl) : mass (weigh (.fin j) xs) = counted xs * ENNReal.ofReal j := by
  obtain ⟨r, hr, e, h1, h2⟩ := weigh_nonneg hj xs
  rw [e]
  cases xs with
  | fin x =>
    by_cases hx : 0 ≤ x
    · rw [h1 x rfl hx]
      simp only [mass, counted]
      rw [ENNReal.ofReal_mul hj, mul_comm]
    · rw [h2 fun y q => by cases q; exact not_le.1 hx]
      simp [mass, counted, ENNReal.ofReal_of_nonpos (not_le.1 hx).le]
  | _ =>
    rw [h2 fun y q => by cases q]
    simp [mass, counted]

theorem turn_eq {p : P} {n : String} {b : Bound} (hb : bound p n = .ok b) : arc (b.scale DEG) = turn p n := by
  obtain ⟨lo, hi, ha, rfl⟩ := bound_ok.1 hb
  have hv : lo.toFl ≤ hi.toFl ↔ ((Bound.mk' lo.toFl hi.toFl).scale DEG).valid :=
    ⟨fun hl => by rw [scale_mk'.1 hl]; exact mul_pos_le deg_pos hl, scale_mk'.2⟩
  ext a
  constructor
  · rintro (⟨h1, h2⟩ | ⟨h1, h2⟩)
    · have hl := hv.2 h1
      rw [scale_mk'.1 hl] at h2
      exact ⟨_, _, ha, .inl ⟨hl, h2⟩⟩
    · exact ⟨_, _, ha, .inr ⟨fun q => h1 (hv.1 q), h2⟩⟩
  · rintro ⟨lo', hi', ha', h⟩
    rw [ha] at ha'
    cases ha'
    rcases h with ⟨h1, h2⟩ | ⟨h1, h2⟩
    · refine .inl ⟨hv.1 h1, ?_⟩
      rw [scale_mk'.1 h1]
      exact h2
    · exact .inr ⟨fun q => h1 (hv.2 q), h2⟩

theorem turn_finite {p : P} {n : String} {b : Bound} (hb : bound p n = .ok b) (h : FiniteTurn p n) :
    FiniteAngle (b.scale DEG) := by
  obtain ⟨lo, hi, ha, rfl⟩ := bound_ok.1 hb
  intro hv
  have hl := scale_mk'.2 hv
  obtain ⟨l, u, rfl, rfl⟩ := h lo hi ha hl
  exact ⟨l * deg, u * deg, by rw [scale_mk'.1 hl]; rfl⟩

theorem cut_bounds {p : P} {cut : Cut} (h : cutFromParams p = .ok cut) :
    bound p "cut.Q_sq" = .ok cut.Q_sq ∧ bound p "cut.W_sq" = .ok cut.W_sq ∧
    (∃ b, bound p "cut.phi_h" = .ok b ∧ cut.phi_h = b.scale DEG) ∧
    (∃ b, bound p "cut.phi" = .ok b ∧ cut.phi = b.scale DEG) := by
  unfold cutFromParams at h
  simp only [bind_ok] at h
  obtain ⟨_, h1, _, h2, _, h3, _, h4, _, h5, _, h6, _, h7, _, h8, _, h9, _, h10, _, h11, _, h12, _,
    h13, _, h14, _, h15, _, h16, _, h17, _, h18, h⟩ := h
  cases h
  exact ⟨h7, h9, ⟨_, h5, rfl⟩, ⟨_, h6, rfl⟩⟩

/-- The photon cuts as the parameters state them. -/
theorem photon_cuts {p : P} {c : CutRad} (h : cutRadFromParams p = .ok c)
    (he : actual p "mc.rad.enable" = some (.bool true)) {lo hi s : Dbl}
    (hk : actual p "cut.k_0_bar" = some (.bound lo hi)) (hs : actual p "phys.soft_threshold" = some (.double s))
    (hl : lo.toFl ≤ hi.toFl) (hsoft : s.toFl < hi.toFl) :
    (c.k_0_bar.valid ∧ s.toFl ≤ c.k_0_bar.min) ∧
    (∃ b, bound p "cut.phi_k" = .ok b ∧ c.phi_k = b.scale DEG) ∧
    ∀ k : KinematicsRad Fl, Satisfies (cutRadTable c k) ↔
      (∀ row ∈ photonRows, CutHolds p row.1 row.2.1 (row.2.2 k)) ∧ s.toFl ≤ k.k_0_bar := by
  unfold cutRadFromParams at h
  simp only [bind_ok, fromParams_ok, lookBool_ok] at h
  obtain ⟨b, hb, h⟩ := h
  have hb' : some (Val.bool b) = some (Val.bool true) := hb.symm.trans he
  cases hb'
  simp only [if_true, bind_ok] at h
  obtain ⟨_, h1, _, h2, _, h3, _, h4, _, h5, _, h6, _, h7, h⟩ := h
  cases h
  obtain ⟨lo', hi', hk', rfl⟩ := bound_ok.1 h4
  rw [hk] at hk'
  cases hk'
  obtain ⟨s', hs', rfl⟩ := double_ok.1 h5
  rw [hs] at hs'
  cases hs'
  obtain ⟨v, m, -⟩ := k0_inter (x := Fl.nan) hl hsoft
  have hp : s.toFl ≤ Fl.pinf := by cases hq : s.toFl <;> simp_all
  refine ⟨⟨v, m⟩, ⟨_, h2, rfl⟩, fun k => ?_⟩
  simp only [Satisfies, cutRadTable, photonRows, List.forall_mem_cons, List.not_mem_nil, false_implies,
    implies_true, and_true]
  constructor
  · rintro ⟨s1, s2, s3, s4, s5, s6⟩
    obtain ⟨-, -, e⟩ := k0_inter (x := k.k_0_bar) hl hsoft
    obtain ⟨e1, e2⟩ := e (s4 v)
    refine ⟨⟨holds_one h1 s1, holds_deg h2 s2, holds_one h3 s3, ?_, holds_one h6 s5, holds_deg h7 s6⟩, e2⟩
    intro l u hu _
    rw [hk] at hu
    cases hu
    rw [mul_one_fl, mul_one_fl]
    exact e1
  · rintro ⟨⟨s1, s2, s3, s4, s5, s6⟩, s7⟩
    refine ⟨of_holds_one h1 s1, of_holds_deg h2 s2, of_holds_one h3 s3, fun _ => ?_, of_holds_one h6 s5,
      of_holds_deg h7 s6⟩
    have q := s4 _ _ hk hl
    rw [mul_one_fl, mul_one_fl] at q
    refine (c01_inter_contains _ _ _).2 ⟨(mk'_contains hl).2.2 q, (mk'_contains hp).2.2 ⟨s7, ?_⟩⟩
    cases hx : k.k_0_bar <;> simp_all

theorem setup_massive {p : P} {d : Setup} (h : Setup.make p = .ok d) {ps : Particles ℝ} (hps : d.ps = finPs ps) :
    Massive ps := by
  obtain ⟨i, -, -, -, -, hmk, -⟩ := setup_ok h
  obtain ⟨ps', e, hm, -⟩ := make_fl _ _ _ _ hmk
  rw [hps] at e
  have : ps = ps' := by
    cases ps; cases ps'; simpa [finPs] using e
  exact this ▸ hm

theorem mk'_valid {lo hi : Fl} (hv : (Bound.mk' lo hi).valid) : lo ≤ hi := by
  by_contra hcon
  rw [Bound.mk', if_pos hcon] at hv
  exact invalid_not_valid hv

namespace Props

open Classical in
/-- C93: the mean of the non-radiative density over the unit cube is the total cross-section: the integral
over the points of the phase space that satisfy the cuts of the parameters, with the chosen method for
radiative corrections, at the polarisations of the parameters.  Cross-sections that are negative or not
finite do not count.  (The beam is massive.) -/
theorem c93_nrad_total {p : P} {d : Setup} (h : nradMake p = .ok d) {i : Inputs} (hi : i.Of p)
    {ps : Particles ℝ} (hps : d.ps = finPs ps) (hl : 0 < ps.m) {S : ℝ} (hS : d.S = .fin S)
    (hQ : ∀ lo hi, actual p "cut.Q_sq" = some (.bound lo hi) → lo.toFl ≤ hi.toFl → hi ≠ .pinf)
    (hW : ∀ lo hi, actual p "cut.W_sq" = some (.bound lo hi) → lo.toFl ≤ hi.toFl →
      ∃ w : ℚ, lo = .fin w ∧ 0 < S ^ 2 - 4 * ps.M ^ 2 * ps.m ^ 2 + ps.M ^ 2 * (w - ps.M ^ 2))
    (hh : FiniteTurn p "cut.phi_h") (hf : FiniteTurn p "cut.phi") (F : XsFuns) :
    mean6 (fun u => mass (d.eval F fun i => .fin (u i))) =
    integral6 (turn p "cut.phi_h") (turn p "cut.phi") fun pt =>
      let k := Kinematics.make (finPs ps) (.fin S) (finPt pt)
      if Cut.valid k = true ∧ ∀ row ∈ cutRows, CutHolds p row.1 row.2.1 (row.2.2 k) then
        counted (nradXs F i.rc k i.beamPol.toFl (F.hadronFromTarget k
          ⟨i.targetPol.1.toFl, i.targetPol.2.1.toFl, i.targetPol.2.2.toFl⟩) i.soft.toFl)
      else 0 := by
  have hs := nrad_ok h
  obtain ⟨i', hi', hc, e1, e2, -, -, e3, e4⟩ := setup_ok hs
  obtain rfl := inputs_unique hi hi'
  have hm := setup_massive hs hps
  obtain ⟨bQ, bW, ⟨bh, hbh, eh⟩, ⟨bf, hbf, ef⟩⟩ := cut_bounds hc
  let xs : Kinematics Fl → ℝ≥0∞ := fun k => counted (nradXs F i.rc k i.beamPol.toFl (F.hadronFromTarget k
          ⟨i.targetPol.1.toFl, i.targetPol.2.1.toFl, i.targetPol.2.2.toFl⟩) i.soft.toFl)
  have key := c93_take (S := S) hm hl d.cut
    (by
      intro hv
      obtain ⟨lo, hi, hb, eb⟩ := bound_ok.1 bQ
      rw [eb] at hv ⊢
      have hl := mk'_valid hv
      have := hQ lo hi hb hl
      rw [Bound.mk', if_neg (not_not.2 hl)]
      cases hi <;> simp_all [Dbl.toFl])
    (by
      intro hv
      obtain ⟨lo, hi, hb, eb⟩ := bound_ok.1 bW
      rw [eb] at hv ⊢
      have hl := mk'_valid hv
      obtain ⟨w, rfl, hw⟩ := hW lo hi hb hl
      rw [Bound.mk', if_neg (not_not.2 hl)]
      exact ⟨w, rfl, hw⟩)
    (by rw [eh]; exact turn_finite hbh hh) (by rw [ef]; exact turn_finite hbf hf) xs
  rw [eh, ef, turn_eq hbh, turn_eq hbf] at key
  have hL : mean6 (fun u => mass (d.eval F fun i => .fin (u i))) =
      mean6 (fun u =>
      let t := Cut.takeCut d.cut (finPs ps) (.fin S) fun i => .fin (u i)
      if t.ok = true then xs t.kin * mass t.jac else 0) := by
    refine mean_congr fun a ha => mean_congr fun b hb => mean_congr fun c hc => mean_congr fun d' hd =>
      mean_congr fun e he => mean_congr fun g hg => ?_
    have hu : ∀ i, 0 ≤ (![a, b, c, d', e, g] : Fin 6 → ℝ) i ∧ (![a, b, c, d', e, g] : Fin 6 → ℝ) i ≤ 1 := by
      intro i; fin_cases i <;> assumption
    unfold Setup.eval
    simp only [hps, hS, e1, e2, e3, e4]
    by_cases hok : (Cut.takeCut d.cut (finPs ps) (.fin S) fun i =>
        .fin ((![a, b, c, d', e, g] : Fin 6 → ℝ) i)).ok = true
    · obtain ⟨pt, jx, jy, jz, jt, jh, jp, ha, ek, -, -, -, -, -, -, ej, hj⟩ := c25_jacobian hm d.cut _ hu hok
      simp only [hok, not_true, if_false, if_true, ek, ej]
      exact mass_weigh hj _
    · simp [hok, mass]
  rw [hL, key]
  refine lintegral_congr fun x => lintegral_congr fun y => lintegral_congr fun z => lintegral_congr fun t =>
    lintegral_congr fun h => lintegral_congr fun q => ?_
  refine if_congr ?_ rfl rfl
  rw [c23_cut]
  exact ⟨fun ⟨a, b⟩ => ⟨a, cut_holds hc b⟩, fun ⟨a, b⟩ => ⟨a, (cut_of_holds hc b).1⟩⟩

open Classical in
/-- C93: the mean of the radiative density over the nine-dimensional unit cube is the total radiative
cross-section: the integral over the points that satisfy the cuts of the parameters and have a photon not
softer than the positive threshold.  (The beam is massive; without a mass no radiative point is ever
sampled, C68.) -/
theorem c93_rad_total {p : P} {d : RadSetup} (h : radMake p = .ok d) {i : Inputs} (hi : i.Of p)
    (he : actual p "mc.rad.enable" = some (.bool true)) (h0 : .fin 0 < i.soft.toFl)
    {ps : Particles ℝ} (hps : d.ps = finPs ps) (hl : 0 < ps.m) {S : ℝ} (hS : d.S = .fin S)
    (hQ : ∀ lo hi, actual p "cut.Q_sq" = some (.bound lo hi) → lo.toFl ≤ hi.toFl → hi ≠ .pinf)
    (hW : ∀ lo hi, actual p "cut.W_sq" = some (.bound lo hi) → lo.toFl ≤ hi.toFl →
      ∃ w : ℚ, lo = .fin w ∧ 0 < S ^ 2 - 4 * ps.M ^ 2 * ps.m ^ 2 + ps.M ^ 2 * (w - ps.M ^ 2))
    (hh : FiniteTurn p "cut.phi_h") (hf : FiniteTurn p "cut.phi") (hk : FiniteTurn p "cut.phi_k")
    (F : XsFuns) :
    mean9 (fun u => mass (d.eval F fun i => .fin (u i))) =
    integral6 (turn p "cut.phi_h") (turn p "cut.phi") fun pt =>
      integral3 (turn p "cut.phi_k") fun tau phi_k R =>
      let k := KinematicsRad.make (.make (finPs ps) (.fin S) (finPt pt)) (.fin tau) (.fin phi_k) (.fin R)
      if (Cut.valid k.project = true ∧ Cut.validRad k = true) ∧
          (∀ row ∈ cutRows, CutHolds p row.1 row.2.1 (row.2.2 k.project)) ∧
          (∀ row ∈ photonRows, CutHolds p row.1 row.2.1 (row.2.2 k)) ∧ i.soft.toFl ≤ k.k_0_bar then
        counted (F.rad k i.beamPol.toFl (F.hadronFromTarget k.project
          ⟨i.targetPol.1.toFl, i.targetPol.2.1.toFl, i.targetPol.2.2.toFl⟩))
      else 0 := by
  obtain ⟨hs, hcr, -, lo, hi', hkb, hlk, hsoft⟩ := rad_ok h
  obtain ⟨i', hi', hc, e1, e2, -, -, e3, e4⟩ := setup_ok hs
  obtain rfl := inputs_unique hi hi'
  have hm := setup_massive hs hps
  rw [e2] at hsoft
  obtain ⟨bQ, bW, ⟨bh, hbh, eh⟩, ⟨bf, hbf, ef⟩⟩ := cut_bounds hc
  obtain ⟨⟨kv, km⟩, ⟨bk, hbk, ek⟩, ksat⟩ := photon_cuts hcr he hkb hi.soft hlk hsoft
  let xs : KinematicsRad Fl → ℝ≥0∞ := fun k => counted (F.rad k i.beamPol.toFl (F.hadronFromTarget k.project
          ⟨i.targetPol.1.toFl, i.targetPol.2.1.toFl, i.targetPol.2.2.toFl⟩))
  have km0 : .fin 0 < d.cut_rad.k_0_bar.min := by
    cases hq : i.soft.toFl <;> cases hr : d.cut_rad.k_0_bar.min <;> simp_all
    linarith
  have key := c93_take_rad (S := S) hm hl d.cut d.cut_rad
    (by
      intro hv
      obtain ⟨lo, hi, hb, eb⟩ := bound_ok.1 bQ
      rw [eb] at hv ⊢
      have hl := mk'_valid hv
      have := hQ lo hi hb hl
      rw [Bound.mk', if_neg (not_not.2 hl)]
      cases hi <;> simp_all [Dbl.toFl])
    (by
      intro hv
      obtain ⟨lo, hi, hb, eb⟩ := bound_ok.1 bW
      rw [eb] at hv ⊢
      have hl := mk'_valid hv
      obtain ⟨w, rfl, hw⟩ := hW lo hi hb hl
      rw [Bound.mk', if_neg (not_not.2 hl)]
      exact ⟨w, rfl, hw⟩)
    (by rw [eh]; exact turn_finite hbh hh) (by rw [ef]; exact turn_finite hbf hf)
    (by rw [ek]; exact turn_finite hbk hk) kv km0 xs
  rw [eh, ef, ek, turn_eq hbh, turn_eq hbf, turn_eq hbk] at key
  have hL : mean9 (fun u => mass (d.eval F fun i => .fin (u i))) =
      mean9 (fun u =>
      match Cut.takeRadCut d.cut d.cut_rad (finPs ps) (.fin S) fun i => .fin (u i) with
      | none => 0
      | some t => if t.ok = true then xs t.kin * mass t.jac else 0) := by
    refine mean_congr fun a ha => mean_congr fun b hb => mean_congr fun c hc => mean_congr fun d' hd =>
      mean_congr fun e he' => mean_congr fun g hg => mean_congr fun h' hh => mean_congr fun j hj =>
      mean_congr fun k hk => ?_
    have hu : ∀ n, 0 ≤ (![a, b, c, d', e, g, h', j, k] : Fin 9 → ℝ) n ∧
        (![a, b, c, d', e, g, h', j, k] : Fin 9 → ℝ) n ≤ 1 := by
      intro n; fin_cases n <;> assumption
    obtain ⟨r, jj, hr, hjj, er, -, q⟩ := c47_rad_density h hi he h0 F _ hu
    rw [hps, hS] at q
    have eev : d.eval F (fun n => .fin ((![a, b, c, d', e, g, h', j, k] : Fin 9 → ℝ) n)) = 
      match Cut.takeRadCut d.cut d.cut_rad (finPs ps) (.fin S)
        fun n => .fin ((![a, b, c, d', e, g, h', j, k] : Fin 9 → ℝ) n) with
      | none => .fin 0
      | some t => if ¬ t.ok = true then .fin 0 else weigh t.jac (F.rad t.kin i.beamPol.toFl
        (F.hadronFromTarget t.kin.project
          ⟨i.targetPol.1.toFl, i.targetPol.2.1.toFl, i.targetPol.2.2.toFl⟩)) := by
      unfold RadSetup.eval
      simp only [hps, hS, e3, e4]
      cases Cut.takeRadCut d.cut d.cut_rad (finPs ps) (.fin S)
        fun n => .fin ((![a, b, c, d', e, g, h', j, k] : Fin 9 → ℝ) n) <;> rfl
    dsimp only
    rw [eev]
    cases htk : Cut.takeRadCut d.cut d.cut_rad (finPs ps) (.fin S)
        fun n => .fin ((![a, b, c, d', e, g, h', j, k] : Fin 9 → ℝ) n) with
    | none => simp [mass]
    | some t =>
      rw [htk] at q
      obtain ⟨-, q⟩ := q
      by_cases hok : t.ok = true
      · obtain ⟨ej, -⟩ := q hok
        simp only [hok, not_true, if_false, if_true, ej]
        exact mass_weigh hjj _
      · simp [hok, mass]
  refine hL.trans (Eq.trans ?_ (key.trans ?_))
  · rfl
  refine lintegral_congr fun x => lintegral_congr fun y => lintegral_congr fun z => lintegral_congr fun t =>
    lintegral_congr fun h => lintegral_congr fun q => lintegral_congr fun tau => lintegral_congr fun f =>
    lintegral_congr fun R => ?_
  refine if_congr ?_ rfl rfl
  rw [c23_cuts, c23_cut, c23_cut_rad, ksat]
  exact ⟨fun ⟨⟨a, b⟩, c, e⟩ => ⟨⟨a, c⟩, cut_holds hc b, e⟩,
    fun ⟨⟨a, c⟩, b, e⟩ => ⟨⟨a, (cut_of_holds hc b).1⟩, c, e⟩⟩

theorem sample_turns : ∀ n ∈ ["cut.phi_h", "cut.phi", "cut.phi_k"], FiniteTurn (sampleSetup .exact) n := by
  intro n hn lo hi hb hl
  simp only [List.mem_cons, List.not_mem_nil, or_false] at hn
  rcases hn with rfl | rfl | rfl
  · have : actual (sampleSetup .exact) "cut.phi_h" = some (.bound (.fin (-90)) (.fin 90)) := by decide +kernel
    rw [this] at hb
    cases hb
    exact ⟨_, _, rfl, rfl⟩
  · have : actual (sampleSetup .exact) "cut.phi" = some (.bound .nan .nan) := by decide +kernel
    rw [this] at hb
    cases hb
    simp [Dbl.toFl] at hl
  · have : actual (sampleSetup .exact) "cut.phi_k" = some (.bound .nan .nan) := by decide +kernel
    rw [this] at hb
    cases hb
    simp [Dbl.toFl] at hl

theorem sample_no_cut : ∀ n ∈ ["cut.Q_sq", "cut.W_sq"], ∀ lo hi,
    actual (sampleSetup .exact) n = some (.bound lo hi) → ¬ lo.toFl ≤ hi.toFl := by
  have hb : ∀ n ∈ ["cut.Q_sq", "cut.W_sq"], actual (sampleSetup .exact) n = some (.bound .nan .nan) := by
    decide +kernel
  intro n hn lo hi h hl
  rw [hb n hn] at h
  cases h
  simp [Dbl.toFl] at hl

theorem sample_m : 0 < samplePs.m := by norm_num [samplePs, Lepton.mass, CMath.ofReal]

open Classical in
/-- Non-vacuity: pion production off protons at `S = 20` with radiative corrections; the totals of the
two densities.  (By `sample_positive` and `sample_positive_rad` they are positive at some points if the
cross-sections are.) -/
example (F : XsFuns) :
    (∃ d : Setup, nradMake (sampleSetup .exact) = .ok d ∧
      mean6 (fun u => mass (d.eval F fun i => .fin (u i))) =
      integral6 (turn (sampleSetup .exact) "cut.phi_h") (turn (sampleSetup .exact) "cut.phi") fun pt =>
        let k := Kinematics.make (finPs samplePs) (.fin 20) (finPt pt)
        if Cut.valid k = true ∧ ∀ row ∈ cutRows, CutHolds (sampleSetup .exact) row.1 row.2.1 (row.2.2 k) then
          counted (F.nradInteg k (.fin ((0 : ℚ) : ℝ)) (F.hadronFromTarget k
            ⟨.fin ((0 : ℚ) : ℝ), .fin ((0 : ℚ) : ℝ), .fin ((0 : ℚ) : ℝ)⟩) (.fin ((1 / 100 : ℚ) : ℝ)))
        else 0) ∧
    ∃ d : RadSetup, radMake (sampleSetup .exact) = .ok d ∧
      mean9 (fun u => mass (d.eval F fun i => .fin (u i))) =
      integral6 (turn (sampleSetup .exact) "cut.phi_h") (turn (sampleSetup .exact) "cut.phi") fun pt =>
        integral3 (turn (sampleSetup .exact) "cut.phi_k") fun tau phi_k R =>
        let k := KinematicsRad.make (.make (finPs samplePs) (.fin 20) (finPt pt)) (.fin tau) (.fin phi_k)
          (.fin R)
        if (Cut.valid k.project = true ∧ Cut.validRad k = true) ∧
            (∀ row ∈ cutRows, CutHolds (sampleSetup .exact) row.1 row.2.1 (row.2.2 k.project)) ∧
            (∀ row ∈ photonRows, CutHolds (sampleSetup .exact) row.1 row.2.1 (row.2.2 k)) ∧
            .fin ((1 / 100 : ℚ) : ℝ) ≤ k.k_0_bar then
          counted (F.rad k (.fin ((0 : ℚ) : ℝ)) (F.hadronFromTarget k.project
            ⟨.fin ((0 : ℚ) : ℝ), .fin ((0 : ℚ) : ℝ), .fin ((0 : ℚ) : ℝ)⟩))
        else 0 := by
  obtain ⟨d, hd⟩ := sample_densities.1
  obtain ⟨d', hd'⟩ := sample_densities.2
  obtain ⟨hps, hS, -⟩ := sample_take hd
  have e : d = d'.toSetup := by
    have := nrad_ok hd
    rw [(rad_ok hd').1] at this
    exact (Except.ok.inj this).symm
  refine ⟨⟨d, hd, c93_nrad_total hd (sample_inputs _) hps sample_m hS
    (fun lo hi h hl => absurd hl (sample_no_cut _ (by simp) lo hi h))
    (fun lo hi h hl => absurd hl (sample_no_cut _ (by simp) lo hi h))
    (sample_turns _ (by simp)) (sample_turns _ (by simp)) F⟩, d', hd',
    c93_rad_total hd' (sample_inputs _) (by decide +kernel)
      (by simp only [sampleInputs, Dbl.toFl, Fl.lt_fin]; norm_num)
      (by rw [← e]; exact hps) sample_m (by rw [← e]; exact hS)
      (fun lo hi h hl => absurd hl (sample_no_cut _ (by simp) lo hi h))
      (fun lo hi h hl => absurd hl (sample_no_cut _ (by simp) lo hi h))
      (sample_turns _ (by simp)) (sample_turns _ (by simp)) (sample_turns _ (by simp)) F⟩

end Props

end Sidis
