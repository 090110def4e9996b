import Verif.Lemmas.Density
import Verif.Props.Format

/-! # Properties of the event densities (C47) -/

namespace Sidis.Props

open Sidis.Codec Sidis.Format Sidis.Density Spec

/-! ## Construction -/

/-- C47: a non-radiative density is constructed exactly when the mass threshold is in range and, with
radiative corrections, no photon cut was given and a `k_0_bar` cut that was given reaches from zero
or below to the soft threshold or above. -/
theorem c47_nrad_ctor {p : P} (hp : Std p) {i : Inputs} (hi : i.Of p) :
    (∃ d, nradMake p = .ok d) ↔
      i.MassOk ∧ (i.rc ≠ .none →
        (∀ n ∈ ["cut.tau", "cut.phi_k", "cut.R", "cut.lab.mom_k", "cut.lab.theta_k"],
          given p n = none) ∧
        ∀ lo hi, given p "cut.k_0_bar" = some (.bound lo hi) →
          lo.toFl ≤ hi.toFl ∧ lo.toFl ≤ .fin 0 ∧ i.soft.toFl ≤ hi.toFl) := by
  rw [← setup_iff hp hi, ← names_unset hp]
  have key : ∀ d, Setup.make p = .ok d → d.rc_method = i.rc ∧ d.soft_threshold = i.soft.toFl := by
    intro d hd
    obtain ⟨j, hj, -, h1, h2, -⟩ := setup_ok hd
    rw [inputs_unique hi hj]
    exact ⟨h1, h2⟩
  obtain ⟨q, hq⟩ : ∃ q, p.find "cut.k_0_bar".toList = some q := by
    obtain ⟨q, h, -⟩ := std_some hp (n := "cut.k_0_bar".toList) rfl
    exact ⟨q, h⟩
  have hset : p.isSet "cut.k_0_bar".toList = .ok (given p "cut.k_0_bar").isSome :=
    isSet_ok.2 ⟨⟨q, hq⟩, rfl⟩
  have hty : ∀ v, given p "cut.k_0_bar" = some v → ∃ lo hi, v = .bound lo hi := by
    intro v hv
    rw [given_eq, gv, hq, Option.bind_some] at hv
    have h1 := std_typed hp hq hv
    obtain ⟨s, hs, h2, -⟩ := std_fmt hp hq
    have h3 : s.type = .bound := by
      have : some s = stdFormat.find "cut.k_0_bar".toList := hs.symm
      have e : (stdFormat.find "cut.k_0_bar".toList).map (·.type) = some .bound := rfl
      rw [← this] at e
      simpa using e
    rw [← h2, h3] at h1
    cases v <;> simp [Val.ty] at h1
    exact ⟨_, _, rfl⟩
  constructor
  · rintro ⟨d, h⟩
    refine ⟨⟨d, nrad_ok h⟩, fun hrc => ?_⟩
    have hd := nrad_ok h
    obtain ⟨k1, k2⟩ := key d hd
    unfold nradMake at h
    simp only [hd, bind, Except.bind] at h
    have hc : d.rc_method = .approx ∨ d.rc_method = .exact := by
      rw [k1]; cases hr : i.rc <;> simp_all
    rw [if_pos hc, hset] at h
    simp only [lift, fromParams] at h
    cases hg : given p "cut.k_0_bar" with
    | none =>
      simp only [hg, Option.isSome_none, Bool.false_eq_true, if_false] at h
      split at h
      · cases h
      · rename_i u hu
        exact ⟨hu, by simp⟩
    | some v =>
      obtain ⟨lo, hi', rfl⟩ := hty v hg
      have hb : bound p "cut.k_0_bar" = .ok (Bound.mk' lo.toFl hi'.toFl) :=
        bound_ok.2 ⟨lo, hi', gv_av hg, rfl⟩
      simp only [hg, Option.isSome_some, if_true, hb] at h
      split_ifs at h with hk
      · push Not at hk
        split at h
        · cases h
        · rename_i u hu
          refine ⟨hu, fun l u' e => ?_⟩
          cases e
          rw [← k2]
          by_cases hl : lo.toFl ≤ hi'.toFl
          · rw [Bound.mk', if_neg (not_not.2 hl)] at hk
            exact ⟨hl, hk⟩
          · rw [Bound.mk', if_pos hl] at hk
            simp [Bound.invalid] at hk
  · rintro ⟨⟨d, hd⟩, h⟩
    obtain ⟨k1, k2⟩ := key d hd
    unfold nradMake
    simp only [hd, bind, Except.bind]
    split_ifs with hc
    · have hrc : i.rc ≠ .none := by rw [← k1]; rcases hc with h | h <;> rw [h] <;> simp
      obtain ⟨hu, hk⟩ := h hrc
      rw [hset]
      simp only [lift, fromParams, hu]
      cases hg : given p "cut.k_0_bar" with
      | none => exact ⟨d, rfl⟩
      | some v =>
        obtain ⟨lo, hi', rfl⟩ := hty v hg
        have hb : bound p "cut.k_0_bar" = .ok (Bound.mk' lo.toFl hi'.toFl) :=
          bound_ok.2 ⟨lo, hi', gv_av hg, rfl⟩
        obtain ⟨hl, hk⟩ := hk lo hi' hg
        simp only [Option.isSome_some, if_true, hb]
        rw [if_neg]
        · exact ⟨d, rfl⟩
        · push Not
          rw [Bound.mk', if_neg (not_not.2 hl), k2]
          exact hk
    · exact ⟨d, rfl⟩

/-- C47: a radiative density is constructed exactly when the mass threshold is in range, radiative
corrections are on, and the `k_0_bar` cut extends above the soft threshold. -/
theorem c47_rad_ctor {p : P} (hp : Std p) {i : Inputs} (hi : i.Of p) :
    (∃ d, radMake p = .ok d) ↔
      i.MassOk ∧ i.rc ≠ .none ∧
      ∀ lo hi, actual p "cut.k_0_bar" = some (.bound lo hi) →
        lo.toFl ≤ hi.toFl ∧ i.soft.toFl < hi.toFl := by
  rw [← setup_iff hp hi]
  constructor
  · rintro ⟨d, h⟩
    obtain ⟨h1, -, h2, lo, hi', h3, h4, h5⟩ := rad_ok h
    obtain ⟨j, hj, -, e1, e2, -⟩ := setup_ok h1
    rw [inputs_unique hi hj]
    refine ⟨⟨_, h1⟩, by rw [← e1]; exact h2, fun l u e => ?_⟩
    rw [h3] at e
    cases e
    exact ⟨h4, by rw [← e2]; exact h5⟩
  · rintro ⟨⟨d, hd⟩, hr, hk⟩
    obtain ⟨j, hj, -, e1, e2, -⟩ := setup_ok hd
    rw [inputs_unique hi hj] at hr hk
    obtain ⟨c, hc⟩ := cutRad_total hp hi
    obtain ⟨lo, hi', hb⟩ := std_bound hp (n := "cut.k_0_bar") ⟨_, rfl, rfl, _, _, _, rfl⟩
    obtain ⟨hl, hs⟩ := hk lo hi' hb
    unfold radMake
    simp only [hd, hc, bind, Except.bind, e1, if_neg hr, bound_ok.2 ⟨_, _, hb, rfl⟩]
    rw [if_neg]
    · exact ⟨_, rfl⟩
    · rw [not_not, Bound.mk', if_neg (not_not.2 hl), e2]
      exact hs

/-! ## Values -/

theorem weigh_nonneg {j : ℝ} (hj : 0 ≤ j) (xs : Fl) :
    ∃ r : ℝ, 0 ≤ r ∧ weigh (.fin j) xs = .fin r ∧
      (∀ x : ℝ, xs = .fin x → 0 ≤ x → r = j * x) ∧
      ((∀ x : ℝ, xs = .fin x → x < 0) → r = 0) := by
  unfold weigh
  cases xs with
  | fin x =>
    by_cases h : 0 ≤ x
    · refine ⟨j * x, by positivity, ?_, ?_, ?_⟩
      · rw [if_neg]; · rfl
        simp [Fl.isFinite, h]
      · rintro _ ⟨⟩ _; rfl
      · intro h'; exact absurd (h' x rfl) (not_lt.2 h)
    · refine ⟨0, le_rfl, ?_, ?_, fun _ => rfl⟩
      · rw [if_pos]; right; simpa using h
      · rintro _ ⟨⟩ h'; exact absurd h' h
  | _ => exact ⟨0, le_rfl, by rw [if_pos]; left; simp [Fl.isFinite], by simp, fun _ => rfl⟩

/-- The cross-section the non-radiative density uses. -/
noncomputable def nradXs (F : XsFuns) (rc : RcMethod) (k : Kinematics Fl) (pol : Fl) (eta : V3 Fl)
    (soft : Fl) : Fl :=
  match rc with
  | .none => F.born k pol eta
  | .approx => F.nradIr k pol eta soft
  | .exact => F.nradInteg k pol eta soft

theorem nrad_setup {p : P} {d : Setup} (h : Setup.make p = .ok d) :
    ∃ ps : Particles ℝ, Massive ps ∧ d.ps = finPs ps := by
  obtain ⟨i, -, -, -, -, hps, -⟩ := setup_ok h
  obtain ⟨ps, e, hm, -⟩ := make_fl _ _ _ _ hps
  exact ⟨ps, hm, e⟩

/-- C47: at every point of the unit cube, whatever the cross-section functions return, the
non-radiative density is a finite number which is not negative.  It is zero if the point is not
returned by `take` (outside the phase space or the cuts), or the cross-section is NaN, infinite or
negative; otherwise it is the product of the jacobian and the cross-section that the chosen method
of radiative corrections asks for, at the parameters' polarisations, and `transform` returns the
jacobian. -/
theorem c47_nrad_density {p : P} {d : Setup} (h : nradMake p = .ok d) {i : Inputs} (hi : i.Of p)
    (F : XsFuns) (u : Fin 6 → ℝ) (hu : ∀ i, 0 ≤ u i ∧ u i ≤ 1) :
    ∃ r j : ℝ, 0 ≤ r ∧ 0 ≤ j ∧ d.eval F (fun i => .fin (u i)) = .fin r ∧
      d.transform (fun i => .fin (u i)) = .fin j ∧
      let t := Cut.takeCut d.cut d.ps d.S fun i => .fin (u i)
      let eta := F.hadronFromTarget t.kin
        ⟨i.targetPol.1.toFl, i.targetPol.2.1.toFl, i.targetPol.2.2.toFl⟩
      let xs := nradXs F i.rc t.kin i.beamPol.toFl eta i.soft.toFl
      (t.ok = false → r = 0 ∧ j = 0) ∧
      (t.ok = true → t.jac = .fin j ∧ (∀ x : ℝ, xs = .fin x → 0 ≤ x → r = j * x) ∧
        ((∀ x : ℝ, xs = .fin x → x < 0) → r = 0)) := by
  have hs := nrad_ok h
  obtain ⟨ps, hm, e⟩ := nrad_setup hs
  obtain ⟨i', hi', -, e1, e2, -, -, e3, e4⟩ := setup_ok hs
  obtain rfl := inputs_unique hi hi'
  unfold Setup.eval Setup.transform
  simp only [e1, e2, e3, e4]
  set t := Cut.takeCut d.cut d.ps d.S fun i => .fin (u i) with ht
  cases hok : t.ok with
  | false => exact ⟨0, 0, le_rfl, le_rfl, by simp, by simp, by simp, by simp⟩
  | true =>
    have hv : Cut.valid t.kin = true := ((c23_cut _ _).1 hok).1
    obtain ⟨P, hP⟩ := (c25_take d.cut d.ps d.S fun i => .fin (u i)).2
    rw [← ht] at hP
    rw [hP, e] at hv
    obtain ⟨S, pt, eS, -, -⟩ := (c66_finite hm _ _).1 hv
    have ht' : t = Cut.takeCut d.cut (finPs ps) (.fin S) fun i => .fin (u i) := by
      rw [ht, e, eS]
    rw [ht'] at hok
    obtain ⟨pt', jx, jy, jz, jt, jh, jp, -, -, -, -, -, -, -, -, ej, hj⟩ :=
      c25_jacobian hm d.cut u hu hok
    rw [← ht'] at ej
    set j := jx * jy * jz * jt * jh * jp with hjd
    obtain ⟨r, hr, er, h1, h2⟩ := weigh_nonneg hj
      (nradXs F i.rc t.kin i.beamPol.toFl (F.hadronFromTarget t.kin
        ⟨i.targetPol.1.toFl, i.targetPol.2.1.toFl, i.targetPol.2.2.toFl⟩) i.soft.toFl)
    refine ⟨r, j, hr, hj, ?_, ?_, ?_, fun _ => ⟨ej, h1, h2⟩⟩
    · simp only [not_true, if_false, ej]
      exact er
    · simp only [if_true]; exact ej
    · simp

/-- C47: wherever the non-radiative density is not zero, for any coordinates and any cross-section,
the kinematics are valid and satisfy every cut in the parameters (angles in degrees). -/
theorem c47_nrad_cuts {p : P} {d : Setup} (h : nradMake p = .ok d) (F : XsFuns) (u : Fin 6 → Fl)
    (hne : d.eval F u ≠ .fin 0) :
    let k := (Cut.takeCut d.cut d.ps d.S u).kin
    Cut.valid k = true ∧ ∀ row ∈ cutRows, CutHolds p row.1 row.2.1 (row.2.2 k) := by
  obtain ⟨i, -, hc, -⟩ := setup_ok (nrad_ok h)
  have hok : (Cut.takeCut d.cut d.ps d.S u).ok = true := by
    by_contra hf
    exact hne (by unfold Setup.eval; simp only [if_pos hf])
  obtain ⟨h1, h2⟩ := (c23_cut _ _).1 hok
  exact ⟨h1, cut_holds hc h2⟩

/-- C47: conversely, every point of the phase space with `x > 0` that satisfies the cuts of the
parameters is covered: at some point of the unit cube the density is the cross-section at this point
times a non-negative jacobian.  (An active cut on `Q_sq` must be bounded above, an active cut on
`W_sq` must have a lower end not far below zero: C26.) -/
theorem c47_nrad_support {p : P} {d : Setup} (h : nradMake p = .ok d) {ps : Particles ℝ}
    (hps : d.ps = finPs ps) {S : ℝ} (hS : d.S = .fin S) {pt : PhaseSpace ℝ}
    (ha : Accepted ps S pt) (hx : 0 < pt.x)
    (hrows : ∀ row ∈ cutRows,
      CutHolds p row.1 row.2.1 (row.2.2 (.make (finPs ps) (.fin S) (finPt pt))))
    (hQ : ∀ lo hi, actual p "cut.Q_sq" = some (.bound lo hi) → lo.toFl ≤ hi.toFl → hi ≠ .pinf)
    (hW : ∀ lo hi, actual p "cut.W_sq" = some (.bound lo hi) → lo.toFl ≤ hi.toFl →
      ∃ w : ℚ, lo = .fin w ∧ 0 < S ^ 2 - 4 * ps.M ^ 2 * ps.m ^ 2 + ps.M ^ 2 * (w - ps.M ^ 2))
    (hh : AngleOk p "cut.phi_h" pt.phi_h) (hf : AngleOk p "cut.phi" pt.phi) (F : XsFuns)
    {i : Inputs} (hi : i.Of p) {x : ℝ} (hx0 : 0 ≤ x)
    (hxs : let k := Kinematics.make (finPs ps) (.fin S) (finPt pt)
      nradXs F i.rc k i.beamPol.toFl (F.hadronFromTarget k
        ⟨i.targetPol.1.toFl, i.targetPol.2.1.toFl, i.targetPol.2.2.toFl⟩) i.soft.toFl = .fin x) :
    ∃ (u : Fin 6 → ℝ) (j : ℝ), (∀ i, 0 ≤ u i ∧ u i ≤ 1) ∧ 0 ≤ j ∧
      (Cut.takeCut d.cut d.ps d.S fun i => .fin (u i)).kin =
        .make (finPs ps) (.fin S) (finPt pt) ∧
      d.eval F (fun i => .fin (u i)) = .fin (j * x) := by
  have hs := nrad_ok h
  obtain ⟨i', hi', hc, e1, e2, hmk, -, e3, e4⟩ := setup_ok hs
  obtain rfl := inputs_unique hi hi'
  have hm : Massive ps := by
    obtain ⟨ps', e, hm, -⟩ := make_fl _ _ _ _ hmk
    rw [hps] at e
    have : ps = ps' := by
      cases ps; cases ps'; simpa [finPs] using e
    rw [this]; exact hm
  obtain ⟨hsat, bQ, bW, ⟨bh, hbh, eh⟩, ⟨bf, hbf, ef⟩⟩ := cut_of_holds hc hrows
  have hval : ∀ {lo hi : Fl}, (Bound.mk' lo hi).valid → lo ≤ hi := by
    intro lo hi hv
    by_contra hcon
    rw [Bound.mk', if_pos hcon] at hv
    exact invalid_not_valid hv
  obtain ⟨u, j, hu, hj, e⟩ := c67_complete hm d.cut
    ((c23_cut _ _).2 ⟨(valid_iff hm).2 ha, hsat⟩) hx
    (by
      intro hv
      obtain ⟨lo, hi, hb, eb⟩ := bound_ok.1 bQ
      rw [eb] at hv ⊢
      have hl := hval hv
      have := hQ lo hi hb hl
      rw [Bound.mk', if_neg (not_not.2 hl)]
      cases hi <;> simp_all [Dbl.toFl])
    (by
      intro hv
      obtain ⟨lo, hi, hb, eb⟩ := bound_ok.1 bW
      rw [eb] at hv ⊢
      have hl := hval hv
      obtain ⟨w, rfl, hw⟩ := hW lo hi hb hl
      rw [Bound.mk', if_neg (not_not.2 hl)]
      exact ⟨w, rfl, hw⟩)
    (by rw [eh]; exact angle_range hbh hh) (by rw [ef]; exact angle_range hbf hf)
  refine ⟨u, j, hu, hj, ?_, ?_⟩
  · rw [hps, hS, e]
  · obtain ⟨r, -, er, h1, -⟩ := weigh_nonneg hj (.fin x)
    unfold Setup.eval
    simp only [hps, hS, e, not_true, if_false, e1, e2, e3, e4]
    rw [← h1 x rfl hx0, ← er, ← hxs]
    rfl

/-- C47: the radiative density, for events with photons above the positive soft threshold. -/
theorem c47_rad_density {p : P} {d : RadSetup} (h : radMake p = .ok d) {i : Inputs} (hi : i.Of p)
    (he : actual p "mc.rad.enable" = some (.bool true)) (h0 : .fin 0 < i.soft.toFl)
    (F : XsFuns) (u : Fin 9 → ℝ) (hu : ∀ i, 0 ≤ u i ∧ u i ≤ 1) :
    ∃ r j : ℝ, 0 ≤ r ∧ 0 ≤ j ∧ d.eval F (fun i => .fin (u i)) = .fin r ∧
      d.transform (fun i => .fin (u i)) = .fin j ∧
      match Cut.takeRadCut d.cut d.cut_rad d.ps d.S fun i => .fin (u i) with
      | none => r = 0 ∧ j = 0
      | some t =>
        let eta := F.hadronFromTarget t.kin.project
          ⟨i.targetPol.1.toFl, i.targetPol.2.1.toFl, i.targetPol.2.2.toFl⟩
        let xs := F.rad t.kin i.beamPol.toFl eta
        (t.ok = false → r = 0 ∧ j = 0) ∧
        (t.ok = true → t.jac = .fin j ∧ (∀ x : ℝ, xs = .fin x → 0 ≤ x → r = j * x) ∧
          ((∀ x : ℝ, xs = .fin x → x < 0) → r = 0)) := by
  obtain ⟨hs, hcr, -, lo, hi', hk, hl, hsoft⟩ := rad_ok h
  obtain ⟨ps, hm, e⟩ := nrad_setup hs
  obtain ⟨i', hi', -, e1, e2, -, -, e3, e4⟩ := setup_ok hs
  obtain rfl := inputs_unique hi hi'
  unfold RadSetup.eval RadSetup.transform
  simp only [e3, e4]
  cases htk : Cut.takeRadCut d.cut d.cut_rad d.ps d.S fun i => .fin (u i) with
  | none => exact ⟨0, 0, le_rfl, le_rfl, rfl, rfl, rfl, rfl⟩
  | some t =>
    simp only
    cases hok : t.ok with
    | false => exact ⟨0, 0, le_rfl, le_rfl, by simp, by simp, by simp, by simp⟩
    | true =>
      unfold Cut.takeRadCut at htk
      simp only at htk
      set t1 := Cut.takeCut d.cut d.ps d.S (Cut.head6 fun i => .fin (u i)) with ht1
      have hok1 : t1.ok = true := by
        by_contra hc
        rw [if_pos hc] at htk
        cases htk
      rw [if_neg (not_not.2 hok1)] at htk
      simp only [Option.some.injEq] at htk
      obtain ⟨P, hP⟩ := (c25_take d.cut d.ps d.S (Cut.head6 fun i => .fin (u i))).2
      rw [← ht1, e] at hP
      have hv : Cut.valid t1.kin = true := ((c23_cut _ _).1 hok1).1
      rw [hP] at hv
      obtain ⟨S, pt, eS, eP, ha⟩ := (c66_finite hm _ _).1 hv
      have ht1' : t1 = Cut.takeCut d.cut (finPs ps) (.fin S)
          fun i => .fin ((fun i : Fin 6 => u ⟨i, by omega⟩) i) := by
        rw [ht1, e, eS]; rfl
      rw [ht1'] at hok1
      obtain ⟨pt', jx, jy, jz, jt, jh, jp, -, -, -, -, -, -, -, -, ej, hj⟩ :=
        c25_jacobian hm d.cut _ (fun i => hu _) hok1
      rw [← ht1'] at ej
      have hK : t1.kin = .make (finPs ps) (.fin S) (finPt pt) := by rw [hP, eS, eP]
      set t2 := Cut.takePhotonCut d.cut_rad t1.kin (Cut.tail3 fun i => .fin (u i)) with ht2
      have hok2 : t2.ok = true := by rw [← htk] at hok; exact hok
      have ht2' : t2 = Cut.takePhotonCut d.cut_rad (.make (finPs ps) (.fin S) (finPt pt))
          fun i => .fin ((fun i : Fin 3 => u ⟨i + 6, by omega⟩) i) := by
        rw [ht2, hK]; rfl
      rw [ht2'] at hok2
      obtain ⟨lo', hi'', s, hk', hs', ek, -⟩ := cutRad_ok hcr he
      rw [hk] at hk'
      cases hk'
      have hs'' : some (Val.double s) = some (Val.double i.soft) := hs'.symm.trans hi.soft
      cases hs''
      rw [e2] at hsoft
      obtain ⟨kv, kmin, -⟩ := k0_inter (x := .fin 0) hl hsoft
      rw [← ek] at kv kmin
      have hsam := samplable_of_ok hm ha d.cut_rad _ hok2 kv (by
        revert kmin h0
        cases i.soft.toFl <;> cases d.cut_rad.k_0_bar.min <;> simp
        intro a b; linarith)
      obtain ⟨_, _, _, jt', jf', jr', _, -, -, -, -, -, -, ej2, hj2⟩ :=
        c25_jacobian_rad hm ha hsam d.cut_rad
          (phiK_finite hm ha hsam d.cut_rad _ hok2) _ (fun i => hu _) hok2
      rw [← ht2'] at ej2 hok2
      set j1 := jx * jy * jz * jt * jh * jp
      set j2 := jt' * jf' * jr'
      have ejac : t.jac = .fin (j2 * j1) := by
        rw [← htk]
        simp only [hok2, if_true, ej, ej2]
        rfl
      obtain ⟨r, hr, er, h1, h2⟩ := weigh_nonneg (mul_nonneg hj2 hj)
        (F.rad t.kin i.beamPol.toFl (F.hadronFromTarget t.kin.project
          ⟨i.targetPol.1.toFl, i.targetPol.2.1.toFl, i.targetPol.2.2.toFl⟩))
      refine ⟨r, j2 * j1, hr, mul_nonneg hj2 hj, ?_, ?_, ?_, fun _ => ⟨ejac, h1, h2⟩⟩
      · simp only [not_true, if_false, ejac]; exact er
      · simp only [if_true]; exact ejac
      · simp

/-- C47: wherever the radiative density is not zero the kinematics are valid, satisfy every cut in
the parameters, photon cuts included, and the photon energy is at least the soft threshold. -/
theorem c47_rad_cuts {p : P} {d : RadSetup} (h : radMake p = .ok d) (F : XsFuns) (u : Fin 9 → Fl)
    (he : actual p "mc.rad.enable" = some (.bool true)) (hne : d.eval F u ≠ .fin 0) :
    ∃ t, Cut.takeRadCut d.cut d.cut_rad d.ps d.S u = some t ∧
      Cut.valid t.kin.project = true ∧ Cut.validRad t.kin = true ∧
      (∀ row ∈ cutRows, CutHolds p row.1 row.2.1 (row.2.2 t.kin.project)) ∧
      (∀ row ∈ photonRows, CutHolds p row.1 row.2.1 (row.2.2 t.kin)) ∧
      ∀ s, actual p "phys.soft_threshold" = some (.double s) → s.toFl ≤ t.kin.k_0_bar := by
  obtain ⟨hs, hcr, -, lo, hi', hk, hl, hsoft⟩ := rad_ok h
  obtain ⟨i, hi, hc, e1, e2, -⟩ := setup_ok hs
  unfold RadSetup.eval at hne
  cases htk : Cut.takeRadCut d.cut d.cut_rad d.ps d.S u with
  | none => rw [htk] at hne; exact absurd rfl hne
  | some t =>
    rw [htk] at hne
    have hok : t.ok = true := by
      by_contra hf
      exact hne (by simp only [if_pos hf])
    obtain ⟨h1, -⟩ := c25_take_rad d.cut d.cut_rad d.ps d.S u t htk hok
    obtain ⟨h1, h2⟩ := (c23_cuts _ _ _).1 h1
    obtain ⟨v1, s1⟩ := (c23_cut _ _).1 h1
    obtain ⟨v2, s2⟩ := (c23_cut_rad _ _).1 h2
    obtain ⟨lo', hi'', s, hk', hs', -, q⟩ := cutRad_ok hcr he
    rw [hk] at hk'
    cases hk'
    have hs'' : some (Val.double s) = some (Val.double i.soft) := hs'.symm.trans hi.soft
    cases hs''
    rw [e2] at hsoft
    obtain ⟨q1, q2⟩ := q t.kin s2
    obtain ⟨q1, q3⟩ := q1 hl hsoft
    refine ⟨t, rfl, v1, v2, cut_holds hc s1, ?_, ?_⟩
    · intro row hr
      by_cases hn : row.1 = "cut.k_0_bar"
      · have : row = ("cut.k_0_bar", 1, fun k => k.k_0_bar) := by
          simp only [photonRows, List.mem_cons, List.not_mem_nil, or_false] at hr
          rcases hr with rfl | rfl | rfl | rfl | rfl | rfl <;> first | rfl | simp at hn
        subst this
        intro l u' ha _
        rw [hk] at ha
        cases ha
        rw [mul_one_fl, mul_one_fl]
        exact q1
      · exact q2 row hr hn
    · intro s hs
      rw [hi.soft] at hs
      cases hs
      exact q3

/-! ## Drawing and building -/

/-- C47: an event drawn with a finite non-negative weight keeps one after it is multiplied by the
density. -/
theorem c47_draw_weight {p : P} {d : Setup} (h : nradMake p = .ok d) {i : Inputs} (hi : i.Of p)
    (F : XsFuns) (u : Fin 6 → ℝ) (hu : ∀ i, 0 ≤ u i ∧ u i ≤ 1) {w : ℝ} (hw : 0 ≤ w) :
    ∃ r : ℝ, 0 ≤ r ∧ drawWeight (.fin w) (d.eval F fun i => .fin (u i)) = .fin r := by
  obtain ⟨r, j, hr, -, e, -⟩ := c47_nrad_density h hi F u hu
  exact ⟨w * r, mul_nonneg hw hr, by rw [e]; rfl⟩

/-- C47: whatever number of cells and efficiency are given, the distribution is built with at least
one cell, and for an efficiency `e` in `(0, 1]` the target for the relative variance is the finite
number `1/e² - 1`, which is not negative. -/
theorem c47_dist_params (t : EventType) {p : P} {D : Density.DistParams}
    (h : DistParams.make t p = .ok D) :
    1 ≤ D.max_explore_cells ∧
    (∀ n : ℤ, actual p (initName t "max_cells") = some (.int n) → 1 ≤ n →
      (D.max_explore_cells : ℤ) = n) ∧
    ∀ q : ℚ, actual p (initName t "target_eff") = some (.double (.fin q)) → 0 < q →
      D.target_rel_var = .fin (1 / (q : ℝ) ^ 2 - 1) ∧ (q ≤ 1 → 0 ≤ 1 / (q : ℝ) ^ 2 - 1) := by
  unfold DistParams.make at h
  simp only [bind_ok, double_ok, int_ok] at h
  obtain ⟨_, ⟨eff, heff, rfl⟩, _, ⟨sc, hsc, rfl⟩, n, hn, h⟩ := h
  cases h
  refine ⟨?_, ?_, ?_⟩
  · show 1 ≤ (if n ≤ 0 then 1 else n).toNat
    split_ifs <;> omega
  · intro m hm h1
    rw [hn] at hm
    cases hm
    show (((if n ≤ 0 then 1 else n).toNat : ℕ) : ℤ) = n
    split_ifs <;> omega
  · intro q hq h0
    rw [heff] at hq
    cases hq
    have hq' : (0 : ℝ) < q := by exact_mod_cast h0
    constructor
    · show CMap.expm1 (Fl.fin (-2) * CMap.log (Fl.fin (q : ℝ))) = _
      have e : (CMap.log (Fl.fin (q : ℝ)) : Fl) = .fin (Real.log q) := by
        show (if (q : ℝ) < 0 then Fl.nan else if (q : ℝ) = 0 then Fl.ninf else _) = _
        rw [if_neg (not_lt.2 hq'.le), if_neg hq'.ne']
      rw [e, Fl.mul_fin]
      show Fl.fin (Real.exp (-2 * Real.log q) - 1) = _
      rw [neg_mul, Real.exp_neg, show (2 : ℝ) * Real.log q = Real.log q + Real.log q by ring,
        Real.exp_add, Real.exp_log hq', ← one_div, ← pow_two]
    · intro h1
      have h1' : (q : ℝ) ≤ 1 := by exact_mod_cast h1
      have : (q : ℝ) ^ 2 ≤ 1 := pow_le_one₀ hq'.le h1'
      have : 1 ≤ 1 / (q : ℝ) ^ 2 := by rw [le_div_iff₀ (by positivity)]; linarith
      linarith

/-! ## A concrete set of parameters -/

/-- Pion production off protons at `S = 20`, with radiative corrections. -/
def sampleSetup (rc : RcMethod) : P :=
  provide [("setup.beam_energy", .double (.fin (100000000000 / 9382720813))),
    ("setup.beam", .lepton .e), ("setup.target", .nucleus .p), ("setup.hadron", .hadron .piP),
    ("setup.beam_pol", .double (.fin 0)), ("setup.target_pol", .vec3 (.fin 0) (.fin 0) (.fin 0)),
    ("phys.rc_method", .rcMethod rc), ("phys.mass_threshold", .double (.fin (107 / 100))),
    ("cut.phi_h", .bound (.fin (-90)) (.fin 90))]

def sampleInputs (rc : RcMethod) : Inputs :=
  ⟨rc, .fin (1 / 100), .p, .e, .piP, .fin (107 / 100), .fin (100000000000 / 9382720813), .fin 0,
    (.fin 0, .fin 0, .fin 0)⟩

theorem sample_std (rc : RcMethod) : Std (sampleSetup rc) := std_provide _

set_option maxHeartbeats 1000000 in
theorem sample_inputs (rc : RcMethod) : (sampleInputs rc).Of (sampleSetup rc) := by
  cases rc <;> constructor <;> decide +kernel

theorem sample_mass (rc : RcMethod) : (sampleInputs rc).MassOk :=
  ⟨107 / 100, rfl, by norm_num [sampleInputs, Nucleus.mass, CMath.ofReal],
    by norm_num [sampleInputs, Nucleus.mass, Hadron.mass, CMath.ofReal]⟩

/-- Non-vacuity: the parameters give both densities. -/
theorem sample_densities : (∃ d, nradMake (sampleSetup .exact) = .ok d) ∧
    ∃ d, radMake (sampleSetup .exact) = .ok d := by
  refine ⟨(c47_nrad_ctor (sample_std _) (sample_inputs _)).2 ⟨sample_mass _, fun _ => ⟨?_, ?_⟩⟩,
    (c47_rad_ctor (sample_std _) (sample_inputs _)).2 ⟨sample_mass _, by decide, ?_⟩⟩
  · decide +kernel
  · intro lo hi h
    have : given (sampleSetup .exact) "cut.k_0_bar" = none := by decide +kernel
    rw [this] at h
    cases h
  · intro lo hi h
    have : actual (sampleSetup .exact) "cut.k_0_bar" = some (.bound (.fin 0) .pinf) := by
      decide +kernel
    rw [this] at h
    cases h
    exact ⟨trivial, trivial⟩

-- the radiative density needs radiative corrections
example : ¬ ∃ d, radMake (sampleSetup .none) = .ok d := by
  rw [c47_rad_ctor (sample_std _) (sample_inputs _)]
  exact fun h => h.2.1 rfl

/-- Points around the sample point. -/
theorem sample_near {x y z t : ℝ} (f g : ℝ)
    (h : (x, y, z, t) ∈ [(0.3, 0.6, 0.5, 0.1), (0.31, 0.6, 0.5, 0.1), (0.3, 0.601, 0.5, 0.1),
      (0.3, 0.6, 0.49, 0.1), (0.3, 0.6, 0.5, 0.09)]) :
    Accepted samplePs 20 ⟨x, y, z, t, f, g⟩ := by
  have hm := sample_accepted.1
  simp only [List.mem_cons, Prod.mk.injEq, List.not_mem_nil, or_false] at h
  have hp : Physical samplePs 20 ⟨x, y, z, t, f, g⟩ := by
    rcases h with ⟨rfl, rfl, rfl, rfl⟩ | ⟨rfl, rfl, rfl, rfl⟩ | ⟨rfl, rfl, rfl, rfl⟩ |
      ⟨rfl, rfl, rfl, rfl⟩ | ⟨rfl, rfl, rfl, rfl⟩ <;> constructor <;>
    norm_num [samplePs, Nucleus.mass, Lepton.mass, Hadron.mass, CMath.ofReal]
  obtain ⟨h1, h2, -, -, h3, h4, hV⟩ := real_hadron hm.M_pos (by norm_num : (0 : ℝ) < 20)
    hp.x_pos.le hp.y_pos hp.z_pos hp.hadron
  have e : (Kinematics.make samplePs 20 ⟨x, y, z, t, f, g⟩).mx_sq = samplePs.M * samplePs.M +
      (samplePs.mh * samplePs.mh - 20 * x * y -
      2 * (Kinematics.make samplePs 20 ⟨x, y, z, t, f, g⟩).V_m) +
      (1 - z) * (20 * y) := rfl
  rw [hV] at e
  set l := (Kinematics.make samplePs 20 ⟨x, y, z, t, f, g⟩).lambda_Y_sqrt
  set p := (Kinematics.make samplePs 20 ⟨x, y, z, t, f, g⟩).ph_l
  have hl : (12.5 : ℝ) ≤ l ∧ l ≤ 12.9 := by
    rcases h with ⟨rfl, rfl, rfl, rfl⟩ | ⟨rfl, rfl, rfl, rfl⟩ | ⟨rfl, rfl, rfl, rfl⟩ |
      ⟨rfl, rfl, rfl, rfl⟩ | ⟨rfl, rfl, rfl, rfl⟩ <;>
    · constructor <;> by_contra hc <;> push Not at hc <;>
      · norm_num [samplePs, Nucleus.mass, CMath.ofReal] at h3
        nlinarith
  have hpl : (3.05 : ℝ) ≤ p ∧ p ≤ 3.3 := by
    rcases h with ⟨rfl, rfl, rfl, rfl⟩ | ⟨rfl, rfl, rfl, rfl⟩ | ⟨rfl, rfl, rfl, rfl⟩ |
      ⟨rfl, rfl, rfl, rfl⟩ | ⟨rfl, rfl, rfl, rfl⟩ <;>
    · constructor <;> by_contra hc <;> push Not at hc <;>
      · norm_num [samplePs, Nucleus.mass, Hadron.mass, CMath.ofReal] at h2
        nlinarith
  have hlp : (12.5 : ℝ) * 3.05 ≤ l * p ∧ l * p ≤ 12.9 * 3.3 :=
    ⟨mul_le_mul hl.1 hpl.1 (by norm_num) h4.le, mul_le_mul hl.2 hpl.2 h1 (by norm_num)⟩
  have hmx : samplePs.Mth ^ 2 ≤ (Kinematics.make samplePs 20 ⟨x, y, z, t, f, g⟩).mx_sq ∧
      (Kinematics.make samplePs 20 ⟨x, y, z, t, f, g⟩).mx_sq ≤
        20 + samplePs.M ^ 2 - samplePs.mh ^ 2 := by
    rw [e]
    rcases h with ⟨rfl, rfl, rfl, rfl⟩ | ⟨rfl, rfl, rfl, rfl⟩ | ⟨rfl, rfl, rfl, rfl⟩ |
      ⟨rfl, rfl, rfl, rfl⟩ | ⟨rfl, rfl, rfl, rfl⟩ <;>
    · norm_num [samplePs, Nucleus.mass, Hadron.mass, CMath.ofReal] at hlp ⊢
      constructor <;> linarith
  constructor
  case missing => exact hmx.1
  case missing_le => exact hmx.2
  all_goals
    rcases h with ⟨rfl, rfl, rfl, rfl⟩ | ⟨rfl, rfl, rfl, rfl⟩ | ⟨rfl, rfl, rfl, rfl⟩ |
      ⟨rfl, rfl, rfl, rfl⟩ | ⟨rfl, rfl, rfl, rfl⟩ <;>
    norm_num [samplePs, Nucleus.mass, Lepton.mass, Hadron.mass, CMath.ofReal]

theorem axis_jac_pos {t : VarMap Fl} {b : Bound} {p x j x' x'' : ℝ} (h : Axis t b p x j)
    (h0 : 0 ≤ p) (h1 : p ≤ 1) (a : b.contains (.fin x')) (a' : b.contains (.fin x''))
    (hne : x' < x'') : 0 < j := by
  obtain ⟨lo, hi, X, J, rfl, hs, -, rfl⟩ := h
  have e1 : lo ≤ x' := a.1
  have e2 : x'' ≤ hi := a'.2
  exact hs.jac_pos (by linarith) p h0 h1

/-- The sample point is sampled under the cuts of the sample parameters, with a positive
jacobian. -/
theorem sample_take {d : Setup} (hd : nradMake (sampleSetup .exact) = .ok d) :
    d.ps = finPs samplePs ∧ d.S = .fin 20 ∧ ∃ (u : Fin 6 → ℝ) (j : ℝ),
      (∀ i, 0 ≤ u i ∧ u i ≤ 1) ∧ 0 < j ∧
      Cut.takeCut d.cut (finPs samplePs) (.fin 20) (fun i => .fin (u i)) =
        ⟨true, .make (finPs samplePs) (.fin 20) (finPt samplePt), .fin j⟩ := by
  obtain ⟨i', hi', hc, -, -, hmk, eS, -, -⟩ := setup_ok (nrad_ok hd)
  obtain rfl := inputs_unique (sample_inputs .exact) hi'
  have hps : d.ps = finPs samplePs := by
    obtain ⟨ps, e, hm, h1, h2, h3, h4, -⟩ := make_fl _ _ _ _ hmk
    unfold Particles.make at hmk
    simp only at hmk
    split_ifs at hmk
    rw [← Option.some.inj hmk]
    simp only [sampleInputs, finPs, samplePs, Dbl.toFl, mass_fl, hmass_fl, Particles.mk.injEq,
      true_and]
    refine ⟨rfl, ?_⟩
    norm_num
  have hS : d.S = .fin 20 := by
    rw [eS]
    simp only [sampleInputs, mass_fl, Dbl.toFl, Fl.mul_fin, Nucleus.mass, CMath.ofReal]
    norm_num
  have hbnd : ∀ n ∈ ["cut.x", "cut.y", "cut.z", "cut.ph_t_sq", "cut.phi", "cut.Q_sq", "cut.t",
      "cut.W_sq", "cut.r", "cut.mx_sq", "cut.qt_to_Q", "cut.lab.mom_q", "cut.lab.mom_k2",
      "cut.lab.mom_h", "cut.lab.theta_q", "cut.lab.theta_k2", "cut.lab.theta_h"],
      actual (sampleSetup .exact) n = some (.bound .nan .nan) := by decide +kernel
  have hphi : actual (sampleSetup .exact) "cut.phi_h" = some (.bound (.fin (-90)) (.fin 90)) := by
    decide +kernel
  have h3 := Real.two_le_pi
  have hrows : ∀ {x y z t : ℝ}, ∀ row ∈ cutRows, CutHolds (sampleSetup .exact) row.1 row.2.1
      (row.2.2 (.make (finPs samplePs) (.fin 20) (finPt ⟨x, y, z, t, 0.7, 1.1⟩))) := by
    intro x y z t row hrow
    by_cases hn : row.1 = "cut.phi_h"
    · have : row = ("cut.phi_h", deg, fun k => k.phi_h) := by
        simp only [cutRows, List.mem_cons, List.not_mem_nil, or_false] at hrow
        rcases hrow with rfl | rfl | rfl | rfl | rfl | rfl | rfl | rfl | rfl | rfl | rfl | rfl |
          rfl | rfl | rfl | rfl | rfl | rfl <;> first | rfl | simp at hn
      subst this
      intro lo hi hb _
      rw [hphi] at hb
      cases hb
      show Fl.fin ((-90 : ℚ) : ℝ) * .fin deg ≤ .fin 0.7 ∧ Fl.fin 0.7 ≤ Fl.fin ((90 : ℚ) : ℝ) * .fin deg
      simp only [Fl.mul_fin, Fl.le_fin, deg]
      constructor <;> push_cast <;> linarith
    · intro lo hi hb hl
      have : row.1 ∈ ["cut.x", "cut.y", "cut.z", "cut.ph_t_sq", "cut.phi", "cut.Q_sq", "cut.t",
        "cut.W_sq", "cut.r", "cut.mx_sq", "cut.qt_to_Q", "cut.lab.mom_q", "cut.lab.mom_k2",
        "cut.lab.mom_h", "cut.lab.theta_q", "cut.lab.theta_k2", "cut.lab.theta_h"] := by
        simp only [cutRows, List.mem_cons, List.not_mem_nil, or_false] at hrow
        rcases hrow with rfl | rfl | rfl | rfl | rfl | rfl | rfl | rfl | rfl | rfl | rfl | rfl |
          rfl | rfl | rfl | rfl | rfl | rfl <;> first | exact absurd rfl hn | simp
      rw [hbnd _ this] at hb
      cases hb
      simp [Dbl.toFl] at hl
  have hn : ∀ n ∈ ["cut.Q_sq", "cut.W_sq"], ∀ lo hi,
      actual (sampleSetup .exact) n = some (.bound lo hi) → ¬ lo.toFl ≤ hi.toFl := by
    intro n hn lo hi hb hl
    rw [hbnd n (by simp only [List.mem_cons, List.not_mem_nil, or_false] at hn ⊢; tauto)] at hb
    cases hb
    simp [Dbl.toFl] at hl
  have hm := sample_accepted.1
  obtain ⟨u, j, hu, hj, ek, -⟩ := c47_nrad_support hd hps hS (pt := samplePt)
    (sample_near _ _ (by simp)) (by norm_num [samplePt]) hrows
    (fun lo hi hb hl => absurd hl (hn _ (by simp) lo hi hb))
    (fun lo hi hb hl => absurd hl (hn _ (by simp) lo hi hb))
    (by
      intro lo hi hb
      rw [hphi] at hb
      cases hb
      refine ⟨fun _ => ⟨_, _, rfl, rfl⟩, fun h => absurd ?_ h⟩
      show ((-90 : ℚ) : ℝ) ≤ ((90 : ℚ) : ℝ)
      norm_num)
    (by
      intro lo hi hb
      rw [hbnd _ (by simp)] at hb
      cases hb
      refine ⟨fun h => by simp [Dbl.toFl] at h, fun _ => ?_⟩
      norm_num [samplePt]; constructor <;> linarith)
    ⟨fun _ a => a, fun _ _ _ => .fin 1, fun _ _ _ _ => .fin 1, fun _ _ _ _ => .fin 1,
      fun _ _ _ => .fin 1⟩ (sample_inputs _) zero_le_one rfl
  refine ⟨hps, hS, ?_⟩
  have hvalid : ∀ {x y z t : ℝ}, Accepted samplePs 20 ⟨x, y, z, t, 0.7, 1.1⟩ →
      Cut.validCut d.cut (.make (finPs samplePs) (.fin 20) (finPt ⟨x, y, z, t, 0.7, 1.1⟩)) = true :=
    fun ha => (c23_cut _ _).2 ⟨(valid_iff hm).2 ha, (cut_of_holds hc hrows).1⟩
  have hinv : ∀ n ∈ ["cut.Q_sq", "cut.W_sq"], ∀ b, bound (sampleSetup .exact) n = .ok b →
      ¬ b.valid := by
    intro n hn' b hb hv
    obtain ⟨lo, hi, ha, rfl⟩ := bound_ok.1 hb
    refine hn n hn' lo hi ha ?_
    by_contra hcon
    rw [Bound.mk', if_pos hcon] at hv
    exact invalid_not_valid hv
  have hlim : ∀ {x y z t : ℝ}, Accepted samplePs 20 ⟨x, y, z, t, 0.7, 1.1⟩ → 0 < x → _ :=
    fun {x y z t} ha hx => c24_limits_cut hm d.cut (pt := ⟨x, y, z, t, 0.7, 1.1⟩) (hvalid ha) hx
      (fun hv => absurd hv (hinv "cut.Q_sq" (by simp) _
        (cut_of_holds hc (hrows (x := 0) (y := 0) (z := 0) (t := 0))).2.1))
      (fun hv => absurd hv (hinv "cut.W_sq" (by simp) _
        (cut_of_holds hc (hrows (x := 0) (y := 0) (z := 0) (t := 0))).2.2.1))
  have hok : (Cut.takeCut d.cut (finPs samplePs) (.fin 20) fun i => .fin (u i)).ok = true := by
    rw [hps, hS] at ek
    refine (c25_take _ _ _ _).1.2 ?_
    rw [ek]
    exact hvalid (sample_near _ _ (by simp))
  obtain ⟨pt, jx, jy, jz, jt, jh, jp, -, ekin, ax, ay, az, at', ⟨bh, ah, ch⟩, ⟨bp, ap, cp⟩, ejac, -⟩ :=
    c25_jacobian hm d.cut u hu hok
  rw [hps, hS] at ek
  rw [ek] at ekin
  have ex : samplePt.x = pt.x := Fl.fin.inj (congrArg Kinematics.x ekin)
  have ey : samplePt.y = pt.y := Fl.fin.inj (congrArg Kinematics.y ekin)
  have ez : samplePt.z = pt.z := Fl.fin.inj (congrArg Kinematics.z ekin)
  rw [← ex] at ay az at'
  rw [← ey] at az at'
  rw [← ez] at at'
  have p0 := hlim (sample_near 0.7 1.1 (x := 0.3) (y := 0.6) (z := 0.5) (t := 0.1) (by simp))
    (by norm_num)
  have p1 := hlim (sample_near 0.7 1.1 (x := 0.31) (y := 0.6) (z := 0.5) (t := 0.1) (by simp))
    (by norm_num)
  have p2 := hlim (sample_near 0.7 1.1 (x := 0.3) (y := 0.601) (z := 0.5) (t := 0.1) (by simp))
    (by norm_num)
  have p3 := hlim (sample_near 0.7 1.1 (x := 0.3) (y := 0.6) (z := 0.49) (t := 0.1) (by simp))
    (by norm_num)
  have p4 := hlim (sample_near 0.7 1.1 (x := 0.3) (y := 0.6) (z := 0.5) (t := 0.09) (by simp))
    (by norm_num)
  have kx := axis_jac_pos ax (hu 0).1 (hu 0).2 p0.1 p1.1 (by norm_num)
  have ky := axis_jac_pos ay (hu 1).1 (hu 1).2 p0.2.1 p2.2.1 (by norm_num)
  have kz := axis_jac_pos az (hu 2).1 (hu 2).2 p3.2.2.1 p0.2.2.1 (by norm_num)
  have kt := axis_jac_pos at' (hu 3).1 (hu 3).2 p4.2.2.2 p0.2.2.2 (by norm_num)
  obtain ⟨-, -, -, ⟨b, hb, eb⟩, ⟨b', hb', eb'⟩⟩ :=
    cut_of_holds hc (hrows (x := 0) (y := 0) (z := 0) (t := 0))
  have kh : 0 < jh := by
    obtain ⟨lo, hi, hbb, rfl⟩ := bound_ok.1 hb
    rw [hphi] at hbb
    cases hbb
    have hl : Fl.fin ((-90 : ℚ) : ℝ) ≤ .fin ((90 : ℚ) : ℝ) := by simp
    have e : d.cut.phi_h = ⟨.fin (((-90 : ℚ) : ℝ) * deg), .fin (((90 : ℚ) : ℝ) * deg)⟩ := by
      rw [eb]
      exact scale_mk'.1 hl
    have hd0 := deg_pos
    rcases ch with ⟨-, rfl⟩ | ⟨hcv, -⟩
    · refine axis_jac_pos ah (hu 4).1 (hu 4).2 (x' := 0) (x'' := deg) ?_ ?_ hd0 <;>
      · rw [e]
        constructor <;> simp only [Fl.le_fin] <;> push_cast <;> linarith
    · exact absurd (by rw [e]; exact mul_pos_le deg_pos hl) hcv
  have kp : 0 < jp := by
    obtain ⟨lo, hi, hbb, rfl⟩ := bound_ok.1 hb'
    rw [hbnd _ (by simp)] at hbb
    cases hbb
    rcases cp with ⟨hv, -⟩ | ⟨-, rfl⟩
    · rw [eb'] at hv
      have := scale_mk'.2 hv
      simp [Dbl.toFl] at this
    · refine axis_jac_pos ap (hu 5).1 (hu 5).2 (x' := 0) (x'' := 1) ?_ ?_ one_pos <;>
        constructor <;> simp only [Fl.le_fin] <;> linarith
  refine ⟨u, jx * jy * jz * jt * jh * jp, hu, by positivity, ?_⟩
  rw [← ek, ← ejac]
  have : ∀ t : Cut.Taken (Kinematics Fl), t.ok = true → t = ⟨true, t.kin, t.jac⟩ := by
    rintro ⟨o, k, j⟩ rfl; rfl
  exact this _ hok

/-- Non-vacuity: the density of the sample parameters, under their cut on `phi_h`, is positive
somewhere if the cross-section is. -/
theorem sample_positive (F : XsFuns) (hF : ∀ k a b c, F.nradInteg k a b c = .fin 1) :
    ∃ (d : Setup) (u : Fin 6 → ℝ), nradMake (sampleSetup .exact) = .ok d ∧
      (∀ i, 0 ≤ u i ∧ u i ≤ 1) ∧ d.eval F (fun i => .fin (u i)) ≠ .fin 0 := by
  obtain ⟨d, hd⟩ := sample_densities.1
  obtain ⟨hps, hS, u, j, hu, hj, e⟩ := sample_take hd
  refine ⟨d, u, hd, hu, ?_⟩
  obtain ⟨r, j', -, -, er, -, -, hv⟩ := c47_nrad_density hd (sample_inputs _) F u hu
  rw [hps, hS, e] at hv
  obtain ⟨h1, h2, -⟩ := hv rfl
  have h4 := h2 1 (hF _ _ _ _) zero_le_one
  rw [er, h4, mul_one]
  simp only [Fl.fin.injEq] at h1
  simp only [ne_eq, Fl.fin.injEq]
  exact h1 ▸ hj.ne'

theorem sample_room : samplePs.Mth ^ 2 + 1 / 2 ≤ (Kinematics.make samplePs 20 samplePt).mx_sq ∧
    (Kinematics.make samplePs 20 samplePt).mx_sq ≤ 25 := by
  have hm : Massive samplePs := sample_accepted.1
  have hp := sample_physical.2
  obtain ⟨h1, h2, -, -, h3, h4, hV⟩ := real_hadron hm.M_pos (by norm_num : (0 : ℝ) < 20)
    hp.x_pos.le hp.y_pos hp.z_pos hp.hadron
  have e : (Kinematics.make samplePs 20 samplePt).mx_sq = samplePs.M * samplePs.M +
      (samplePs.mh * samplePs.mh - 20 * samplePt.x * samplePt.y -
      2 * (Kinematics.make samplePs 20 samplePt).V_m) +
      (1 - samplePt.z) * (20 * samplePt.y) := rfl
  rw [hV] at e
  set l := (Kinematics.make samplePs 20 samplePt).lambda_Y_sqrt
  set p := (Kinematics.make samplePs 20 samplePt).ph_l
  have hl : (12.5 : ℝ) ≤ l ∧ l ≤ 12.6 := by
    constructor <;> by_contra hc <;> push Not at hc <;>
    · norm_num [samplePs, samplePt, Nucleus.mass, CMath.ofReal] at h3
      nlinarith
  have hpl : (3.1 : ℝ) ≤ p ∧ p ≤ 3.2 := by
    constructor <;> by_contra hc <;> push Not at hc <;>
    · norm_num [samplePs, samplePt, Nucleus.mass, Hadron.mass, CMath.ofReal] at h2
      nlinarith
  have hlp : (12.5 : ℝ) * 3.1 ≤ l * p ∧ l * p ≤ 12.6 * 3.2 :=
    ⟨mul_le_mul hl.1 hpl.1 (by norm_num) h4.le, mul_le_mul hl.2 hpl.2 h1 (by norm_num)⟩
  constructor
  · rw [e]
    norm_num [samplePs, samplePt, Nucleus.mass, Hadron.mass, CMath.ofReal] at hlp ⊢
    linarith
  · rw [e]
    norm_num [samplePs, samplePt, Nucleus.mass, Hadron.mass, CMath.ofReal] at hlp ⊢
    linarith

/-- The sample point has radiative points with photons of more than the soft threshold. -/
theorem sample_photon {t s : ℝ} (f : ℝ) (ht : t = 1 / 10 ∨ t = 1 / 5) (hs : s = 1 ∨ s = 1 / 2) :
    let r := s * (((Kinematics.make samplePs 20 samplePt).mx_sq - samplePs.Mth ^ 2) /
        (1 + t - (KinematicsRad.make (.make samplePs 20 samplePt) t f 0).mu))
    0 < r ∧ AcceptedRad samplePs 20 samplePt t f r ∧
      (1 / 100 : ℝ) ≤ (KinematicsRad.make (.make samplePs 20 samplePt) t f r).k_0_bar := by
  have hm := sample_accepted.1
  have h := sample_accepted.2
  have hp : samplePs.M ^ 2 * t ^ 2 ≤ 20 * samplePt.y * t + 20 * samplePt.x * samplePt.y := by
    rcases ht with rfl | rfl <;> norm_num [samplePs, samplePt, Nucleus.mass, CMath.ofReal]
  have hmu := mu_pos (phi_k := f) (R := 0) hm h hp
  obtain ⟨hr, hr'⟩ := sample_room
  set mu := (KinematicsRad.make (.make samplePs 20 samplePt) t f 0).mu with emu
  set mxs := (Kinematics.make samplePs 20 samplePt).mx_sq with emx
  set room := (mxs - samplePs.Mth ^ 2) / (1 + t - mu) with eroom
  have h0 : 0 < room := div_pos (by linarith) hmu
  have hs' : 1 / 2 ≤ s ∧ s ≤ 1 := by rcases hs with rfl | rfl <;> norm_num
  intro r
  refine ⟨mul_pos (by linarith) h0, ⟨h, hp, (mul_pos (by linarith) h0).le, ?_⟩, ?_⟩
  · rw [← R_le_iff hm h hp, one_div_mul_eq_div]
    show r ≤ room
    exact mul_le_of_le_one_left h0.le hs'.2
  · change _ ≤ (1 + t - mu) * r / (2 * Real.sqrt mxs)
    have e : (1 + t - mu) * r = s * (mxs - samplePs.Mth ^ 2) := by
      show (1 + t - mu) * (s * ((mxs - samplePs.Mth ^ 2) / (1 + t - mu))) = _
      field_simp
    have hq : Real.sqrt mxs ≤ 5 := by
      rw [Real.sqrt_le_left (by norm_num)]; linarith
    have hq0 : 0 < Real.sqrt mxs := Real.sqrt_pos.2 (by nlinarith [sq_nonneg samplePs.Mth])
    rw [e, le_div_iff₀ (by linarith)]
    nlinarith

/-- Non-vacuity: so is the radiative density. -/
theorem sample_positive_rad (F : XsFuns) (hF : ∀ k a b, F.rad k a b = .fin 1) :
    ∃ (d : RadSetup) (u : Fin 9 → ℝ), radMake (sampleSetup .exact) = .ok d ∧
      (∀ i, 0 ≤ u i ∧ u i ≤ 1) ∧ d.eval F (fun i => .fin (u i)) ≠ .fin 0 := by
  obtain ⟨d, hd⟩ := sample_densities.2
  obtain ⟨d', hd'⟩ := sample_densities.1
  have hm := sample_accepted.1
  obtain ⟨h1, h2, -, -⟩ := rad_ok hd
  have e : d' = d.toSetup := by
    have := nrad_ok hd'
    rw [h1] at this
    exact (Except.ok.inj this).symm
  subst e
  obtain ⟨hps, hS, u, j, hu, hj, et⟩ := sample_take hd'
  have hen : actual (sampleSetup .exact) "mc.rad.enable" = some (.bool true) := by decide +kernel
  have hbnd : ∀ n ∈ ["cut.tau", "cut.phi_k", "cut.R", "cut.lab.mom_k", "cut.lab.theta_k"],
      actual (sampleSetup .exact) n = some (.bound .nan .nan) := by decide +kernel
  have hk0 : ∀ lo hi, actual (sampleSetup .exact) "cut.k_0_bar" = some (.bound lo hi) →
      lo = .fin 0 ∧ hi = .pinf := by
    intro lo hi h
    have : actual (sampleSetup .exact) "cut.k_0_bar" = some (.bound (.fin 0) .pinf) := by
      decide +kernel
    rw [this] at h
    cases h
    exact ⟨rfl, rfl⟩
  have hinv : Bound.mk' Dbl.nan.toFl Dbl.nan.toFl = Bound.invalid := by
    rw [Bound.mk', if_pos (by simp [Dbl.toFl])]
  have hsc : ¬ (Bound.invalid.scale DEG).valid := by
    rw [← hinv]
    intro hv
    have := scale_mk'.2 hv
    simp [Dbl.toFl] at this
  have hC : (∀ b ∈ [d.cut_rad.tau, d.cut_rad.phi_k, d.cut_rad.R, d.cut_rad.lab_mom_k,
      d.cut_rad.lab_theta_k], ¬ b.valid) ∧ ∀ x : ℝ, 1 / 100 ≤ x → d.cut_rad.k_0_bar.contains (.fin x) := by
    unfold cutRadFromParams at h2
    simp only [bind_ok, fromParams_ok, lookBool_ok] at h2
    obtain ⟨b, hb, h2⟩ := h2
    have hb' : some (Val.bool b) = some (Val.bool true) := hb.symm.trans hen
    cases hb'
    simp only [if_true, bind_ok] at h2
    obtain ⟨b1, g1, b2, g2, b3, g3, b4, g4, b5, g5, b6, g6, b7, g7, h2⟩ := h2
    have B : ∀ n ∈ ["cut.tau", "cut.phi_k", "cut.R", "cut.lab.mom_k", "cut.lab.theta_k"],
        ∀ b, bound (sampleSetup .exact) n = .ok b → b = Bound.invalid := by
      intro n hn b hb
      obtain ⟨lo, hi, ha, rfl⟩ := bound_ok.1 hb
      rw [hbnd n hn] at ha
      cases ha
      exact hinv
    have e1 := B _ (by simp) _ g1
    have e2 := B _ (by simp) _ g2
    have e3 := B _ (by simp) _ g3
    have e6 := B _ (by simp) _ g6
    have e7 := B _ (by simp) _ g7
    obtain ⟨lo, hi, ha, e4⟩ := bound_ok.1 g4
    obtain ⟨rfl, rfl⟩ := hk0 _ _ ha
    obtain ⟨s, hs, e5⟩ := double_ok.1 g5
    have hs' : some (Val.double s) = some (Val.double (.fin (1 / 100))) :=
      hs.symm.trans (by decide +kernel)
    cases hs'
    have e2 := (Except.ok.inj h2).symm
    subst e1 e3 e6 e4 e5
    rw [e2]
    subst b2 b7
    refine ⟨?_, ?_⟩
    · simp only [List.forall_mem_cons, List.not_mem_nil, false_implies, implies_true, and_true]
      exact ⟨invalid_not_valid, hsc, invalid_not_valid, invalid_not_valid, hsc⟩
    · intro x hx
      have h1 : ((1 / 100 : ℚ) : ℝ) ≤ x := by push_cast; exact hx
      have h2 : (0 : ℝ) ≤ x := by linarith
      simp [Bound.mk', Bound.inter, Dbl.toFl, Bound.contains, Fl.fmax, Fl.fmin, Fl.isNaN]
      linarith
  obtain ⟨hC1, hC2⟩ := hC
  simp only [List.forall_mem_cons, List.not_mem_nil, false_implies, implies_true, and_true] at hC1
  obtain ⟨i1, i2, i3, i4, i5⟩ := hC1
  have hv : ∀ {t s : ℝ} (f : ℝ), t = 1 / 10 ∨ t = 1 / 5 → s = 1 ∨ s = 1 / 2 →
      Cut.validCutRad d.cut_rad (.make (.make (finPs samplePs) (.fin 20) (finPt samplePt)) (.fin t)
        (.fin f) (.fin (s * (((Kinematics.make samplePs 20 samplePt).mx_sq - samplePs.Mth ^ 2) /
        (1 + t - (KinematicsRad.make (.make samplePs 20 samplePt) t f 0).mu))))) = true := by
    intro t s f ht hs
    obtain ⟨-, ha, hk⟩ := sample_photon f ht hs
    refine (c23_cut_rad _ _).2 ⟨(validRad_iff hm _ _ _).2 ⟨_, _, _, rfl, rfl, rfl, ha⟩, ?_⟩
    simp only [Satisfies, cutRadTable, List.forall_mem_cons, List.not_mem_nil, false_implies,
      implies_true, and_true]
    refine ⟨fun h => absurd h i1, fun h => absurd h i2, fun h => absurd h i3, fun _ => ?_,
      fun h => absurd h i4, fun h => absurd h i5⟩
    rw [k_0_bar_fin hm ha]
    exact hC2 _ hk
  have h3 := Real.two_le_pi
  obtain ⟨p, j2, hp, -, e2⟩ := c67_complete_photon hm sample_samplable d.cut_rad
    (hv 2 (.inl rfl) (.inl rfl)) ⟨fun h => absurd h i2, fun _ => ⟨by linarith, h3⟩⟩
  obtain ⟨t, f, r, jt, jf, jr, b, -, ekin, at', af, hb, ar, ejac, -⟩ := c25_jacobian_rad hm
    sample_accepted.2 sample_samplable d.cut_rad (fun h => absurd h i2) p hp (by rw [e2])
  rw [e2] at ekin ejac
  have q1 : (1 / 10 : ℝ) = t := Fl.fin.inj (congrArg KinematicsRad.tau ekin)
  have q2 : (2 : ℝ) = f := Fl.fin.inj (congrArg KinematicsRad.phi_k ekin)
  subst q1 q2
  have kt := axis_jac_pos at' (hp 0).1 (hp 0).2
    (c24_limits_rad_cut hm _ (hv 2 (.inl rfl) (.inl rfl))).1
    (c24_limits_rad_cut hm _ (hv 2 (.inr rfl) (.inl rfl))).1 (by norm_num)
  have kr := axis_jac_pos ar (hp 2).1 (hp 2).2
    (c24_limits_rad_cut hm _ (hv 2 (.inl rfl) (.inr rfl))).2
    (c24_limits_rad_cut hm _ (hv 2 (.inl rfl) (.inl rfl))).2 (by
      have := (sample_photon (t := 1 / 10) (s := 1) 2 (.inl rfl) (.inl rfl)).1
      linarith)
  have kf : 0 < jf := by
    rcases hb with ⟨h, -⟩ | ⟨-, rfl⟩
    · exact absurd h i2
    · refine axis_jac_pos af (hp 1).1 (hp 1).2 (x' := 0) (x'' := 1) ?_ ?_ one_pos <;>
      · constructor <;> simp only [Fl.le_fin] <;> linarith
  have hj2 : j2 = jt * jf * jr := Fl.fin.inj ejac
  set w : Fin 9 → ℝ := fun i => if h : i.1 < 6 then u ⟨i, h⟩ else p ⟨i - 6, by omega⟩ with ew
  have hw : ∀ i, 0 ≤ w i ∧ w i ≤ 1 := by
    intro i
    rw [ew]
    dsimp only
    split_ifs
    · exact hu _
    · exact hp _
  have w1 : Cut.head6 (fun i => Fl.fin (w i)) = fun i => .fin (u i) := by
    funext i
    fin_cases i <;> rfl
  have w2 : Cut.tail3 (fun i => Fl.fin (w i)) = fun i => .fin (p i) := by
    funext i
    fin_cases i <;> rfl
  have htk : Cut.takeRadCut d.cut d.cut_rad d.ps d.S (fun i => Fl.fin (w i)) =
      some ⟨true, (Cut.takePhotonCut d.cut_rad (.make (finPs samplePs) (.fin 20) (finPt samplePt))
        (fun i => .fin (p i))).kin, .fin j2 * .fin j⟩ := by
    unfold Cut.takeRadCut
    simp only [w1, w2, hps, hS, et, e2, not_true, if_false, if_true]
  refine ⟨d, w, hd, hw, ?_⟩
  obtain ⟨r', j', -, -, er, -, h⟩ := c47_rad_density hd (sample_inputs _) hen
    (by simp [sampleInputs, Dbl.toFl]) F w hw
  rw [htk] at h
  obtain ⟨h1, h2, -⟩ := h.2 rfl
  have h4 := h2 1 (hF _ _ _) zero_le_one
  rw [er, h4, mul_one]
  simp only [Fl.mul_fin, Fl.fin.injEq] at h1
  simp only [ne_eq, Fl.fin.injEq]
  rw [← h1, hj2]
  positivity

end Sidis.Props
