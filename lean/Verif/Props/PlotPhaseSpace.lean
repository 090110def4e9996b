import Verif.Spec.PlotPhaseSpace
import Verif.Props.Example

/-! # C110: the example program plot_phase_space -/

namespace Sidis.Props

open Spec Example

theorem radiative_iff (mode : List Char) (b : Bool) :
    radiative mode = some b ↔ mode ∈ (if b then radWords else nradWords) := by
  unfold radiative
  cases b <;> simp only [radWords, nradWords, List.map, List.mem_cons, List.not_mem_nil, or_false,
    Bool.false_eq_true, if_false, if_true]
  all_goals split_ifs with h1 h2
  · simp only [Option.some.injEq, Bool.true_eq_false, false_iff]
    rcases h1 with rfl | rfl | rfl <;> decide
  · exact iff_of_true rfl h2
  · exact iff_of_false (by simp) h2
  · exact iff_of_true rfl h1
  · exact iff_of_false (by simp) h1
  · exact iff_of_false (by simp) h1

theorem axisOk_iff (b : Bool) (s : List Char) :
    axisOk b s = true ↔ s ∈ plainNames ∨ b = true ∧ s ∈ photonNames := by
  simp only [axisOk, plainNames, photonNames, List.map, List.mem_cons, List.not_mem_nil, or_false,
    Bool.or_eq_true, beq_iff_eq, Bool.and_eq_true, and_or_left, or_assoc]

/-- C110: the program answers with its usage unless it is given a number, one of the six words, and one to
three names of quantities, those of the photon only if the word asks for a photon. -/
theorem c110_usage (std : Std) (big : ℝ) (points : ℕ → Fin 9 → Fl) (args : List (List Char)) :
    plotPhaseSpace std big points args = .usage ↔
    ¬ ∃ E mode axes e, args = E :: mode :: axes ∧ 1 ≤ axes.length ∧ axes.length ≤ 3 ∧
      std.stold E = some e ∧
      (mode ∈ radWords ∧ (∀ a ∈ axes, a ∈ plainNames ∨ a ∈ photonNames) ∨
        mode ∈ nradWords ∧ ∀ a ∈ axes, a ∈ plainNames) := by
  unfold plotPhaseSpace
  split
  · rename_i E mode axes
    split_ifs with h1
    · simp only [true_iff]
      rintro ⟨E', mode', axes', e, h, h2, h3, -⟩
      obtain ⟨rfl, rfl, rfl⟩ : E = E' ∧ mode = mode' ∧ axes = axes' := by simpa using h
      omega
    · split
      · rename_i e b he hb
        by_cases h2 : axes.all (axisOk b) = true
        swap
        · rw [if_pos h2]
          simp only [true_iff]
          rintro ⟨E', mode', axes', e', h, h3, h4, -, h5⟩
          obtain ⟨rfl, rfl, rfl⟩ : E = E' ∧ mode = mode' ∧ axes = axes' := by simpa using h
          apply h2
          rw [List.all_eq_true]
          intro a ha
          rw [axisOk_iff]
          rcases h5 with ⟨h5, h6⟩ | ⟨h5, h6⟩
          · have : radiative mode = some true := (radiative_iff _ _).2 (by simpa using h5)
            rw [this] at hb
            cases hb
            simpa using h6 a ha
          · exact .inl (h6 a ha)
        · rw [if_neg (not_not.2 h2), example_particles]
          simp only [take_ok, takePhotonKin_ok, Bool.not_true, Bool.or_self, List.any_eq_true,
            Bool.false_eq_true, and_false, exists_false, if_false]
          simp only [reduceCtorEq, false_iff, not_not]
          rw [List.all_eq_true] at h2
          refine ⟨E, mode, axes, e, rfl, by omega, by omega, he, ?_⟩
          rw [radiative_iff] at hb
          cases b
          · right
            refine ⟨by simpa using hb, fun a ha => ?_⟩
            simpa using (axisOk_iff _ _).1 (h2 a ha)
          · left
            refine ⟨by simpa using hb, fun a ha => ?_⟩
            simpa using (axisOk_iff _ _).1 (h2 a ha)
      · rename_i h2
        simp only [true_iff]
        rintro ⟨E', mode', axes', e', h, h3, h4, h5, h6⟩
        obtain ⟨rfl, rfl, rfl⟩ : E = E' ∧ mode = mode' ∧ axes = axes' := by simpa using h
        rcases h6 with ⟨h6, -⟩ | ⟨h6, -⟩
        · exact h2 _ true h5 ((radiative_iff _ _).2 (by simpa using h6))
        · exact h2 _ false h5 ((radiative_iff _ _).2 (by simpa using h6))
  · rename_i h
    simp only [true_iff]
    rintro ⟨E', mode', axes', e', rfl, -⟩
    exact h _ _ _ rfl

/-- The arguments are understood. -/
theorem plot_eq {std : Std} {big : ℝ} {points : ℕ → Fin 9 → Fl} {E mode : List Char}
    {axes : List (List Char)} {e : Fl} {b : Bool}
    (hE : std.stold E = some e) (hb : radiative mode = some b) (h1 : 1 ≤ axes.length)
    (h3 : axes.length ≤ 3) (ha : ∀ a ∈ axes, a ∈ plainNames ∨ b = true ∧ a ∈ photonNames) :
    ∃ data : List (List Fl), plotPhaseSpace std big points (E :: mode :: axes) =
      .done ⟨axes, data, data.map (Example.limits big)⟩ ∧
    data = axes.map fun a => (List.range (numPoints axes.length)).map fun n =>
      axisValue a (Cut.take (finPs examplePs) (.fin 2 * (finPs examplePs).M * e) (Cut.head6 (points n))).kin
        (Cut.takePhotonKin (Cut.take (finPs examplePs) (.fin 2 * (finPs examplePs).M * e)
          (Cut.head6 (points n))).kin (Cut.tail3 (points n))).kin := by
  have h2 : axes.all (axisOk b) = true := by
    rw [List.all_eq_true]
    exact fun a h => (axisOk_iff _ _).2 (ha a h)
  unfold plotPhaseSpace
  simp only [hE, hb, h2, example_particles, take_ok, takePhotonKin_ok, Bool.not_true, Bool.or_self,
    List.any_eq_true, Bool.false_eq_true, and_false, exists_false, if_false, not_true]
  rw [if_neg (by omega)]
  exact ⟨_, rfl, rfl⟩

theorem numPoints_pos {n : ℕ} (h1 : 1 ≤ n) (h3 : n ≤ 3) : 100000 ≤ numPoints n := by
  unfold numPoints
  split_ifs <;> omega

theorem axisValue_plain {S : ℝ} {pt : PhaseSpace ℝ} (t f r : ℝ) (h : 0 ≤ pt.ph_t_sq) (kr : KinematicsRad Fl)
    {a : List Char} (ha : a ∈ plainNames) :
    ∃ v, Quantity S pt t f r (String.ofList a) v ∧
      axisValue a (.make (finPs examplePs) (.fin S) (finPt pt)) kr = .fin v := by
  simp only [plainNames, List.map, List.mem_cons, List.not_mem_nil, or_false] at ha
  rcases ha with rfl | rfl | rfl | rfl | rfl | rfl | rfl | rfl
  · exact ⟨_, .x, rfl⟩
  · exact ⟨_, .y, rfl⟩
  · exact ⟨_, .Q_sq, rfl⟩
  · exact ⟨_, .z, rfl⟩
  · exact ⟨_, .ph_t _ (Real.sqrt_nonneg _) (Real.sq_sqrt h), Fl.sqrt_fin h⟩
  · exact ⟨_, .ph_t_sq, rfl⟩
  · exact ⟨_, .phi_h, rfl⟩
  · exact ⟨_, .phi, rfl⟩

theorem axisValue_photon {S : ℝ} (pt : PhaseSpace ℝ) (t f r : ℝ) (k : Kinematics Fl)
    {a : List Char} (ha : a ∈ photonNames) :
    ∃ v, Quantity S pt t f r (String.ofList a) v ∧
      axisValue a k (.make k (.fin t) (.fin f) (.fin r)) = .fin v := by
  simp only [photonNames, List.map, List.mem_cons, List.not_mem_nil, or_false] at ha
  rcases ha with rfl | rfl | rfl
  · exact ⟨_, .tau, rfl⟩
  · exact ⟨_, .phi_k, rfl⟩
  · exact ⟨_, .R, rfl⟩

/-- C110: at an energy at which the process is possible, and for all random numbers from 0 to 1, there are at
least a hundred thousand points, and on each axis the value of each is the quantity of that name at one and
the same point of the phase space. -/
theorem c110_points (std : Std) (big : ℝ) (E mode : List Char) (axes : List (List Char)) (e : ℝ)
    (hE : std.stold E = some (.fin e)) (hmode : mode ∈ nradWords) (h1 : 1 ≤ axes.length)
    (h3 : axes.length ≤ 3) (ha : ∀ a ∈ axes, a ∈ plainNames) (h : Reaches examplePs (beamS e))
    (p : ℕ → Fin 9 → ℝ) (hp : ∀ n i, 0 ≤ p n i ∧ p n i ≤ 1) :
    ∃ (pt : ℕ → PhaseSpace ℝ) (N : ℕ) (plot : Plot),
      plotPhaseSpace std big (fun n i => .fin (p n i)) (E :: mode :: axes) = .done plot ∧
      100000 ≤ N ∧ (∀ n, Accepted examplePs (beamS e) (pt n)) ∧ plot.axes = axes ∧
      plot.data.length = axes.length ∧
      ∀ a column, (a, column) ∈ axes.zip plot.data → column.length = N ∧ ∀ n, n < N →
        ∃ v, Quantity (beamS e) (pt n) 0 0 0 (String.ofList a) v ∧ column[n]? = some (.fin v) := by
  have H := fun n => c103_take example_massive.1 example_massive.2 h (fun i => p n ⟨i, by omega⟩)
    (fun i => hp n _)
  choose pt jx jy jz jt jh jp acc _x0 _v0 eq _rest using H
  have hb : radiative mode = some false := (radiative_iff _ _).2 (by simpa using hmode)
  obtain ⟨data, hd, hdata⟩ := plot_eq (big := big) (points := fun n i => .fin (p n i)) hE hb h1 h3
    (fun a h => .inl (ha a h))
  refine ⟨pt, _, _, hd, numPoints_pos h1 h3, acc, rfl, ?_, ?_⟩
  · rw [hdata]; simp
  · intro a column hc
    have hS : Fl.fin 2 * (finPs examplePs).M * .fin e = .fin (beamS e) := by simp [beamS, finPs]
    dsimp only at hc
    rw [hdata, List.zip_map_right, List.mem_map] at hc
    obtain ⟨⟨a1, a2⟩, hz, hc⟩ := hc
    have haa : a1 ∈ axes ∧ a1 = a2 := by
      rw [List.zip_eq_zipWith, List.zipWith_self, List.mem_map] at hz
      obtain ⟨b, hb, hz⟩ := hz
      cases hz
      exact ⟨hb, rfl⟩
    obtain ⟨haa, rfl⟩ := haa
    simp only [Prod.map, id_eq, Prod.mk.injEq] at hc
    obtain ⟨rfl, rfl⟩ := hc
    refine ⟨by simp, fun n hn => ?_⟩
    have g1 : Cut.head6 (fun i => .fin (p n i)) = fun i => .fin (p n ⟨i, by omega⟩) := rfl
    obtain ⟨v, q, hv⟩ := axisValue_plain (S := beamS e) 0 0 0 (acc n).ph_t_sq_nonneg
      (Cut.takePhotonKin (Cut.take (finPs examplePs) (.fin (beamS e))
        (Cut.head6 (fun i => .fin (p n i)))).kin (Cut.tail3 (fun i => .fin (p n i)))).kin (ha a1 haa)
    refine ⟨v, q, ?_⟩
    rw [List.getElem?_map, List.getElem?_range hn, Option.map_some, hS]
    rw [show (Cut.take (finPs examplePs) (.fin (beamS e)) (Cut.head6 (fun i => .fin (p n i)))).kin =
      Kinematics.make (finPs examplePs) (.fin (beamS e)) (finPt (pt n)) from by rw [g1, eq n]] at hv ⊢
    rw [hv]

/-- C110: with energy to spare, and for all random numbers between 0 and 1, the same holds for the phase space
with a photon. -/
theorem c110_rad_points (std : Std) (big : ℝ) (E mode : List Char) (axes : List (List Char)) (e : ℝ)
    (hE : std.stold E = some (.fin e)) (hmode : mode ∈ radWords) (h1 : 1 ≤ axes.length)
    (h3 : axes.length ≤ 3) (ha : ∀ a ∈ axes, a ∈ plainNames ∨ a ∈ photonNames)
    (h : Exceeds examplePs (beamS e)) (p : ℕ → Fin 9 → ℝ) (hp : ∀ n i, 0 < p n i ∧ p n i < 1) :
    ∃ (pt : ℕ → PhaseSpace ℝ) (t f r : ℕ → ℝ) (N : ℕ) (plot : Plot),
      plotPhaseSpace std big (fun n i => .fin (p n i)) (E :: mode :: axes) = .done plot ∧
      100000 ≤ N ∧ (∀ n, AcceptedRad examplePs (beamS e) (pt n) (t n) (f n) (r n)) ∧ plot.axes = axes ∧
      plot.data.length = axes.length ∧
      ∀ a column, (a, column) ∈ axes.zip plot.data → column.length = N ∧ ∀ n, n < N →
        ∃ v, Quantity (beamS e) (pt n) (t n) (f n) (r n) (String.ofList a) v ∧
          column[n]? = some (.fin v) := by
  have H := fun n => take_all example_massive.1 example_massive.2 (le_of_lt h) (fun i => p n ⟨i, by omega⟩)
    (fun i => ⟨(hp n _).1.le, (hp n _).2.le⟩)
  choose pt jx jy jz jt jh jp acc _x0 eq _1 _2 _3 _4 _5 _6 _7 s using H
  have H' := fun n => c103_take_photon example_massive.1 (acc n) (s n h (fun i => hp n _)).2
    (fun i => p n ⟨i + 6, by omega⟩) (fun i => ⟨(hp n _).1.le, (hp n _).2.le⟩)
  choose t f r kt kf kr ar _v0 e' _rest using H'
  have hb : radiative mode = some true := (radiative_iff _ _).2 (by simpa using hmode)
  obtain ⟨data, hd, hdata⟩ := plot_eq (big := big) (points := fun n i => .fin (p n i)) hE hb h1 h3
    (fun a h => by simpa using ha a h)
  refine ⟨pt, t, f, r, _, _, hd, numPoints_pos h1 h3, ar, rfl, ?_, ?_⟩
  · rw [hdata]; simp
  · intro a column hc
    have hS : Fl.fin 2 * (finPs examplePs).M * .fin e = .fin (beamS e) := by simp [beamS, finPs]
    dsimp only at hc
    rw [hdata, List.zip_map_right, List.mem_map] at hc
    obtain ⟨⟨a1, a2⟩, hz, hc⟩ := hc
    have haa : a1 ∈ axes ∧ a1 = a2 := by
      rw [List.zip_eq_zipWith, List.zipWith_self, List.mem_map] at hz
      obtain ⟨b, hb, hz⟩ := hz
      cases hz
      exact ⟨hb, rfl⟩
    obtain ⟨haa, rfl⟩ := haa
    simp only [Prod.map, id_eq, Prod.mk.injEq] at hc
    obtain ⟨rfl, rfl⟩ := hc
    refine ⟨by simp, fun n hn => ?_⟩
    have g1 : Cut.head6 (fun i => .fin (p n i)) = fun i => .fin (p n ⟨i, by omega⟩) := rfl
    have g2 : Cut.tail3 (fun i => .fin (p n i)) = fun i => .fin (p n ⟨i + 6, by omega⟩) := rfl
    have hv : ∃ v, Quantity (beamS e) (pt n) (t n) (f n) (r n) (String.ofList a1) v ∧
        axisValue a1 (.make (finPs examplePs) (.fin (beamS e)) (finPt (pt n)))
          (.make (.make (finPs examplePs) (.fin (beamS e)) (finPt (pt n))) (.fin (t n)) (.fin (f n))
            (.fin (r n))) = .fin v := by
      rcases ha a1 haa with h | h
      · exact axisValue_plain _ _ _ (acc n).ph_t_sq_nonneg _ h
      · exact axisValue_photon _ _ _ _ _ h
    obtain ⟨v, q, hv⟩ := hv
    refine ⟨v, q, ?_⟩
    rw [List.getElem?_map, List.getElem?_range hn, Option.map_some, hS, g1, eq n, g2]
    dsimp only
    rw [e' n, hv]

theorem foldl_limits (vs : List ℝ) (lo hi : ℝ) : ∃ lo' hi', (vs.map Fl.fin).foldl limitStep (.fin lo, .fin hi) =
    (.fin lo', .fin hi') ∧ lo' ≤ lo ∧ hi ≤ hi' ∧ (lo' = lo ∨ lo' ∈ vs) ∧ (hi' = hi ∨ hi' ∈ vs) ∧
    ∀ v ∈ vs, lo' ≤ v ∧ v ≤ hi' := by
  induction vs generalizing lo hi with
  | nil => exact ⟨lo, hi, rfl, le_rfl, le_rfl, .inl rfl, .inl rfl, by simp⟩
  | cons v vs ih =>
    have hs : limitStep (.fin lo, .fin hi) (.fin v) = (.fin (min v lo), .fin (max v hi)) := by
      simp only [limitStep, Fl.lt_fin, gt_iff_lt, Prod.mk.injEq]
      constructor
      · split_ifs with h
        · rw [min_eq_left h.le]
        · rw [min_eq_right (not_lt.1 h)]
      · split_ifs with h
        · rw [max_eq_left h.le]
        · rw [max_eq_right (not_lt.1 h)]
    obtain ⟨lo', hi', e, h1, h2, h3, h4, h5⟩ := ih (min v lo) (max v hi)
    refine ⟨lo', hi', by rw [List.map_cons, List.foldl_cons, hs, e], h1.trans (min_le_right _ _),
      (le_max_right _ _).trans h2, ?_, ?_, ?_⟩
    · rcases h3 with h | h
      · rcases min_choice v lo with g | g
        · right; rw [h, g]; exact List.mem_cons_self
        · left; rw [h, g]
      · right; exact List.mem_cons_of_mem _ h
    · rcases h4 with h | h
      · rcases max_choice v hi with g | g
        · right; rw [h, g]; exact List.mem_cons_self
        · left; rw [h, g]
      · right; exact List.mem_cons_of_mem _ h
    · intro w hw
      rcases List.mem_cons.1 hw with rfl | hw
      · exact ⟨h1.trans (min_le_left _ _), (le_max_left _ _).trans h2⟩
      · exact h5 w hw

theorem limits_extremes (big : ℝ) (vs : List ℝ) (hne : vs ≠ []) (hv : ∀ v ∈ vs, |v| ≤ big) :
    ∃ lo hi, Example.limits big (vs.map .fin) = (.fin lo, .fin hi) ∧ Extremes vs lo hi := by
  obtain ⟨lo, hi, e, h1, h2, h3, h4, h5⟩ := foldl_limits vs big (-big)
  obtain ⟨v, hm⟩ := List.exists_mem_of_ne_nil _ hne
  refine ⟨lo, hi, e, ?_, ?_, h5⟩
  · rcases h3 with h | h
    · have := (h5 v hm).1
      have := (abs_le.1 (hv v hm)).2
      rw [show lo = v by linarith]
      exact hm
    · exact h
  · rcases h4 with h | h
    · have := (h5 v hm).2
      have := (abs_le.1 (hv v hm)).1
      rw [show hi = v by linarith]
      exact hm
    · exact h

/-- C110: the limits of each axis of the plot are the least and the greatest of its values, whenever these
are numbers that the type can hold. -/
theorem c110_limits (std : Std) (big : ℝ) (points : ℕ → Fin 9 → Fl) (args : List (List Char)) (plot : Plot)
    (h : plotPhaseSpace std big points args = .done plot) :
    plot.limits.length = plot.data.length ∧
    ∀ column lim, (column, lim) ∈ plot.data.zip plot.limits → ∀ vs : List ℝ, column = vs.map .fin → vs ≠ [] →
      (∀ v ∈ vs, |v| ≤ big) → ∃ lo hi, lim = (.fin lo, .fin hi) ∧ Extremes vs lo hi := by
  have key : plot.limits = plot.data.map (Example.limits big) := by
    unfold plotPhaseSpace at h
    split at h
    · split_ifs at h
      split at h
      · split_ifs at h
        rw [example_particles] at h
        dsimp only at h
        split_ifs at h
        cases h
        rfl
      · cases h
    · cases h
  rw [key]
  refine ⟨by simp, fun column lim hm vs hc hne hv => ?_⟩
  rw [List.zip_map_right, List.mem_map] at hm
  obtain ⟨⟨a1, a2⟩, hz, hm⟩ := hm
  rw [List.zip_eq_zipWith, List.zipWith_self, List.mem_map] at hz
  obtain ⟨b, -, hz⟩ := hz
  cases hz
  cases hm
  rw [show a1 = vs.map Fl.fin from hc]
  exact limits_extremes big vs hne hv

/-- C110, in part: on an axis from the least to the greatest of its values every value but the greatest is
shown, in the hundredth of the range where it is.  Missing: the greatest. -/
theorem c110_shown_partial (vs : List ℝ) (lo hi : ℝ) (h : Extremes vs lo hi) (v : ℝ) (hv : v ∈ vs)
    (hlt : v < hi) : ∃ k, bin (.fin lo, .fin hi) (.fin v) = some k ∧ InPart lo hi k v := by
  have h1 := (h.2.2 v hv).1
  have hd : 0 < hi - lo := by linarith
  have hw : 0 < (hi - lo) / 100 := by positivity
  have h0 : 0 ≤ 100 * (v - lo) / (hi - lo) := div_nonneg (by linarith) hd.le
  refine ⟨⌊100 * (v - lo) / (hi - lo)⌋₊, ?_, ?_, ?_, ?_⟩
  · simp only [bin, if_neg (not_lt.2 h1), not_not, hlt, not_true, if_false]
  · rw [Nat.floor_lt h0, div_lt_iff₀ hd]
    push_cast
    linarith
  · have := Nat.floor_le h0
    rw [le_div_iff₀ hd] at this
    linarith
  · have := Nat.lt_floor_add_one (100 * (v - lo) / (hi - lo))
    rw [div_lt_iff₀ hd] at this
    linarith

/-- C110, refuted: the program asks for axes that end at the greatest value, which is then not on the axis;
whatever the points, one of them at least is not in the plot. -/
theorem c110_all_refuted (std : Std) (big : ℝ) (points : ℕ → Fin 9 → Fl) (args : List (List Char))
    (plot : Plot) (h : plotPhaseSpace std big points args = .done plot) (vs : List ℝ) (hne : vs ≠ [])
    (hc : vs.map Fl.fin ∈ plot.data) (hv : ∀ v ∈ vs, |v| ≤ big) :
    ∃ n < vs.length, (∀ m < vs.length, vs[m]! ≤ vs[n]!) ∧ plot.cell n = none := by
  obtain ⟨hl, hlim⟩ := c110_limits std big points args plot h
  obtain ⟨i, hi, hei⟩ := List.getElem_of_mem hc
  have hz : (vs.map Fl.fin, plot.limits[i]'(by omega)) ∈ plot.data.zip plot.limits := by
    rw [List.mem_iff_getElem]
    exact ⟨i, by simp; omega, by simp [hei]⟩
  obtain ⟨lo, hi', e, hx⟩ := hlim _ _ hz vs rfl hne hv
  obtain ⟨n, hn, hen⟩ := List.getElem_of_mem hx.2.1
  refine ⟨n, hn, fun m hm => ?_, ?_⟩
  · rw [getElem!_pos vs m hm, getElem!_pos vs n hn, hen]
    exact (hx.2.2 _ (List.getElem_mem _)).2
  · have hb : (vs.map Fl.fin)[n]?.bind (bin (plot.limits[i]'(by omega))) = none := by
      rw [e, List.getElem?_map, List.getElem?_eq_getElem hn, hen]
      simp [bin]
    unfold Plot.cell
    generalize plot.data.zip plot.limits = l at hz
    induction l with
    | nil => simp at hz
    | cons a l ih =>
      rw [List.mapM_cons]
      rcases List.mem_cons.1 hz with rfl | hz
      · simp only [hb]
        rfl
      · rw [ih hz]
        cases a.1[n]?.bind (bin a.2) <;> rfl

/-- C110, refuted below the threshold: at an energy at which the process is impossible the program draws a
plot all the same, of values of `x` that are not numbers, on an axis from the largest number of the type to
the lowest. -/
theorem c110_below_refuted (std : Std) (big : ℝ) (points : ℕ → Fin 9 → Fl) (E mode : List Char) (e : ℝ)
    (hE : std.stold E = some (.fin e)) (hmode : mode ∈ radWords ∨ mode ∈ nradWords)
    (he : examplePs.m ≤ e) (h : ¬ Reaches examplePs (beamS e)) :
    ∃ plot, plotPhaseSpace std big points [E, mode, "x".toList] = .done plot ∧
      plot.data = [List.replicate 100000 .nan] ∧ plot.limits = [(.fin big, .fin (-big))] := by
  have hb : 2 * examplePs.M * examplePs.m ≤ beamS e := by
    unfold beamS
    have := example_massive.1.M_pos
    exact mul_le_mul_of_nonneg_left he (by linarith)
  have hr : ∃ b, radiative mode = some b := by
    rcases hmode with h | h
    · exact ⟨true, (radiative_iff _ _).2 (by simpa using h)⟩
    · exact ⟨false, (radiative_iff _ _).2 (by simpa using h)⟩
  obtain ⟨b, hr⟩ := hr
  obtain ⟨data, hd, hdata⟩ := plot_eq (big := big) (points := points) (axes := ["x".toList]) hE hr (by simp)
    (by simp) (by intro a ha; left; simp at ha; simp [ha, plainNames])
  have hS : Fl.fin 2 * (finPs examplePs).M * .fin e = .fin (beamS e) := by simp [beamS, finPs]
  have hdn : data = [List.replicate 100000 .nan] := by
    rw [hdata, hS]
    simp only [List.map_cons, List.map_nil, List.cons.injEq, and_true]
    rw [List.eq_replicate_iff]
    refine ⟨by simp [numPoints], fun v hv => ?_⟩
    rw [List.mem_map] at hv
    obtain ⟨n, -, rfl⟩ := hv
    obtain ⟨-, hx, -⟩ := c103_below_refuted example_massive.1 example_massive.2 hb (mt SMin_le_iff.1 h)
      (Cut.head6 (points n))
    rw [show axisValue "x".toList _ _ = _ from if_pos rfl, hx]
  refine ⟨_, hd, hdn, ?_⟩
  dsimp only
  rw [hdn]
  have : ∀ n, (List.replicate n Fl.nan).foldl limitStep (.fin big, .fin (-big)) =
      (.fin big, .fin (-big)) := by
    intro n
    induction n with
    | zero => rfl
    | succ n ih => rw [List.replicate_succ, List.foldl_cons]; simpa [limitStep] using ih
  simp only [List.map_cons, List.map_nil, Example.limits, this]

-- Hypotheses of `c110_points`, `c110_rad_points` and `c110_below_refuted`: beams of 10 and of 0.1.
example : Reaches examplePs (beamS 10) ∧ Exceeds examplePs (beamS 10) ∧ ¬ Reaches examplePs (beamS (1 / 10)) ∧
    examplePs.m ≤ 1 / 10 ∧ "nrad".toList ∈ nradWords ∧ "rad".toList ∈ radWords ∧
    "ph_t".toList ∈ plainNames ∧ "tau".toList ∈ photonNames :=
  ⟨le_of_lt example_beam.1, example_beam.1, example_beam.2.1, example_beam.2.2, by simp [nradWords],
    by simp [radWords], by simp [plainNames], by simp [photonNames]⟩

-- Hypotheses of `c110_limits` and `c110_all_refuted`: the plot of `y` at a beam of 10, for a type wide enough.
example : ∃ (std : Std) (big : ℝ) (points : ℕ → Fin 9 → Fl) (args : List (List Char)) (plot : Plot)
    (vs : List ℝ), plotPhaseSpace std big points args = .done plot ∧ vs ≠ [] ∧ vs.map Fl.fin ∈ plot.data ∧
    ∀ v ∈ vs, |v| ≤ big := by
  obtain ⟨pt, N, plot, hp, hN, acc, hax, hlen, hcol⟩ := c110_points ⟨fun _ => none, fun _ => some (.fin 10)⟩ 2 []
    "nrad".toList ["y".toList] 10 rfl (by simp [nradWords]) (by simp) (by simp) (by simp [plainNames])
    (le_of_lt example_beam.1) (fun _ _ => 1 / 2) (fun _ _ => by norm_num)
  obtain ⟨column, hd⟩ := List.length_eq_one_iff.1 hlen
  obtain ⟨hl, hc⟩ := hcol "y".toList column (by rw [hd]; simp)
  have hcc : column = ((List.range N).map fun n => (pt n).y).map Fl.fin := by
    apply List.ext_getElem?
    intro n
    by_cases hn : n < N
    · obtain ⟨v, q, e⟩ := hc n hn
      have : v = (pt n).y := by
        generalize hs : String.ofList "y".toList = s at q
        cases q <;> first | rfl | exact absurd hs (by decide)
      rw [e, this]
      simp [hn]
    · rw [List.getElem?_eq_none (by omega), List.getElem?_eq_none (by simp; omega)]
  refine ⟨_, _, _, _, plot, (List.range N).map fun n => (pt n).y, hp, ?_, ?_, ?_⟩
  · intro h
    have := congrArg List.length h
    simp at this
    omega
  · rw [hd, ← hcc]; simp
  · intro v hv
    rw [List.mem_map] at hv
    obtain ⟨n, -, rfl⟩ := hv
    rw [abs_le]
    constructor <;> linarith [(acc n).y_pos, (acc n).y_le]

-- Hypotheses of `c110_shown_partial`: three values.
example : Extremes [1, 2, 4] 1 4 ∧ (2 : ℝ) ∈ ([1, 2, 4] : List ℝ) ∧ (2 : ℝ) < 4 := by
  refine ⟨⟨by simp, by simp, ?_⟩, by simp, by norm_num⟩
  intro v hv
  simp at hv
  rcases hv with rfl | rfl | rfl <;> norm_num

end Sidis.Props
