import Verif.Lemmas.Phenom

/-!
# C61: the running coupling and the hadronic vacuum polarisation

`Tables.LoopEnds qSqMax t` says that `t` is what the start-up code leaves in the table.
-/

namespace Sidis.Props

open Phen Interp

/-- Largest value of `Q²` considered, `2 * 10^308`: above every finite double. -/
noncomputable def qSqTop : ℝ := 2 * (10 ^ 154) ^ 2

/-- The electron mass squared, where the table starts. -/
noncomputable def qSqBottom : ℝ := massE ^ 2

/-- End of the first cell of the table. -/
noncomputable def qSqFirst : ℝ := massE ^ 2 * Real.exp 0.01

/-- The start-up loop ends, with one result. -/
theorem c61_table : ∃! t, Tables.LoopEnds qSqMax t := by
  obtain ⟨t, h⟩ := exists_end
  refine ⟨t, h, ?_⟩
  rintro t' ⟨n', rfl, h1', h2'⟩
  obtain ⟨n, rfl, h1, h2⟩ := h
  rcases lt_trichotomy n n' with h | h | h
  · exact absurd (h2' n h) h1
  · rw [h]
  · exact absurd (h2 n' h) h1'

private noncomputable def val100 : ℝ := curve 0 entry (place qSqMax)

/-- Closed form of the coupling. -/
private noncomputable def coupling (Q : ℝ) : ℝ :=
  curve 0 entry (place (min Q qSqMax))
    / (1 - val100 / (3 * Real.pi) * Real.log (max Q qSqMax / qSqMax))

private theorem bottom_pos : 0 < qSqBottom := by
  have := massE_pos
  unfold qSqBottom; positivity

private theorem bottom_le_max : massE ^ 2 ≤ qSqMax := by norm_num [massE, qSqMax]

private theorem place_le {Q : ℝ} (h1 : massE ^ 2 ≤ Q) (h2 : Q ≤ qSqMax) : place Q + 7 < 2108 := by
  obtain ⟨t, ht⟩ := exists_end
  exact (view_eq ht h1 h2).2

private theorem curve_lo {Q : ℝ} (h1 : massE ^ 2 ≤ Q) (h2 : Q ≤ qSqMax) :
    alpha0 ≤ curve 0 entry (place Q) :=
  curve_ge entry_even (by norm_num [entry_zero, alpha0]) (place_pos h1)
    (by have := place_le h1 h2; push_cast; linarith)

private theorem first_pos : 0 < qSqFirst := by
  have := massE_pos
  unfold qSqFirst; positivity

private theorem place_first : place qSqFirst = 1 := by
  have := massE_pos
  rw [place, qSqFirst, Real.log_mul (by positivity) (by positivity), Real.log_exp, Real.log_pow]
  norm_num [step]

private theorem place_strictMono {a b : ℝ} (ha : 0 < a) (h : a < b) : place a < place b := by
  have := Real.log_lt_log ha h
  unfold place
  have := step_pos
  gcongr

private theorem place_mono {a b : ℝ} (ha : 0 < a) (h : a ≤ b) : place a ≤ place b := by
  have := Real.log_le_log ha h
  unfold place
  have := step_pos
  gcongr

private theorem bottom_le_first : qSqBottom ≤ qSqFirst := by
  have := massE_pos
  unfold qSqBottom qSqFirst
  exact le_mul_of_one_le_right (by positivity) (Real.one_le_exp (by norm_num))

private theorem first_lt_max : qSqFirst < qSqMax := by
  have h : Real.exp 0.01 ≤ Real.exp 1 := Real.exp_le_exp.2 (by norm_num)
  have h2 := Real.exp_one_lt_d9
  have := massE_pos
  unfold qSqFirst
  calc massE ^ 2 * Real.exp 0.01 ≤ massE ^ 2 * 3 := by gcongr; linarith
    _ < qSqMax := by norm_num [massE, qSqMax]

private theorem one_le_place {Q : ℝ} (h : qSqFirst ≤ Q) : 1 ≤ place Q := by
  rw [← place_first]; exact place_mono first_pos h

private theorem curve_hi {Q : ℝ} (h1 : qSqFirst ≤ Q) (h2 : Q ≤ qSqMax) :
    curve 0 entry (place Q) ≤ 0.0076 := by
  have hp := place_le (bottom_le_first.trans h1) h2
  have h0 := one_le_place h1
  have := curve_bounds (c := 0) entry_even h0 (by push_cast; linarith)
  refine this.2.le.trans (entry_le ?_)
  have : ⌊place Q⌋₊ ≤ 2101 := floor_le_of (by push_cast; linarith) (by linarith)
  omega

private theorem val100_bounds : alpha0 ≤ val100 ∧ val100 ≤ 0.0076 :=
  ⟨curve_lo bottom_le_max le_rfl, curve_hi first_lt_max.le le_rfl⟩

private theorem log_top : Real.log (qSqTop / qSqMax) < 800 := by
  rw [Real.log_lt_iff_lt_exp (by norm_num [qSqTop, qSqMax])]
  have h : ((2.7 : ℝ) ^ 200) ^ 4 < Real.exp 800 := by
    have : Real.exp 800 = (Real.exp 1 ^ 200) ^ 4 := by rw [← Real.exp_nat_mul, ← Real.exp_nat_mul]; norm_num
    rw [this]
    exact pow_lt_pow_left₀ (pow_lt_pow_left₀ (by linarith [Real.exp_one_gt_d9]) (by norm_num) (by norm_num))
      (by norm_num) (by norm_num)
  refine lt_trans ?_ h
  norm_num [qSqTop, qSqMax]

private theorem max_pos : 0 < qSqMax := by norm_num [qSqMax]

private theorem log_max_nonneg (Q : ℝ) : 0 ≤ Real.log (max Q qSqMax / qSqMax) :=
  Real.log_nonneg (by rw [le_div_iff₀ max_pos]; simp)

private theorem denom_pos {Q : ℝ} (h : Q ≤ qSqTop) :
    0 < 1 - val100 / (3 * Real.pi) * Real.log (max Q qSqMax / qSqMax) := by
  have hl : Real.log (max Q qSqMax / qSqMax) ≤ 800 := by
    refine (Real.log_le_log (div_pos (lt_of_lt_of_le max_pos (le_max_right _ _)) max_pos) ?_).trans
      log_top.le
    have : max Q qSqMax ≤ qSqTop := max_le h (by norm_num [qSqMax, qSqTop])
    have := max_pos
    gcongr
  have h0 := log_max_nonneg Q
  have hv := val100_bounds
  have hpi := Real.pi_gt_three
  have ha : 0 < alpha0 := by norm_num [alpha0]
  have : val100 / (3 * Real.pi) ≤ 0.0076 / 9 := by
    have := hv.2
    gcongr; linarith
  have : val100 / (3 * Real.pi) * Real.log (max Q qSqMax / qSqMax) ≤ 0.0076 / 9 * 800 := by gcongr
  linarith

private theorem coupling_eq {t : Tables} (ht : Tables.LoopEnds qSqMax t) {Q : ℝ} (h1 : qSqBottom ≤ Q)
    (h2 : Q ≤ qSqTop) : alphaQed t (.fin Q) = .val (.fin (coupling Q)) := by
  have h0 : 0 < Q := lt_of_lt_of_le bottom_pos h1
  unfold alphaQed coupling
  rcases lt_or_ge Q qSqMax with h | h
  · rw [if_pos (show Fl.fin Q < .fin qSqMax from h), (view_eq ht h1 h.le).1, min_eq_left h.le,
      max_eq_right h.le, div_self max_pos.ne', Real.log_one, mul_zero, sub_zero, div_one]
  · have hm := (view_eq ht bottom_le_max (le_refl qSqMax)).1
    rw [if_neg (show ¬ Fl.fin Q < .fin qSqMax from not_lt.2 h), hm, min_eq_right h, max_eq_left h]
    have hd := denom_pos h2
    rw [max_eq_left h] at hd
    have hpi := Real.pi_pos
    have hq : 0 < Q / qSqMax := div_pos h0 max_pos
    have e : val100 / (4 * Real.pi) * beta0 = val100 / (3 * Real.pi) := by
      simp only [beta0, nf]; field_simp
    simp only [Res.bind]
    have e1 : (Fl.fin Q / Fl.fin qSqMax).log = .fin (Real.log (Q / qSqMax)) := by
      rw [Fl.div_fin _ max_pos.ne']; simp [Fl.log, hq]
    have e2 : Fl.fin (curve 0 entry (place qSqMax)) / Fl.fin (4 * Real.pi)
        = .fin (val100 / (4 * Real.pi)) := by
      rw [Fl.div_fin _ (by positivity)]; rfl
    rw [e1, e2]
    simp only [Fl.mul_fin, Fl.sub_fin, e]
    rw [Fl.div_fin _ hd.ne']
    congr 2
    rw [← val100]
    field_simp

/-- C61 (defined).  For every `Q²` from the electron mass squared up to the largest double the coupling
is a number, at least the low-energy coupling; it is the low-energy coupling at the electron mass. -/
theorem c61_number {t : Tables} (ht : Tables.LoopEnds qSqMax t) (Q : ℝ) (h1 : qSqBottom ≤ Q)
    (h2 : Q ≤ qSqTop) :
    (∃ a, alphaQed t (.fin Q) = .val (.fin a) ∧ 1 / 137.03599 ≤ a) ∧
      alphaQed t (.fin qSqBottom) = .val (.fin (1 / 137.03599)) := by
  have ha : 0 < alpha0 := by norm_num [alpha0]
  have top : qSqBottom ≤ qSqTop := by norm_num [qSqBottom, massE, qSqTop]
  constructor
  · refine ⟨_, coupling_eq ht h1 h2, ?_⟩
    have hd := denom_pos h2
    rw [coupling, le_div_iff₀ hd]
    have hc : alpha0 ≤ curve 0 entry (place (min Q qSqMax)) :=
      curve_lo (le_min h1 bottom_le_max) (min_le_right _ _)
    have : 0 ≤ val100 / (3 * Real.pi) * Real.log (max Q qSqMax / qSqMax) := by
      have := log_max_nonneg Q
      have := ha.le.trans val100_bounds.1
      have := Real.pi_pos
      positivity
    refine le_trans ?_ hc
    rw [← show alpha0 = 1 / 137.03599 from rfl]
    nlinarith
  · rw [coupling_eq ht le_rfl top, coupling, min_eq_left (show qSqBottom ≤ qSqMax from bottom_le_max),
      max_eq_right (show qSqBottom ≤ qSqMax from bottom_le_max), div_self max_pos.ne', Real.log_one,
      mul_zero, sub_zero, div_one]
    have : place qSqBottom = 0 := by
      rw [place, qSqBottom, Real.log_pow]; simp
    rw [this]
    norm_num [curve, cub, entry, alpha0]

/-- C61 (continuous).  The coupling is a continuous function of `Q²` on this whole range, also where the
table hands over to the one-loop formula. -/
theorem c61_continuous {t : Tables} (ht : Tables.LoopEnds qSqMax t) :
    ∃ a : ℝ → ℝ, ContinuousOn a (Set.Icc qSqBottom qSqTop) ∧
      ∀ Q ∈ Set.Icc qSqBottom qSqTop, alphaQed t (.fin Q) = .val (.fin (a Q)) := by
  refine ⟨coupling, ?_, fun Q h => coupling_eq ht h.1 h.2⟩
  refine ContinuousOn.div ?_ ?_ fun Q h => (denom_pos h.2).ne'
  · refine (curve_continuousOn 0 entry).comp (t := Set.Ici 0) ?_ ?_
    · unfold place
      refine ContinuousOn.div_const (ContinuousOn.sub (ContinuousOn.log (by fun_prop) ?_) (by fun_prop)) _
      intro Q h
      exact (lt_min (lt_of_lt_of_le bottom_pos h.1) max_pos).ne'
    · intro Q h
      exact place_pos (le_min h.1 bottom_le_max)
  · refine ContinuousOn.sub (by fun_prop) (ContinuousOn.mul (by fun_prop) (ContinuousOn.log (by fun_prop) ?_))
    intro Q h
    exact (div_pos (lt_of_lt_of_le max_pos (le_max_right _ _)) max_pos).ne'

/-- C61 (increasing).  Outside the first cell of the table the coupling grows strictly with `Q²`. -/
theorem c61_increasing {t : Tables} (ht : Tables.LoopEnds qSqMax t) {Q Q' a a' : ℝ}
    (h1 : qSqFirst ≤ Q) (h : Q < Q') (h2 : Q' ≤ qSqTop)
    (ha : alphaQed t (.fin Q) = .val (.fin a)) (ha' : alphaQed t (.fin Q') = .val (.fin a')) : a < a' := by
  have hb := bottom_le_first.trans h1
  rw [coupling_eq ht hb (h.le.trans h2)] at ha
  rw [coupling_eq ht (hb.trans h.le) h2] at ha'
  obtain rfl : coupling Q = a := by simpa using ha
  obtain rfl : coupling Q' = a' := by simpa using ha'
  have h0 : 0 < Q := lt_of_lt_of_le first_pos h1
  have hpi := Real.pi_pos
  have hv := val100_bounds
  have hv0 : 0 < val100 := lt_of_lt_of_le (by norm_num [alpha0]) hv.1
  have hcpos : ∀ {q : ℝ}, qSqFirst ≤ q → 0 < curve 0 entry (place (min q qSqMax)) := fun hq =>
    lt_of_lt_of_le (by norm_num [alpha0])
      (curve_lo (le_min (bottom_le_first.trans hq) bottom_le_max) (min_le_right _ _))
  have hden : ∀ {q q' : ℝ}, q ≤ q' → 1 - val100 / (3 * Real.pi) * Real.log (max q' qSqMax / qSqMax)
      ≤ 1 - val100 / (3 * Real.pi) * Real.log (max q qSqMax / qSqMax) := by
    intro q q' hq
    have := max_pos
    have : Real.log (max q qSqMax / qSqMax) ≤ Real.log (max q' qSqMax / qSqMax) :=
      Real.log_le_log (div_pos (lt_of_lt_of_le max_pos (le_max_right _ _)) max_pos) (by gcongr)
    gcongr
  rcases lt_or_ge Q qSqMax with hQ | hQ
  · have hlt : curve 0 entry (place (min Q qSqMax)) < curve 0 entry (place (min Q' qSqMax)) := by
      refine curve_strictMono entry_even (one_le_place (le_min h1 first_lt_max.le))
        (place_strictMono (lt_min h0 max_pos) ?_) ?_
      · rw [min_eq_left hQ.le]; exact lt_min h hQ
      · have := place_le (le_min (hb.trans h.le) bottom_le_max) (min_le_right Q' qSqMax)
        push_cast; linarith
    unfold coupling
    exact div_lt_div₀ hlt (hden h.le) (hcpos (h1.trans h.le)).le (denom_pos h2)
  · unfold coupling
    rw [min_eq_right hQ, min_eq_right (hQ.trans h.le)]
    refine div_lt_div_of_pos_left hv0 (denom_pos h2) ?_
    rw [max_eq_left hQ, max_eq_left (hQ.trans h.le)]
    have : Real.log (Q / qSqMax) < Real.log (Q' / qSqMax) := by
      have := max_pos
      exact Real.log_lt_log (by positivity) (by gcongr)
    have : val100 / (3 * Real.pi) * Real.log (Q / qSqMax) < val100 / (3 * Real.pi) * Real.log (Q' / qSqMax) := by
      gcongr
    linarith

/-- C61 (running).  The inverse coupling falls logarithmically with the one-loop slope `1/(3π)` of one
charged lepton, up to two parts in a thousand of the change and one step of the table. -/
theorem c61_one_loop {t : Tables} (ht : Tables.LoopEnds qSqMax t) {Q a : ℝ}
    (h1 : qSqFirst ≤ Q) (h2 : Q ≤ qSqTop) (ha : alphaQed t (.fin Q) = .val (.fin a)) :
    137.03599 - 1.002 * ((Real.log (Q / massE ^ 2) + 0.01) / (3 * Real.pi)) ≤ 1 / a ∧
      1 / a ≤ 137.03599 - (Real.log (Q / massE ^ 2) - 0.01) / (3 * Real.pi) := by
  have hb := bottom_le_first.trans h1
  rw [coupling_eq ht hb h2] at ha
  obtain rfl : coupling Q = a := by simpa using ha
  have hm := massE_pos
  have hpi := Real.pi_pos
  have h0 : 0 < Q := lt_of_lt_of_le first_pos h1
  set q := min Q qSqMax with hq
  have hq1 : qSqFirst ≤ q := le_min h1 first_lt_max.le
  have hq2 : q ≤ qSqMax := min_le_right _ _
  have hq0 : 0 < q := lt_of_lt_of_le first_pos hq1
  have hp := place_le (bottom_le_first.trans hq1) hq2
  have hp1 := one_le_place hq1
  have hcb := curve_bounds (c := 0) entry_even hp1 (by push_cast; linarith)
  have hf : ⌊place q⌋₊ ≤ 2101 := floor_le_of (by push_cast; linarith) (by linarith)
  have hf1 := Nat.floor_le (show 0 ≤ place q by linarith)
  have hf2 := Nat.lt_floor_add_one (place q)
  have e1 := entry_inv ⌊place q⌋₊ (by omega)
  have e2 := entry_inv (⌊place q⌋₊ + 1) (by omega)
  have p1 : 0 < entry ⌊place q⌋₊ := entry_pos (by omega)
  have c0 : 0 < curve 0 entry (place q) := lt_of_lt_of_le p1 hcb.1
  have i1 : 1 / curve 0 entry (place q) ≤ 1 / entry ⌊place q⌋₊ := one_div_le_one_div_of_le p1 hcb.1
  have i2 : 1 / entry (⌊place q⌋₊ + 1) ≤ 1 / curve 0 entry (place q) := one_div_le_one_div_of_le c0 hcb.2.le
  have eplace : place q * step = Real.log (q / massE ^ 2) := by
    rw [place, div_mul_cancel₀ _ step_pos.ne', Real.log_div hq0.ne' (by positivity), Real.log_pow]
    push_cast; ring
  have ealpha : 1 / alpha0 = 137.03599 := by norm_num [alpha0]
  rw [ealpha] at e1 e2
  have hs : step = 0.01 := rfl
  have b1 : (Real.log (q / massE ^ 2) - 0.01) / (3 * Real.pi) ≤ ⌊place q⌋₊ * step / (3 * Real.pi) := by
    rw [← eplace, hs]; gcongr; linarith
  have b2 : ((⌊place q⌋₊ + 1 : ℕ) : ℝ) * step / (3 * Real.pi) ≤ (Real.log (q / massE ^ 2) + 0.01) / (3 * Real.pi) := by
    rw [← eplace, hs]; push_cast; gcongr; linarith
  -- the inverse of the coupling
  have einv : 1 / coupling Q = 1 / curve 0 entry (place q)
      - Real.log (max Q qSqMax / qSqMax) / (3 * Real.pi) := by
    have hd := denom_pos h2
    unfold coupling
    rw [← hq, one_div_div, sub_div]
    congr 1
    rcases lt_or_ge Q qSqMax with h | h
    · rw [max_eq_right h.le, div_self max_pos.ne', Real.log_one]; simp
    · rw [show val100 = curve 0 entry (place q) by rw [hq, min_eq_right h]; rfl]
      field_simp
  have elog : Real.log (Q / massE ^ 2) = Real.log (q / massE ^ 2) + Real.log (max Q qSqMax / qSqMax) := by
    rw [← Real.log_mul (by positivity) (div_pos (lt_of_lt_of_le max_pos (le_max_right _ _)) max_pos).ne']
    congr 1
    have := max_pos
    have hmm : q * max Q qSqMax = Q * qSqMax := min_mul_max Q qSqMax
    field_simp
    linarith
  have l0 : 0 ≤ Real.log (max Q qSqMax / qSqMax) / (3 * Real.pi) := div_nonneg (log_max_nonneg Q) (by positivity)
  rw [einv, elog]
  constructor
  · have : (Real.log (q / massE ^ 2) + Real.log (max Q qSqMax / qSqMax) + 0.01) / (3 * Real.pi)
      = (Real.log (q / massE ^ 2) + 0.01) / (3 * Real.pi) + Real.log (max Q qSqMax / qSqMax) / (3 * Real.pi) := by
      ring
    rw [this]
    linarith
  · have : (Real.log (q / massE ^ 2) + Real.log (max Q qSqMax / qSqMax) - 0.01) / (3 * Real.pi)
      = (Real.log (q / massE ^ 2) - 0.01) / (3 * Real.pi) + Real.log (max Q qSqMax / qSqMax) / (3 * Real.pi) := by
      ring
    rw [this]
    linarith

/-- C61 (above the table).  Beyond `Q² = 100` the coupling is exactly the one-loop continuation of its value
there. -/
theorem c61_continuation {t : Tables} (ht : Tables.LoopEnds qSqMax t) {Q a b : ℝ}
    (h1 : 100 ≤ Q) (h2 : Q ≤ qSqTop) (hb : alphaQed t (.fin 100) = .val (.fin b))
    (ha : alphaQed t (.fin Q) = .val (.fin a)) : 1 / a = 1 / b - Real.log (Q / 100) / (3 * Real.pi) := by
  have h100 : qSqBottom ≤ 100 := bottom_le_max
  rw [coupling_eq ht (h100.trans h1) h2] at ha
  rw [coupling_eq ht h100 (by norm_num [qSqTop])] at hb
  obtain rfl : coupling Q = a := by simpa using ha
  obtain rfl : coupling 100 = b := by simpa using hb
  have hd := denom_pos h2
  have hv0 : 0 < val100 := lt_of_lt_of_le (by norm_num [alpha0]) val100_bounds.1
  have e : coupling 100 = val100 := by
    unfold coupling
    rw [show (100 : ℝ) = qSqMax from rfl, min_self, max_self, div_self max_pos.ne', Real.log_one]
    simp [val100]
  rw [e]
  unfold coupling
  rw [show (100 : ℝ) = qSqMax from rfl] at h1 ⊢
  rw [min_eq_right h1, max_eq_left h1, one_div_div, sub_div, ← val100]
  have := Real.pi_pos
  field_simp

/-- C61 (first cell, refuted).  In the first cell of the table the coupling is not increasing: half-way
through, it exceeds the value at the end of the cell by more than five per cent. -/
theorem c61_increasing_refuted {t : Tables} (ht : Tables.LoopEnds qSqMax t) :
    ∃ Q a b, qSqBottom < Q ∧ Q < qSqFirst ∧ alphaQed t (.fin Q) = .val (.fin a) ∧
      alphaQed t (.fin qSqFirst) = .val (.fin b) ∧ 1.05 * b < a := by
  have hm := massE_pos
  set Q := massE ^ 2 * Real.exp 0.005 with hQ
  have q1 : qSqBottom < Q := by
    rw [hQ, qSqBottom]
    exact lt_mul_of_one_lt_right (by positivity) (Real.one_lt_exp_iff.2 (by norm_num))
  have q2 : Q < qSqFirst := by
    rw [hQ, qSqFirst]
    have : Real.exp 0.005 < Real.exp 0.01 := Real.exp_lt_exp.2 (by norm_num)
    gcongr
  have top : qSqFirst ≤ qSqTop := first_lt_max.le.trans (by norm_num [qSqMax, qSqTop])
  refine ⟨Q, coupling Q, coupling qSqFirst, q1, q2, coupling_eq ht q1.le (q2.le.trans top),
    coupling_eq ht bottom_le_first top, ?_⟩
  have hc : ∀ {q : ℝ}, q ≤ qSqMax → coupling q = curve 0 entry (place q) := by
    intro q hq
    unfold coupling
    rw [min_eq_left hq, max_eq_right hq, div_self max_pos.ne', Real.log_one]
    simp
  rw [hc first_lt_max.le, hc (q2.le.trans first_lt_max.le), place_first]
  have ep : place Q = 1 / 2 := by
    rw [place, hQ, Real.log_mul (by positivity) (by positivity), Real.log_exp, Real.log_pow]
    norm_num [step]
  have f0 : ⌊(1 / 2 : ℝ)⌋₊ = 0 := Nat.floor_eq_zero.2 (by norm_num)
  have e1 := entry_bounds 1 (by norm_num)
  have e2 := entry_bounds 2 (by norm_num)
  have e0 := entry_zero
  have ha : (0.0072 : ℝ) ≤ alpha0 := by norm_num [alpha0]
  rw [ep]
  simp only [curve, f0, if_true, Nat.floor_one, one_ne_zero, if_false, cub, Nat.cast_zero, Nat.cast_one,
    sub_self, sub_zero, Nat.reduceAdd, zero_add]
  push_cast at e1 e2
  linarith [e1.1, e1.2, e2.1, e2.2]

/-- C61 (below the table).  Below the electron mass squared, and for NaN, the result is NaN. -/
theorem c61_below {t : Tables} (ht : Tables.LoopEnds qSqMax t) (Q : Fl) (h : ¬ .fin qSqBottom ≤ Q) :
    alphaQed t Q = .val .nan := by
  have hb := bottom_pos
  have hm := massE_pos
  cases Q with
  | nan =>
    have e := (view_eq ht bottom_le_max (le_refl qSqMax)).1
    rw [alphaQed, if_neg (show ¬ Fl.nan < .fin qSqMax from id), e]
    simp only [Res.bind]
    rw [Fl.div_fin _ (by have := Real.pi_pos; positivity)]
    rfl
  | ninf =>
    rw [alphaQed, if_pos (show Fl.ninf < .fin qSqMax from trivial)]
    exact view_outside ht _ id
  | pinf => exact absurd trivial h
  | fin q =>
    have hq : q < qSqBottom := not_le.1 h
    rw [alphaQed, if_pos (show Fl.fin q < .fin qSqMax from hq.trans_le bottom_le_max)]
    refine view_outside ht _ ?_
    simp only [Fl.log]
    split_ifs with h1 h2
    · have := Real.log_lt_log h1 hq
      rw [qSqBottom, Real.log_pow] at this
      push_cast at this
      exact not_le.2 this
    · exact id
    · exact id

/-- C61 (default argument, refuted).  `alpha_qed()` should be the coupling at zero momentum transfer; it is
NaN. -/
theorem c61_default_refuted {t : Tables} (ht : Tables.LoopEnds qSqMax t) :
    alphaQedDefault t = .val .nan :=
  c61_below ht _ (not_le.2 bottom_pos)

/-! ## Hadronic vacuum polarisation -/

private theorem log_le_of_pow {x : ℝ} (hx : 0 < x) (p q : ℕ) (hq : 0 < q)
    (h : x ^ q ≤ (2.7182818283 : ℝ) ^ p) : Real.log x ≤ p / q := by
  have hq' : (0 : ℝ) < q := by exact_mod_cast hq
  rw [le_div_iff₀ hq', mul_comm, ← Real.log_pow, Real.log_le_iff_le_exp (by positivity)]
  refine h.trans ?_
  rw [show (p : ℝ) = p * 1 by ring, Real.exp_nat_mul]
  exact pow_le_pow_left₀ (by norm_num) Real.exp_one_gt_d9.le _

private theorem le_log_of_pow {x : ℝ} (hx : 0 < x) (p q : ℕ) (hq : 0 < q)
    (h : (2.7182818286 : ℝ) ^ p ≤ x ^ q) : p / q ≤ Real.log x := by
  have hq' : (0 : ℝ) < q := by exact_mod_cast hq
  rw [div_le_iff₀ hq', mul_comm, ← Real.log_pow, Real.le_log_iff_exp_le (by positivity)]
  refine le_trans ?_ h
  rw [show (p : ℝ) = p * 1 by ring, Real.exp_nat_mul]
  exact pow_le_pow_left₀ (by positivity) Real.exp_one_lt_d9.le _

/-- C61 (vacuum polarisation).  The hadronic correction is positive for every `Q² ≥ 0` and grows strictly
with `Q²`, across both changes of parametrisation. -/
theorem c61_vacuum_increasing {Q Q' : ℝ} (h0 : 0 ≤ Q) (h : Q < Q') :
    0 < deltaVacHad Q ∧ deltaVacHad Q < deltaVacHad Q' := by
  have hpi := Real.pi_pos
  set c := 2 * Real.pi / (7.2973525664e-3 : ℝ) with hc
  have c0 : 0 < c := by rw [hc]; positivity
  set f1 := fun q : ℝ => (1.345e-9 : ℝ) + 2.302e-3 * Real.log (1 + 4.091 * q) with hf1
  set f2 := fun q : ℝ => (1.512e-3 : ℝ) + 2.822e-3 * Real.log (1 + 1.218 * q) with hf2
  set f3 := fun q : ℝ => (1.1344e-3 : ℝ) + 3.0680e-3 * Real.log (1 + 0.99992 * q) with hf3
  have ev : ∀ q, deltaVacHad q = c * (if q < 1 then f1 q else if q < 64 then f2 q else f3 q) := by
    intro q
    simp only [deltaVacHad, hc, hf1, hf2, hf3]
    split_ifs <;> ring
  have m : ∀ {a b x y k : ℝ}, 0 < b → 0 < k → 0 ≤ x → x < y →
      a + b * Real.log (1 + k * x) < a + b * Real.log (1 + k * y) := by
    intro a b x y k hb hk hx hxy
    have : Real.log (1 + k * x) < Real.log (1 + k * y) :=
      Real.log_lt_log (by positivity) (by gcongr)
    gcongr
  have m1 : ∀ {x y : ℝ}, 0 ≤ x → x < y → f1 x < f1 y := fun hx hy => m (by norm_num) (by norm_num) hx hy
  have m2 : ∀ {x y : ℝ}, 0 ≤ x → x < y → f2 x < f2 y := fun hx hy => m (by norm_num) (by norm_num) hx hy
  have m3 : ∀ {x y : ℝ}, 0 ≤ x → x < y → f3 x < f3 y := fun hx hy => m (by norm_num) (by norm_num) hx hy
  have le2 : ∀ {x y : ℝ}, 0 ≤ x → x ≤ y → f2 x ≤ f2 y := fun hx hy =>
    hy.eq_or_lt.elim (fun e => e ▸ le_rfl) fun h => (m2 hx h).le
  have le3 : ∀ {x y : ℝ}, 0 ≤ x → x ≤ y → f3 x ≤ f3 y := fun hx hy =>
    hy.eq_or_lt.elim (fun e => e ▸ le_rfl) fun h => (m3 hx h).le
  have j1 : f1 1 ≤ f2 1 := by
    simp only [hf1, hf2]
    have a1 : Real.log (1 + 4.091 * 1) ≤ (70 : ℕ) / (43 : ℕ) :=
      log_le_of_pow (by norm_num) 70 43 (by norm_num) (by norm_num)
    have a2 : (39 : ℕ) / (49 : ℕ) ≤ Real.log (1 + 1.218 * 1) :=
      le_log_of_pow (by norm_num) 39 49 (by norm_num) (by norm_num)
    push_cast at a1 a2
    linarith
  have j2 : f2 64 ≤ f3 64 := by
    simp only [hf2, hf3]
    have a1 : Real.log (1 + 1.218 * 64) ≤ (35 : ℕ) / (8 : ℕ) :=
      log_le_of_pow (by norm_num) 35 8 (by norm_num) (by norm_num)
    have a2 : (25 : ℕ) / (6 : ℕ) ≤ Real.log (1 + 0.99992 * 64) :=
      le_log_of_pow (by norm_num) 25 6 (by norm_num) (by norm_num)
    push_cast at a1 a2
    linarith
  have pos1 : ∀ {x : ℝ}, 0 ≤ x → 0 < f1 x := fun {x} hx => by
    have := Real.log_nonneg (show (1 : ℝ) ≤ 1 + 4.091 * x by linarith)
    simp only [hf1]; positivity
  have pos2 : ∀ {x : ℝ}, 0 ≤ x → 0 < f2 x := fun {x} hx => by
    have := Real.log_nonneg (show (1 : ℝ) ≤ 1 + 1.218 * x by linarith)
    simp only [hf2]; positivity
  have pos3 : ∀ {x : ℝ}, 0 ≤ x → 0 < f3 x := fun {x} hx => by
    have := Real.log_nonneg (show (1 : ℝ) ≤ 1 + 0.99992 * x by linarith)
    simp only [hf3]; positivity
  rw [ev, ev]
  have h0' : 0 ≤ Q' := h0.trans h.le
  constructor
  · refine mul_pos c0 ?_
    split_ifs
    exacts [pos1 h0, pos2 h0, pos3 h0]
  · refine (mul_lt_mul_iff_right₀ c0).2 ?_
    split_ifs with a1 a2 a3 a4 a5 a6 a7
    · exact m1 h0 h
    · exact (m1 h0 a1).trans_le (j1.trans (le2 (by norm_num) (not_lt.1 a2)))
    · exact (m1 h0 a1).trans_le (j1.trans ((le2 (by norm_num) (by norm_num)).trans
        (j2.trans (le3 (by norm_num) (not_lt.1 a3)))))
    · linarith
    · exact m2 h0 h
    · exact (m2 h0 a4).trans_le (j2.trans (le3 (by norm_num) (not_lt.1 a6)))
    · linarith
    · linarith
    · exact m3 h0 h

/-- The table exists, and typical values lie in the range. -/
example : (∃ t, Tables.LoopEnds qSqMax t) ∧ qSqFirst ≤ 2 ∧ (2 : ℝ) < 3 ∧ (3 : ℝ) ≤ qSqTop ∧
    (100 : ℝ) ≤ 10000 ∧ (10000 : ℝ) ≤ qSqTop ∧ ¬ Fl.fin qSqBottom ≤ .fin 0 := by
  refine ⟨exists_end, ?_, by norm_num, by norm_num [qSqTop], by norm_num, by norm_num [qSqTop],
    not_le.2 bottom_pos⟩
  have h : Real.exp 0.01 ≤ Real.exp 1 := Real.exp_le_exp.2 (by norm_num)
  have h2 := Real.exp_one_lt_d9
  have := massE_pos
  unfold qSqFirst
  calc massE ^ 2 * Real.exp 0.01 ≤ massE ^ 2 * 3 := by gcongr; linarith
    _ ≤ 2 := by norm_num [massE]

end Sidis.Props
