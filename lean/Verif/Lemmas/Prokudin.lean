import Verif.Model.Prokudin
import Verif.Lemmas.Tmd
import Mathlib.Analysis.MeanInequalities

/-! # Lemmas on the Prokudin sets -/

namespace Sidis.Lemmas
open Real Sidis.Prokudin

theorem sqrt_two_e : √(2 * E) = 2 * √(E / 2) := by
  have : (2 * E) = 2 ^ 2 * (E / 2) := by ring
  rw [this, Real.sqrt_mul (by norm_num), Real.sqrt_sq (by norm_num)]

theorem pM_pos : 0 < Prokudin.M := nucleus_mass_pos _
theorem f1Mean_pos : 0 < f1Mean := by norm_num [f1Mean]
theorem g1Mean_pos : 0 < g1Mean := by norm_num [g1Mean, f1Mean]
theorem d1Mean_pos : 0 < d1Mean := by norm_num [d1Mean]
theorem h1Mean_pos : 0 < h1Mean := by norm_num [h1Mean]
theorem hTMean_pos : 0 < hTMean := by norm_num [hTMean]
theorem collinsMean_pos : 0 < collinsMean := by norm_num [collinsMean, d1Mean, collinsMSq]
theorem siversMean_pos : 0 < siversMean := by norm_num [siversMean, f1Mean, siversM1Sq]
theorem bmMean_pos : 0 < bmMean := by norm_num [bmMean, f1Mean, bmM1Sq]
theorem pretzMean_pos : 0 < pretzMean := by norm_num [pretzMean, f1Mean, pretzMttSq]
theorem collinsM_pos : 0 < collinsM := Real.sqrt_pos.mpr (by norm_num [collinsMSq])
theorem siversM1_pos : 0 < siversM1 := Real.sqrt_pos.mpr (by norm_num [siversM1Sq])
theorem bmM1_pos : 0 < bmM1 := Real.sqrt_pos.mpr (by norm_num [bmM1Sq])
theorem pretzMttSq_pos : 0 < pretzMttSq := by norm_num [pretzMttSq]

theorem xf1TperpM1_eq (T : Tables) (fl : ℕ) (x Q_sq : ℝ) :
    xf1TperpM1 T fl x Q_sq = siversMean / (2 * Prokudin.M ^ 2) * xf1Tperp T fl x Q_sq := by
  have h1 := pM_pos.ne'
  have h2 := siversM1_pos.ne'
  have h3 := f1Mean_pos.ne'
  simp only [xf1TperpM1, xf1Tperp, sqrt_two_e, sq]
  generalize √(E / 2) = e
  generalize siversMean = m
  field_simp

theorem xh1perpM1_eq (T : Tables) (fl : ℕ) (x Q_sq : ℝ) :
    xh1perpM1 T fl x Q_sq = bmMean / (2 * Prokudin.M ^ 2) * xh1perp T fl x Q_sq := by
  have h1 := pM_pos.ne'
  have h2 := bmM1_pos.ne'
  have h3 := f1Mean_pos.ne'
  simp only [xh1perpM1, xh1perp, sqrt_two_e, sq]
  generalize √(E / 2) = e
  generalize bmMean = m
  field_simp

theorem xh1TperpM2_eq (T : Tables) (fl : ℕ) (x Q_sq : ℝ) :
    xh1TperpM2 T fl x Q_sq = pretzMean ^ 2 / (2 * Prokudin.M ^ 4) * xh1Tperp T fl x Q_sq := by
  have h1 := pM_pos.ne'
  have h2 := pretzMttSq_pos.ne'
  have h3 := f1Mean_pos.ne'
  simp only [xh1TperpM2, xh1Tperp, sq]
  generalize pretzMean = m
  field_simp

theorem xh1LperpM1_eq (T : Tables) (fl : ℕ) (x Q_sq : ℝ) :
    xh1LperpM1 T fl x Q_sq = h1Mean / (2 * Prokudin.M ^ 2) * xh1Lperp T fl x Q_sq := by
  have h1 := pM_pos.ne'
  have h3 := h1Mean_pos.ne'
  simp only [xh1LperpM1, xh1Lperp, sq, not_or, ne_eq]
  split_ifs
  · simp
  · field_simp

theorem xgT_eq (T : Tables) (fl : ℕ) {x : ℝ} (hx : x ≠ 0) (Q_sq : ℝ) :
    xgT T fl x Q_sq = g1Mean / (2 * Prokudin.M ^ 2) * xg1Tperp T fl x Q_sq / x := by
  have h1 := pM_pos.ne'
  have h3 := g1Mean_pos.ne'
  simp only [xgT, xg1Tperp]
  field_simp

theorem H1perpM1_eq (T : Tables) (h : Hadron) (fl : ℕ) {z : ℝ} (hz : z ≠ 0) (Q_sq : ℝ) :
    H1perpM1 T h fl z Q_sq =
      (H1perp T h fl z Q_sq).map fun d => collinsMean / (2 * z ^ 2 * h.mass ^ 2) * d := by
  have h1 := (hadron_mass_pos h).ne'
  have h2 := collinsM_pos.ne'
  have h3 := d1Mean_pos.ne'
  simp only [H1perpM1, H1perp, sqrt_two_e, sq]
  cases collinsCoeff h fl <;> cases D1 T h fl z Q_sq <;> simp
  generalize √(E / 2) = e
  generalize collinsMean = m
  field_simp

/-- The hadrons that the Prokudin sets know. -/
theorem pion_some (T : Tables) {h : Hadron} (hh : h = .piP ∨ h = .piM) (fl : ℕ) (z Q_sq : ℝ) :
    D1 T h fl z Q_sq = some ((D1 T h fl z Q_sq).getD 0) ∧
      H1perp T h fl z Q_sq = some ((H1perp T h fl z Q_sq).getD 0) := by
  rcases hh with rfl | rfl <;> simp [D1, H1perp, collinsCoeff]

theorem loop_some (f d : ℕ → ℝ) :
    loop f (fun fl => some (d fl)) =
      some (∑ fl ∈ Finset.range numFlavors, charge fl ^ 2 * f fl * d fl) := by
  have : ∀ (l : List ℕ) (r : ℝ), l.foldlM (fun result fl => (do
      let dfl ← some (d fl)
      pure (result + sq (charge fl) * f fl * dfl) : Option ℝ)) r =
      some (r + (l.map fun fl => charge fl ^ 2 * f fl * d fl).sum) := by
    intro l
    induction l with
    | nil => intro r; simp
    | cons a l ih =>
      intro r
      rw [List.foldlM_cons]
      have : (do
        let dfl ← some (d a)
        pure (r + sq (charge a) * f a * dfl) : Option ℝ) = some (r + charge a ^ 2 * f a * d a) := by
        simp [sq, pow_two]
      rw [this]
      refine (ih _).trans ?_
      rw [List.map_cons, List.sum_cons, add_assoc]
  rw [loop, this, zero_add]
  rfl

/-- `x^α (1-x)^β` is largest at `α/(α+β)`. -/
theorem beta_shape {x a b : ℝ} (hx : 0 ≤ x) (hx' : x ≤ 1) (ha : 0 < a) (hb : 0 < b) :
    0 ≤ x ^ a * (1 - x) ^ b * (a + b) ^ (a + b) * a ^ (-a) * b ^ (-b) ∧
    x ^ a * (1 - x) ^ b * (a + b) ^ (a + b) * a ^ (-a) * b ^ (-b) ≤ 1 := by
  have h1x : 0 ≤ 1 - x := by linarith
  refine ⟨by positivity, ?_⟩
  have hs : 0 < a + b := by positivity
  have h := Real.geom_mean_le_arith_mean2_weighted (w₁ := a / (a + b)) (w₂ := b / (a + b))
    (p₁ := x * (a + b) / a) (p₂ := (1 - x) * (a + b) / b) (by positivity) (by positivity)
    (by positivity) (by positivity) (by field_simp)
  have he : a / (a + b) * (x * (a + b) / a) + b / (a + b) * ((1 - x) * (a + b) / b) = 1 := by
    field_simp; ring
  rw [he] at h
  have h2 := Real.rpow_le_rpow (by positivity) h hs.le
  rw [Real.one_rpow, Real.mul_rpow (by positivity) (by positivity), ← Real.rpow_mul (by positivity),
    ← Real.rpow_mul (by positivity), div_mul_cancel₀ _ hs.ne', div_mul_cancel₀ _ hs.ne',
    Real.div_rpow (by positivity) ha.le, Real.div_rpow (by positivity) hb.le,
    Real.mul_rpow hx hs.le, Real.mul_rpow h1x hs.le] at h2
  rw [Real.rpow_add hs, Real.rpow_neg ha.le, Real.rpow_neg hb.le]
  refine le_trans (le_of_eq ?_) h2
  have := Real.rpow_pos_of_pos ha a
  have := Real.rpow_pos_of_pos hb b
  field_simp

/-- `√(2e) t exp(-t²) ≤ 1`. -/
theorem gauss_shape {t : ℝ} (ht : 0 ≤ t) : √(2 * E) * t * exp (-t ^ 2) ≤ 1 := by
  have h1 : 2 * t ^ 2 ≤ exp (2 * t ^ 2 - 1) := by
    have := add_one_le_exp (2 * t ^ 2 - 1); linarith
  have h2 : (√(2 * E) * t * exp (-t ^ 2)) ^ 2 ≤ 1 := by
    have hE : 0 ≤ 2 * E := by unfold E; positivity
    rw [mul_pow, mul_pow, Real.sq_sqrt hE, ← Real.exp_nat_mul]
    calc 2 * E * t ^ 2 * exp ((2 : ℕ) * -t ^ 2) = 2 * t ^ 2 * (exp 1 * exp ((2 : ℕ) * -t ^ 2)) := by
          unfold E; ring
      _ ≤ exp (2 * t ^ 2 - 1) * (exp 1 * exp ((2 : ℕ) * -t ^ 2)) := by gcongr
      _ = 1 := by
          rw [← exp_add, ← exp_add]
          have : 2 * t ^ 2 - 1 + (1 + (2 : ℕ) * -t ^ 2) = 0 := by push_cast; ring
          rw [this, exp_zero]
  have h3 : 0 ≤ √(2 * E) * t * exp (-t ^ 2) := by positivity
  nlinarith

theorem gaussian_split {f m k : ℝ} (hf : 0 < f) (hm : 0 < m) :
    gaussian k (some (f * m / (f + m))) =
      (f + m) / m * exp (-k / m) * gaussian k (some f) := by
  have h : -k / (f * m / (f + m)) = -k / m + -k / f := by field_simp; ring
  have hπ := pi_pos
  simp only [gaussian, h, exp_add]
  field_simp

/-- The bound common to the Sivers, Boer-Mulders and Collins functions. -/
theorem sivers_like {f m Mn F k N s : ℝ} (hf : 0 < f) (hm : 0 < m) (hM : 0 < Mn) (hF : 0 ≤ F)
    (hk : 0 ≤ k) (hN : |N * s| ≤ 1) :
    √k / Mn * |(-√(2 * E) * Mn / √m * (f * m / (f + m)) / f * N * s * F) *
        gaussian k (some (f * m / (f + m)))| ≤ F * gaussian k (some f) := by
  have hg : 0 ≤ gaussian k (some f) := by have := pi_pos; simp only [gaussian]; positivity
  have hsm : 0 < √m := Real.sqrt_pos.mpr hm
  have hE : 0 ≤ √(2 * E) := Real.sqrt_nonneg _
  have h := gauss_shape (t := √k / √m) (by positivity)
  have ht : (√k / √m) ^ 2 = k / m := by rw [div_pow, Real.sq_sqrt hk, Real.sq_sqrt hm.le]
  rw [ht, ← neg_div] at h
  rw [gaussian_split hf hm]
  have e : (-√(2 * E) * Mn / √m * (f * m / (f + m)) / f * N * s * F) *
      ((f + m) / m * exp (-k / m) * gaussian k (some f)) =
      -(Mn * (√(2 * E) / √m * exp (-k / m)) * (N * s) * (F * gaussian k (some f))) := by
    have := (add_pos hf hm).ne'
    field_simp
  rw [e, abs_neg, abs_mul, abs_mul, abs_of_nonneg (mul_nonneg hF hg),
    abs_of_nonneg (by positivity : 0 ≤ Mn * (√(2 * E) / √m * exp (-k / m)))]
  calc √k / Mn * (Mn * (√(2 * E) / √m * exp (-k / m)) * |N * s| * (F * gaussian k (some f)))
      = (√(2 * E) * (√k / √m) * exp (-k / m)) * |N * s| * (F * gaussian k (some f)) := by field_simp
    _ ≤ 1 * 1 * (F * gaussian k (some f)) := by
        have : 0 ≤ F * gaussian k (some f) := mul_nonneg hF hg
        gcongr
    _ = _ := by ring

/-- The bound of pretzelosity. -/
theorem pretz_like {f m Mn F k N s : ℝ} (hf : 0 < f) (hm : 0 < m) (hM : 0 < Mn) (hF : 0 ≤ F)
    (hk : 0 ≤ k) (hN : |N * s| ≤ 1) :
    k / (2 * Mn ^ 2) * |(E * (Mn * Mn) / m * (f * m / (f + m)) / f * N * s * F) *
        gaussian k (some (f * m / (f + m)))| ≤ 1 / 2 * (F * gaussian k (some f)) := by
  have hg : 0 ≤ gaussian k (some f) := by have := pi_pos; simp only [gaussian]; positivity
  have hE : 0 < E := exp_pos 1
  have h : E * (k / m) * exp (-k / m) ≤ 1 := by
    have h1 : k / m ≤ exp (k / m - 1) := by have := add_one_le_exp (k / m - 1); linarith
    calc E * (k / m) * exp (-k / m) ≤ E * exp (k / m - 1) * exp (-k / m) := by gcongr
      _ = exp (1 + (k / m - 1) + -k / m) := by rw [exp_add, exp_add]; rfl
      _ = 1 := by rw [neg_div]; ring_nf; exact exp_zero
  rw [gaussian_split hf hm]
  have e : (E * (Mn * Mn) / m * (f * m / (f + m)) / f * N * s * F) *
      ((f + m) / m * exp (-k / m) * gaussian k (some f)) =
      (Mn ^ 2 * (E / m * exp (-k / m)) * (N * s) * (F * gaussian k (some f))) := by
    have := (add_pos hf hm).ne'
    field_simp
  rw [e, abs_mul, abs_mul, abs_of_nonneg (mul_nonneg hF hg),
    abs_of_nonneg (by positivity : 0 ≤ Mn ^ 2 * (E / m * exp (-k / m)))]
  calc k / (2 * Mn ^ 2) * (Mn ^ 2 * (E / m * exp (-k / m)) * |N * s| * (F * gaussian k (some f)))
      = 1 / 2 * ((E * (k / m) * exp (-k / m)) * |N * s| * (F * gaussian k (some f))) := by field_simp
    _ ≤ 1 / 2 * (1 * 1 * (F * gaussian k (some f))) := by
        have : 0 ≤ F * gaussian k (some f) := mul_nonneg hF hg
        gcongr
    _ = _ := by ring

end Sidis.Lemmas
