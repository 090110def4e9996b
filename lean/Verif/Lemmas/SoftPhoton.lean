import Verif.Lemmas.OneLoop
import Mathlib.MeasureTheory.Integral.Prod
import Mathlib.Analysis.SpecialFunctions.Trigonometric.ArctanDeriv
import Mathlib.MeasureTheory.Integral.IntervalIntegral.ContDiff

/-! # The angular integral of the eikonal factor -/

namespace Sidis

open Real intervalIntegral MeasureTheory

/-- `∫ dφ / (a - b cos φ)² = 2π a / (a² - b²)^{3/2}` -/
theorem integral_azimuth {a b w : ℝ} (ha : 0 < a) (hw : 0 < w) (e : w ^ 2 = a ^ 2 - b ^ 2) :
    ∫ φ in (-π)..π, 1 / (a - b * cos φ) ^ 2 = 2 * π * a / w ^ 3 := by
  have hb : |b| < a := by
    rw [← abs_of_pos ha, ← sq_lt_sq]
    have : 0 < w ^ 2 := by positivity
    linarith
  have hpos : ∀ φ, 0 < a - b * cos φ := fun φ => by
    have h1 : |b * cos φ| ≤ |b| := by
      rw [abs_mul]
      exact mul_le_of_le_one_right (abs_nonneg _) (abs_cos_le_one φ)
    have := le_abs_self (b * cos φ)
    linarith
  have haw : 0 < a + w := by positivity
  set β := b / (a + w) with hβ
  have hb' : b = β * (a + w) := by rw [hβ]; field_simp
  have hβ1 : |β| < 1 := by
    rw [hβ, abs_div, abs_of_pos haw, div_lt_one haw]
    linarith
  have hβpos : ∀ φ, 0 < 1 - β * cos φ := fun φ => by
    have h1 : |β * cos φ| ≤ |β| := by
      rw [abs_mul]
      exact mul_le_of_le_one_right (abs_nonneg _) (abs_cos_le_one φ)
    have := le_abs_self (β * cos φ)
    linarith
  have ea : 2 * a = (a + w) * (1 + β ^ 2) := by
    rw [hβ]; field_simp
    linear_combination -e
  have ew : 2 * w = (a + w) * (1 - β ^ 2) := by linear_combination -ea
  have hden : ∀ φ, 1 - 2 * β * cos φ + β ^ 2 = 2 * (a - b * cos φ) / (a + w) := fun φ => by
    field_simp
    linear_combination (-1 : ℝ) * ea + 2 * cos φ * hb'
  have d1 : ∀ φ, HasDerivAt (fun φ => φ + 2 * arctan (β * sin φ / (1 - β * cos φ)))
      (w / (a - b * cos φ)) φ := fun φ => by
    have hq : HasDerivAt (fun φ => β * sin φ / (1 - β * cos φ))
        ((β * cos φ * (1 - β * cos φ) - β * sin φ * (β * sin φ)) / (1 - β * cos φ) ^ 2) φ := by
      refine HasDerivAt.div ((hasDerivAt_sin φ).const_mul β) ?_ (hβpos φ).ne'
      simpa using ((hasDerivAt_cos φ).const_mul β).const_sub 1
    refine ((hasDerivAt_id φ).add (hq.arctan.const_mul 2)).congr_deriv ?_
    have h1 := (hβpos φ).ne'
    have h2 := (hpos φ).ne'
    have hs : sin φ ^ 2 = 1 - cos φ ^ 2 := by rw [← sin_sq_add_cos_sq φ]; ring
    have h4 : (1 - β * cos φ) ^ 2 + (β * sin φ) ^ 2 = 1 - 2 * β * cos φ + β ^ 2 := by
      rw [mul_pow, hs]; ring
    have h5 : 1 - 2 * β * cos φ + β ^ 2 ≠ 0 := by
      rw [hden]; exact (div_pos (mul_pos two_pos (hpos φ)) haw).ne'
    have h6 : 1 + (β * sin φ / (1 - β * cos φ)) ^ 2
        = (1 - 2 * β * cos φ + β ^ 2) / (1 - β * cos φ) ^ 2 := by
      rw [← h4]; field_simp
    have h7 : β * cos φ * (1 - β * cos φ) - β * sin φ * (β * sin φ) = β * cos φ - β ^ 2 := by
      linear_combination -β ^ 2 * hs
    rw [h6, h7]
    have : w / (a - b * cos φ) = (1 - β ^ 2) / (1 - 2 * β * cos φ + β ^ 2) := by
      rw [hden]; field_simp; linear_combination ew
    rw [this]
    field_simp
    ring
  have d2 : ∀ φ, HasDerivAt (fun φ => sin φ / (a - b * cos φ))
      ((a * cos φ - b) / (a - b * cos φ) ^ 2) φ := fun φ => by
    have : HasDerivAt (fun φ => a - b * cos φ) (b * sin φ) φ := by
      simpa using ((hasDerivAt_cos φ).const_mul b).const_sub a
    refine ((hasDerivAt_sin φ).div this (hpos φ).ne').congr_deriv ?_
    congr 1
    linear_combination -b * (sin_sq_add_cos_sq φ)
  have h := integral_eq_sub_of_hasDerivAt (a := -π) (b := π)
    (f := fun φ => (a / w * (φ + 2 * arctan (β * sin φ / (1 - β * cos φ)))
      + b * (sin φ / (a - b * cos φ))) / w ^ 2)
    (f' := fun φ => 1 / (a - b * cos φ) ^ 2) (fun φ _ => ?_) ?_
  · rw [h]
    simp only [sin_pi, sin_neg, neg_zero, mul_zero, zero_div, arctan_zero, add_zero]
    field_simp
    ring
  · refine ((((d1 φ).const_mul (a / w)).add ((d2 φ).const_mul b)).div_const (w ^ 2)).congr_deriv ?_
    have h2 := (hpos φ).ne'
    field_simp
    linear_combination -e
  · refine Continuous.intervalIntegrable ?_ _ _
    exact continuous_const.div (by fun_prop) fun φ => (pow_pos (hpos φ) 2).ne'

/-- The polar integral: `A + B τ` over the cubed root of a positive quadratic. -/
theorem integral_polar {A B c Q Sx M L : ℝ} (hM : 0 < M) (hL : 0 < L)
    (hLY : L ^ 2 = Sx ^ 2 + 4 * M ^ 2 * Q) (hc : 0 < c) {D : ℝ}
    (hD : D = 4 * A ^ 2 * M ^ 2 - 4 * Q * B ^ 2 + 4 * A * B * Sx - c * L ^ 2) (hDpos : 0 < D)
    (hpos : ∀ τ, (Sx - L) / (2 * M ^ 2) ≤ τ → τ ≤ (Sx + L) / (2 * M ^ 2) → 0 < A + B * τ) :
    ∫ τ in ((Sx - L) / (2 * M ^ 2))..((Sx + L) / (2 * M ^ 2)),
      (A + B * τ) / √((A + B * τ) ^ 2 - c * (Q + Sx * τ - M ^ 2 * τ ^ 2)) ^ 3 = 4 * L / D := by
  set tm := (Sx - L) / (2 * M ^ 2) with htm
  set tp := (Sx + L) / (2 * M ^ 2) with htp
  have hle : tm ≤ tp := by rw [htm, htp]; gcongr; linarith
  set P : ℝ → ℝ := fun τ => (A + B * τ) ^ 2 - c * (Q + Sx * τ - M ^ 2 * τ ^ 2) with hP
  have hp2 : 0 < B ^ 2 + c * M ^ 2 := by positivity
  have hPpos : ∀ τ, 0 < P τ := fun τ => by
    have e : 4 * (B ^ 2 + c * M ^ 2) * P τ
        = (2 * (B ^ 2 + c * M ^ 2) * τ + (2 * A * B - c * Sx)) ^ 2 + c * D := by
      rw [hD, hLY]; simp only [hP]; ring
    have : 0 < 4 * (B ^ 2 + c * M ^ 2) * P τ := by rw [e]; positivity
    exact pos_of_mul_pos_right this (by positivity)
  have dP : ∀ τ, HasDerivAt P (2 * (A + B * τ) * B - c * (Sx - 2 * M ^ 2 * τ)) τ := fun τ => by
    have h1 : HasDerivAt (fun τ => A + B * τ) B τ := by
      simpa using ((hasDerivAt_id τ).const_mul B).const_add A
    have h2 : HasDerivAt (fun τ => Q + Sx * τ - M ^ 2 * τ ^ 2) (Sx - M ^ 2 * (2 * τ)) τ := by
      have := (((hasDerivAt_id τ).const_mul Sx).const_add Q).sub
        (((hasDerivAt_id τ).pow 2).const_mul (M ^ 2))
      refine HasDerivAt.congr_deriv (f := fun τ => Q + Sx * τ - M ^ 2 * τ ^ 2) this ?_
      simp
    refine ((h1.pow 2).sub (h2.const_mul c)).congr_deriv ?_
    simp only [Nat.cast_ofNat]
    ring
  have h := integral_eq_sub_of_hasDerivAt (a := tm) (b := tp)
    (f := fun τ => 2 * (A * (2 * M ^ 2 * τ - Sx) + B * (2 * Q + Sx * τ)) / D / √(P τ))
    (f' := fun τ => (A + B * τ) / √(P τ) ^ 3) (fun τ _ => ?_) ?_
  · change ∫ τ in tm..tp, (A + B * τ) / √(P τ) ^ 3 = 4 * L / D
    rw [h]
    have em : Q + Sx * tm - M ^ 2 * tm ^ 2 = 0 := by
      rw [htm]; field_simp; linear_combination -hLY
    have ep : Q + Sx * tp - M ^ 2 * tp ^ 2 = 0 := by
      rw [htp]; field_simp; linear_combination -hLY
    have sm : √(P tm) = A + B * tm := by
      simp only [hP]; rw [em, mul_zero, sub_zero]
      exact sqrt_sq (hpos _ le_rfl hle).le
    have sp : √(P tp) = A + B * tp := by
      simp only [hP]; rw [ep, mul_zero, sub_zero]
      exact sqrt_sq (hpos _ hle le_rfl).le
    have nm : A * (2 * M ^ 2 * tm - Sx) + B * (2 * Q + Sx * tm) = -L * (A + B * tm) := by
      have : 2 * M ^ 2 * tm = Sx - L := by rw [htm]; field_simp
      have t2 : 2 * Q + Sx * tm = -L * tm := by
        rw [htm]; field_simp; linear_combination -hLY
      rw [this, t2]; ring
    have np : A * (2 * M ^ 2 * tp - Sx) + B * (2 * Q + Sx * tp) = L * (A + B * tp) := by
      have : 2 * M ^ 2 * tp = Sx + L := by rw [htp]; field_simp
      have t2 : 2 * Q + Sx * tp = L * tp := by
        rw [htp]; field_simp; linear_combination -hLY
      rw [this, t2]; ring
    have h1 := (hpos _ le_rfl hle).ne'
    have h2 := (hpos _ hle le_rfl).ne'
    rw [sm, sp, nm, np]
    field_simp
    ring
  · have hs := sqrt_pos.2 (hPpos τ)
    have es : √(P τ) ^ 2 = P τ := Real.sq_sqrt (hPpos τ).le
    have hn : HasDerivAt (fun τ => 2 * (A * (2 * M ^ 2 * τ - Sx) + B * (2 * Q + Sx * τ)) / D)
        (2 * (2 * A * M ^ 2 + B * Sx) / D) τ := by
      have h1 : HasDerivAt (fun τ => 2 * M ^ 2 * τ - Sx) (2 * M ^ 2) τ := by
        simpa using ((hasDerivAt_id τ).const_mul (2 * M ^ 2)).sub_const Sx
      have h2 : HasDerivAt (fun τ => 2 * Q + Sx * τ) Sx τ := by
        simpa using ((hasDerivAt_id τ).const_mul Sx).const_add (2 * Q)
      refine ((((h1.const_mul A).add (h2.const_mul B)).const_mul 2).div_const D).congr_deriv ?_
      ring
    refine (hn.div ((dP τ).sqrt (hPpos τ).ne') hs.ne').congr_deriv ?_
    have hd : D ≠ 0 := hDpos.ne'
    rw [div_eq_div_iff (by positivity) (by positivity)]
    rw [es]
    have e3 : √(P τ) ^ 3 = P τ * √(P τ) := by rw [pow_succ, es]
    rw [e3]
    field_simp
    rw [es, hD, hLY]
    simp only [hP]
    ring
  · refine Continuous.intervalIntegrable ?_ _ _
    have : Continuous P := by simp only [hP]; fun_prop
    exact Continuous.div (by fun_prop) (by fun_prop) fun τ => (pow_pos (sqrt_pos.2 (hPpos τ)) 3).ne'

theorem integral_swap_continuousOn {f : ℝ → ℝ → ℝ} {a b c d : ℝ} (hab : a ≤ b) (hcd : c ≤ d)
    (hf : ContinuousOn (fun p : ℝ × ℝ => f p.1 p.2) (Set.Icc a b ×ˢ Set.Icc c d)) :
    ∫ x in a..b, ∫ y in c..d, f x y = ∫ y in c..d, ∫ x in a..b, f x y := by
  simp only [integral_of_le hab, integral_of_le hcd]
  refine integral_integral_swap ?_
  rw [Measure.prod_restrict]
  exact (hf.integrableOn_compact (isCompact_Icc.prod isCompact_Icc)).mono_set
    (Set.prod_mono Set.Ioc_subset_Icc_self Set.Ioc_subset_Icc_self)

theorem integral_feynman {u v : ℝ} (hu : 0 < u) (hv : 0 < v) :
    ∫ x in (0 : ℝ)..1, 1 / (x * u + (1 - x) * v) ^ 2 = 1 / (u * v) := by
  have hp : ∀ x ∈ Set.uIcc (0 : ℝ) 1, 0 < x * u + (1 - x) * v := fun x hx => by
    rw [Set.uIcc_of_le zero_le_one] at hx
    rcases hx.1.eq_or_lt with rfl | h
    · simpa using hv
    · have : 0 ≤ (1 - x) * v := mul_nonneg (by linarith [hx.2]) hv.le
      have : 0 < x * u := mul_pos h hu
      linarith
  have h := integral_eq_sub_of_hasDerivAt (a := 0) (b := 1)
    (f := fun x => x / (x * u + (1 - x) * v) / v)
    (f' := fun x => 1 / (x * u + (1 - x) * v) ^ 2) (fun x hx => ?_) ?_
  · rw [h]; norm_num; field_simp
  · have h1 : HasDerivAt (fun x => x * u + (1 - x) * v) (u - v) x := by
      have := ((hasDerivAt_id x).mul_const u).add (((hasDerivAt_id x).const_sub 1).mul_const v)
      exact this.congr_deriv (by ring)
    refine (((hasDerivAt_id x).div h1 (hp x hx).ne').div_const v).congr_deriv ?_
    have := (hp x hx).ne'
    simp only [id]
    field_simp
    ring
  · refine ContinuousOn.intervalIntegrable fun x hx => ?_
    have := (pow_pos (hp x hx) 2).ne'
    exact ContinuousAt.continuousWithinAt (by fun_prop (disch := exact this))

section
variable {S X Q m M Sx L l1 : ℝ}

/-- `z` of a lepton, as a function of the photon direction. -/
noncomputable def zDir (M Sx L l1 A B τ φ : ℝ) : ℝ :=
  1 / L ^ 2 * (A + τ * B - 2 * M
    * √(((Sx + L) / (2 * M ^ 2) - τ) * (τ - (Sx - L) / (2 * M ^ 2)) * l1) * cos φ)

theorem continuous_zDir (M Sx L l1 A B : ℝ) :
    Continuous fun p : ℝ × ℝ => zDir M Sx L l1 A B p.1 p.2 := by
  unfold zDir; fun_prop

/-- The quadratic under the root. -/
theorem zDir_quad (hM : 0 < M) (hLY : L ^ 2 = Sx ^ 2 + 4 * M ^ 2 * Q) (τ : ℝ) :
    4 * M ^ 2 * (((Sx + L) / (2 * M ^ 2) - τ) * (τ - (Sx - L) / (2 * M ^ 2)) * l1)
      = 4 * l1 * (Q + Sx * τ - M ^ 2 * τ ^ 2) := by
  have : M ^ 2 * (((Sx + L) / (2 * M ^ 2) - τ) * (τ - (Sx - L) / (2 * M ^ 2)))
      = Q + Sx * τ - M ^ 2 * τ ^ 2 := by
    field_simp
    linear_combination hLY
  rw [← this]; ring

theorem zDir_sqrt (hl : 0 < l1) {τ : ℝ}
    (h1 : (Sx - L) / (2 * M ^ 2) ≤ τ) (h2 : τ ≤ (Sx + L) / (2 * M ^ 2)) :
    (2 * M * √(((Sx + L) / (2 * M ^ 2) - τ) * (τ - (Sx - L) / (2 * M ^ 2)) * l1)) ^ 2
      = 4 * M ^ 2 * (((Sx + L) / (2 * M ^ 2) - τ) * (τ - (Sx - L) / (2 * M ^ 2)) * l1) := by
  rw [mul_pow, Real.sq_sqrt (by
    refine mul_nonneg (mul_nonneg ?_ ?_) hl.le <;> linarith)]
  ring

/-- The azimuthal integral of `1 / z²`. -/
theorem integral_zDir_azimuth {A B D : ℝ} (hM : 0 < M) (hL : 0 < L) (hl : 0 < l1)
    (hLY : L ^ 2 = Sx ^ 2 + 4 * M ^ 2 * Q)
    (hD : D = 4 * A ^ 2 * M ^ 2 - 4 * Q * B ^ 2 + 4 * A * B * Sx - 4 * l1 * L ^ 2) (hDpos : 0 < D)
    (hpos : ∀ τ, (Sx - L) / (2 * M ^ 2) ≤ τ → τ ≤ (Sx + L) / (2 * M ^ 2) → 0 < A + B * τ)
    {τ : ℝ} (h1 : (Sx - L) / (2 * M ^ 2) ≤ τ) (h2 : τ ≤ (Sx + L) / (2 * M ^ 2)) :
    0 < (A + B * τ) ^ 2 - 4 * l1 * (Q + Sx * τ - M ^ 2 * τ ^ 2) ∧
    ∫ φ in (-π)..π, 1 / zDir M Sx L l1 A B τ φ ^ 2 = 2 * π * L ^ 4 *
      ((A + B * τ) / √((A + B * τ) ^ 2 - 4 * l1 * (Q + Sx * τ - M ^ 2 * τ ^ 2)) ^ 3) := by
  have hp2 : 0 < B ^ 2 + 4 * l1 * M ^ 2 := by positivity
  have hP : 0 < (A + B * τ) ^ 2 - 4 * l1 * (Q + Sx * τ - M ^ 2 * τ ^ 2) := by
    set P := (A + B * τ) ^ 2 - 4 * l1 * (Q + Sx * τ - M ^ 2 * τ ^ 2) with hP
    have e : 4 * (B ^ 2 + 4 * l1 * M ^ 2) * P
        = (2 * (B ^ 2 + 4 * l1 * M ^ 2) * τ + (2 * A * B - 4 * l1 * Sx)) ^ 2 + 4 * l1 * D := by
      rw [hD, hLY]; simp only [hP]; ring
    have : 0 < 4 * (B ^ 2 + 4 * l1 * M ^ 2) * P := by rw [e]; positivity
    exact pos_of_mul_pos_right this (by positivity)
  refine ⟨hP, ?_⟩
  have hs := sqrt_pos.2 hP
  set w := √((A + B * τ) ^ 2 - 4 * l1 * (Q + Sx * τ - M ^ 2 * τ ^ 2)) with hw
  set r := 2 * M * √(((Sx + L) / (2 * M ^ 2) - τ) * (τ - (Sx - L) / (2 * M ^ 2)) * l1) with hr
  have er : r ^ 2 = 4 * l1 * (Q + Sx * τ - M ^ 2 * τ ^ 2) :=
    (zDir_sqrt hl h1 h2).trans (zDir_quad hM hLY τ)
  have ew : w ^ 2 = (A + B * τ) ^ 2 - r ^ 2 := by rw [hw, Real.sq_sqrt hP.le, er]
  have ha := hpos τ h1 h2
  have := integral_azimuth (a := (A + B * τ) / L ^ 2) (b := r / L ^ 2) (w := w / L ^ 2)
    (by positivity) (by positivity) (by field_simp; exact ew)
  rw [show 2 * π * L ^ 4 * ((A + B * τ) / w ^ 3)
    = 2 * π * ((A + B * τ) / L ^ 2) / (w / L ^ 2) ^ 3 by field_simp, ← this]
  refine integral_congr fun φ _ => ?_
  simp only [zDir]
  rw [← hr]
  congr 2
  ring

/-- The integral of `1 / z²` over all directions of the photon. -/
theorem integral_zDir {A B D : ℝ} (hM : 0 < M) (hL : 0 < L) (hl : 0 < l1)
    (hLY : L ^ 2 = Sx ^ 2 + 4 * M ^ 2 * Q)
    (hD : D = 4 * A ^ 2 * M ^ 2 - 4 * Q * B ^ 2 + 4 * A * B * Sx - 4 * l1 * L ^ 2) (hDpos : 0 < D)
    (hpos : ∀ τ, (Sx - L) / (2 * M ^ 2) ≤ τ → τ ≤ (Sx + L) / (2 * M ^ 2) → 0 < A + B * τ) :
    ∫ τ in ((Sx - L) / (2 * M ^ 2))..((Sx + L) / (2 * M ^ 2)),
      ∫ φ in (-π)..π, 1 / zDir M Sx L l1 A B τ φ ^ 2 = 8 * π * L ^ 5 / D := by
  have hle : (Sx - L) / (2 * M ^ 2) ≤ (Sx + L) / (2 * M ^ 2) := by gcongr; linarith
  have := integral_polar hM hL hLY (c := 4 * l1) (by positivity) hD hDpos hpos
  rw [show 8 * π * L ^ 5 / D = 2 * π * L ^ 4 * (4 * L / D) by ring, ← this, ← intervalIntegral.integral_const_mul]
  refine integral_congr fun τ hτ => ?_
  rw [Set.uIcc_of_le hle] at hτ
  exact (integral_zDir_azimuth hM hL hl hLY hD hDpos hpos hτ.1 hτ.2).2

/-- The integral of the product of the two propagators over all directions of the photon. -/
theorem integral_zDir_mul {A B₁ B₂ : ℝ} (hM : 0 < M) (hL : 0 < L) (hl : 0 < l1) (hQ : 0 < Q)
    (hm : 0 < m) (hLY : L ^ 2 = Sx ^ 2 + 4 * M ^ 2 * Q)
    (hD : ∀ x : ℝ, 4 * L ^ 4 * (m ^ 2 + Q * (x * (1 - x))) = 4 * A ^ 2 * M ^ 2
      - 4 * Q * (x * B₁ + (1 - x) * B₂) ^ 2 + 4 * A * (x * B₁ + (1 - x) * B₂) * Sx - 4 * l1 * L ^ 2)
    (hpos : ∀ τ φ, (Sx - L) / (2 * M ^ 2) ≤ τ → τ ≤ (Sx + L) / (2 * M ^ 2) →
      0 < zDir M Sx L l1 A B₁ τ φ ∧ 0 < zDir M Sx L l1 A B₂ τ φ) :
    ∫ τ in ((Sx - L) / (2 * M ^ 2))..((Sx + L) / (2 * M ^ 2)), ∫ φ in (-π)..π,
      1 / (zDir M Sx L l1 A B₁ τ φ * zDir M Sx L l1 A B₂ τ φ) = 4 * π * L * logM Q m := by
  have hle : (Sx - L) / (2 * M ^ 2) ≤ (Sx + L) / (2 * M ^ 2) := by gcongr; linarith
  have hpi : -π ≤ π := by linarith [pi_pos]
  set tm := (Sx - L) / (2 * M ^ 2) with htm
  set tp := (Sx + L) / (2 * M ^ 2) with htp
  have hz : ∀ x τ φ, zDir M Sx L l1 A (x * B₁ + (1 - x) * B₂) τ φ
      = x * zDir M Sx L l1 A B₁ τ φ + (1 - x) * zDir M Sx L l1 A B₂ τ φ := fun x τ φ => by
    unfold zDir; ring
  have hzpos : ∀ x ∈ Set.Icc (0 : ℝ) 1, ∀ τ φ, tm ≤ τ → τ ≤ tp →
      0 < zDir M Sx L l1 A (x * B₁ + (1 - x) * B₂) τ φ := fun x hx τ φ h1 h2 => by
    obtain ⟨p1, p2⟩ := hpos τ φ h1 h2
    rw [hz]
    rcases hx.1.eq_or_lt with rfl | h
    · simpa using p2
    · have a1 : 0 ≤ (1 - x) * zDir M Sx L l1 A B₂ τ φ := mul_nonneg (by linarith [hx.2]) p2.le
      have a2 : 0 < x * zDir M Sx L l1 A B₁ τ φ := mul_pos h p1
      linarith
  have hlin : ∀ x ∈ Set.Icc (0 : ℝ) 1, ∀ τ, tm ≤ τ → τ ≤ tp →
      0 < A + (x * B₁ + (1 - x) * B₂) * τ := fun x hx τ h1 h2 => by
    have := hzpos x hx τ (π / 2) h1 h2
    simp only [zDir, cos_pi_div_two, mul_zero, sub_zero] at this
    have h3 : 0 < L ^ 2 := by positivity
    have h4 := mul_pos h3 this
    rw [← mul_assoc, mul_one_div_cancel h3.ne', one_mul] at h4
    linarith
  set DD : ℝ → ℝ := fun x => 4 * L ^ 4 * (m ^ 2 + Q * (x * (1 - x))) with hDD
  have hDpos : ∀ x ∈ Set.Icc (0 : ℝ) 1, 0 < DD x := fun x hx => by
    have := denom_pos hQ hm hx
    simp only [hDD]; positivity
  set P : ℝ → ℝ → ℝ := fun τ x => (A + (x * B₁ + (1 - x) * B₂) * τ) ^ 2
    - 4 * l1 * (Q + Sx * τ - M ^ 2 * τ ^ 2) with hPd
  set G : ℝ → ℝ → ℝ := fun τ x => 2 * π * L ^ 4 *
    ((A + (x * B₁ + (1 - x) * B₂) * τ) / √(P τ x) ^ 3) with hG
  have haz : ∀ x ∈ Set.Icc (0 : ℝ) 1, ∀ τ ∈ Set.Icc tm tp, 0 < P τ x ∧
      ∫ φ in (-π)..π, 1 / zDir M Sx L l1 A (x * B₁ + (1 - x) * B₂) τ φ ^ 2 = G τ x :=
    fun x hx τ hτ => integral_zDir_azimuth hM hL hl hLY (hD x) (hDpos x hx) (hlin x hx) hτ.1 hτ.2
  have s1 : ∀ τ ∈ Set.Icc tm tp, ∫ φ in (-π)..π,
      1 / (zDir M Sx L l1 A B₁ τ φ * zDir M Sx L l1 A B₂ τ φ) = ∫ x in (0 : ℝ)..1, G τ x := by
    intro τ hτ
    have e1 : ∫ φ in (-π)..π, 1 / (zDir M Sx L l1 A B₁ τ φ * zDir M Sx L l1 A B₂ τ φ) =
        ∫ φ in (-π)..π, ∫ x in (0 : ℝ)..1,
          1 / zDir M Sx L l1 A (x * B₁ + (1 - x) * B₂) τ φ ^ 2 := by
      refine integral_congr fun φ _ => ?_
      obtain ⟨p1, p2⟩ := hpos τ φ hτ.1 hτ.2
      simp only [hz]
      exact (integral_feynman p1 p2).symm
    rw [e1, integral_swap_continuousOn hpi zero_le_one]
    · refine integral_congr fun x hx => ?_
      rw [Set.uIcc_of_le zero_le_one] at hx
      exact (haz x hx τ hτ).2
    · refine ContinuousOn.div continuousOn_const ?_ fun p hp =>
        (pow_pos (hzpos p.2 hp.2 τ p.1 hτ.1 hτ.2) 2).ne'
      unfold zDir
      fun_prop
  have s2 : ∫ τ in tm..tp, ∫ φ in (-π)..π,
      1 / (zDir M Sx L l1 A B₁ τ φ * zDir M Sx L l1 A B₂ τ φ)
        = ∫ x in (0 : ℝ)..1, ∫ τ in tm..tp, G τ x := by
    rw [← integral_swap_continuousOn hle zero_le_one]
    · refine integral_congr fun τ hτ => ?_
      rw [Set.uIcc_of_le hle] at hτ
      exact s1 τ hτ
    · refine ContinuousOn.mul continuousOn_const (ContinuousOn.div ?_ ?_ fun p hp =>
        (pow_pos (sqrt_pos.2 (haz p.2 hp.2 p.1 hp.1).1) 3).ne')
      · fun_prop
      · simp only [hPd]; fun_prop
  rw [s2]
  have s3 : ∫ x in (0 : ℝ)..1, ∫ τ in tm..tp, G τ x
      = ∫ x in (0 : ℝ)..1, 2 * π * L * (1 / (m ^ 2 + Q * (x * (1 - x)))) := by
    refine integral_congr fun x hx => ?_
    rw [Set.uIcc_of_le zero_le_one] at hx
    have hp := denom_pos hQ hm hx
    have := integral_zDir hM hL hl hLY (hD x) (hDpos x hx) (hlin x hx)
    rw [show 2 * π * L * (1 / (m ^ 2 + Q * (x * (1 - x))))
      = 8 * π * L ^ 5 / (4 * L ^ 4 * (m ^ 2 + Q * (x * (1 - x)))) by field_simp; ring, ← this]
    refine integral_congr fun τ hτ => ?_
    rw [Set.uIcc_of_le hle] at hτ
    exact (haz x hx τ hτ).2.symm
  rw [s3, intervalIntegral.integral_const_mul, integral_denom hQ hm]
  ring

end

end Sidis
