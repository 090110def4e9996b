import Verif.Lemmas.Dilog
import Verif.Lemmas.SoftPhoton
import Verif.Spec.Infrared
import Mathlib.Analysis.SpecialFunctions.Complex.Arg
import Mathlib.MeasureTheory.Integral.DivergenceTheorem

/-! # Emission of soft photons with a mass -/

namespace Sidis.Lemmas

open Real intervalIntegral MeasureTheory Set Filter Topology Sidis.Spec Sidis.Spec.Qed

/-! ### The integral over the directions -/

theorem azimuth_general {a u v w : ℝ} (ha : 0 < a) (hw : 0 < w) (e : w ^ 2 = a ^ 2 - (u ^ 2 + v ^ 2)) :
    ∫ φ in (-π)..π, 1 / (a - (u * cos φ + v * sin φ)) ^ 2 = 2 * π * a / w ^ 3 := by
  set b := ‖(⟨u, v⟩ : ℂ)‖ with hb
  set θ := Complex.arg ⟨u, v⟩ with hθ
  have h1 : b * cos θ = u := Complex.norm_mul_cos_arg _
  have h2 : b * sin θ = v := Complex.norm_mul_sin_arg _
  have e' : w ^ 2 = a ^ 2 - b ^ 2 := by
    rw [e, ← h1, ← h2]
    linear_combination -b ^ 2 * sin_sq_add_cos_sq θ
  rw [← integral_azimuth ha hw e']
  have hper : Function.Periodic (fun φ => 1 / (a - b * cos φ) ^ 2) (2 * π) := fun φ => by
    simp only [cos_add_two_pi]
  have := hper.intervalIntegral_add_eq (-π) (-π - θ)
  rw [show -π + 2 * π = π by ring, show -π - θ + 2 * π = π - θ by ring] at this
  rw [this, ← intervalIntegral.integral_comp_sub_right (fun φ => 1 / (a - b * cos φ) ^ 2) θ]
  refine integral_congr fun φ _ => ?_
  rw [cos_sub, ← h1, ← h2]
  congr 3
  ring

/-- The component of `v` along a direction. -/
noncomputable def along (v : Vec4) (c φ : ℝ) : ℝ :=
  √(1 - c ^ 2) * (v.x * cos φ + v.y * sin φ) + v.z * c

/-- The square of the length of the momentum. -/
def len2 (v : Vec4) : ℝ := v.x ^ 2 + v.y ^ 2 + v.z ^ 2

theorem len2_nonneg (v : Vec4) : 0 ≤ len2 v := by unfold len2; positivity

theorem continuous_along (v : Vec4) : Continuous fun p : ℝ × ℝ => along v p.1 p.2 := by
  unfold along; fun_prop

theorem along_sq_le (v : Vec4) {c φ : ℝ} (hc : c ∈ Icc (-1 : ℝ) 1) : along v c φ ^ 2 ≤ len2 v := by
  have hs : √(1 - c ^ 2) ^ 2 = 1 - c ^ 2 := sq_sqrt (by nlinarith [hc.1, hc.2])
  have ht := sin_sq_add_cos_sq φ
  rw [along, len2]
  set s := √(1 - c ^ 2)
  set S := sin φ
  set C := cos φ
  have h1 : (s * C) ^ 2 + (s * S) ^ 2 + c ^ 2 = 1 := by
    linear_combination s ^ 2 * ht + hs
  nlinarith [sq_nonneg (v.x * (s * S) - v.y * (s * C)), sq_nonneg (v.x * c - v.z * (s * C)),
    sq_nonneg (v.y * c - v.z * (s * S))]

theorem along_lt {v : Vec4} {A c φ : ℝ} (hA : 0 < A) (h : len2 v < A ^ 2) (hc : c ∈ Icc (-1 : ℝ) 1) :
    0 < A - along v c φ := by
  have := along_sq_le v (φ := φ) hc
  have := abs_lt_of_sq_lt_sq' (lt_of_le_of_lt this h) hA.le
  linarith [this.2]

theorem polar_pos {v : Vec4} {A c : ℝ} (hA : 0 < A) (h : len2 v < A ^ 2) (hc : c ∈ Icc (-1 : ℝ) 1) :
    0 < A - v.z * c ∧ 0 < (A - v.z * c) ^ 2 - (v.x ^ 2 + v.y ^ 2) * (1 - c ^ 2) := by
  have h1 : 0 < A - v.z * c := by
    have hz : v.z ^ 2 ≤ len2 v := by rw [len2]; nlinarith [sq_nonneg v.x, sq_nonneg v.y]
    have hc2 : c ^ 2 ≤ 1 := by nlinarith [hc.1, hc.2]
    have : (v.z * c) ^ 2 < A ^ 2 := by
      have : (v.z * c) ^ 2 ≤ v.z ^ 2 := by rw [mul_pow]; nlinarith [sq_nonneg v.z]
      linarith
    linarith [(abs_lt_of_sq_lt_sq' this hA.le).2]
  refine ⟨h1, ?_⟩
  have hc2 : 0 ≤ 1 - c ^ 2 := by nlinarith [hc.1, hc.2]
  have hs : √(1 - c ^ 2) ^ 2 = 1 - c ^ 2 := sq_sqrt hc2
  have hp : √(v.x ^ 2 + v.y ^ 2) ^ 2 = v.x ^ 2 + v.y ^ 2 := sq_sqrt (by positivity)
  set s := √(1 - c ^ 2)
  set p := √(v.x ^ 2 + v.y ^ 2)
  rw [← hp, ← hs]
  have hk : (p * s + v.z * c) ^ 2 < A ^ 2 := by
    refine lt_of_le_of_lt ?_ h
    rw [len2, ← hp]
    nlinarith [sq_nonneg (p * c - v.z * s)]
  have := (abs_lt_of_sq_lt_sq' hk hA.le).2
  have hps : 0 ≤ p * s := by positivity
  nlinarith

theorem azimuth_along {v : Vec4} {A c : ℝ} (hA : 0 < A) (h : len2 v < A ^ 2) (hc : c ∈ Icc (-1 : ℝ) 1) :
    ∫ φ in (-π)..π, 1 / (A - along v c φ) ^ 2 = 2 * π * ((A - v.z * c)
      / √((A - v.z * c) ^ 2 - (v.x ^ 2 + v.y ^ 2) * (1 - c ^ 2)) ^ 3) := by
  obtain ⟨h1, h2⟩ := polar_pos hA h hc
  have hs : √(1 - c ^ 2) ^ 2 = 1 - c ^ 2 := sq_sqrt (by nlinarith [hc.1, hc.2])
  have := azimuth_general (u := √(1 - c ^ 2) * v.x) (v := √(1 - c ^ 2) * v.y) h1 (sqrt_pos.2 h2) (by
    rw [sq_sqrt h2.le, mul_pow, mul_pow, hs]; ring)
  rw [← mul_div_assoc, ← this]
  refine integral_congr fun φ _ => ?_
  rw [along]
  congr 2
  ring

theorem angular {v : Vec4} {A : ℝ} (hA : 0 < A) (h : len2 v < A ^ 2) :
    ∫ c in (-1 : ℝ)..1, ∫ φ in (-π)..π, 1 / (A - along v c φ) ^ 2 = 4 * π / (A ^ 2 - len2 v) := by
  have hz : v.z ^ 2 ≤ len2 v := by rw [len2]; nlinarith [sq_nonneg v.x, sq_nonneg v.y]
  have e : ∫ c in (-1 : ℝ)..1, ∫ φ in (-π)..π, 1 / (A - along v c φ) ^ 2
      = ∫ c in (-1 : ℝ)..1, 2 * π * ((A - v.z * c)
        / √((A - v.z * c) ^ 2 - (v.x ^ 2 + v.y ^ 2) * (1 - c ^ 2)) ^ 3) :=
    integral_congr fun c hc => by
      rw [uIcc_of_le (by norm_num)] at hc
      exact azimuth_along hA h hc
  rw [e, intervalIntegral.integral_const_mul]
  have hd : 0 < A ^ 2 - len2 v := by linarith
  rcases (by positivity : 0 ≤ v.x ^ 2 + v.y ^ 2).eq_or_lt with h0 | h0
  · have hl : len2 v = v.z ^ 2 := by rw [len2, ← h0]; ring
    rw [← h0, hl]
    rw [hl] at h hd
    have hpos : ∀ c ∈ uIcc (-1 : ℝ) 1, 0 < A - v.z * c := fun c hc => by
      rw [uIcc_of_le (by norm_num)] at hc
      exact (polar_pos hA (by rw [hl]; exact h) hc).1
    have := integral_eq_sub_of_hasDerivAt (a := -1) (b := 1)
      (f := fun c => (c * A - v.z) / (A - v.z * c) / (A ^ 2 - v.z ^ 2))
      (f' := fun c => (A - v.z * c) / √((A - v.z * c) ^ 2 - 0 * (1 - c ^ 2)) ^ 3) (fun c hc => ?_) ?_
    · rw [this]
      have p1 : A - v.z * 1 ≠ 0 := (hpos 1 (by simp)).ne'
      have p2 : A - v.z * -1 ≠ 0 := (hpos (-1) (by simp)).ne'
      have p3 := hd.ne'
      rw [show (1 : ℝ) * A - v.z = A - v.z * 1 by ring, div_self p1,
        show (-1 : ℝ) * A - v.z = -(A - v.z * -1) by ring, neg_div, div_self p2]
      field_simp
      ring
    · have hp := hpos c hc
      rw [zero_mul, sub_zero, sqrt_sq hp.le]
      have d1 : HasDerivAt (fun c => c * A - v.z) A c := by
        simpa using ((hasDerivAt_id c).mul_const A).sub_const v.z
      have d2 : HasDerivAt (fun c => A - v.z * c) (-v.z) c := by
        simpa using ((hasDerivAt_id c).const_mul v.z).const_sub A
      refine ((d1.div d2 hp.ne').div_const _).congr_deriv ?_
      have := hp.ne'
      have := hd.ne'
      field_simp
      ring
    · refine ContinuousOn.intervalIntegrable (ContinuousOn.div (by fun_prop) (by fun_prop) fun c hc => ?_)
      have hp := hpos c hc
      rw [zero_mul, sub_zero, sqrt_sq hp.le]
      positivity
  · have := integral_polar (A := A) (B := -v.z) (c := v.x ^ 2 + v.y ^ 2) (Q := 1) (Sx := 0) (M := 1) (L := 2)
      (D := 4 * (A ^ 2 - len2 v)) one_pos two_pos (by norm_num) h0 (by rw [len2]; ring) (by linarith)
      (fun τ h1 h2 => by
        have := (polar_pos hA h (c := τ) ⟨by norm_num at h1; exact h1, by norm_num at h2; exact h2⟩).1
        linarith)
    norm_num at this
    have e2 : ∫ c in (-1 : ℝ)..1, (A - v.z * c)
        / √((A - v.z * c) ^ 2 - (v.x ^ 2 + v.y ^ 2) * (1 - c ^ 2)) ^ 3 = 8 / (4 * (A ^ 2 - len2 v)) := by
      rw [← this]
      refine integral_congr fun c _ => ?_
      rw [show A + -(v.z * c) = A - v.z * c by ring]
    rw [e2]
    have := hd.ne'
    field_simp
    ring

/-! ### The integral over the length of the momentum -/

/-- The velocity integral that is left of the radial integral. -/
noncomputable def velocity (E P2 s : ℝ) : ℝ := ∫ σ in (0 : ℝ)..s, E ^ 2 / (E ^ 2 - P2 * σ ^ 2)

theorem velocity_pos {E P2 σ : ℝ} (h0 : 0 ≤ P2) (h : P2 < E ^ 2) (hσ : |σ| ≤ 1) :
    0 < E ^ 2 - P2 * σ ^ 2 := by
  have : σ ^ 2 ≤ 1 := by rw [← sq_abs]; exact pow_le_one₀ (abs_nonneg _) hσ
  nlinarith

theorem hasDerivAt_velocity {E P2 s : ℝ} (h0 : 0 ≤ P2) (h : P2 < E ^ 2) (hs : |s| ≤ 1) :
    HasDerivAt (velocity E P2) (E ^ 2 / (E ^ 2 - P2 * s ^ 2)) s := by
  refine integral_hasDerivAt_right (ContinuousOn.intervalIntegrable ?_) ?_ ?_
  · refine ContinuousOn.div (by fun_prop) (by fun_prop) fun σ hσ => (velocity_pos h0 h ?_).ne'
    refine le_trans ?_ hs
    rcases le_total 0 s with h | h
    · rw [uIcc_of_le h] at hσ; rw [abs_of_nonneg hσ.1, abs_of_nonneg h]; exact hσ.2
    · rw [uIcc_of_ge h] at hσ; rw [abs_of_nonpos hσ.2, abs_of_nonpos h]; linarith [hσ.1]
  · exact (Measurable.stronglyMeasurable (by fun_prop)).stronglyMeasurableAtFilter
  · exact ContinuousAt.div (by fun_prop) (by fun_prop) (velocity_pos h0 h hs).ne'

theorem radial {E P2 μ R : ℝ} (hE : 0 < E) (h0 : 0 ≤ P2) (h : P2 < E ^ 2) (hμ : 0 < μ) (hR : 0 ≤ R) :
    ∫ r in (0 : ℝ)..R, r ^ 2 / √(r ^ 2 + μ ^ 2) * (1 / ((E * √(r ^ 2 + μ ^ 2)) ^ 2 - P2 * r ^ 2))
      = 1 / (E ^ 2 - P2) * (log (R + √(R ^ 2 + μ ^ 2)) - log μ
        - velocity E P2 (R / √(R ^ 2 + μ ^ 2))) := by
  have hM : 0 < E ^ 2 - P2 := by linarith
  have hω : ∀ r : ℝ, 0 < √(r ^ 2 + μ ^ 2) := fun r => sqrt_pos.2 (by positivity)
  have hω2 : ∀ r : ℝ, √(r ^ 2 + μ ^ 2) ^ 2 = r ^ 2 + μ ^ 2 := fun r => sq_sqrt (by positivity)
  have hden : ∀ r : ℝ, 0 < (E * √(r ^ 2 + μ ^ 2)) ^ 2 - P2 * r ^ 2 := fun r => by
    rw [mul_pow, hω2]
    have : 0 < E ^ 2 * μ ^ 2 := by positivity
    nlinarith [sq_nonneg r]
  have hlog : ∀ r : ℝ, 0 ≤ r → 0 < r + √(r ^ 2 + μ ^ 2) := fun r hr => add_pos_of_nonneg_of_pos hr (hω r)
  have := integral_eq_sub_of_hasDerivAt (a := 0) (b := R)
    (f := fun r => 1 / (E ^ 2 - P2) * (log (r + √(r ^ 2 + μ ^ 2))
        - velocity E P2 (r / √(r ^ 2 + μ ^ 2))))
    (f' := fun r => r ^ 2 / √(r ^ 2 + μ ^ 2) * (1 / ((E * √(r ^ 2 + μ ^ 2)) ^ 2 - P2 * r ^ 2)))
    (fun r hr => ?_) ?_
  · rw [this]
    have e0 : √((0 : ℝ) ^ 2 + μ ^ 2) = μ := by rw [zero_pow two_ne_zero, zero_add, sqrt_sq hμ.le]
    rw [e0, zero_div, zero_add]
    have : velocity E P2 0 = 0 := by simp [velocity]
    rw [this]
    ring
  · rw [uIcc_of_le hR] at hr
    have w0 := hω r
    have w2 := hω2 r
    have hd := hden r
    have dω : HasDerivAt (fun r => √(r ^ 2 + μ ^ 2)) (r / √(r ^ 2 + μ ^ 2)) r := by
      have : HasDerivAt (fun r : ℝ => r ^ 2 + μ ^ 2) (2 * r) r := by
        simpa using (hasDerivAt_pow 2 r).add_const (μ ^ 2)
      refine (this.sqrt (by positivity)).congr_deriv ?_
      field_simp
    have d1 : HasDerivAt (fun r => log (r + √(r ^ 2 + μ ^ 2)))
        ((1 + r / √(r ^ 2 + μ ^ 2)) / (r + √(r ^ 2 + μ ^ 2))) r :=
      ((hasDerivAt_id r).add dω).log (hlog r hr.1).ne'
    have hs : |r / √(r ^ 2 + μ ^ 2)| ≤ 1 := by
      rw [abs_of_nonneg (div_nonneg hr.1 w0.le), div_le_one w0]
      exact le_sqrt_of_sq_le (by nlinarith)
    have d2 : HasDerivAt (fun r => r / √(r ^ 2 + μ ^ 2)) (μ ^ 2 / √(r ^ 2 + μ ^ 2) ^ 3) r := by
      refine ((hasDerivAt_id r).div dω w0.ne').congr_deriv ?_
      simp only [id]
      field_simp
      linear_combination w2
    have d3 := (hasDerivAt_velocity h0 h hs).comp r d2
    refine ((d1.sub d3).const_mul (1 / (E ^ 2 - P2))).congr_deriv ?_
    have hl := (hlog r hr.1).ne'
    have hv : E ^ 2 - P2 * (r / √(r ^ 2 + μ ^ 2)) ^ 2
        = ((E * √(r ^ 2 + μ ^ 2)) ^ 2 - P2 * r ^ 2) / √(r ^ 2 + μ ^ 2) ^ 2 := by
      field_simp
    rw [hv]
    set ω := √(r ^ 2 + μ ^ 2)
    obtain ⟨X, hX⟩ : ∃ X, X = (E * ω) ^ 2 - P2 * r ^ 2 := ⟨_, rfl⟩
    rw [← hX] at hd ⊢
    have hX' : X = (E ^ 2 - P2) * r ^ 2 + E ^ 2 * μ ^ 2 := by rw [hX, mul_pow, w2]; ring
    obtain ⟨Y, hY⟩ : ∃ Y, Y = E ^ 2 - P2 := ⟨_, rfl⟩
    rw [← hY] at hM hX' ⊢
    have e1 : (1 + r / ω) / (r + ω) = 1 / ω := by field_simp; ring
    rw [e1]
    field_simp
    rw [hX']
    ring
  · exact (Continuous.mul (Continuous.div (by fun_prop) (by fun_prop) fun r => (hω r).ne')
      (Continuous.div (by fun_prop) (by fun_prop) fun r => (hden r).ne')).intervalIntegrable _ _

/-! ### The interference of the two leptons -/

/-- A positive energy and a positive mass. -/
def Timelike (v : Vec4) : Prop := 0 < v.t ∧ len2 v < v.t ^ 2

/-- The path from `q` to `p`. -/
def path (p q : Vec4) (x : ℝ) : Vec4 :=
  ⟨x * p.t + (1 - x) * q.t, x * p.x + (1 - x) * q.x, x * p.y + (1 - x) * q.y, x * p.z + (1 - x) * q.z⟩

theorem Timelike.mul_pos {p q : Vec4} (hp : Timelike p) (hq : Timelike q) :
    p.x * q.x + p.y * q.y + p.z * q.z < p.t * q.t := by
  have h1 : (p.x * q.x + p.y * q.y + p.z * q.z) ^ 2 ≤ len2 p * len2 q := by
    rw [len2, len2]
    nlinarith [sq_nonneg (p.x * q.y - p.y * q.x), sq_nonneg (p.x * q.z - p.z * q.x),
      sq_nonneg (p.y * q.z - p.z * q.y)]
  have h2 : len2 p * len2 q < (p.t * q.t) ^ 2 := by
    rw [mul_pow]
    exact mul_lt_mul'' hp.2 hq.2 (len2_nonneg _) (len2_nonneg _)
  exact (abs_lt_of_sq_lt_sq' (lt_of_le_of_lt h1 h2) (_root_.mul_pos hp.1 hq.1).le).2

theorem Timelike.path {p q : Vec4} (hp : Timelike p) (hq : Timelike q) {x : ℝ} (hx : x ∈ Icc (0 : ℝ) 1) :
    Timelike (path p q x) := by
  have h := hp.mul_pos hq
  obtain ⟨p0, p1⟩ := hp
  obtain ⟨q0, q1⟩ := hq
  rw [len2] at p1 q1
  have x0 := hx.1
  have x1 : 0 ≤ 1 - x := by linarith [hx.2]
  constructor
  · rw [Lemmas.path]
    rcases x0.eq_or_lt with h0 | h0
    · rw [← h0]; simpa using q0
    · have : 0 ≤ (1 - x) * q.t := by positivity
      have : 0 < x * p.t := by positivity
      simp only; linarith
  · rw [Lemmas.path, len2]
    dsimp only
    have e : (x * p.t + (1 - x) * q.t) ^ 2 - ((x * p.x + (1 - x) * q.x) ^ 2
        + (x * p.y + (1 - x) * q.y) ^ 2 + (x * p.z + (1 - x) * q.z) ^ 2)
        = x ^ 2 * (p.t ^ 2 - (p.x ^ 2 + p.y ^ 2 + p.z ^ 2))
          + (1 - x) ^ 2 * (q.t ^ 2 - (q.x ^ 2 + q.y ^ 2 + q.z ^ 2))
          + 2 * (x * (1 - x)) * (p.t * q.t - (p.x * q.x + p.y * q.y + p.z * q.z)) := by ring
    have t3 : 0 ≤ 2 * (x * (1 - x)) * (p.t * q.t - (p.x * q.x + p.y * q.y + p.z * q.z)) := by
      have : 0 ≤ p.t * q.t - (p.x * q.x + p.y * q.y + p.z * q.z) := by linarith
      positivity
    have t1 : 0 ≤ x ^ 2 * (p.t ^ 2 - (p.x ^ 2 + p.y ^ 2 + p.z ^ 2)) :=
      mul_nonneg (sq_nonneg _) (by linarith)
    have t2 : 0 ≤ (1 - x) ^ 2 * (q.t ^ 2 - (q.x ^ 2 + q.y ^ 2 + q.z ^ 2)) :=
      mul_nonneg (sq_nonneg _) (by linarith)
    rcases x0.eq_or_lt with h0 | h0
    · have : 0 < (1 - x) ^ 2 * (q.t ^ 2 - (q.x ^ 2 + q.y ^ 2 + q.z ^ 2)) := by
        rw [← h0]; simpa using q1
      linarith
    · have : 0 < x ^ 2 * (p.t ^ 2 - (p.x ^ 2 + p.y ^ 2 + p.z ^ 2)) :=
        _root_.mul_pos (by positivity) (by linarith)
      linarith

theorem along_path (p q : Vec4) (x c φ : ℝ) :
    (path p q x).t - along (path p q x) c φ
      = x * (p.t - along p c φ) + (1 - x) * (q.t - along q c φ) := by
  simp only [path, along]; ring

theorem angular_cross {p q : Vec4} (hp : Timelike p) (hq : Timelike q) :
    ∫ c in (-1 : ℝ)..1, ∫ φ in (-π)..π, 1 / ((p.t - along p c φ) * (q.t - along q c φ))
      = ∫ x in (0 : ℝ)..1, 4 * π / ((path p q x).t ^ 2 - len2 (path p q x)) := by
  have hpi : -π ≤ π := by linarith [pi_pos]
  have h11 : (-1 : ℝ) ≤ 1 := by norm_num
  have hm : ∀ x ∈ Icc (0 : ℝ) 1, Timelike (path p q x) := fun x hx => hp.path hq hx
  set G : ℝ → ℝ → ℝ := fun c x => 2 * π * (((path p q x).t - (path p q x).z * c)
      / √(((path p q x).t - (path p q x).z * c) ^ 2
        - ((path p q x).x ^ 2 + (path p q x).y ^ 2) * (1 - c ^ 2)) ^ 3) with hG
  have s1 : ∀ c ∈ Icc (-1 : ℝ) 1,
      ∫ φ in (-π)..π, 1 / ((p.t - along p c φ) * (q.t - along q c φ)) = ∫ x in (0 : ℝ)..1, G c x := by
    intro c hc
    have e : ∫ φ in (-π)..π, 1 / ((p.t - along p c φ) * (q.t - along q c φ))
        = ∫ φ in (-π)..π, ∫ x in (0 : ℝ)..1, 1 / ((path p q x).t - along (path p q x) c φ) ^ 2 :=
      integral_congr fun φ _ => by
        rw [← integral_feynman (along_lt hp.1 hp.2 hc) (along_lt hq.1 hq.2 hc)]
        refine integral_congr fun x _ => ?_
        rw [along_path]
    rw [e, integral_swap_continuousOn hpi zero_le_one]
    · refine integral_congr fun x hx => ?_
      rw [uIcc_of_le zero_le_one] at hx
      exact azimuth_along (hm x hx).1 (hm x hx).2 hc
    · refine ContinuousOn.div continuousOn_const ?_ fun y hy =>
        (pow_pos (along_lt (hm y.2 hy.2).1 (hm y.2 hy.2).2 hc) 2).ne'
      unfold along path
      fun_prop
  have s2 : ∫ c in (-1 : ℝ)..1, ∫ φ in (-π)..π, 1 / ((p.t - along p c φ) * (q.t - along q c φ))
      = ∫ c in (-1 : ℝ)..1, ∫ x in (0 : ℝ)..1, G c x :=
    integral_congr fun c hc => by
      rw [uIcc_of_le h11] at hc
      exact s1 c hc
  rw [s2, integral_swap_continuousOn h11 zero_le_one]
  · refine integral_congr fun x hx => ?_
    rw [uIcc_of_le zero_le_one] at hx
    rw [← angular (hm x hx).1 (hm x hx).2]
    refine integral_congr fun c hc => ?_
    rw [uIcc_of_le h11] at hc
    exact (azimuth_along (hm x hx).1 (hm x hx).2 hc).symm
  · refine ContinuousOn.mul continuousOn_const (ContinuousOn.div ?_ ?_ fun y hy =>
      (pow_pos (sqrt_pos.2 (polar_pos (hm y.2 hy.2).1 (hm y.2 hy.2).2 hy.1).2) 3).ne')
    · unfold path; fun_prop
    · unfold path; fun_prop

/-! ### Putting the integrals together -/

theorem rect_integrable {f : ℝ → ℝ → ℝ} {a b c d : ℝ} (hab : a ≤ b) (hcd : c ≤ d)
    (hf : ContinuousOn (fun p : ℝ × ℝ => f p.1 p.2) (Icc a b ×ˢ Icc c d)) :
    IntervalIntegrable (fun x => ∫ y in c..d, f x y) volume a b := by
  rw [intervalIntegrable_iff_integrableOn_Ioc_of_le hab]
  simp only [integral_of_le hcd]
  have h : IntegrableOn (fun p : ℝ × ℝ => f p.1 p.2) (Ioc a b ×ˢ Ioc c d) (volume.prod volume) :=
    (hf.integrableOn_compact (isCompact_Icc.prod isCompact_Icc)).mono_set
      (prod_mono Ioc_subset_Icc_self Ioc_subset_Icc_self)
  rw [IntegrableOn, ← Measure.prod_restrict] at h
  exact h.integral_prod_left

theorem rect_slice {f : ℝ → ℝ → ℝ} {a b c d : ℝ} (hcd : c ≤ d)
    (hf : ContinuousOn (fun p : ℝ × ℝ => f p.1 p.2) (Icc a b ×ˢ Icc c d)) {x : ℝ} (hx : x ∈ Icc a b) :
    IntervalIntegrable (f x) volume c d := by
  refine ContinuousOn.intervalIntegrable ?_
  rw [uIcc_of_le hcd]
  exact hf.comp (f := fun w => (x, w)) (by fun_prop) fun w hw => ⟨hx, hw⟩

theorem rect_linear {f g h : ℝ → ℝ → ℝ} {a b c d A B C : ℝ} (hab : a ≤ b) (hcd : c ≤ d)
    (hf : ContinuousOn (fun p : ℝ × ℝ => f p.1 p.2) (Icc a b ×ˢ Icc c d))
    (hg : ContinuousOn (fun p : ℝ × ℝ => g p.1 p.2) (Icc a b ×ˢ Icc c d))
    (hh : ContinuousOn (fun p : ℝ × ℝ => h p.1 p.2) (Icc a b ×ˢ Icc c d)) :
    ∫ x in a..b, ∫ y in c..d, (A * f x y + B * g x y + C * h x y)
      = A * (∫ x in a..b, ∫ y in c..d, f x y) + B * (∫ x in a..b, ∫ y in c..d, g x y)
        + C * ∫ x in a..b, ∫ y in c..d, h x y := by
  have e : ∫ x in a..b, ∫ y in c..d, (A * f x y + B * g x y + C * h x y)
      = ∫ x in a..b, (A * (∫ y in c..d, f x y) + B * (∫ y in c..d, g x y) + C * ∫ y in c..d, h x y) :=
    integral_congr fun x hx => by
      rw [uIcc_of_le hab] at hx
      have i1 := rect_slice hcd hf hx
      have i2 := rect_slice hcd hg hx
      have i3 := rect_slice hcd hh hx
      rw [intervalIntegral.integral_add ((i1.const_mul _).add (i2.const_mul _)) (i3.const_mul _),
        intervalIntegral.integral_add (i1.const_mul _) (i2.const_mul _)]
      simp only [intervalIntegral.integral_const_mul]
  have i1 := rect_integrable hab hcd hf
  have i2 := rect_integrable hab hcd hg
  have i3 := rect_integrable hab hcd hh
  rw [e, intervalIntegral.integral_add ((i1.const_mul _).add (i2.const_mul _)) (i3.const_mul _),
    intervalIntegral.integral_add (i1.const_mul _) (i2.const_mul _)]
  simp only [intervalIntegral.integral_const_mul]

/-- The vector whose product with a light-like direction is the product of `v` with the photon. -/
def scaled (v : Vec4) (ω r : ℝ) : Vec4 := ⟨v.t * ω, v.x * r, v.y * r, v.z * r⟩

theorem mink_photon (v : Vec4) (μ r c φ : ℝ) :
    mink v (photon μ r c φ) = (scaled v √(r ^ 2 + μ ^ 2) r).t - along (scaled v √(r ^ 2 + μ ^ 2) r) c φ := by
  simp only [mink, photon, scaled, along]; ring

theorem len2_scaled (v : Vec4) (ω r : ℝ) : len2 (scaled v ω r) = len2 v * r ^ 2 := by
  simp only [len2, scaled]; ring

theorem path_scaled (p q : Vec4) (ω r x : ℝ) :
    path (scaled p ω r) (scaled q ω r) x = scaled (path p q x) ω r := by
  simp only [path, scaled, Vec4.mk.injEq]
  refine ⟨?_, ?_, ?_, ?_⟩ <;> ring

theorem Timelike.scaled {v : Vec4} (h : Timelike v) {μ r : ℝ} (hμ : 0 < μ) :
    Timelike (scaled v √(r ^ 2 + μ ^ 2) r) := by
  have hω : 0 < √(r ^ 2 + μ ^ 2) := sqrt_pos.2 (by positivity)
  refine ⟨_root_.mul_pos h.1 hω, ?_⟩
  rw [len2_scaled, Lemmas.scaled, mul_pow, sq_sqrt (by positivity)]
  have h1 := h.2
  have h2 : 0 < v.t ^ 2 * μ ^ 2 := by have := h.1; positivity
  nlinarith [sq_nonneg r, mul_le_mul_of_nonneg_right h1.le (sq_nonneg r)]

/-- `a v` -/
def times (a : ℝ) (v : Vec4) : Vec4 := ⟨a * v.t, a * v.x, a * v.y, a * v.z⟩

theorem Timelike.times {v : Vec4} (h : Timelike v) {a : ℝ} (ha : 0 < a) : Timelike (times a v) := by
  refine ⟨_root_.mul_pos ha h.1, ?_⟩
  have : len2 (Lemmas.times a v) = a ^ 2 * len2 v := by simp only [len2, Lemmas.times]; ring
  rw [this, Lemmas.times, mul_pow]
  have := h.2
  gcongr

theorem mink_current {k1 k2 k : Vec4} :
    mink (current k1 k2 k) (current k1 k2 k)
      = mink k1 k1 * (1 / mink k1 k ^ 2) + mink k2 k2 * (1 / mink k2 k ^ 2)
        + (-(2 * mink k1 k2)) * (1 / (mink k1 k * mink k2 k)) := by
  have e : mink (current k1 k2 k) (current k1 k2 k)
      = mink k1 k1 * (1 / mink k1 k) ^ 2 + mink k2 k2 * (1 / mink k2 k) ^ 2
        - 2 * mink k1 k2 * ((1 / mink k1 k) * (1 / mink k2 k)) := by
    rw [current]
    generalize 1 / mink k1 k = a
    generalize 1 / mink k2 k = b
    simp only [mink, Vec4.smul_t, Vec4.sub_t, Vec4.smul_x, Vec4.sub_x, Vec4.smul_y, Vec4.sub_y,
      Vec4.smul_z, Vec4.sub_z]
    ring
  rw [e]
  ring

/-- The integral over the directions of the square of the current. -/
theorem angular_current {k1 k2 : Vec4} (h1 : Timelike k1) (h2 : Timelike k2) {a μ r : ℝ} (ha : 0 < a)
    (hμ : 0 < μ) :
    ∫ c in (-1 : ℝ)..1, ∫ φ in (-π)..π, r ^ 2 / √(r ^ 2 + μ ^ 2) *
      mink (current k1 k2 (photon μ r c φ)) (current k1 k2 (photon μ r c φ))
    = ∫ x in (0 : ℝ)..1, (4 * π * mink k1 k1 * (r ^ 2 / √(r ^ 2 + μ ^ 2) *
          (1 / ((k1.t * √(r ^ 2 + μ ^ 2)) ^ 2 - len2 k1 * r ^ 2)))
        + 4 * π * mink k2 k2 * (r ^ 2 / √(r ^ 2 + μ ^ 2) *
          (1 / ((k2.t * √(r ^ 2 + μ ^ 2)) ^ 2 - len2 k2 * r ^ 2)))
        + (-(4 * π * (2 * mink k1 k2) * a)) * (r ^ 2 / √(r ^ 2 + μ ^ 2) *
          (1 / (((path (times a k1) k2 x).t * √(r ^ 2 + μ ^ 2)) ^ 2
            - len2 (path (times a k1) k2 x) * r ^ 2)))) := by
  have hpi : -π ≤ π := by linarith [pi_pos]
  have h11 : (-1 : ℝ) ≤ 1 := by norm_num
  set ω := √(r ^ 2 + μ ^ 2) with hω
  have s1 := h1.scaled (r := r) hμ
  have s2 := h2.scaled (r := r) hμ
  have sa := (h1.times ha).scaled (r := r) hμ
  rw [← hω] at s1 s2 sa
  set v1 := scaled k1 ω r with hv1
  set v2 := scaled k2 ω r with hv2
  have hsc : ∀ c φ, (scaled (times a k1) ω r).t - along (scaled (times a k1) ω r) c φ
      = a * (v1.t - along v1 c φ) := fun c φ => by
    rw [hv1]; simp only [scaled, times, along]; ring
  have e : ∫ c in (-1 : ℝ)..1, ∫ φ in (-π)..π, r ^ 2 / ω *
      mink (current k1 k2 (photon μ r c φ)) (current k1 k2 (photon μ r c φ))
      = ∫ c in (-1 : ℝ)..1, ∫ φ in (-π)..π, (r ^ 2 / ω * mink k1 k1 * (1 / (v1.t - along v1 c φ) ^ 2)
        + r ^ 2 / ω * mink k2 k2 * (1 / (v2.t - along v2 c φ) ^ 2)
        + (-(r ^ 2 / ω * (2 * mink k1 k2) * a)) *
          (1 / (((scaled (times a k1) ω r).t - along (scaled (times a k1) ω r) c φ)
            * (v2.t - along v2 c φ)))) := by
    refine integral_congr fun c _ => integral_congr fun φ _ => ?_
    rw [mink_current, mink_photon, mink_photon, ← hω, ← hv1, ← hv2, hsc]
    have : a ≠ 0 := ha.ne'
    rw [one_div (a * _ * _), mul_inv, mul_inv]
    field_simp
  rw [e, rect_linear h11 hpi, angular s1.1 s1.2, angular s2.1 s2.2, angular_cross sa s2]
  · simp only [hv1, hv2, path_scaled, len2_scaled]
    have hx : ∀ x ∈ uIcc (0 : ℝ) 1, (scaled (path (times a k1) k2 x) ω r).t ^ 2
        - len2 (path (times a k1) k2 x) * r ^ 2 ≠ 0 := fun x hx => by
      rw [uIcc_of_le zero_le_one] at hx
      have := (((h1.times ha).path h2 hx).scaled (r := r) hμ).2
      rw [← hω, len2_scaled] at this
      exact (sub_pos.2 this).ne'
    have ic : IntervalIntegrable (fun x => r ^ 2 / ω * (1 / (((path (times a k1) k2 x).t * ω) ^ 2
        - len2 (path (times a k1) k2 x) * r ^ 2))) volume 0 1 := by
      refine ContinuousOn.intervalIntegrable (continuousOn_const.mul (ContinuousOn.div continuousOn_const
        ?_ hx))
      unfold path len2; fun_prop
    rw [intervalIntegral.integral_add intervalIntegrable_const (ic.const_mul _),
      intervalIntegral.integral_const, intervalIntegral.integral_const_mul,
      intervalIntegral.integral_const_mul]
    have e3 : ∫ x in (0 : ℝ)..1, 4 * π / ((scaled (path (times a k1) k2 x) ω r).t ^ 2
        - len2 (path (times a k1) k2 x) * r ^ 2)
        = 4 * π * ∫ x in (0 : ℝ)..1, 1 / (((path (times a k1) k2 x).t * ω) ^ 2
          - len2 (path (times a k1) k2 x) * r ^ 2) := by
      rw [← intervalIntegral.integral_const_mul]
      refine integral_congr fun x _ => ?_
      simp only [scaled]
      rw [mul_one_div]
    rw [e3]
    simp only [scaled, smul_eq_mul]
    ring
  · exact ContinuousOn.div continuousOn_const ((continuous_const.sub (continuous_along _)).pow 2).continuousOn
      fun p hp => (pow_pos (along_lt s1.1 s1.2 hp.1) 2).ne'
  · exact ContinuousOn.div continuousOn_const ((continuous_const.sub (continuous_along _)).pow 2).continuousOn
      fun p hp => (pow_pos (along_lt s2.1 s2.2 hp.1) 2).ne'
  · exact ContinuousOn.div continuousOn_const ((continuous_const.sub (continuous_along _)).mul
      (continuous_const.sub (continuous_along _))).continuousOn
      fun p hp => (_root_.mul_pos (along_lt sa.1 sa.2 hp.1) (along_lt s2.1 s2.2 hp.1)).ne'

theorem mink_self (v : Vec4) : mink v v = v.t ^ 2 - len2 v := by simp only [mink, len2]; ring

/-- The emission of photons with a mass, as an integral over the path and the velocity. -/
theorem softEmission_eq {alpha : ℝ} {k1 k2 : Vec4} (h1 : Timelike k1) (h2 : Timelike k2) {a μ R : ℝ}
    (ha : 0 < a) (hμ : 0 < μ) (hR : 0 ≤ R) :
    softEmission alpha k1 k2 μ R = alpha / π *
      (-(log (R + √(R ^ 2 + μ ^ 2)) - log μ - velocity k1.t (len2 k1) (R / √(R ^ 2 + μ ^ 2)))
        - (log (R + √(R ^ 2 + μ ^ 2)) - log μ - velocity k2.t (len2 k2) (R / √(R ^ 2 + μ ^ 2)))
        + 2 * mink k1 k2 * a * ∫ x in (0 : ℝ)..1,
          1 / ((path (times a k1) k2 x).t ^ 2 - len2 (path (times a k1) k2 x))
            * (log (R + √(R ^ 2 + μ ^ 2)) - log μ - velocity (path (times a k1) k2 x).t
              (len2 (path (times a k1) k2 x)) (R / √(R ^ 2 + μ ^ 2)))) := by
  have hm : ∀ x ∈ Icc (0 : ℝ) 1, Timelike (path (times a k1) k2 x) := fun x hx => (h1.times ha).path h2 hx
  have hω : ∀ r : ℝ, 0 < √(r ^ 2 + μ ^ 2) := fun r => sqrt_pos.2 (by positivity)
  have hden : ∀ {v : Vec4}, Timelike v → ∀ r : ℝ, 0 < (v.t * √(r ^ 2 + μ ^ 2)) ^ 2 - len2 v * r ^ 2 :=
    fun {v} hv r => by
      have := (hv.scaled (r := r) hμ).2
      rw [len2_scaled] at this
      exact sub_pos.2 this
  rw [softEmission]
  simp only [angular_current h1 h2 ha hμ]
  rw [rect_linear hR zero_le_one, integral_swap_continuousOn hR zero_le_one
    (f := fun r x => r ^ 2 / √(r ^ 2 + μ ^ 2) * (1 / (((path (times a k1) k2 x).t
      * √(r ^ 2 + μ ^ 2)) ^ 2 - len2 (path (times a k1) k2 x) * r ^ 2)))]
  · simp only [intervalIntegral.integral_const, sub_zero, one_smul]
    rw [radial h1.1 (len2_nonneg _) h1.2 hμ hR, radial h2.1 (len2_nonneg _) h2.2 hμ hR]
    have e : ∫ x in (0 : ℝ)..1, ∫ r in (0 : ℝ)..R, r ^ 2 / √(r ^ 2 + μ ^ 2) *
        (1 / (((path (times a k1) k2 x).t * √(r ^ 2 + μ ^ 2)) ^ 2
          - len2 (path (times a k1) k2 x) * r ^ 2))
        = ∫ x in (0 : ℝ)..1, 1 / ((path (times a k1) k2 x).t ^ 2 - len2 (path (times a k1) k2 x))
            * (log (R + √(R ^ 2 + μ ^ 2)) - log μ - velocity (path (times a k1) k2 x).t
              (len2 (path (times a k1) k2 x)) (R / √(R ^ 2 + μ ^ 2))) :=
      integral_congr fun x hx => by
        rw [uIcc_of_le zero_le_one] at hx
        exact radial (hm x hx).1 (len2_nonneg _) (hm x hx).2 hμ hR
    rw [e, mink_self k1, mink_self k2]
    have n1 : k1.t ^ 2 - len2 k1 ≠ 0 := (sub_pos.2 h1.2).ne'
    have n2 : k2.t ^ 2 - len2 k2 ≠ 0 := (sub_pos.2 h2.2).ne'
    have := pi_ne_zero
    generalize velocity k1.t (len2 k1) (R / √(R ^ 2 + μ ^ 2)) = w1
    generalize velocity k2.t (len2 k2) (R / √(R ^ 2 + μ ^ 2)) = w2
    generalize ∫ x in (0 : ℝ)..1, 1 / ((path (times a k1) k2 x).t ^ 2 - len2 (path (times a k1) k2 x))
            * (log (R + √(R ^ 2 + μ ^ 2)) - log μ - velocity (path (times a k1) k2 x).t
              (len2 (path (times a k1) k2 x)) (R / √(R ^ 2 + μ ^ 2))) = w3
    generalize log (R + √(R ^ 2 + μ ^ 2)) = l
    generalize k1.t ^ 2 - len2 k1 = m1 at *
    generalize k2.t ^ 2 - len2 k2 = m2 at *
    field_simp
    ring
  · exact ContinuousOn.mul (ContinuousOn.div (by fun_prop) (by fun_prop) fun p _ => (hω p.1).ne')
      (ContinuousOn.div (by fun_prop) (by unfold path len2; fun_prop)
        fun p hp => (hden (hm p.2 hp.2) p.1).ne')
  · exact ContinuousOn.mul (ContinuousOn.div (by fun_prop) (by fun_prop) fun p _ => (hω p.1).ne')
      (ContinuousOn.div (by fun_prop) (by fun_prop) fun p hp => (hden h1 p.1).ne')
  · exact ContinuousOn.mul (ContinuousOn.div (by fun_prop) (by fun_prop) fun p _ => (hω p.1).ne')
      (ContinuousOn.div (by fun_prop) (by fun_prop) fun p hp => (hden h2 p.1).ne')
  · exact ContinuousOn.mul (ContinuousOn.div (by fun_prop) (by fun_prop) fun p _ => (hω p.1).ne')
      (ContinuousOn.div (by fun_prop) (by unfold path len2; fun_prop)
        fun p hp => (hden (hm p.2 hp.2) p.1).ne')

/-! ### The limit of vanishing photon mass -/

theorem velocity_one {E P : ℝ} (hP : 0 < P) (h : P < E) :
    velocity E (P ^ 2) 1 = E / (2 * P) * log ((E + P) / (E - P)) := by
  have hE : 0 < E := hP.trans h
  have hp : ∀ σ ∈ uIcc (0 : ℝ) 1, 0 < E + P * σ ∧ 0 < E - P * σ := fun σ hσ => by
    rw [uIcc_of_le zero_le_one] at hσ
    constructor <;> nlinarith [hσ.1, hσ.2]
  have := integral_eq_sub_of_hasDerivAt (a := 0) (b := 1)
    (f := fun σ => E / (2 * P) * (log (E + P * σ) - log (E - P * σ)))
    (f' := fun σ => E ^ 2 / (E ^ 2 - P ^ 2 * σ ^ 2)) (fun σ hσ => ?_) ?_
  · rw [velocity, this, log_div (by linarith |> fun (h : 0 < _) => h.ne')
      (by linarith |> fun (h : 0 < _) => h.ne')]
    simp
  · obtain ⟨h1, h2⟩ := hp σ hσ
    have d1 : HasDerivAt (fun σ => E + P * σ) P σ := by
      simpa using ((hasDerivAt_id σ).const_mul P).const_add E
    have d2 : HasDerivAt (fun σ => E - P * σ) (-P) σ := by
      simpa using ((hasDerivAt_id σ).const_mul P).const_sub E
    refine (((d1.log h1.ne').sub (d2.log h2.ne')).const_mul (E / (2 * P))).congr_deriv ?_
    rw [show E ^ 2 - P ^ 2 * σ ^ 2 = (E + P * σ) * (E - P * σ) by ring]
    have := h1.ne'
    have := h2.ne'
    field_simp
    ring
  · refine ContinuousOn.intervalIntegrable (ContinuousOn.div (by fun_prop) (by fun_prop) fun σ hσ => ?_)
    obtain ⟨h1, h2⟩ := hp σ hσ
    rw [show E ^ 2 - P ^ 2 * σ ^ 2 = (E + P * σ) * (E - P * σ) by ring]
    positivity

theorem velocity_zero_right (E P2 : ℝ) : velocity E P2 0 = 0 := by simp [velocity]

theorem speed_tendsto {R : ℝ} (hR : 0 < R) :
    Tendsto (fun μ : ℝ => R / √(R ^ 2 + μ ^ 2)) (𝓝[>] 0) (𝓝 1) := by
  have h : ContinuousAt (fun μ : ℝ => R / √(R ^ 2 + μ ^ 2)) 0 :=
    ContinuousAt.div (by fun_prop) (by fun_prop) (sqrt_pos.2 (by positivity)).ne'
  have h2 := h.tendsto.mono_left (nhdsWithin_le_nhds (s := Ioi 0))
  rw [zero_pow two_ne_zero, add_zero, sqrt_sq hR.le, div_self hR.ne'] at h2
  exact h2

theorem speed_mem {R μ : ℝ} (hR : 0 < R) (hμ : 0 < μ) : R / √(R ^ 2 + μ ^ 2) ∈ Icc (0 : ℝ) 1 := by
  have hω : 0 < √(R ^ 2 + μ ^ 2) := sqrt_pos.2 (by positivity)
  refine ⟨by positivity, ?_⟩
  rw [div_le_one hω]
  exact le_sqrt_of_sq_le (by nlinarith)

/-- The integrand over the path and the velocity. -/
noncomputable def pathF (p q : Vec4) (x σ : ℝ) : ℝ := 1 / ((path p q x).t ^ 2 - len2 (path p q x))
  * ((path p q x).t ^ 2 / ((path p q x).t ^ 2 - len2 (path p q x) * σ ^ 2))

section path
variable {p q : Vec4} (hp : Timelike p) (hq : Timelike q)
include hp hq

theorem path_continuousOn {s : ℝ} (hs : s ≤ 1) :
    ContinuousOn (fun y : ℝ × ℝ => pathF p q y.1 y.2) (Icc 0 1 ×ˢ Icc 0 s) := by
  unfold pathF
  have hm : ∀ x ∈ Icc (0 : ℝ) 1, Timelike (path p q x) := fun x hx => hp.path hq hx
  refine ContinuousOn.mul (ContinuousOn.div continuousOn_const ?_ fun y hy =>
    (sub_pos.2 (hm y.1 hy.1).2).ne') (ContinuousOn.div ?_ ?_ fun y hy => (velocity_pos (len2_nonneg _)
      (hm y.1 hy.1).2 (by rw [abs_of_nonneg hy.2.1]; exact hy.2.2.trans hs)).ne')
  · unfold path len2; fun_prop
  · unfold path; fun_prop
  · unfold path len2; fun_prop

theorem path_integrable {s : ℝ} (h0 : 0 ≤ s) (hs : s ≤ 1) :
    IntervalIntegrable (fun x => 1 / ((path p q x).t ^ 2 - len2 (path p q x))
      * velocity (path p q x).t (len2 (path p q x)) s) volume 0 1 := by
  have := rect_integrable zero_le_one h0 (path_continuousOn hp hq hs)
  simpa only [pathF, velocity, intervalIntegral.integral_const_mul] using this

theorem path_tendsto {R : ℝ} (hR : 0 < R) :
    Tendsto (fun μ : ℝ => ∫ x in (0 : ℝ)..1, 1 / ((path p q x).t ^ 2 - len2 (path p q x))
      * velocity (path p q x).t (len2 (path p q x)) (R / √(R ^ 2 + μ ^ 2))) (𝓝[>] 0)
      (𝓝 (∫ x in (0 : ℝ)..1, 1 / ((path p q x).t ^ 2 - len2 (path p q x))
        * velocity (path p q x).t (len2 (path p q x)) 1)) := by
  set h : ℝ → ℝ := fun σ => ∫ x in (0 : ℝ)..1, pathF p q x σ with hh
  have swap : ∀ s ∈ Icc (0 : ℝ) 1, ∫ x in (0 : ℝ)..1, 1 / ((path p q x).t ^ 2 - len2 (path p q x))
      * velocity (path p q x).t (len2 (path p q x)) s = ∫ σ in (0 : ℝ)..s, h σ := by
    intro s hs
    rw [hh, ← integral_swap_continuousOn zero_le_one hs.1 (path_continuousOn hp hq hs.2)]
    simp only [pathF, intervalIntegral.integral_const_mul, velocity]
  have hi : IntervalIntegrable h volume 0 1 := by
    have c := (path_continuousOn hp hq (le_refl (1 : ℝ))).comp (t := Icc 0 1 ×ˢ Icc 0 1)
      (f := Prod.swap) (s := Icc (0 : ℝ) 1 ×ˢ Icc (0 : ℝ) 1) (by fun_prop) fun y hy => ⟨hy.2, hy.1⟩
    exact rect_integrable (f := fun σ x => pathF p q x σ) zero_le_one zero_le_one c
  have hc : ContinuousOn (fun s => ∫ σ in (0 : ℝ)..s, h σ) (Icc 0 1) := by
    rw [← uIcc_of_le zero_le_one]
    refine continuousOn_primitive_interval ?_
    rw [uIcc_of_le zero_le_one, integrableOn_Icc_iff_integrableOn_Ioc]
    exact (intervalIntegrable_iff_integrableOn_Ioc_of_le zero_le_one).1 hi
  rw [swap 1 (by simp)]
  have h1 : Tendsto (fun μ : ℝ => R / √(R ^ 2 + μ ^ 2)) (𝓝[>] 0) (𝓝[Icc 0 1] 1) := by
    refine tendsto_nhdsWithin_iff.2 ⟨speed_tendsto hR, ?_⟩
    filter_upwards [self_mem_nhdsWithin] with μ hμ
    exact speed_mem hR hμ
  refine ((hc 1 (by simp)).tendsto.comp h1).congr' ?_
  filter_upwards [self_mem_nhdsWithin] with μ hμ
  exact (swap _ (speed_mem hR hμ)).symm

end path

theorem velocity_tendsto {v : Vec4} (hv : Timelike v) {R : ℝ} (hR : 0 < R) :
    Tendsto (fun μ : ℝ => velocity v.t (len2 v) (R / √(R ^ 2 + μ ^ 2))) (𝓝[>] 0)
      (𝓝 (velocity v.t (len2 v) 1)) :=
  ((hasDerivAt_velocity (len2_nonneg v) hv.2 (by simp)).continuousAt.tendsto).comp (speed_tendsto hR)

/-- The divergence of the soft emission, and what is left of it. -/
theorem softEmission_tendsto {alpha : ℝ} {k1 k2 : Vec4} (h1 : Timelike k1) (h2 : Timelike k2) {a R : ℝ}
    (ha : 0 < a) (hR : 0 < R) {I : ℝ}
    (hI : ∫ x in (0 : ℝ)..1, 1 / ((path (times a k1) k2 x).t ^ 2 - len2 (path (times a k1) k2 x)) = I) :
    Tendsto (fun μ => softEmission alpha k1 k2 μ R + alpha / π * ((2 * mink k1 k2 * a * I - 2) * log μ))
      (𝓝[>] 0) (𝓝 (alpha / π * ((2 * mink k1 k2 * a * I - 2) * log (2 * R)
        + velocity k1.t (len2 k1) 1 + velocity k2.t (len2 k2) 1
        - 2 * mink k1 k2 * a * ∫ x in (0 : ℝ)..1,
          1 / ((path (times a k1) k2 x).t ^ 2 - len2 (path (times a k1) k2 x))
            * velocity (path (times a k1) k2 x).t (len2 (path (times a k1) k2 x)) 1))) := by
  have hm : ∀ x ∈ Icc (0 : ℝ) 1, Timelike (path (times a k1) k2 x) := fun x hx => (h1.times ha).path h2 hx
  have l0 : Tendsto (fun μ : ℝ => log (R + √(R ^ 2 + μ ^ 2))) (𝓝[>] 0) (𝓝 (log (2 * R))) := by
    have h : ContinuousAt (fun μ : ℝ => log (R + √(R ^ 2 + μ ^ 2))) 0 :=
      ContinuousAt.log (by fun_prop) (by positivity)
    have h2 := h.tendsto.mono_left (nhdsWithin_le_nhds (s := Ioi 0))
    rw [zero_pow two_ne_zero, add_zero, sqrt_sq hR.le, ← two_mul] at h2
    exact h2
  have lim := ((((l0.const_mul (2 * mink k1 k2 * a * I - 2)).add (velocity_tendsto h1 hR)).add
    (velocity_tendsto h2 hR)).sub ((path_tendsto (h1.times ha) h2 hR).const_mul
      (2 * mink k1 k2 * a))).const_mul (alpha / π)
  refine lim.congr' ?_
  filter_upwards [self_mem_nhdsWithin] with μ hμ
  rw [softEmission_eq h1 h2 ha hμ hR.le]
  have hs := speed_mem hR hμ
  have i1 : IntervalIntegrable (fun x => 1 / ((path (times a k1) k2 x).t ^ 2
      - len2 (path (times a k1) k2 x))) volume 0 1 := by
    refine ContinuousOn.intervalIntegrable (ContinuousOn.div continuousOn_const ?_ fun x hx => ?_)
    · unfold path len2; fun_prop
    · rw [uIcc_of_le zero_le_one] at hx
      exact (sub_pos.2 (hm x hx).2).ne'
  have e : ∫ x in (0 : ℝ)..1, 1 / ((path (times a k1) k2 x).t ^ 2 - len2 (path (times a k1) k2 x))
      * (log (R + √(R ^ 2 + μ ^ 2)) - log μ - velocity (path (times a k1) k2 x).t
        (len2 (path (times a k1) k2 x)) (R / √(R ^ 2 + μ ^ 2)))
      = (log (R + √(R ^ 2 + μ ^ 2)) - log μ) * I - ∫ x in (0 : ℝ)..1,
          1 / ((path (times a k1) k2 x).t ^ 2 - len2 (path (times a k1) k2 x))
            * velocity (path (times a k1) k2 x).t (len2 (path (times a k1) k2 x))
              (R / √(R ^ 2 + μ ^ 2)) := by
    rw [← hI, ← intervalIntegral.integral_const_mul,
      ← intervalIntegral.integral_sub (i1.const_mul _) (path_integrable (h1.times ha) h2 hs.1 hs.2)]
    refine integral_congr fun x _ => ?_
    ring
  rw [e]
  ring

/-! ### The integral over the path -/

/-- The primitive along the path, in terms of the energy and the length of the momentum. -/
noncomputable def spence (v E P : ℝ) : ℝ :=
  1 / 4 * (log (E - P) - log (E + P)) ^ 2 + Li2 (1 - (E + P) / v) + Li2 (1 - (E - P) / v)

theorem hasDerivAt_Li2_ratio {u : ℝ → ℝ} {v d x : ℝ} (hv : 0 < v) (hu : 0 < u x)
    (h : HasDerivAt u (d * (u x - v)) x) :
    HasDerivAt (fun x => Li2 (1 - u x / v)) (-(d * log (u x / v))) x := by
  have h1 : HasDerivAt (fun x => 1 - u x / v) (-(d * (u x - v) / v)) x := by
    simpa using (h.div_const v).const_sub 1
  have hne : 1 - u x / v ≠ 1 := by
    have : 0 < u x / v := by positivity
    linarith |> fun (h : 1 - u x / v < 1) => h.ne
  refine ((hasDerivAt_Li2 hne).comp x h1).congr_deriv ?_
  by_cases e : u x = v
  · rw [e, div_self hv.ne', sub_self, sub_self]; simp
  · have e' : 1 - u x / v ≠ 0 := fun h => e (by field_simp at h; linarith)
    rw [li2', if_neg e', show 1 - (1 - u x / v) = u x / v by ring]
    have e2 : v - u x ≠ 0 := fun h => e (by linarith)
    rw [show 1 - u x / v = (v - u x) / v by field_simp]
    field_simp
    ring

theorem spence_deriv {E P M : ℝ → ℝ} {v d x : ℝ} (hv : 0 < v) (hP : 0 < P x) (hPE : P x < E x)
    (hE : HasDerivAt E d x) (hPd : HasDerivAt P (d * (E x - v) / P x) x)
    (hM : M x = E x ^ 2 - P x ^ 2) :
    HasDerivAt (fun x => spence v (E x) (P x))
      (-(2 * v * d) * (1 / M x * (E x / (2 * P x) * log ((E x + P x) / (E x - P x))))) x := by
  have hu : 0 < E x + P x := by linarith
  have hw : 0 < E x - P x := by linarith
  have du : HasDerivAt (fun x => E x + P x) (d / P x * ((E x + P x) - v)) x := by
    refine (hE.add hPd).congr_deriv ?_
    field_simp
    ring
  have dw : HasDerivAt (fun x => E x - P x) (-(d / P x) * ((E x - P x) - v)) x := by
    refine (hE.sub hPd).congr_deriv ?_
    field_simp
    ring
  have l1 := hasDerivAt_Li2_ratio (u := fun x => E x + P x) hv hu du
  have l2 := hasDerivAt_Li2_ratio (u := fun x => E x - P x) hv hw dw
  have l3 := ((((dw.log hw.ne').sub (du.log hu.ne')).pow 2).const_mul (1 / 4))
  refine ((l3.add l1).add l2).congr_deriv ?_
  simp only [Pi.sub_apply]
  rw [log_div hu.ne' hv.ne', log_div hw.ne' hv.ne', log_div hu.ne' hw.ne', hM,
    show E x ^ 2 - P x ^ 2 = (E x + P x) * (E x - P x) by ring]
  have := hu.ne'
  have := hw.ne'
  generalize log (E x + P x) = lu
  generalize log (E x - P x) = lw
  generalize log v = lv
  push_cast
  obtain ⟨u, hu'⟩ : ∃ u, u = E x + P x := ⟨_, rfl⟩
  obtain ⟨w, hw'⟩ : ∃ w, w = E x - P x := ⟨_, rfl⟩
  have e1 : E x = (u + w) / 2 := by rw [hu', hw']; ring
  rw [← hu', ← hw', e1]
  rw [← hu'] at hu
  rw [← hw'] at hw
  field_simp
  ring

theorem path_energy {p q : Vec4} (hq : Timelike q) {K : ℝ} (hK : 0 < K)
    (hM : ∀ x, (path p q x).t ^ 2 - len2 (path p q x) = q.t ^ 2 - len2 q + x * K) : q.t < p.t := by
  by_contra hcon
  have h2 : p.t - q.t ≤ 0 := by linarith
  have e1 := hM 1
  have e2 := hM (1 / 2)
  simp only [path, len2] at e1 e2
  have hn : (p.x - q.x) ^ 2 + (p.y - q.y) ^ 2 + (p.z - q.z) ^ 2 = (p.t - q.t) ^ 2 := by
    linear_combination 4 * e2 - 2 * e1
  have hk : 2 * (q.t * (p.t - q.t) - (q.x * (p.x - q.x) + q.y * (p.y - q.y) + q.z * (p.z - q.z))) = K := by
    linear_combination e1 + hn
  have hq1 := hq.2
  have hq2 := hq.1
  rw [len2] at hq1
  set a := p.x - q.x
  set b := p.y - q.y
  set c := p.z - q.z
  set d := p.t - q.t
  have cs : (q.x * a + q.y * b + q.z * c) ^ 2 ≤ (q.x ^ 2 + q.y ^ 2 + q.z ^ 2) * (a ^ 2 + b ^ 2 + c ^ 2) := by
    nlinarith [sq_nonneg (q.x * b - q.y * a), sq_nonneg (q.x * c - q.z * a), sq_nonneg (q.y * c - q.z * b)]
  rw [hn] at cs
  have h3 : 0 ≤ -(q.t * d) := by
    have : 0 ≤ q.t * -d := mul_nonneg hq2.le (by linarith)
    linarith
  have h4 : -(q.t * d) < -(q.x * a + q.y * b + q.z * c) := by linarith
  have h5 : (q.t * d) ^ 2 < (q.x * a + q.y * b + q.z * c) ^ 2 := by
    have := pow_lt_pow_left₀ h4 h3 two_ne_zero
    rwa [neg_sq, neg_sq] at this
  have h6 : (q.x ^ 2 + q.y ^ 2 + q.z ^ 2) * d ^ 2 ≤ q.t ^ 2 * d ^ 2 :=
    mul_le_mul_of_nonneg_right hq1.le (sq_nonneg d)
  rw [mul_pow] at h5
  linarith

theorem spence_integral {p q : Vec4} (hp : Timelike p) (hq : Timelike q) {K : ℝ} (hK : 0 < K)
    (hM : ∀ x, (path p q x).t ^ 2 - len2 (path p q x) = q.t ^ 2 - len2 q + x * K)
    (hq0 : 0 < len2 q) :
    q.t < p.t ∧
    ∫ x in (0 : ℝ)..1, 1 / ((path p q x).t ^ 2 - len2 (path p q x))
        * velocity (path p q x).t (len2 (path p q x)) 1
      = -(1 / K) * (spence (K / (2 * (p.t - q.t))) p.t √(len2 p)
        - spence (K / (2 * (p.t - q.t))) q.t √(len2 q)) := by
  have hm : ∀ x ∈ Icc (0 : ℝ) 1, Timelike (path p q x) := fun x hx => hp.path hq hx
  have hlen : ∀ x, len2 (path p q x) = (path p q x).t ^ 2 - (q.t ^ 2 - len2 q + x * K) := fun x => by
    rw [← hM x]; ring
  have hd := path_energy hq hK hM
  refine ⟨hd, ?_⟩
  have hd' : 0 < p.t - q.t := by linarith
  set v := K / (2 * (p.t - q.t)) with hv
  have hv0 : 0 < v := by positivity
  have hKv : K = 2 * v * (p.t - q.t) := by rw [hv]; field_simp
  have hcount : {x : ℝ | len2 (path p q x) = 0}.Countable := by
    refine Set.Subsingleton.countable fun x hx y hy => ?_
    simp only [Set.mem_setOf_eq, path, len2] at hx hy
    have aux : ∀ a b c : ℝ, a ^ 2 + b ^ 2 + c ^ 2 = 0 → a = 0 ∧ b = 0 ∧ c = 0 := fun a b c h =>
      ⟨by nlinarith [sq_nonneg a, sq_nonneg b, sq_nonneg c], by nlinarith [sq_nonneg a, sq_nonneg b, sq_nonneg c],
        by nlinarith [sq_nonneg a, sq_nonneg b, sq_nonneg c]⟩
    obtain ⟨x1, x2, x3⟩ := aux _ _ _ hx
    obtain ⟨y1, y2, y3⟩ := aux _ _ _ hy
    by_contra hne
    have hne' : x - y ≠ 0 := sub_ne_zero.2 hne
    have z : ∀ a b : ℝ, x * a + (1 - x) * b = 0 → y * a + (1 - y) * b = 0 → b = 0 := fun a b h1 h2 => by
      have h3 : (x - y) * (a - b) = 0 := by linear_combination h1 - h2
      have h4 := (mul_eq_zero.1 h3).resolve_left hne'
      have : a = b := by linarith
      rw [this] at h1
      linarith
    rw [len2, z _ _ x1 y1, z _ _ x2 y2, z _ _ x3 y3] at hq0
    norm_num at hq0
  have hint := path_integrable hp hq zero_le_one le_rfl
  have key := MeasureTheory.integral_eq_of_hasDerivAt_off_countable_of_le
    (fun x => spence v (path p q x).t √(len2 (path p q x)))
    (fun x => -K * (1 / ((path p q x).t ^ 2 - len2 (path p q x))
        * velocity (path p q x).t (len2 (path p q x)) 1)) zero_le_one hcount ?_ ?_ (hint.const_mul _)
  · rw [intervalIntegral.integral_const_mul] at key
    have p1 : path p q 1 = p := by simp [path]
    have p0 : path p q 0 = q := by simp [path]
    rw [p1, p0] at key
    generalize ∫ x in (0 : ℝ)..1, 1 / ((path p q x).t ^ 2 - len2 (path p q x))
        * velocity (path p q x).t (len2 (path p q x)) 1 = J at key ⊢
    have := hK.ne'
    field_simp
    linear_combination -key
  · have c1 : Continuous fun x => (path p q x).t := by unfold path; fun_prop
    have c2 : Continuous fun x => √(len2 (path p q x)) := by unfold path len2; fun_prop
    have hlt : ∀ x ∈ Icc (0 : ℝ) 1, √(len2 (path p q x)) < (path p q x).t := fun x hx =>
      (Real.sqrt_lt' (hm x hx).1).2 (hm x hx).2
    unfold spence
    refine ContinuousOn.add (ContinuousOn.add (continuousOn_const.mul (ContinuousOn.pow (ContinuousOn.sub
      (ContinuousOn.log (c1.sub c2).continuousOn fun x hx => (sub_pos.2 (hlt x hx)).ne')
      (ContinuousOn.log (c1.add c2).continuousOn fun x hx =>
        (add_pos_of_pos_of_nonneg (hm x hx).1 (sqrt_nonneg _)).ne')) 2)) ?_) ?_
    · exact (continuous_Li2.comp (continuous_const.sub ((c1.add c2).div_const v))).continuousOn
    · exact (continuous_Li2.comp (continuous_const.sub ((c1.sub c2).div_const v))).continuousOn
  · rintro x ⟨hx, hx0⟩
    have hx' := Ioo_subset_Icc_self hx
    have hl : 0 < len2 (path p q x) := lt_of_le_of_ne (len2_nonneg _) fun h => hx0 h.symm
    have dE : HasDerivAt (fun x => (path p q x).t) (p.t - q.t) x := by
      have : HasDerivAt (fun x => x * p.t + (1 - x) * q.t) (1 * p.t + (-1) * q.t) x := by
        refine ((hasDerivAt_id x).mul_const p.t).add (HasDerivAt.mul_const ?_ q.t)
        simpa using (hasDerivAt_id x).const_sub 1
      refine this.congr_deriv ?_
      ring
    have dl : HasDerivAt (fun x => len2 (path p q x)) (2 * (path p q x).t * (p.t - q.t) - K) x := by
      have e : (fun x => len2 (path p q x)) = fun x => (path p q x).t ^ 2 - (q.t ^ 2 - len2 q + x * K) :=
        funext hlen
      rw [e]
      refine ((dE.pow 2).sub (((hasDerivAt_id x).mul_const K).const_add (q.t ^ 2 - len2 q))).congr_deriv ?_
      push_cast
      ring
    have dP : HasDerivAt (fun x => √(len2 (path p q x)))
        ((p.t - q.t) * ((path p q x).t - v) / √(len2 (path p q x))) x := by
      refine (dl.sqrt hl.ne').congr_deriv ?_
      have := (sqrt_pos.2 hl).ne'
      rw [hKv]
      field_simp
    have hP := sqrt_pos.2 hl
    have hPE := (Real.sqrt_lt' (hm x hx').1).2 (hm x hx').2
    have h := spence_deriv (E := fun x => (path p q x).t) (P := fun x => √(len2 (path p q x)))
      (M := fun x => (path p q x).t ^ 2 - len2 (path p q x)) hv0 hP hPE dE dP
      (by rw [sq_sqrt hl.le])
    refine h.congr_deriv ?_
    rw [← velocity_one hP hPE, sq_sqrt hl.le, ← hKv]

end Sidis.Lemmas
