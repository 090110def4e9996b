import Verif.Spec.Map
import Mathlib.Analysis.SpecialFunctions.Trigonometric.DerivHyp
import Mathlib.Analysis.SpecialFunctions.Arsinh
import Mathlib.Analysis.SpecialFunctions.Log.Deriv
import Mathlib.Analysis.SpecialFunctions.ExpDeriv
import Mathlib.Analysis.SpecialFunctions.Sqrt
import Mathlib.Tactic.FieldSimp
import Mathlib.Tactic.LinearCombination
import Mathlib.Tactic.Positivity
import Mathlib.Order.Interval.Set.OrdConnected

/-! # Lemmas on the variable maps -/

namespace Sidis

open Spec

namespace VarMap

/-- Everything `apply_map` relies on. -/
structure Good (t : VarMap Fl) (t' : VarMap ℝ) (D E : Set ℝ) : Prop where
  inv : Inverses t' D E
  connE : E.OrdConnected
  mono : StrictMonoOn t'.u D
  u_eq : ∀ x ∈ D, t.u (.fin x) = .fin (t'.u x)
  x_eq : ∀ u ∈ E, t.x (.fin u) = .fin (t'.x u)
  jac_eq : ∀ u ∈ E, t.jac (.fin u) = .fin (t'.jac u)
  deriv : ∀ u ∈ E, HasDerivAt t'.x (t'.jac u) u
  jac_pos : ∀ u ∈ E, 0 < t'.jac u

theorem Good.samples {t : VarMap Fl} {t' : VarMap ℝ} {D E : Set ℝ} (h : Good t t' D E) {lo hi : ℝ}
    (hlo : lo ∈ D) (hhi : hi ∈ D) (hle : lo ≤ hi) :
    Samples t lo hi (fun p => t'.x ((1 - p) * t'.u lo + p * t'.u hi))
      (fun p => t'.jac ((1 - p) * t'.u lo + p * t'.u hi) * (t'.u hi - t'.u lo)) := by
  have hu : t'.u lo ≤ t'.u hi := h.mono.monotoneOn hlo hhi hle
  have hE : ∀ p, 0 ≤ p → p ≤ 1 → (1 - p) * t'.u lo + p * t'.u hi ∈ E := by
    intro p h0 h1
    refine h.connE.out (h.inv.u_mem lo hlo) (h.inv.u_mem hi hhi) ⟨?_, ?_⟩
    · nlinarith
    · nlinarith
  have xmono : ∀ u ∈ E, ∀ v ∈ E, u ≤ v → t'.x u ≤ t'.x v := by
    intro u hu v hv huv
    by_contra hc
    push Not at hc
    have := h.mono (h.inv.x_mem v hv) (h.inv.x_mem u hu) hc
    rw [h.inv.u_x u hu, h.inv.u_x v hv] at this
    linarith
  refine ⟨?_, ?_, ?_, ?_, ?_, ?_, ?_, ?_⟩
  · intro p h0 h1
    have hm := hE p h0 h1
    simp only [apply, h.u_eq lo hlo, h.u_eq hi hhi]
    have : Bound.mk' (.fin (t'.u lo)) (.fin (t'.u hi)) = ⟨.fin (t'.u lo), .fin (t'.u hi)⟩ := by
      simp [Bound.mk', hu]
    rw [this]
    simp only [Bound.lerp, Bound.size, Fl.sub_fin, Fl.mul_fin, Fl.add_fin, h.x_eq _ hm,
      h.jac_eq _ hm]
  · intro p h0 h1
    have hd : HasDerivAt (fun p : ℝ => (1 - p) * t'.u lo + p * t'.u hi) (t'.u hi - t'.u lo) p := by
      have a : HasDerivAt (fun p : ℝ => (1 - p) * t'.u lo) (-1 * t'.u lo) p :=
        ((hasDerivAt_id p).const_sub 1).mul_const _
      have b : HasDerivAt (fun p : ℝ => p * t'.u hi) (1 * t'.u hi) p :=
        (hasDerivAt_id p).mul_const _
      have c := a.add b
      have e : -1 * t'.u lo + 1 * t'.u hi = t'.u hi - t'.u lo := by ring
      rw [e] at c
      exact c
    exact (h.deriv _ (hE p h0 h1)).comp p hd
  · simp [h.inv.x_u lo hlo]
  · simp [h.inv.x_u hi hhi]
  · intro p q h0 hpq h1
    refine xmono _ (hE p h0 (hpq.trans h1)) _ (hE q (h0.trans hpq) h1) ?_
    nlinarith
  · intro x hx1 hx2
    rcases hle.lt_or_eq with hlt | heq
    · have hlt' : t'.u lo < t'.u hi := h.mono hlo hhi hlt
      have hD : ∀ x, lo ≤ x → x ≤ hi → ∃ u ∈ E, t'.u lo ≤ u ∧ u ≤ t'.u hi ∧ t'.x u = x := by
        intro x hx1 hx2
        have hc : ContinuousOn t'.x (Set.Icc (t'.u lo) (t'.u hi)) := fun u hu =>
          (h.deriv u (h.connE.out (h.inv.u_mem lo hlo) (h.inv.u_mem hi hhi)
            hu)).continuousAt.continuousWithinAt
        have iv := intermediate_value_Icc hu hc
        rw [h.inv.x_u lo hlo, h.inv.x_u hi hhi] at iv
        obtain ⟨u, hu, rfl⟩ := iv ⟨hx1, hx2⟩
        exact ⟨u, h.connE.out (h.inv.u_mem lo hlo) (h.inv.u_mem hi hhi) hu, hu.1, hu.2, rfl⟩
      obtain ⟨u, -, h1, h2, rfl⟩ := hD x hx1 hx2
      have hp : 0 < t'.u hi - t'.u lo := by linarith
      refine ⟨(u - t'.u lo) / (t'.u hi - t'.u lo), div_nonneg (by linarith) hp.le,
        (div_le_one hp).2 (by linarith), ?_⟩
      congr 1
      field_simp
      ring
    · refine ⟨0, le_rfl, zero_le_one, ?_⟩
      have : x = lo := le_antisymm (heq ▸ hx2) hx1
      simp [this, h.inv.x_u lo hlo]
  · intro p h0 h1
    exact mul_nonneg (h.jac_pos _ (hE p h0 h1)).le (by linarith)
  · intro hlt p h0 h1
    have := h.mono hlo hhi hlt
    exact mul_pos (h.jac_pos _ (hE p h0 h1)) (by linarith)

theorem good_linear : Good linear linear Set.univ Set.univ where
  inv := ⟨fun _ _ => trivial, fun _ _ => trivial, fun _ _ => rfl, fun _ _ => rfl⟩
  connE := Set.ordConnected_univ
  mono := fun _ _ _ _ h => h
  u_eq := fun _ _ => rfl
  x_eq := fun _ _ => rfl
  jac_eq := fun _ _ => rfl
  deriv := fun u _ => hasDerivAt_id u
  jac_pos := fun _ _ => one_pos

theorem inverses_inverse (o : ℝ) : Inverses (inverse o) {x | -o < x} (Set.Iio 0) where
  u_mem := fun x hx => by
    have : 0 < x + o := by simp at hx; linarith
    simp only [inverse, Set.mem_Iio]
    exact div_neg_of_neg_of_pos (by norm_num) this
  x_mem := fun u hu => by
    simp only [Set.mem_Iio] at hu
    simp only [inverse, Set.mem_setOf_eq]
    have : 0 < -1 / u := div_pos_of_neg_of_neg (by norm_num) hu
    linarith
  x_u := fun x hx => by
    have : x + o ≠ 0 := by simp at hx; linarith
    simp only [inverse]; field_simp; ring
  u_x := fun u hu => by
    have : u ≠ 0 := ne_of_lt hu
    simp only [inverse]; field_simp; ring_nf

theorem fl_one : (1 : Fl) = .fin 1 := rfl
theorem fl_two : (2 : Fl) = .fin 2 := rfl
theorem fl_zero : (0 : Fl) = .fin 0 := rfl
theorem fl_four : (4 : Fl) = .fin 4 := rfl

theorem good_inverse (o : ℝ) : Good (inverse (.fin o)) (inverse o) {x | -o < x} (Set.Iio 0) where
  inv := inverses_inverse o
  connE := Set.ordConnected_Iio
  mono := fun x hx y hy hxy => by
    simp only [inverse, Set.mem_setOf_eq] at *
    have h1 : 0 < x + o := by linarith
    have h2 : 0 < y + o := by linarith
    rw [div_lt_div_iff₀ h1 h2]; linarith
  u_eq := fun x hx => by
    have : x + o ≠ 0 := by simp at hx; linarith
    simp only [inverse, Fl.add_fin, fl_one, Fl.neg_fin, Fl.div_fin _ this]
  x_eq := fun u hu => by
    have : u ≠ 0 := ne_of_lt hu
    simp only [inverse, fl_one, Fl.neg_fin, Fl.div_fin _ this, Fl.sub_fin]
  jac_eq := fun u hu => by
    have : u ≠ 0 := ne_of_lt hu
    simp only [inverse, fl_one, Fl.div_fin _ this, sq, Fl.mul_fin]
  deriv := fun u hu => by
    have h0 : u ≠ 0 := ne_of_lt hu
    have a := ((hasDerivAt_inv h0).const_mul (-1)).sub_const o
    have e : -1 * -(u ^ 2)⁻¹ = sq (1 / u) := by rw [sq]; field_simp
    rw [e] at a
    exact a
  jac_pos := fun u hu => by
    have h0 : u ≠ 0 := ne_of_lt hu
    exact mul_self_pos.2 (one_div_ne_zero h0)

theorem good_log (o : ℝ) :
    Good (logarithm (.fin o)) (logarithm o) {x | -o < x} Set.univ where
  inv := ⟨fun _ _ => trivial, fun u _ => by
      have := Real.exp_pos u
      simp only [logarithm, CMap.exp, Set.mem_setOf_eq]; linarith,
    fun x hx => by
      have : 0 < x + o := by simp at hx; linarith
      simp only [logarithm, CMap.exp, CMap.log, Real.exp_log this]; ring,
    fun u _ => by simp [logarithm, CMap.exp, CMap.log]⟩
  connE := Set.ordConnected_univ
  mono := fun x hx y hy hxy => by
    simp only [logarithm, CMap.log, Set.mem_setOf_eq] at *
    exact Real.log_lt_log (by linarith) (by linarith)
  u_eq := fun x hx => by
    have : 0 < x + o := by simp at hx; linarith
    simp only [logarithm, CMap.log, Fl.add_fin, Fl.lift, if_neg this.not_gt, if_neg this.ne']
  x_eq := fun u _ => by simp only [logarithm, CMap.exp, Fl.lift, Fl.sub_fin]
  jac_eq := fun u _ => by simp only [logarithm, CMap.exp, Fl.lift]
  deriv := fun u _ => (Real.hasDerivAt_exp u).sub_const o
  jac_pos := fun u _ => Real.exp_pos u

theorem good_decay {l : ℝ} (hl : 0 < l) :
    Good (decay (.fin l)) (decay l) Set.univ (Set.Iio 1) where
  inv := ⟨fun x _ => by
      have := Real.exp_pos (-x / l)
      simp only [decay, CMap.expm1, Set.mem_Iio]; linarith,
    fun _ _ => trivial,
    fun x _ => by
      simp only [decay, CMap.expm1, CMap.log1p]
      have : 1 + - -(Real.exp (-x / l) - 1) = Real.exp (-x / l) := by ring
      rw [this, Real.log_exp]; field_simp,
    fun u hu => by
      have h1 : 0 < 1 + -u := by simp at hu; linarith
      simp only [decay, CMap.expm1, CMap.log1p]
      have : -(-l * Real.log (1 + -u)) / l = Real.log (1 + -u) := by field_simp
      rw [this, Real.exp_log h1]; ring⟩
  connE := Set.ordConnected_Iio
  mono := fun x _ y _ hxy => by
    simp only [decay, CMap.expm1]
    have : Real.exp (-y / l) < Real.exp (-x / l) := by
      rw [Real.exp_lt_exp, div_lt_div_iff_of_pos_right hl]; linarith
    linarith
  u_eq := fun x _ => by
    simp only [decay, CMap.expm1, Fl.neg_fin, Fl.div_fin _ hl.ne', Fl.lift]
  x_eq := fun u hu => by
    have h1 : -1 < -u := by simp at hu; linarith
    simp only [decay, CMap.log1p, Fl.neg_fin, Fl.lift, if_neg h1.not_gt, if_neg h1.ne', Fl.mul_fin]
  jac_eq := fun u hu => by
    have h1 : 1 - u ≠ 0 := by simp at hu; linarith
    simp only [decay, fl_one, Fl.sub_fin, Fl.div_fin _ h1]
  deriv := fun u hu => by
    have h1 : 1 + -u ≠ 0 := by simp at hu; linarith
    have a : HasDerivAt (fun u : ℝ => 1 + -u) (-1) u := ((hasDerivAt_id u).neg).const_add 1
    have b := (a.log h1).const_mul (-l)
    have e : -l * (-1 / (1 + -u)) = l / (1 - u) := by
      have : (1 : ℝ) - u = 1 + -u := by ring
      rw [this]; field_simp
    rw [e] at b
    exact b
  jac_pos := fun u hu => by
    have h1 : 0 < 1 - u := by simp at hu; linarith
    exact div_pos hl h1

theorem good_sigmoid (c : ℝ) {w : ℝ} (hw : 0 < w) :
    Good (sigmoid (.fin c) (.fin w)) (sigmoid c w) Set.univ Set.univ where
  inv := ⟨fun _ _ => trivial, fun _ _ => trivial,
    fun x _ => by
      simp only [sigmoid, CMap.asinh, CMap.sinh, Real.sinh_arsinh]; field_simp; ring,
    fun u _ => by
      simp only [sigmoid, CMap.asinh, CMap.sinh]
      have : (w * Real.sinh u + c - c) / w = Real.sinh u := by field_simp; ring
      rw [this, Real.arsinh_sinh]⟩
  connE := Set.ordConnected_univ
  mono := fun x _ y _ hxy => by
    simp only [sigmoid, CMap.asinh]
    rw [Real.arsinh_lt_arsinh, div_lt_div_iff_of_pos_right hw]; linarith
  u_eq := fun x _ => by
    simp only [sigmoid, CMap.asinh, Fl.sub_fin, Fl.div_fin _ hw.ne', Fl.lift]
  x_eq := fun u _ => by simp only [sigmoid, CMap.sinh, Fl.lift, Fl.mul_fin, Fl.add_fin]
  jac_eq := fun u _ => by simp only [sigmoid, CMap.cosh, Fl.lift, Fl.mul_fin]
  deriv := fun u _ => ((Real.hasDerivAt_sinh u).const_mul w).add_const c
  jac_pos := fun u _ => mul_pos hw (Real.cosh_pos u)

theorem sigmoid2_b_pos (wr : ℝ) (hr : 0 < wr) (u : ℝ) : 0 < 1 + sq wr + 2 * wr * Real.cosh u := by
  have := Real.cosh_pos u
  rw [sq]; positivity

theorem sigmoid2_x_u (c : ℝ) {w : ℝ} (cr : ℝ) {wr : ℝ} (hw : 0 < w) (hr : 0 < wr) (x : ℝ) :
    (sigmoid2 c w cr wr).x ((sigmoid2 c w cr wr).u x) = x := by
  simp only [sigmoid2, sigmoid2X, sigmoid2U, CMap.asinh, CMap.sinh, CMap.cosh, CMath.sqrt]
  set t1 := (x - c) / w with ht1
  set t2 := (x - c * cr) / (w * wr) with ht2
  set s1 := √(1 + t1 ^ 2) with hs1
  set s2 := √(1 + t2 ^ 2) with hs2
  have e1 : s1 ^ 2 = 1 + t1 ^ 2 := Real.sq_sqrt (by positivity)
  have e2 : s2 ^ 2 = 1 + t2 ^ 2 := Real.sq_sqrt (by positivity)
  have p1 : 0 < s1 := Real.sqrt_pos.2 (by positivity)
  have p2 : 0 < s2 := Real.sqrt_pos.2 (by positivity)
  have esinh : Real.sinh (Real.arsinh t1 + Real.arsinh t2) = t1 * s2 + s1 * t2 := by
    rw [Real.sinh_add, Real.sinh_arsinh, Real.sinh_arsinh, Real.cosh_arsinh, Real.cosh_arsinh]
  have ecosh : Real.cosh (Real.arsinh t1 + Real.arsinh t2) = s1 * s2 + t1 * t2 := by
    rw [Real.cosh_add, Real.sinh_arsinh, Real.sinh_arsinh, Real.cosh_arsinh, Real.cosh_arsinh]
  have hb := sigmoid2_b_pos wr hr (Real.arsinh t1 + Real.arsinh t2)
  rw [ecosh] at hb
  rw [esinh, ecosh]
  have hc : c = x - w * t1 := by rw [ht1]; field_simp; ring
  have hcr : c * cr = x - w * wr * t2 := by rw [ht2]; field_simp; ring
  have hd : (cr - 1) * (c / w) = t1 - wr * t2 := by
    have : (cr - 1) * (c / w) = (c * cr - c) / w := by ring
    rw [this, hcr]; nth_rewrite 1 [hc]; field_simp; ring
  have hdet : √(1 + sq wr + 2 * wr * (s1 * s2 + t1 * t2) + sq ((cr - 1) * (c / w))) =
      s1 + wr * s2 := by
    rw [hd]
    have : 1 + sq wr + 2 * wr * (s1 * s2 + t1 * t2) + sq (t1 - wr * t2) = (s1 + wr * s2) ^ 2 := by
      simp only [sq]; linear_combination (-1) * e1 - wr ^ 2 * e2
    rw [this, Real.sqrt_sq (by positivity)]
  rw [hdet, div_eq_iff hb.ne']
  simp only [sq]
  have : c * (cr + wr * wr + wr * (1 + cr) * (s1 * s2 + t1 * t2)) =
      c * cr + c * (wr * wr) + wr * (c + c * cr) * (s1 * s2 + t1 * t2) := by ring
  rw [this, hcr]
  nth_rewrite 1 [hc]
  nth_rewrite 1 [hc]
  linear_combination (w * wr * t2) * e1 + (w * wr ^ 2 * t1) * e2

theorem sigmoid2_strictMono (c : ℝ) {w : ℝ} (cr : ℝ) {wr : ℝ} (hw : 0 < w) (hr : 0 < wr) :
    StrictMono (sigmoid2 c w cr wr).u := by
  intro x y hxy
  simp only [sigmoid2, sigmoid2U, CMap.asinh]
  have hwr := mul_pos hw hr
  refine add_lt_add ?_ ?_
  · rw [Real.arsinh_lt_arsinh, div_lt_div_iff_of_pos_right hw]; linarith
  · rw [Real.arsinh_lt_arsinh, div_lt_div_iff_of_pos_right hwr]; linarith

theorem sigmoid2_surj (c : ℝ) {w : ℝ} (cr : ℝ) {wr : ℝ} (hw : 0 < w) (hr : 0 < wr) (v : ℝ) :
    ∃ x, (sigmoid2 c w cr wr).u x = v := by
  have hwr := mul_pos hw hr
  -- values at which both sigmoids are at least, or at most, half of `v`
  have hcont : Continuous (sigmoid2 c w cr wr).u := by
    simp only [sigmoid2]
    unfold sigmoid2U
    exact (Real.continuous_arsinh.comp (by fun_prop)).add (Real.continuous_arsinh.comp (by fun_prop))
  let a := min (w * Real.sinh (v / 2) + c) (w * wr * Real.sinh (v / 2) + c * cr)
  let b := max (w * Real.sinh (v / 2) + c) (w * wr * Real.sinh (v / 2) + c * cr)
  have ha : (sigmoid2 c w cr wr).u a ≤ v := by
    simp only [sigmoid2, sigmoid2U, CMap.asinh]
    have h1 : Real.arsinh ((a - c) / w) ≤ v / 2 := by
      rw [← Real.arsinh_sinh (v / 2), Real.arsinh_le_arsinh, div_le_iff₀ hw]
      have : a ≤ _ := min_le_left _ _
      linarith
    have h2 : Real.arsinh ((a - c * cr) / (w * wr)) ≤ v / 2 := by
      rw [← Real.arsinh_sinh (v / 2), Real.arsinh_le_arsinh, div_le_iff₀ hwr]
      have : a ≤ _ := min_le_right _ _
      linarith
    linarith
  have hb : v ≤ (sigmoid2 c w cr wr).u b := by
    simp only [sigmoid2, sigmoid2U, CMap.asinh]
    have h1 : v / 2 ≤ Real.arsinh ((b - c) / w) := by
      rw [← Real.arsinh_sinh (v / 2), Real.arsinh_le_arsinh, le_div_iff₀ hw]
      have : _ ≤ b := le_max_left _ _
      linarith
    have h2 : v / 2 ≤ Real.arsinh ((b - c * cr) / (w * wr)) := by
      rw [← Real.arsinh_sinh (v / 2), Real.arsinh_le_arsinh, le_div_iff₀ hwr]
      have : _ ≤ b := le_max_right _ _
      linarith
    linarith
  have hab : a ≤ b := (min_le_left _ _).trans (le_max_left _ _)
  obtain ⟨x, -, hx⟩ := intermediate_value_Icc hab hcont.continuousOn ⟨ha, hb⟩
  exact ⟨x, hx⟩

theorem sigmoid2_inverses (c : ℝ) {w : ℝ} (cr : ℝ) {wr : ℝ} (hw : 0 < w) (hr : 0 < wr) :
    Inverses (sigmoid2 c w cr wr) Set.univ Set.univ :=
  ⟨fun _ _ => trivial, fun _ _ => trivial, fun x _ => sigmoid2_x_u c cr hw hr x, fun u _ => by
    obtain ⟨x, rfl⟩ := sigmoid2_surj c cr hw hr u
    rw [sigmoid2_x_u c cr hw hr]⟩

theorem sigmoid2_deriv (c : ℝ) {w : ℝ} (cr : ℝ) {wr : ℝ} (hr : 0 < wr) (u : ℝ) :
    HasDerivAt (sigmoid2 c w cr wr).x ((sigmoid2 c w cr wr).jac u) u := by
  have hb := sigmoid2_b_pos wr hr u
  set cc := sq ((cr - 1) * (c / w)) with hcc
  have hcc0 : 0 ≤ cc := mul_self_nonneg _
  have hbc : 0 < 1 + sq wr + 2 * wr * Real.cosh u + cc := by linarith
  have dcosh := Real.hasDerivAt_cosh u
  have dsinh := Real.hasDerivAt_sinh u
  have da : HasDerivAt (fun u => cr + sq wr + wr * (1 + cr) * Real.cosh u)
      (wr * (1 + cr) * Real.sinh u) u := (dcosh.const_mul _).const_add _
  have db : HasDerivAt (fun u => 1 + sq wr + 2 * wr * Real.cosh u) (2 * wr * Real.sinh u) u :=
    (dcosh.const_mul _).const_add _
  have ddet := (db.add_const cc).sqrt hbc.ne'
  have dnum := (da.const_mul c).add ((ddet.const_mul (w * wr)).mul dsinh)
  have dx := dnum.div db hb.ne'
  have hs : √(1 + sq wr + 2 * wr * Real.cosh u + cc) ≠ 0 := (Real.sqrt_pos.2 hbc).ne'
  refine (dx.congr_deriv ?_)
  simp only [sigmoid2, sigmoid2X, CMap.sinh, CMap.cosh, CMath.sqrt, ← hcc]
  simp only [Pi.add_apply, Pi.mul_apply]
  generalize √(1 + sq wr + 2 * wr * Real.cosh u + cc) = d at *
  generalize 1 + sq wr + 2 * wr * Real.cosh u = b at *
  have hb0 := hb.ne'
  field_simp
  ring

theorem sigmoid2_jac_pos (c : ℝ) {w : ℝ} (cr : ℝ) {wr : ℝ} (hw : 0 < w) (hr : 0 < wr) (u : ℝ) :
    0 < (sigmoid2 c w cr wr).jac u := by
  -- the derivative of the inverse function
  set x := (sigmoid2 c w cr wr).x u with hx
  have hwr := mul_pos hw hr
  have dU : HasDerivAt (sigmoid2 c w cr wr).u
      ((√(1 + ((x - c) / w) ^ 2))⁻¹ * (1 / w) +
        (√(1 + ((x - c * cr) / (w * wr)) ^ 2))⁻¹ * (1 / (w * wr))) x := by
    have a : HasDerivAt (fun x => (x - c) / w) (1 / w) x := ((hasDerivAt_id x).sub_const c).div_const w
    have b : HasDerivAt (fun x => (x - c * cr) / (w * wr)) (1 / (w * wr)) x :=
      ((hasDerivAt_id x).sub_const _).div_const _
    exact ((Real.hasDerivAt_arsinh _).comp x a).add ((Real.hasDerivAt_arsinh _).comp x b)
  have hc := (dU.comp u (sigmoid2_deriv c cr hr u (w := w)))
  have hid : (sigmoid2 c w cr wr).u ∘ (sigmoid2 c w cr wr).x = id :=
    funext fun u => (sigmoid2_inverses c cr hw hr).u_x u trivial
  rw [hid] at hc
  have h1 := hc.unique (hasDerivAt_id u)
  set k := (√(1 + ((x - c) / w) ^ 2))⁻¹ * (1 / w) +
        (√(1 + ((x - c * cr) / (w * wr)) ^ 2))⁻¹ * (1 / (w * wr)) with hk
  have hkpos : 0 < k := by
    have : 0 < √(1 + ((x - c) / w) ^ 2) := Real.sqrt_pos.2 (by positivity)
    have : 0 < √(1 + ((x - c * cr) / (w * wr)) ^ 2) := Real.sqrt_pos.2 (by positivity)
    positivity
  by_contra hn
  push Not at hn
  have := mul_nonpos_of_nonneg_of_nonpos hkpos.le hn
  linarith

theorem good_sigmoid2 (c : ℝ) {w : ℝ} (cr : ℝ) {wr : ℝ} (hw : 0 < w) (hr : 0 < wr) :
    Good (sigmoid2 (.fin c) (.fin w) (.fin cr) (.fin wr)) (sigmoid2 c w cr wr) Set.univ
      Set.univ where
  inv := sigmoid2_inverses c cr hw hr
  connE := Set.ordConnected_univ
  mono := (sigmoid2_strictMono c cr hw hr).strictMonoOn _
  u_eq := fun x _ => by
    have := (mul_pos hw hr).ne'
    simp only [sigmoid2, sigmoid2U, CMap.asinh, Fl.sub_fin, Fl.mul_fin, Fl.div_fin _ hw.ne',
      Fl.div_fin _ this, Fl.lift, Fl.add_fin]
  x_eq := fun u _ => by
    have hb := sigmoid2_b_pos wr hr u
    have hbc : 0 ≤ 1 + sq wr + 2 * wr * Real.cosh u + sq ((cr - 1) * (c / w)) := by
      have : 0 ≤ sq ((cr - 1) * (c / w)) := mul_self_nonneg _
      linarith
    simp only [sq] at hb hbc
    simp only [sigmoid2, sigmoid2X, CMap.sinh, CMap.cosh, Fl.lift, CMath.sqrt, sq, fl_one, fl_two,
      Fl.sub_fin, Fl.mul_fin, Fl.add_fin, Fl.div_fin _ hw.ne', Fl.sqrt_fin hbc,
      Fl.div_fin _ hb.ne']
  jac_eq := fun u _ => by
    have hb := sigmoid2_b_pos wr hr u
    have hbc : 0 < 1 + sq wr + 2 * wr * Real.cosh u + sq ((cr - 1) * (c / w)) := by
      have : 0 ≤ sq ((cr - 1) * (c / w)) := mul_self_nonneg _
      linarith
    simp only [sq] at hb hbc
    have hs := (Real.sqrt_pos.2 hbc).ne'
    simp only [sigmoid2, sigmoid2X, CMap.sinh, CMap.cosh, Fl.lift, CMath.sqrt, sq, fl_one, fl_two,
      Fl.sub_fin, Fl.mul_fin, Fl.add_fin, Fl.div_fin _ hw.ne', Fl.sqrt_fin hbc.le,
      Fl.div_fin _ hb.ne', Fl.div_fin _ hs, Fl.div_fin _ (two_ne_zero' ℝ)]
  deriv := fun u _ => sigmoid2_deriv c cr hr u
  jac_pos := fun u _ => sigmoid2_jac_pos c cr hw hr u

end VarMap
end Sidis
