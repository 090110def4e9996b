import Verif.Lemmas.Map

/-! # Properties of the variable maps (C27, C28) -/

namespace Sidis.Props

open Spec VarMap

/-! ## C27: `x` and `u` are inverse to each other -/

/-- C27 for `Linear`. -/
theorem c27_linear : Inverses linear Set.univ Set.univ := good_linear.inv

/-- C27 for `Inverse`: variables above `-offset`, negative coordinates. -/
theorem c27_inverse (offset : ℝ) : Inverses (inverse offset) {x | -offset < x} {u | u < 0} :=
  (good_inverse offset).inv

/-- C27 for `Inverse`: also on the other branch, by direct computation. -/
theorem c27_inverse_all (offset : ℝ) :
    (∀ x : ℝ, x + offset ≠ 0 → (inverse offset).x ((inverse offset).u x) = x) ∧
    ∀ u : ℝ, u ≠ 0 → (inverse offset).u ((inverse offset).x u) = u := by
  refine ⟨fun x h => ?_, fun u h => ?_⟩
  · simp only [inverse]; field_simp; ring
  · simp only [inverse]; field_simp; ring_nf

/-- C27 for `Log`. -/
theorem c27_log (offset : ℝ) : Inverses (logarithm offset) {x | -offset < x} Set.univ :=
  (good_log offset).inv

/-- C27 for `Decay`. -/
theorem c27_decay {length : ℝ} (h : 0 < length) : Inverses (decay length) Set.univ {u | u < 1} :=
  (good_decay h).inv

/-- C27 for `Sigmoid`. -/
theorem c27_sigmoid (center : ℝ) {width : ℝ} (h : 0 < width) :
    Inverses (sigmoid center width) Set.univ Set.univ := (good_sigmoid center h).inv

/-- C27 for `Sigmoid2`. -/
theorem c27_sigmoid2 (center : ℝ) {width : ℝ} (center_r : ℝ) {width_r : ℝ} (h : 0 < width)
    (hr : 0 < width_r) :
    Inverses (sigmoid2 center width center_r width_r) Set.univ Set.univ :=
  sigmoid2_inverses center center_r h hr

/-- The domains are not empty, and the hypotheses on the parameters are met by the ones the library
uses. -/
example : (0.2 : ℝ) ∈ {x : ℝ | -(1 / 1000 : ℝ) < x} ∧ (-2 : ℝ) ∈ {u : ℝ | u < 0} ∧
    (0 : ℝ) < 1 / 4 := by
  norm_num

/-! ## C28: jacobians are derivatives -/

/-- C28: for every map the reported jacobian is the derivative of `x` with respect to `u`. -/
theorem c28_jacobian :
    (∀ u : ℝ, HasDerivAt linear.x (linear.jac u) u) ∧
    (∀ offset u : ℝ, u < 0 → HasDerivAt (inverse offset).x ((inverse offset).jac u) u) ∧
    (∀ offset u : ℝ, HasDerivAt (logarithm offset).x ((logarithm offset).jac u) u) ∧
    (∀ length u : ℝ, 0 < length → u < 1 → HasDerivAt (decay length).x ((decay length).jac u) u) ∧
    (∀ center width u : ℝ, 0 < width →
      HasDerivAt (sigmoid center width).x ((sigmoid center width).jac u) u) ∧
    (∀ center width center_r width_r u : ℝ, 0 < width_r →
      HasDerivAt (sigmoid2 center width center_r width_r).x
        ((sigmoid2 center width center_r width_r).jac u) u) :=
  ⟨fun u => good_linear.deriv u trivial, fun o u hu => (good_inverse o).deriv u hu,
    fun o u => (good_log o).deriv u trivial, fun _ u hl hu => (good_decay hl).deriv u hu,
    fun c _ u hw => (good_sigmoid c hw).deriv u trivial,
    fun c _ cr _ u hr => sigmoid2_deriv c cr hr u⟩

/-- C28: `apply_map` samples its bound: for every map and every finite ordered bound in the domain
of the map, it carries the unit interval monotonically onto the bound, with the jacobian as
derivative. -/
theorem c28_apply_map {lo hi : ℝ} (hle : lo ≤ hi) :
    (∃ X J, Samples linear lo hi X J) ∧
    (∀ offset : ℝ, -offset < lo → ∃ X J, Samples (inverse (.fin offset)) lo hi X J) ∧
    (∀ offset : ℝ, -offset < lo → ∃ X J, Samples (logarithm (.fin offset)) lo hi X J) ∧
    (∀ length : ℝ, 0 < length → ∃ X J, Samples (decay (.fin length)) lo hi X J) ∧
    (∀ center width : ℝ, 0 < width →
      ∃ X J, Samples (sigmoid (.fin center) (.fin width)) lo hi X J) ∧
    (∀ center width center_r width_r : ℝ, 0 < width → 0 < width_r →
      ∃ X J, Samples (sigmoid2 (.fin center) (.fin width) (.fin center_r) (.fin width_r)) lo hi
        X J) :=
  ⟨⟨_, _, good_linear.samples trivial trivial hle⟩,
    fun o h => ⟨_, _, (good_inverse o).samples h (h.trans_le hle) hle⟩,
    fun o h => ⟨_, _, (good_log o).samples h (h.trans_le hle) hle⟩,
    fun _ h => ⟨_, _, (good_decay h).samples trivial trivial hle⟩,
    fun c _ h => ⟨_, _, (good_sigmoid c h).samples trivial trivial hle⟩,
    fun c _ cr _ h hr => ⟨_, _, (good_sigmoid2 c cr h hr).samples trivial trivial hle⟩⟩

/-- C28: consequently the sampled variable stays inside the bound. -/
theorem c28_in_bound {t : VarMap Fl} {lo hi : ℝ} {X J : ℝ → ℝ} (h : Samples t lo hi X J) (p : ℝ)
    (h0 : 0 ≤ p) (h1 : p ≤ 1) : lo ≤ X p ∧ X p ≤ hi := by
  have a := h.mono 0 p le_rfl h0 h1
  have b := h.mono p 1 h0 h1 le_rfl
  rw [h.zero] at a
  rw [h.one] at b
  exact ⟨a, b⟩

example : ∃ X J, Samples (sigmoid2 (.fin 0.3) (.fin 0.01) (.fin (-0.4)) (.fin 0.16)) (-0.5) 7 X J :=
  (c28_apply_map (by norm_num)).2.2.2.2.2 _ _ _ _ (by norm_num) (by norm_num)

/-- C28: an invalid bound never yields a usable variable: the result of `apply_map` is NaN. -/
theorem c28_invalid (t : VarMap Fl) (ht : t.x .nan = .nan) (hj : ∀ u, t.jac .nan * u = .nan)
    (hu : t.u .nan = .nan) (p : Fl) :
    t.apply p .invalid = (.nan, .nan) := by
  simp [apply, Bound.invalid, hu, Bound.mk', Bound.lerp, ht, hj]

example : (inverse (.fin 0) : VarMap Fl).x .nan = .nan ∧
    (∀ u, (inverse (.fin 0) : VarMap Fl).jac .nan * u = .nan) ∧
    (inverse (.fin 0) : VarMap Fl).u .nan = .nan := by
  simp [inverse, sq]

end Sidis.Props
