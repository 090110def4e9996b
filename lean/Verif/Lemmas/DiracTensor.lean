import Verif.Lemmas.DiracRad

/-! # Leptonic tensors in terms of invariants -/

namespace Sidis.Dirac

open Spec Spec.Qed Matrix

/-- The vectors with `γ^μ v_μ = γ^0, ..., γ^3`. -/
def bas : Fin 4 → Vec4 := ![⟨1, 0, 0, 0⟩, ⟨0, -1, 0, 0⟩, ⟨0, 0, -1, 0⟩, ⟨0, 0, 0, -1⟩]

theorem slash_bas (μ : Fin 4) : slash (bas μ) = gamma μ := by
  rw [slash_eq]
  fin_cases μ <;> ext i j <;> fin_cases i <;> fin_cases j <;> simp [bas, gamma]

/-- Bilinear functions of two vectors. -/
structure Bilin (G : Vec4 → Vec4 → ℂ) : Prop where
  add_left : ∀ a b c, G (a + b) c = G a c + G b c
  add_right : ∀ a b c, G c (a + b) = G c a + G c b
  smul_left : ∀ (r : ℝ) a b, G (r • a) b = r * G a b
  smul_right : ∀ (r : ℝ) a b, G a (r • b) = r * G a b

namespace Bilin

variable {G : Vec4 → Vec4 → ℂ} (h : Bilin G)
include h

theorem sub_left (a b c : Vec4) : G (a - b) c = G a c - G b c := by
  have : a - b = a + (-1 : ℝ) • b := by ext <;> simp <;> ring
  rw [this, h.add_left, h.smul_left]; push_cast; ring

theorem sub_right (a b c : Vec4) : G c (a - b) = G c a - G c b := by
  have : a - b = a + (-1 : ℝ) • b := by ext <;> simp <;> ring
  rw [this, h.add_right, h.smul_right]; push_cast; ring

omit h in
theorem vec_eq (x : Vec4) : x = x.t • bas 0 + (-x.x) • bas 1 + (-x.y) • bas 2 + (-x.z) • bas 3 := by
  ext <;> simp [bas]

theorem expand_left (x y : Vec4) : G x y = x.t * G (bas 0) y - x.x * G (bas 1) y
    - x.y * G (bas 2) y - x.z * G (bas 3) y := by
  conv_lhs => rw [vec_eq x]
  simp only [h.add_left, h.smul_left]
  push_cast; ring

theorem expand_right (x y : Vec4) : G x y = y.t * G x (bas 0) - y.x * G x (bas 1)
    - y.y * G x (bas 2) - y.z * G x (bas 3) := by
  conv_lhs => rw [vec_eq y]
  simp only [h.add_right, h.smul_right]
  push_cast; ring

theorem expand (x y : Vec4) : G x y =
    x.t * (y.t * G (bas 0) (bas 0) - y.x * G (bas 0) (bas 1) - y.y * G (bas 0) (bas 2)
      - y.z * G (bas 0) (bas 3))
    - x.x * (y.t * G (bas 1) (bas 0) - y.x * G (bas 1) (bas 1) - y.y * G (bas 1) (bas 2)
      - y.z * G (bas 1) (bas 3))
    - x.y * (y.t * G (bas 2) (bas 0) - y.x * G (bas 2) (bas 1) - y.y * G (bas 2) (bas 2)
      - y.z * G (bas 2) (bas 3))
    - x.z * (y.t * G (bas 3) (bas 0) - y.x * G (bas 3) (bas 1) - y.y * G (bas 3) (bas 2)
      - y.z * G (bas 3) (bas 3)) := by
  rw [h.expand_left]
  rw [h.expand_right (bas 0), h.expand_right (bas 1), h.expand_right (bas 2), h.expand_right (bas 3)]

end Bilin

/-- The contraction of `G` with the metric. -/
noncomputable def mtrace (G : Vec4 → Vec4 → ℂ) : ℂ :=
  G (bas 0) (bas 0) - G (bas 1) (bas 1) - G (bas 2) (bas 2) - G (bas 3) (bas 3)

theorem full_had {G : Vec4 → Vec4 → ℂ} (hG : Bilin G) {L : Tensor}
    (hL : ∀ μ ν, L μ ν = G (bas μ) (bas ν)) (H : Nine) (q p h : Vec4) :
    full L (hadronicTensor H q p h) =
      let a := perp q p
      let b := perp q h
      let n := normal q p h;
      -H.c1 * (mtrace G - G q q / mink q q) + H.c2 * G a a + H.c3 * G b b + H.c4 * (G a b + G b a)
      + H.c6 * (G a n + G n a) + H.c8 * (G b n + G n b)
      + Complex.I * (H.c5 * (G a b - G b a) + H.c7 * (G a n - G n a) + H.c9 * (G b n - G n b)) := by
  simp only [full, hadronicTensor, hL]
  generalize perp q p = a
  generalize perp q h = b
  generalize normal q p h = n
  generalize mink q q = Q
  rw [hG.expand q q, hG.expand a a, hG.expand b b, hG.expand a b, hG.expand b a, hG.expand a n,
    hG.expand n a, hG.expand b n, hG.expand n b]
  simp only [mtrace, Fin.sum_univ_four, metric, component]
  simp only [Matrix.cons_val_zero, Matrix.cons_val_one, Matrix.cons_val, Fin.isValue, if_true,
    reduceIte, Fin.reduceEq]
  push_cast
  ring

theorem full_conserved {G : Vec4 → Vec4 → ℂ} (hG : Bilin G) {L : Tensor}
    (hL : ∀ μ ν, L μ ν = G (bas μ) (bas ν)) (H : Nine) (q p h : Vec4)
    (hl : ∀ x, G q x = 0) (hr : ∀ x, G x q = 0) :
    full L (hadronicTensor H q p h) =
      let n := normal q p h;
      -H.c1 * mtrace G + H.c2 * G p p + H.c3 * G h h + H.c4 * (G p h + G h p)
      + H.c6 * (G p n + G n p) + H.c8 * (G h n + G n h)
      + Complex.I * (H.c5 * (G p h - G h p) + H.c7 * (G p n - G n p) + H.c9 * (G h n - G n h)) := by
  rw [full_had hG hL]
  simp only [perp, hG.sub_left, hG.sub_right, hG.smul_left, hG.smul_right, hl, hr]
  ring

theorem gamma_adj (μ : Fin 4) : bar (gamma μ) = gamma μ := by
  unfold bar
  ext i j
  simp only [Matrix.mul_apply, Fin.sum_univ_four, Matrix.conjTranspose_apply]
  fin_cases μ <;> fin_cases i <;> fin_cases j <;> simp [gamma]

theorem gamma0_sq : gamma 0 * gamma 0 = 1 := by
  ext i j
  fin_cases i <;> fin_cases j <;> simp [gamma, Matrix.mul_apply, Fin.sum_univ_four]

theorem bar_mul (X Y : Spinor) : bar (X * Y) = bar Y * bar X := by
  have : gamma 0 * Yᴴ * gamma 0 * (gamma 0 * Xᴴ * gamma 0)
      = gamma 0 * Yᴴ * (gamma 0 * gamma 0) * Xᴴ * gamma 0 := by simp only [mul_assoc]
  rw [bar, bar, bar, this, gamma0_sq, Matrix.conjTranspose_mul]
  simp only [mul_assoc, one_mul]

theorem bar_add (X Y : Spinor) : bar (X + Y) = bar X + bar Y := by
  simp only [bar, Matrix.conjTranspose_add, mul_add, add_mul]

theorem bar_smul (c : ℂ) (X : Spinor) : bar (c • X) = (starRingEnd ℂ c) • bar X := by
  simp only [bar, Matrix.conjTranspose_smul, mul_smul_comm, smul_mul_assoc]; rfl

theorem bar_one : bar 1 = 1 := by rw [bar, Matrix.conjTranspose_one, mul_one, gamma0_sq]

theorem bar_slash (v : Vec4) : bar (slash v) = slash v := by
  simp only [slash, Fin.sum_univ_four, bar_add, bar_smul, gamma_adj, Complex.conj_ofReal]

theorem bar_unpolarised (k : Vec4) (m : ℝ) : bar (unpolarised k m) = unpolarised k m := by
  rw [unpolarised, bar_add, bar_slash, bar_smul, bar_one, Complex.conj_ofReal]

theorem bar_propagator (k : Vec4) (m : ℝ) : bar (propagator k m) = propagator k m := by
  rw [propagator, bar_smul, bar_unpolarised, Complex.conj_ofReal]

section
variable {k1 k2 k s : Vec4} {m : ℝ}

theorem dirac_left (h2 : mink k2 k2 = m ^ 2) (α : Fin 4) :
    unpolarised k2 m * gamma α * unpolarised k2 m = ((2 * component k2 α : ℝ) : ℂ) • unpolarised k2 m := by
  have h := slash_sq k2
  rw [h2] at h
  simp only [unpolarised, add_mul, mul_add, smul_mul_assoc, mul_smul_comm, one_mul, mul_one]
  rw [mul_assoc, gamma_slash, mul_sub, ← mul_assoc, h, mul_smul_comm, mul_one, smul_mul_assoc, one_mul]
  push_cast
  module

theorem pol_comm (hs : mink k1 s = 0) (lambda : ℝ) : polarised k1 m lambda s =
    (1 + (lambda : ℂ) • (gamma5 * slash s)) * unpolarised k1 m := by
  have h := slash_anti k1 s
  rw [hs] at h
  simp only [mul_zero, Complex.ofReal_zero, zero_smul] at h
  have h1 := eq_neg_of_add_eq_zero_left h
  simp only [polarised, unpolarised, add_mul, mul_add, smul_mul_assoc, mul_smul_comm, one_mul, mul_one]
  rw [gamma5_mul_slash, h1, mul_neg, mul_assoc]
  module

/-- Momentum in the eikonal factor. -/
noncomputable def eik (k1 k2 k : Vec4) : Vec4 := (1 / mink k1 k) • k1 - (1 / mink k2 k) • k2

theorem den2 (h2 : mink k2 k2 = m ^ 2) (hk : mink k k = 0) :
    mink (k2 + k) (k2 + k) - m ^ 2 = 2 * mink k2 k := by
  rw [mink_add_left, mink_add_right, mink_add_right, h2, hk, mink_comm k k2]; ring

theorem den1 (h1 : mink k1 k1 = m ^ 2) (hk : mink k k = 0) :
    mink (k1 - k) (k1 - k) - m ^ 2 = -(2 * mink k1 k) := by
  rw [mink_sub_left, mink_sub_right, mink_sub_right, h1, hk, mink_comm k k1]; ring

theorem prop2 (h2 : mink k2 k2 = m ^ 2) (hk : mink k k = 0) : propagator (k2 + k) m =
    ((1 / (2 * mink k2 k) : ℝ) : ℂ) • (unpolarised k2 m + slash k) := by
  rw [propagator, den2 h2 hk, unpolarised, slash_add, unpolarised]
  congr 1; abel

theorem prop1 (h1 : mink k1 k1 = m ^ 2) (hk : mink k k = 0) : propagator (k1 - k) m =
    (-(1 / (2 * mink k1 k) : ℝ) : ℂ) • (unpolarised k1 m - slash k) := by
  rw [propagator, den1 h1 hk, unpolarised, slash_sub, unpolarised]
  have : (1 / -(2 * mink k1 k) : ℝ) = -(1 / (2 * mink k1 k)) := by rw [one_div, one_div, inv_neg]
  rw [this]
  push_cast
  congr 1; abel

variable (h1 : mink k1 k1 = m ^ 2) (h2 : mink k2 k2 = m ^ 2) (hk : mink k k = 0)

theorem comp_eik (α : Fin 4) : component (eik k1 k2 k) α =
    2 * (1 / (2 * mink k1 k)) * component k1 α - 2 * (1 / (2 * mink k2 k)) * component k2 α := by
  fin_cases α <;> simp [eik, component] <;> ring

include h1 h2 hk in
/-- Between on-shell leptons the emission vertex has the eikonal form. -/
theorem emission_left (lambda : ℝ) (α μ : Fin 4) :
    unpolarised k2 m * emissionVertex k1 k2 k m α μ * polarised k1 m lambda s =
      -(unpolarised k2 m * vtx (eik k1 k2 k) k (1 / (2 * mink k1 k) : ℝ) (1 / (2 * mink k2 k) : ℝ) α
        (gamma μ) * polarised k1 m lambda s) := by
  rw [emissionVertex, prop1 h1 hk, prop2 h2 hk, vtx, comp_eik, polarised]
  generalize (1 / (2 * mink k1 k)) = c1
  generalize (1 / (2 * mink k2 k)) = c2
  generalize (1 + (lambda : ℂ) • (gamma5 * slash s)) = Z
  have e1 := dirac_left h1 α
  have e2 := dirac_left h2 α
  set B := unpolarised k2 m
  set A := unpolarised k1 m
  have f1 : ∀ X, A * (gamma α * (A * X)) = ((2 * component k1 α : ℝ) : ℂ) • (A * X) := fun X => by
    rw [← mul_assoc, ← mul_assoc, e1, smul_mul_assoc]
  have f2 : ∀ X, B * (gamma α * (B * X)) = ((2 * component k2 α : ℝ) : ℂ) • (B * X) := fun X => by
    rw [← mul_assoc, ← mul_assoc, e2, smul_mul_assoc]
  simp only [add_mul, mul_add, sub_mul, mul_sub, smul_mul_assoc, mul_smul_comm, mul_assoc, f1, f2,
    smul_add, smul_sub, smul_smul]
  push_cast
  module

include h1 h2 hk in
theorem emission_right (hs : mink k1 s = 0) (lambda : ℝ) (α μ : Fin 4) :
    polarised k1 m lambda s * bar (emissionVertex k1 k2 k m α μ) * unpolarised k2 m =
      -(polarised k1 m lambda s * vtxBar (eik k1 k2 k) k (1 / (2 * mink k1 k) : ℝ)
        (1 / (2 * mink k2 k) : ℝ) α (gamma μ) * unpolarised k2 m) := by
  rw [emissionVertex, bar_add, bar_mul, bar_mul, bar_mul, bar_mul, bar_propagator, bar_propagator,
    gamma_adj, gamma_adj, prop1 h1 hk, prop2 h2 hk, vtxBar, comp_eik, pol_comm hs]
  generalize (1 / (2 * mink k1 k)) = c1
  generalize (1 / (2 * mink k2 k)) = c2
  generalize (1 + (lambda : ℂ) • (gamma5 * slash s)) = Z
  have e1 := dirac_left h1 α
  have e2 := dirac_left h2 α
  set B := unpolarised k2 m
  set A := unpolarised k1 m
  have f1 : ∀ X, A * (gamma α * (A * X)) = ((2 * component k1 α : ℝ) : ℂ) • (A * X) := fun X => by
    rw [← mul_assoc, ← mul_assoc, e1, smul_mul_assoc]
  have f2 : B * (gamma α * B) = ((2 * component k2 α : ℝ) : ℂ) • B := by
    rw [← mul_assoc, e2]
  simp only [add_mul, mul_add, sub_mul, mul_sub, smul_mul_assoc, mul_smul_comm, mul_assoc, f1, f2,
    smul_add, smul_sub, smul_smul]
  push_cast
  module

end

end Sidis.Dirac
