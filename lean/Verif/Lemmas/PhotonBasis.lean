import Verif.Lemmas.QedRadC
import Verif.Lemmas.Positive

/-! # The hadronic tensor in the basis of photon polarisations -/

namespace Sidis.Dirac

open Spec Spec.Qed Matrix

/-- Completeness of an orthonormal basis. -/
theorem completeness {e0 e1 e2 e3 : Vec4} (h00 : mink e0 e0 = 1) (h11 : mink e1 e1 = -1)
    (h22 : mink e2 e2 = -1) (h33 : mink e3 e3 = -1) (h01 : mink e0 e1 = 0) (h02 : mink e0 e2 = 0)
    (h03 : mink e0 e3 = 0) (h12 : mink e1 e2 = 0) (h13 : mink e1 e3 = 0) (h23 : mink e2 e3 = 0)
    (μ ν : Fin 4) : (if μ = ν then metric μ else 0) =
      component e0 μ * component e0 ν - component e1 μ * component e1 ν
        - component e2 μ * component e2 ν - component e3 μ * component e3 ν := by
  set M : Matrix (Fin 4) (Fin 4) ℝ := Matrix.of fun a => component (![e0, e1, e2, e3] a) with hM
  set D : Matrix (Fin 4) (Fin 4) ℝ := Matrix.diagonal metric with hD
  have hDD : D * D = 1 := by
    rw [hD, Matrix.diagonal_mul_diagonal, ← Matrix.diagonal_one]
    congr 1
    funext i
    fin_cases i <;> simp [metric]
  have h : M * D * Mᵀ = D := by
    have e : ∀ a b, (M * D * Mᵀ) a b = mink (![e0, e1, e2, e3] a) (![e0, e1, e2, e3] b) := by
      intro a b
      rw [Matrix.mul_apply]
      simp only [hD, Matrix.mul_diagonal, Matrix.transpose_apply, Fin.sum_univ_four, hM, Matrix.of_apply]
      generalize ![e0, e1, e2, e3] a = u
      generalize ![e0, e1, e2, e3] b = w
      simp [metric, component, mink]
      ring
    ext a b
    rw [e]
    fin_cases a <;> fin_cases b <;>
      simp [hD, metric, h00, h11, h22, h33, h01, h02, h03, h12, h13, h23, mink_comm e1 e0, mink_comm e2 e0,
        mink_comm e3 e0, mink_comm e2 e1, mink_comm e3 e1, mink_comm e3 e2]
  have h1 : D * M * D * Mᵀ = 1 := by
    rw [show D * M * D * Mᵀ = D * (M * D * Mᵀ) by simp only [mul_assoc], h, hDD]
  have h2 : Mᵀ * (D * M * D) = 1 := mul_eq_one_comm.1 h1
  have h3 : Mᵀ * D * M = D := by
    have : Mᵀ * D * M * (D * D) = D := by
      rw [show Mᵀ * D * M * (D * D) = Mᵀ * (D * M * D) * D by simp only [mul_assoc], h2, one_mul]
    rwa [hDD, mul_one] at this
  have h4 := congrFun (congrFun h3 μ) ν
  rw [Matrix.mul_apply] at h4
  simp only [hD, Matrix.mul_diagonal, Matrix.transpose_apply, Fin.sum_univ_four, hM, Matrix.diagonal_apply,
    Matrix.of_apply] at h4
  rw [← h4]
  simp [metric]
  ring

theorem sum_swap {ι κ : Type*} [Fintype ι] [Fintype κ] (f : ι → ι → κ → κ → ℂ) :
    ∑ μ, ∑ ν, ∑ a, ∑ b, f μ ν a b = ∑ a, ∑ b, ∑ μ, ∑ ν, f μ ν a b := by
  calc _ = ∑ μ, ∑ a, ∑ ν, ∑ b, f μ ν a b := Finset.sum_congr rfl fun μ _ => Finset.sum_comm
    _ = ∑ a, ∑ μ, ∑ ν, ∑ b, f μ ν a b := Finset.sum_comm
    _ = ∑ a, ∑ μ, ∑ b, ∑ ν, f μ ν a b :=
      Finset.sum_congr rfl fun a _ => Finset.sum_congr rfl fun μ _ => Finset.sum_comm
    _ = _ := Finset.sum_congr rfl fun a _ => Finset.sum_comm

/-- A tensor with a positive matrix in some basis is positive. -/
theorem positive_of_basis {W : Tensor} {T : Fin 3 → Fin 3 → ℂ} (e : Fin 3 → Fin 4 → ℝ) {c : ℝ}
    (hc : 0 ≤ c) (hT : ∀ v : Fin 3 → ℂ, 0 ≤ (∑ a, ∑ b, starRingEnd ℂ (v a) * T a b * v b).re)
    (hW : ∀ μ ν, W μ ν = (c : ℂ) * ∑ a, ∑ b, T a b * (e a μ * e b ν : ℝ)) : Positive W := by
  intro v
  have h := hT fun a => ∑ μ, (e a μ : ℂ) * v μ
  have : ∑ μ, ∑ ν, starRingEnd ℂ (v μ) * W μ ν * v ν = (c : ℂ) * ∑ a, ∑ b,
      starRingEnd ℂ (∑ μ, (e a μ : ℂ) * v μ) * T a b * ∑ ν, (e b ν : ℂ) * v ν := by
    simp only [hW, Finset.mul_sum, Finset.sum_mul]
    rw [sum_swap]
    refine Finset.sum_congr rfl fun a _ => Finset.sum_congr rfl fun b _ => ?_
    rw [Finset.sum_comm]
    refine Finset.sum_congr rfl fun ν _ => ?_
    simp only [map_sum, map_mul, Complex.conj_ofReal, Finset.sum_mul, Finset.mul_sum]
    refine Finset.sum_congr rfl fun μ _ => ?_
    push_cast
    ring
  rw [this, Complex.re_ofReal_mul]
  exact mul_nonneg hc h

/-- The basis. -/
structure Basis (q p h : Vec4) (Q L pt Sx l2 l3 : ℝ) : Prop where
  qq : mink q q = -Q ^ 2
  pq : mink p q = Sx / 2
  aa : mink p p + Sx ^ 2 / (4 * Q ^ 2) = L ^ 2 / (4 * Q ^ 2)
  ab : mink p h + Sx * mink q h / (2 * Q ^ 2) = Sx * l3 / (2 * Q ^ 2)
  bb : mink h h + mink q h ^ 2 / Q ^ 2 = l2 / Q ^ 2
  pt_eq : L ^ 2 * l2 = Sx ^ 2 * l3 ^ 2 - Q ^ 2 * L ^ 2 * pt ^ 2
  Q_pos : 0 < Q
  L_pos : 0 < L
  pt_pos : 0 < pt

namespace Basis

variable {q p h : Vec4} {Q L pt Sx l2 l3 : ℝ} (B : Basis q p h Q L pt Sx l2 l3)

noncomputable def e0 (q p : Vec4) (Q L : ℝ) : Vec4 := (2 * Q / L) • perp q p
noncomputable def e1 (q p h : Vec4) (Q L pt Sx l3 : ℝ) : Vec4 :=
  (1 / pt) • (perp q h - (Sx * l3 / (Q * L)) • e0 q p Q L)
noncomputable def e2 (q p h : Vec4) (L pt : ℝ) : Vec4 := (-(2 / (L * pt))) • normal q p h

include B

theorem perp_dot (a b : Vec4) : mink (perp q a) (perp q b) = mink a b + mink a q * mink b q / Q ^ 2 := by
  have := B.Q_pos
  rw [perp, perp, mink_sub_left, mink_sub_right, mink_sub_right, mink_smul_left, mink_smul_left,
    mink_smul_right, mink_smul_right, B.qq, mink_comm q b]
  field_simp
  ring

theorem perp_q (a : Vec4) : mink (perp q a) q = 0 := by
  have := B.Q_pos
  rw [perp, mink_sub_left, mink_smul_left, B.qq]
  field_simp
  ring

theorem a_a : mink (perp q p) (perp q p) = L ^ 2 / (4 * Q ^ 2) := by
  rw [B.perp_dot, B.pq, ← B.aa]; ring

theorem a_b : mink (perp q p) (perp q h) = Sx * l3 / (2 * Q ^ 2) := by
  rw [B.perp_dot, B.pq, ← B.ab, mink_comm h q]; ring

theorem b_b : mink (perp q h) (perp q h) = l2 / Q ^ 2 := by
  rw [B.perp_dot, ← B.bb, mink_comm h q]; ring

theorem l2_eq : l2 = Sx ^ 2 * l3 ^ 2 / L ^ 2 - Q ^ 2 * pt ^ 2 := by
  have := B.L_pos
  have := B.pt_eq
  field_simp
  linarith

theorem g00 : mink (e0 q p Q L) (e0 q p Q L) = 1 := by
  have := B.L_pos
  have := B.Q_pos
  rw [e0, mink_smul_left, mink_smul_right, B.a_a]
  field_simp
  norm_num

theorem g0b : mink (e0 q p Q L) (perp q h) = Sx * l3 / (Q * L) := by
  have := B.L_pos
  have := B.Q_pos
  rw [e0, mink_smul_left, B.a_b]
  field_simp

theorem g01 : mink (e0 q p Q L) (e1 q p h Q L pt Sx l3) = 0 := by
  rw [e1, mink_smul_right, mink_sub_right, mink_smul_right, B.g00, B.g0b]
  ring

theorem g11 : mink (e1 q p h Q L pt Sx l3) (e1 q p h Q L pt Sx l3) = -1 := by
  have := B.L_pos
  have := B.Q_pos
  have := B.pt_pos
  rw [e1, mink_smul_left, mink_smul_right, mink_sub_left, mink_sub_right, mink_sub_right, mink_smul_left,
    mink_smul_left, mink_smul_right, mink_smul_right, B.g00, B.g0b, mink_comm (perp q h) (e0 q p Q L), B.g0b,
    B.b_b, B.l2_eq]
  field_simp
  ring

theorem n_q : mink (normal q p h) q = 0 := by
  rw [mink_comm, mink_normal]; simp only [eps_expand]; ring

theorem n_p : mink (normal q p h) p = 0 := by
  rw [mink_comm, mink_normal]; simp only [eps_expand]; ring

theorem n_h : mink (normal q p h) h = 0 := by
  rw [mink_comm, mink_normal]; simp only [eps_expand]; ring

theorem g02 : mink (e0 q p Q L) (e2 q p h L pt) = 0 := by
  rw [mink_comm, e0, e2, mink_smul_left, mink_smul_right, perp, mink_sub_right, mink_smul_right, B.n_p, B.n_q]
  ring

theorem g12 : mink (e1 q p h Q L pt Sx l3) (e2 q p h L pt) = 0 := by
  rw [e1, mink_smul_left, mink_sub_left, mink_smul_left, B.g02, perp, e2, mink_smul_right, mink_comm,
    mink_sub_right, mink_smul_right, B.n_h, B.n_q]
  ring

theorem g22 : mink (e2 q p h L pt) (e2 q p h L pt) = -1 := by
  have := B.L_pos
  have := B.Q_pos
  have := B.pt_pos
  have e : mink (normal q p h) (normal q p h) = -(L * pt / 2) ^ 2 := by
    rw [normal_normal, B.qq, mink_comm q p, B.pq, mink_comm h q, mink_comm h p]
    have h1 : mink p p = L ^ 2 / (4 * Q ^ 2) - Sx ^ 2 / (4 * Q ^ 2) := by linarith [B.aa]
    have h2 : mink p h = Sx * l3 / (2 * Q ^ 2) - Sx * mink q h / (2 * Q ^ 2) := by linarith [B.ab]
    have h3 : mink h h = (Sx ^ 2 * l3 ^ 2 / L ^ 2 - Q ^ 2 * pt ^ 2) / Q ^ 2 - mink q h ^ 2 / Q ^ 2 := by
      rw [← B.l2_eq]; linarith [B.bb]
    rw [h1, h2, h3]
    field_simp
    ring
  rw [e2, mink_smul_left, mink_smul_right, e]
  field_simp

theorem complete (μ ν : Fin 4) :
    (if μ = ν then metric μ else 0) - component q μ * component q ν / mink q q =
      component (e0 q p Q L) μ * component (e0 q p Q L) ν
        - component (e1 q p h Q L pt Sx l3) μ * component (e1 q p h Q L pt Sx l3) ν
        - component (e2 q p h L pt) μ * component (e2 q p h L pt) ν := by
  have := B.Q_pos
  have z0 : mink (e0 q p Q L) ((1 / Q) • q) = 0 := by
    rw [mink_smul_right, e0, mink_smul_left, B.perp_q]; ring
  have z1 : mink (e1 q p h Q L pt Sx l3) ((1 / Q) • q) = 0 := by
    rw [e1, mink_smul_left, mink_sub_left, mink_smul_left, z0, mink_smul_right, B.perp_q]; ring
  have z2 : mink (e2 q p h L pt) ((1 / Q) • q) = 0 := by
    rw [mink_smul_right, e2, mink_smul_left, B.n_q]; ring
  have z3 : mink ((1 / Q) • q) ((1 / Q) • q) = -1 := by
    rw [mink_smul_left, mink_smul_right, B.qq]; field_simp
  rw [completeness B.g00 B.g11 B.g22 z3 B.g01 B.g02 z0 B.g12 z1 z2 μ ν, B.qq]
  have : ∀ μ, component ((1 / Q) • q) μ = component q μ / Q := by
    intro μ; fin_cases μ <;> simp [component] <;> ring
  rw [this, this]
  field_simp
  ring

theorem comp_a (μ : Fin 4) : component (perp q p) μ = L / (2 * Q) * component (e0 q p Q L) μ := by
  have := B.L_pos
  have := B.Q_pos
  rw [e0]
  fin_cases μ <;> simp [component] <;> field_simp

theorem comp_b (μ : Fin 4) : component (perp q h) μ =
    Sx * l3 / (Q * L) * component (e0 q p Q L) μ + pt * component (e1 q p h Q L pt Sx l3) μ := by
  have := B.pt_pos
  rw [e1]
  generalize e0 q p Q L = v
  fin_cases μ <;> simp [component] <;> field_simp <;> ring

theorem comp_n (μ : Fin 4) : component (normal q p h) μ = -(L * pt / 2) * component (e2 q p h L pt) μ := by
  have := B.L_pos
  have := B.pt_pos
  rw [e2]
  fin_cases μ <;> simp [component] <;> field_simp

/-- The tensor with the components the code computes from the matrix elements `a` (real part) and `b`
(imaginary part). -/
theorem tensor {a00 a11 a22 a01 a02 a12 b01 b02 b12 : ℝ} (μ ν : Fin 4) :
    hadronicTensor
      { c1 := a22
        c2 := 4 / (L ^ 4 * pt ^ 2) * (L ^ 2 * pt ^ 2 * Q ^ 2 * a00 + l3 ^ 2 * Sx ^ 2 * a11 - l2 * L ^ 2 * a22
          - 2 * Sx * l3 * pt * Q * L * a01)
        c3 := 1 / pt ^ 2 * (a11 - a22)
        c4 := 2 / (L ^ 2 * pt ^ 2) * (l3 * Sx * (a22 - a11) + pt * Q * L * a01)
        c5 := 2 * Q / (pt * L) * b01
        c6 := 4 / (L ^ 3 * pt ^ 2) * (l3 * Sx * a12 - Q * pt * L * a02)
        c7 := 4 / (L ^ 3 * pt ^ 2) * (l3 * Sx * b12 - Q * pt * L * b02)
        c8 := -2 / (L * pt ^ 2) * a12
        c9 := -2 / (L * pt ^ 2) * b12 } q p h μ ν =
      let E0 := component (e0 q p Q L)
      let E1 := component (e1 q p h Q L pt Sx l3)
      let E2 := component (e2 q p h L pt)
      ((a00 * (E0 μ * E0 ν) + a11 * (E1 μ * E1 ν) + a22 * (E2 μ * E2 ν) + a01 * (E0 μ * E1 ν + E1 μ * E0 ν)
        + a02 * (E0 μ * E2 ν + E2 μ * E0 ν) + a12 * (E1 μ * E2 ν + E2 μ * E1 ν) : ℝ) : ℂ)
      + Complex.I * ((b01 * (E0 μ * E1 ν - E1 μ * E0 ν) + b02 * (E0 μ * E2 ν - E2 μ * E0 ν)
        + b12 * (E1 μ * E2 ν - E2 μ * E1 ν) : ℝ) : ℂ) := by
  have := B.L_pos
  have := B.Q_pos
  have := B.pt_pos
  have ha := B.comp_a
  have hb := B.comp_b
  have hn := B.comp_n
  rw [hadronicTensor]
  dsimp only
  rw [B.complete μ ν, ha μ, ha ν, hb μ, hb ν, hn μ, hn ν, B.l2_eq]
  congr 1
  · congr 1
    field_simp
    ring
  · congr 2
    field_simp
    ring

end Basis

end Sidis.Dirac
