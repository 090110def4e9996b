import Verif.Lemmas.Dirac

/-! # Traces and contractions of Dirac matrices -/

namespace Sidis.Dirac

open Spec Spec.Qed Matrix

theorem slash_add (a b : Vec4) : slash (a + b) = slash a + slash b := by
  simp only [slash_eq]
  ext i j
  fin_cases i <;> fin_cases j <;> simp <;> ring

theorem slash_sub (a b : Vec4) : slash (a - b) = slash a - slash b := by
  simp only [slash_eq]
  ext i j
  fin_cases i <;> fin_cases j <;> simp <;> ring

theorem slash_smul (c : ℝ) (a : Vec4) : slash (c • a) = (c : ℂ) • slash a := by
  simp only [slash_eq]
  ext i j
  fin_cases i <;> fin_cases j <;> simp <;> ring

theorem mink_smul_left (c : ℝ) (a b : Vec4) : mink (c • a) b = c * mink a b := by
  simp [mink]; ring
theorem mink_smul_right (c : ℝ) (a b : Vec4) : mink a (c • b) = c * mink a b := by
  simp [mink]; ring

theorem mink_normal (d a b c : Vec4) : mink d (normal a b c) = eps d a b c := by
  simp only [mink, normal, eps_expand]; ring

/-- The vector part of `a̸ b̸ c̸`. -/
noncomputable def tri (a b c : Vec4) : Vec4 := mink a b • c - mink a c • b + mink b c • a

theorem slash3 (a b c : Vec4) : slash a * slash b * slash c =
    slash (tri a b c) + Complex.I • (gamma5 * slash (normal a b c)) := by
  rw [chisholm, tri, slash_add, slash_sub, slash_smul, slash_smul, slash_smul]

theorem tr1 (a : Vec4) : (slash a).trace = 0 := by
  rw [slash_eq]; simp [Matrix.trace, Fin.sum_univ_four]

theorem tr1_5 (a : Vec4) : (gamma5 * slash a).trace = 0 := by
  rw [slash_eq, gamma5_eq]; simp [Matrix.trace, Fin.sum_univ_four]

theorem tr0 : (1 : Spinor).trace = 4 := by simp

theorem tr0_5 : gamma5.trace = 0 := by
  rw [gamma5_eq]; simp [Matrix.trace, Fin.sum_univ_four]

theorem tr2 (a b : Vec4) : (slash a * slash b).trace = 4 * (mink a b : ℂ) := by
  have h := Complex.I_sq
  simp only [slash_eq]
  simp [Matrix.trace, Fin.sum_univ_four, mink]
  linear_combination (4 * (a.y : ℂ) * b.y) * h

theorem tr2_5 (a b : Vec4) : (gamma5 * (slash a * slash b)).trace = 0 := by
  simp only [slash_eq, gamma5_eq]
  simp [Matrix.trace, Fin.sum_univ_four]
  ring

/-- A quarter of `Tr[a̸ b̸ c̸ d̸]`. -/
noncomputable def T4 (a b c d : Vec4) : ℝ := mink a b * mink c d - mink a c * mink b d + mink b c * mink a d

/-- `Tr[γ5 a̸ b̸ c̸ d̸] / (4 i)` -/
noncomputable def E4 (a b c d : Vec4) : ℝ := eps d a b c

theorem mink_tri (a b c d : Vec4) : mink (tri a b c) d = T4 a b c d := by
  rw [tri, mink_add_left, mink_sub_left, mink_smul_left, mink_smul_left, mink_smul_left, T4]

theorem tr4 (a b c d : Vec4) : (slash a * slash b * slash c * slash d).trace = 4 * (T4 a b c d : ℂ) := by
  rw [slash3, add_mul, trace_add, tr2, mink_tri, smul_mul_assoc, trace_smul, mul_assoc, tr2_5]
  simp

theorem tr4_5 (a b c d : Vec4) : (gamma5 * (slash a * slash b * slash c * slash d)).trace
    = 4 * Complex.I * (E4 a b c d : ℂ) := by
  rw [slash3, add_mul, mul_add, trace_add, tr2_5, smul_mul_assoc, mul_smul_comm, trace_smul,
    ← mul_assoc, ← mul_assoc, gamma5_sq, one_mul, tr2, mink_comm, mink_normal, E4]
  simp; ring

theorem gamma5_mul_slash (a : Vec4) (X : Spinor) : slash a * (gamma5 * X) = -(gamma5 * (slash a * X)) := by
  rw [← mul_assoc, gamma5_slash, neg_mul, mul_assoc]

theorem gamma5_mul_gamma5 (X : Spinor) : gamma5 * (gamma5 * X) = X := by
  rw [← mul_assoc, gamma5_sq, one_mul]

/-- A quarter of `Tr[a̸ b̸ c̸ d̸ e̸ f̸]`. -/
noncomputable def T6 (a b c d e f : Vec4) : ℝ :=
  mink (tri a b c) (tri d e f) + mink (normal a b c) (normal d e f)

/-- `Tr[γ5 a̸ b̸ c̸ d̸ e̸ f̸] / (4 i)` -/
noncomputable def E6 (a b c d e f : Vec4) : ℝ :=
  mink (normal a b c) (tri d e f) - mink (tri a b c) (normal d e f)

theorem assoc6 (a b c d e f : Spinor) : a * b * c * d * e * f = (a * b * c) * (d * e * f) := by
  simp only [mul_assoc]

theorem tr6 (a b c d e f : Vec4) :
    (slash a * slash b * slash c * slash d * slash e * slash f).trace = 4 * (T6 a b c d e f : ℂ) := by
  rw [assoc6, slash3, slash3, add_mul, mul_add, mul_add]
  simp only [smul_mul_assoc, mul_smul_comm, trace_add, trace_smul, tr2, mul_assoc, gamma5_mul_slash,
    tr2_5, trace_neg, gamma5_mul_gamma5, T6, mul_neg, smul_eq_mul]
  have h := Complex.I_sq
  push_cast
  linear_combination (-4 * (mink (normal a b c) (normal d e f) : ℂ)) * h

theorem tr6_5 (a b c d e f : Vec4) :
    (gamma5 * (slash a * slash b * slash c * slash d * slash e * slash f)).trace
      = 4 * Complex.I * (E6 a b c d e f : ℂ) := by
  rw [assoc6, slash3, slash3, add_mul, mul_add, mul_add]
  simp only [mul_add, smul_mul_assoc, mul_smul_comm, trace_add, trace_smul, tr2, mul_assoc,
    gamma5_mul_slash, tr2_5, trace_neg, gamma5_mul_gamma5, E6, mul_neg, smul_eq_mul]
  push_cast
  ring

/-- Matrices anticommuting with `γ5` have no trace. -/
theorem tr_odd {X : Spinor} (h : X * gamma5 = -(gamma5 * X)) : X.trace = 0 := by
  have e : X.trace = (gamma5 * (X * gamma5)).trace := by
    rw [trace_mul_comm, mul_assoc, gamma5_sq, mul_one]
  rw [h, mul_neg, gamma5_mul_gamma5, trace_neg] at e
  exact self_eq_neg.mp e

theorem tr_odd5 {X : Spinor} (h : X * gamma5 = -(gamma5 * X)) : (gamma5 * X).trace = 0 :=
  tr_odd (by rw [mul_assoc, h, mul_neg])

theorem odd3 (a b c : Vec4) : slash a * slash b * slash c * gamma5
    = -(gamma5 * (slash a * slash b * slash c)) := by
  simp only [mul_assoc, gamma5_slash, gamma5_mul_slash, mul_neg, neg_neg]

theorem tr3 (a b c : Vec4) : (slash a * slash b * slash c).trace = 0 := tr_odd (odd3 a b c)
theorem tr3_5 (a b c : Vec4) : (gamma5 * (slash a * slash b * slash c)).trace = 0 :=
  tr_odd5 (odd3 a b c)

theorem odd5 (a b c d e : Vec4) : slash a * slash b * slash c * slash d * slash e * gamma5
    = -(gamma5 * (slash a * slash b * slash c * slash d * slash e)) := by
  simp only [mul_assoc, gamma5_slash, gamma5_mul_slash, mul_neg, neg_neg]

theorem tr5 (a b c d e : Vec4) : (slash a * slash b * slash c * slash d * slash e).trace = 0 :=
  tr_odd (odd5 a b c d e)
theorem tr5_5 (a b c d e : Vec4) :
    (gamma5 * (slash a * slash b * slash c * slash d * slash e)).trace = 0 :=
  tr_odd5 (odd5 a b c d e)

/-- `γ^α X γ_α` -/
noncomputable def contr (X : Spinor) : Spinor := ∑ α, (metric α : ℂ) • (gamma α * X * gamma α)

theorem contr_add (X Y : Spinor) : contr (X + Y) = contr X + contr Y := by
  simp only [contr, mul_add, add_mul, smul_add, Finset.sum_add_distrib]

theorem contr_smul (c : ℂ) (X : Spinor) : contr (c • X) = c • contr X := by
  simp only [contr, mul_smul_comm, smul_mul_assoc, Finset.smul_sum, smul_comm c]

theorem contr_one : contr 1 = (4 : ℂ) • 1 := by
  simp only [contr, Fin.sum_univ_four, metric, gamma]
  ext i j
  fin_cases i <;> fin_cases j <;> simp <;> norm_num

theorem gamma_slash (α : Fin 4) (a : Vec4) :
    gamma α * slash a = ((2 * component a α : ℝ) : ℂ) • 1 - slash a * gamma α := by
  have h := Complex.I_sq
  rw [slash_eq]
  fin_cases α <;> ext i j <;> fin_cases i <;> fin_cases j <;>
    simp [gamma, component, Matrix.mul_apply, Fin.sum_univ_four] <;> ring_nf <;>
    simp only [h] <;> ring

theorem gamma_gamma5 (α : Fin 4) : gamma α * gamma5 = -(gamma5 * gamma α) := by
  rw [gamma5_eq]
  fin_cases α <;> ext i j <;> fin_cases i <;> fin_cases j <;>
    simp [gamma, Matrix.mul_apply, Fin.sum_univ_four]

theorem contr_slash_mul (a : Vec4) (X : Spinor) :
    contr (slash a * X) = (2 : ℂ) • (X * slash a) - slash a * contr X := by
  have : ∀ α, gamma α * (slash a * X) * gamma α = ((2 * component a α : ℝ) : ℂ) • (X * gamma α)
      - slash a * (gamma α * X * gamma α) := by
    intro α
    rw [← mul_assoc, gamma_slash, sub_mul, sub_mul, smul_mul_assoc, one_mul, smul_mul_assoc]
    simp only [mul_assoc]
  have e : (2 : ℂ) • (X * slash a) = ∑ α, (metric α : ℂ) • (((2 * component a α : ℝ) : ℂ) •
      (X * gamma α)) := by
    simp only [slash, Finset.mul_sum, Finset.smul_sum, mul_smul_comm, smul_smul]
    refine Finset.sum_congr rfl fun α _ => ?_
    congr 1
    push_cast; ring
  rw [e]
  simp only [contr, this, smul_sub, Finset.sum_sub_distrib, Finset.mul_sum, mul_smul_comm]

theorem contr_slash (a : Vec4) : contr (slash a) = (-2 : ℂ) • slash a := by
  have := contr_slash_mul a 1
  rw [mul_one, contr_one, one_mul, mul_smul_comm, mul_one] at this
  rw [this]; module

theorem contr_gamma5_mul (X : Spinor) : contr (gamma5 * X) = -(gamma5 * contr X) := by
  simp only [contr, ← mul_assoc, gamma_gamma5, Finset.mul_sum, mul_smul_comm, neg_mul, smul_neg,
    Finset.sum_neg_distrib]

theorem trace_contr (X Y : Spinor) : (X * contr Y).trace = (contr X * Y).trace := by
  simp only [contr, Finset.mul_sum, Finset.sum_mul, trace_sum, mul_smul_comm, smul_mul_assoc,
    trace_smul]
  refine Finset.sum_congr rfl fun α _ => ?_
  rw [← mul_assoc, trace_mul_comm, ← mul_assoc, ← mul_assoc]

/-- `k̸ a̸ k̸ = 2 (a·k) k̸` for a light-like `k`. -/
theorem slash_sandwich {k : Vec4} (hk : mink k k = 0) (a : Vec4) :
    slash k * slash a * slash k = ((2 * mink a k : ℝ) : ℂ) • slash k := by
  have h1 := slash_anti k a
  have h2 := slash_anti k k
  rw [hk] at h2
  have h3 : slash k * slash k = 0 := by
    have : (2 : ℂ) • (slash k * slash k) = 0 := by rw [two_smul, h2]; simp
    simpa using this
  rw [eq_sub_of_add_eq h1, sub_mul, mul_assoc, h3, mul_zero, sub_zero, smul_mul_assoc, one_mul,
    mink_comm]

theorem slash_null {k : Vec4} (hk : mink k k = 0) : slash k * slash k = 0 := by
  have h2 := slash_anti k k
  rw [hk] at h2
  have : (2 : ℂ) • (slash k * slash k) = 0 := by rw [two_smul, h2]; simp
  simpa using this

theorem slash_sq (a : Vec4) : slash a * slash a = (mink a a : ℂ) • 1 := by
  have h2 := slash_anti a a
  have : (2 : ℂ) • (slash a * slash a) = (2 : ℂ) • ((mink a a : ℂ) • (1 : Spinor)) := by
    rw [two_smul, h2, smul_smul]; push_cast; rfl
  exact smul_right_injective _ (two_ne_zero) this

end Sidis.Dirac
