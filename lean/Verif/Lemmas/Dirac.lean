import Verif.Spec.Qed
import Verif.Lemmas.KinRad
import Mathlib.Tactic.Ring
import Mathlib.Tactic.Module
import Mathlib.Tactic.NoncommRing
import Mathlib.Tactic.LinearCombination
import Mathlib.Tactic.FinCases

/-! # Algebra of the Dirac matrices -/

namespace Sidis.Dirac

open Spec Spec.Qed Matrix

theorem slash_eq (v : Vec4) : slash v =
    !![(v.t : ℂ), 0, -v.z, -v.x + v.y * Complex.I; 0, v.t, -v.x - v.y * Complex.I, v.z;
      v.z, v.x - v.y * Complex.I, -v.t, 0; v.x + v.y * Complex.I, -v.z, 0, -v.t] := by
  simp only [slash, Fin.sum_univ_four, metric, component, gamma]
  ext i j
  fin_cases i <;> fin_cases j <;> simp [sub_eq_add_neg]

theorem gamma5_eq : gamma5 = !![0, 0, 1, 0; 0, 0, 0, 1; 1, 0, 0, 0; 0, 1, 0, 0] := by
  have h : Complex.I * Complex.I = -1 := Complex.I_mul_I
  simp only [gamma5, gamma]
  ext i j
  fin_cases i <;> fin_cases j <;> simp [Matrix.mul_apply, Fin.sum_univ_four]

theorem slash_anti (a b : Vec4) :
    slash a * slash b + slash b * slash a = ((2 * mink a b : ℝ) : ℂ) • (1 : Spinor) := by
  have h := Complex.I_sq
  rw [slash_eq, slash_eq]
  ext i j
  fin_cases i <;> fin_cases j <;>
    simp [Matrix.mul_apply, Fin.sum_univ_four, mink, Matrix.one_apply] <;> ring_nf <;>
    simp only [h] <;> ring

theorem gamma5_slash (a : Vec4) : slash a * gamma5 = -(gamma5 * slash a) := by
  rw [slash_eq, gamma5_eq]
  ext i j
  fin_cases i <;> fin_cases j <;> simp [Matrix.mul_apply, Fin.sum_univ_four, sub_eq_add_neg,
    add_comm]

theorem gamma5_sq : gamma5 * gamma5 = 1 := by
  rw [gamma5_eq]
  ext i j
  fin_cases i <;> fin_cases j <;> simp [Matrix.mul_apply, Fin.sum_univ_four]

theorem eps_expand (a b c d : Vec4) : eps a b c d =
    -(a.t * b.x * c.y * d.z) + a.t * b.x * c.z * d.y + a.t * b.y * c.x * d.z
    - a.t * b.y * c.z * d.x - a.t * b.z * c.x * d.y + a.t * b.z * c.y * d.x
    + a.x * b.t * c.y * d.z - a.x * b.t * c.z * d.y - a.x * b.y * c.t * d.z
    + a.x * b.y * c.z * d.t + a.x * b.z * c.t * d.y - a.x * b.z * c.y * d.t
    - a.y * b.t * c.x * d.z + a.y * b.t * c.z * d.x + a.y * b.x * c.t * d.z
    - a.y * b.x * c.z * d.t - a.y * b.z * c.t * d.x + a.y * b.z * c.x * d.t
    + a.z * b.t * c.x * d.y - a.z * b.t * c.y * d.x - a.z * b.x * c.t * d.y
    + a.z * b.x * c.y * d.t + a.z * b.y * c.t * d.x - a.z * b.y * c.x * d.t := by
  unfold eps
  simp [Matrix.det_succ_row_zero, Fin.sum_univ_succ, Fin.succAbove]
  ring

theorem chisholm (a b c : Vec4) : slash a * slash b * slash c =
    (mink a b : ℂ) • slash c - (mink a c : ℂ) • slash b + (mink b c : ℂ) • slash a
      + Complex.I • (gamma5 * slash (normal a b c)) := by
  have h := Complex.I_sq
  have h3 := Complex.I_pow_three
  simp only [slash_eq, gamma5_eq, normal, eps_expand]
  ext i j
  fin_cases i <;> fin_cases j <;>
    simp [Matrix.mul_apply, Fin.sum_univ_four, mink] <;> ring_nf <;>
    simp only [h, h3] <;> ring

end Sidis.Dirac
