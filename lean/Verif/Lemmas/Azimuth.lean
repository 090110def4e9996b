import Verif.Spec.Asymmetry
import Mathlib.Analysis.SpecialFunctions.Integrals.Basic

/-!
# Integrals of trigonometric polynomials over a full turn
-/

namespace Sidis.Azimuth

open Real Spec

theorem integral_cos_turn (n : ℤ) (d : ℝ) :
    ∫ t in -π..π, cos (n * t + d) = if n = 0 then 2 * π * cos d else 0 := by
  split_ifs with h
  · subst h
    simp only [Int.cast_zero, zero_mul, zero_add, intervalIntegral.integral_const, smul_eq_mul]
    ring
  · have hn : (n : ℝ) ≠ 0 := by exact_mod_cast h
    rw [intervalIntegral.integral_comp_mul_add (fun u => cos u) hn d, integral_cos]
    have e : sin ((n : ℝ) * π + d) = sin ((n : ℝ) * -π + d) := by
      have := Real.sin_add_int_mul_two_pi ((n : ℝ) * -π + d) n
      rw [← this]; congr 1; ring
    rw [e, sub_self, smul_zero]

theorem cos_cont (n : ℤ) (d : ℝ) : IntervalIntegrable (fun t => cos (n * t + d)) MeasureTheory.volume
    (-π) π := (by fun_prop : Continuous fun t : ℝ => cos (n * t + d)).intervalIntegrable _ _

/-- The average of a product of two sines. -/
theorem sin_mul_sin (a n : ℤ) (B C : ℝ) :
    ∫ t in -π..π, sin (a * t + B) * sin (n * t + C)
      = (if a = n then π * cos (B - C) else 0) - (if a = -n then π * cos (B + C) else 0) := by
  have e : ∀ t : ℝ, sin (a * t + B) * sin (n * t + C)
      = 1 / 2 * cos (((a - n : ℤ) : ℝ) * t + (B - C)) - 1 / 2 * cos (((a + n : ℤ) : ℝ) * t + (B + C)) := by
    intro t
    have h1 : ((a - n : ℤ) : ℝ) * t + (B - C) = (a * t + B) - (n * t + C) := by push_cast; ring
    have h2 : ((a + n : ℤ) : ℝ) * t + (B + C) = (a * t + B) + (n * t + C) := by push_cast; ring
    rw [h1, h2]
    generalize (a : ℝ) * t + B = u
    generalize (n : ℝ) * t + C = v
    rw [cos_sub, cos_add]; ring
  simp_rw [e]
  rw [intervalIntegral.integral_sub ((cos_cont _ _).const_mul _) ((cos_cont _ _).const_mul _),
    intervalIntegral.integral_const_mul, intervalIntegral.integral_const_mul,
    integral_cos_turn, integral_cos_turn]
  have h1 : a - n = 0 ↔ a = n := sub_eq_zero
  have h2 : a + n = 0 ↔ a = -n := by omega
  simp only [h1, h2]
  split_ifs <;> ring

theorem sin_sin_int (c : ℝ) (a n : ℤ) (B C : ℝ) :
    IntervalIntegrable (fun t => c * (sin (a * t + B) * sin (n * t + C))) MeasureTheory.volume (-π) π :=
  (by fun_prop : Continuous fun t : ℝ => c * (sin (a * t + B) * sin (n * t + C))).intervalIntegrable _ _

/-- The moments of a cross-section that is linear in the polarisation. -/
theorem targetMoment_linear {σ : Vec3 → ℝ} {uu : ℝ} {up : Vec3} (h : ∀ eta, σ eta = uu + up.dot eta)
    (a b c : ℤ) (phi_h : ℝ) :
    targetMoment σ a b c phi_h = if a = 1 ∨ a = -1 then
      1 / 2 * sin ((a + b) * phi_h + c * (π / 2)) * up.x
        + 1 / 2 * a * sin ((a + b) * phi_h + (c + 1) * (π / 2)) * up.y
      else 0 := by
  have e : ∀ t : ℝ, sin (a * t + b * phi_h + c * (π / 2)) * (σ (transverse phi_h t) - σ .zero)
      = up.x * (sin (a * t + (b * phi_h + c * (π / 2))) * sin ((1 : ℤ) * t + (π / 2 - phi_h)))
        + up.y * (sin (a * t + (b * phi_h + c * (π / 2))) * sin ((1 : ℤ) * t + -phi_h)) := by
    intro t
    rw [h, h]
    have h1 : cos (t - phi_h) = sin ((1 : ℤ) * t + (π / 2 - phi_h)) := by
      rw [← sin_add_pi_div_two]; congr 1; push_cast; ring
    have h2 : sin (t - phi_h) = sin ((1 : ℤ) * t + -phi_h) := by congr 1; push_cast; ring
    simp only [transverse, Vec3.dot, Vec3.zero, h1, h2, add_assoc]
    ring
  unfold targetMoment
  simp_rw [e]
  rw [intervalIntegral.integral_add (sin_sin_int _ _ _ _ _) (sin_sin_int _ _ _ _ _),
    intervalIntegral.integral_const_mul, intervalIntegral.integral_const_mul, sin_mul_sin, sin_mul_sin]
  have hpi := Real.pi_pos
  by_cases h1 : a = 1
  · subst h1
    have : ¬ (1 : ℤ) = -1 := by decide
    simp only [this, if_true, if_false, true_or]
    have c1 : cos (b * phi_h + c * (π / 2) - (π / 2 - phi_h)) = sin ((1 + b) * phi_h + c * (π / 2)) := by
      rw [← cos_sub_pi_div_two]; congr 1; ring
    have c2 : cos (b * phi_h + c * (π / 2) - -phi_h) = sin ((1 + b) * phi_h + (c + 1) * (π / 2)) := by
      rw [← cos_sub_pi_div_two]; congr 1; ring
    push_cast
    rw [c1, c2]
    field_simp
    ring
  · by_cases h2 : a = -1
    · subst h2
      have : ¬ (-1 : ℤ) = 1 := by decide
      simp only [this, if_true, if_false, or_true]
      have c1 : cos (b * phi_h + c * (π / 2) + (π / 2 - phi_h)) = -sin ((-1 + b) * phi_h + c * (π / 2)) := by
        rw [← cos_add_pi_div_two]; congr 1; ring
      have c2 : cos (b * phi_h + c * (π / 2) + -phi_h) = sin ((-1 + b) * phi_h + (c + 1) * (π / 2)) := by
        rw [← cos_sub_pi_div_two]; congr 1; ring
      push_cast
      rw [c1, c2]
      field_simp
      ring
    · simp [h1, h2]

end Sidis.Azimuth
