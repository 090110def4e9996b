import Verif.Lemmas.Eps

/-! # Antisymmetric parts of traces with `γ5` -/

namespace Sidis.Dirac

open Spec Spec.Qed

/-- Five vectors are linearly dependent. -/
theorem schouten (v a b c d e : Vec4) :
    mink v a * eps b c d e - mink v b * eps a c d e + mink v c * eps a b d e - mink v d * eps a b c e
      + mink v e * eps a b c d = 0 := by
  simp only [eps_expand, mink]; ring

/-- The sum over the pairs of four vectors. -/
noncomputable def pairs (x y z w a b : Vec4) : ℝ :=
  mink x y * E4 z w a b - mink x z * E4 y w a b + mink x w * E4 y z a b + mink y z * E4 x w a b
    - mink y w * E4 x z a b + mink z w * E4 x y a b

theorem anti1 (x y z w a b : Vec4) : E6 x a y z w b - E6 x b y z w a = 2 * E4 x a (tri y z w) b := by
  simp only [E6_eq, E4, tri, eps_expand, mink, Vec4.add_t, Vec4.add_x, Vec4.add_y, Vec4.add_z, Vec4.sub_t,
    Vec4.sub_x, Vec4.sub_y, Vec4.sub_z, Vec4.smul_t, Vec4.smul_x, Vec4.smul_y, Vec4.smul_z]
  ring

theorem anti2 (x y z w a b : Vec4) : E6 a x y z w b - E6 b x y z w a = 2 * pairs x y z w a b := by
  simp only [E6_eq, E4, pairs, eps_expand, mink]
  ring

theorem anti3 (x y z w a b : Vec4) : E6 x a y b z w - E6 x b y a z w = 2 * E4 (tri z w x) a y b := by
  simp only [E6_eq, E4, tri, eps_expand, mink, Vec4.add_t, Vec4.add_x, Vec4.add_y, Vec4.add_z, Vec4.sub_t,
    Vec4.sub_x, Vec4.sub_y, Vec4.sub_z, Vec4.smul_t, Vec4.smul_x, Vec4.smul_y, Vec4.smul_z]
  ring

theorem anti4 (x y z w a b : Vec4) : E6 x y z a w b - E6 x y z b w a = 2 * E4 (tri x y z) a w b := by
  simp only [E6_eq, E4, tri, eps_expand, mink, Vec4.add_t, Vec4.add_x, Vec4.add_y, Vec4.add_z, Vec4.sub_t,
    Vec4.sub_x, Vec4.sub_y, Vec4.sub_z, Vec4.smul_t, Vec4.smul_x, Vec4.smul_y, Vec4.smul_z]
  ring

theorem anti5 (x y z w a b : Vec4) : E6 x y a z w b - E6 x y b z w a =
    2 * (mink x y * E4 z w a b + mink z w * E4 x y a b) := by
  simp only [E6_eq, E4, eps_expand, mink]
  ring

theorem anti6 (x y z w a b : Vec4) : E6 a x y b z w - E6 b x y a z w =
    2 * (mink x y * E4 z w a b + mink z w * E4 x y a b) := by
  simp only [E6_eq, E4, eps_expand, mink]
  ring

end Sidis.Dirac
