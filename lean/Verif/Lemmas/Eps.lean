import Verif.Lemmas.DiracTensor

/-! # The Levi-Civita symbol: normal forms -/

namespace Sidis.Dirac

open Spec Spec.Qed

theorem eps_perm (a b c d : Vec4) :
    eps a b d c = -eps a b c d ∧
    eps a c b d = -eps a b c d ∧
    eps a c d b = eps a b c d ∧
    eps a d b c = eps a b c d ∧
    eps a d c b = -eps a b c d ∧
    eps b a c d = -eps a b c d ∧
    eps b a d c = eps a b c d ∧
    eps b c a d = eps a b c d ∧
    eps b c d a = -eps a b c d ∧
    eps b d a c = -eps a b c d ∧
    eps b d c a = eps a b c d ∧
    eps c a b d = eps a b c d ∧
    eps c a d b = -eps a b c d ∧
    eps c b a d = -eps a b c d ∧
    eps c b d a = eps a b c d ∧
    eps c d a b = eps a b c d ∧
    eps c d b a = -eps a b c d ∧
    eps d a b c = -eps a b c d ∧
    eps d a c b = eps a b c d ∧
    eps d b a c = eps a b c d ∧
    eps d b c a = -eps a b c d ∧
    eps d c a b = -eps a b c d ∧
    eps d c b a = eps a b c d := by
  refine ⟨?_, ?_, ?_, ?_, ?_, ?_, ?_, ?_, ?_, ?_, ?_, ?_, ?_, ?_, ?_, ?_, ?_, ?_, ?_, ?_, ?_, ?_, ?_⟩ <;>
    (simp only [eps_expand]; ring)

theorem eps_12 (a b c : Vec4) : eps a a b c = 0 := by simp only [eps_expand]; ring
theorem eps_13 (a b c : Vec4) : eps a b a c = 0 := by simp only [eps_expand]; ring
theorem eps_14 (a b c : Vec4) : eps a b c a = 0 := by simp only [eps_expand]; ring
theorem eps_23 (a b c : Vec4) : eps b a a c = 0 := by simp only [eps_expand]; ring
theorem eps_24 (a b c : Vec4) : eps b a c a = 0 := by simp only [eps_expand]; ring
theorem eps_34 (a b c : Vec4) : eps b c a a = 0 := by simp only [eps_expand]; ring

theorem eps_add1 (x y b c d : Vec4) : eps (x + y) b c d = eps x b c d + eps y b c d := by
  simp only [eps_expand, Vec4.add_t, Vec4.add_x, Vec4.add_y, Vec4.add_z]; ring
theorem eps_sub1 (x y b c d : Vec4) : eps (x - y) b c d = eps x b c d - eps y b c d := by
  simp only [eps_expand, Vec4.sub_t, Vec4.sub_x, Vec4.sub_y, Vec4.sub_z]; ring
theorem eps_smul1 (r : ℝ) (x b c d : Vec4) : eps (r • x) b c d = r * eps x b c d := by
  simp only [eps_expand, Vec4.smul_t, Vec4.smul_x, Vec4.smul_y, Vec4.smul_z]; ring

theorem eps_sub2 (x y b c d : Vec4) : eps b (x - y) c d = eps b x c d - eps b y c d := by
  simp only [eps_expand, Vec4.sub_t, Vec4.sub_x, Vec4.sub_y, Vec4.sub_z]; ring
theorem eps_smul2 (r : ℝ) (x b c d : Vec4) : eps b (r • x) c d = r * eps b x c d := by
  simp only [eps_expand, Vec4.smul_t, Vec4.smul_x, Vec4.smul_y, Vec4.smul_z]; ring

theorem eps_sub3 (x y b c d : Vec4) : eps b c (x - y) d = eps b c x d - eps b c y d := by
  simp only [eps_expand, Vec4.sub_t, Vec4.sub_x, Vec4.sub_y, Vec4.sub_z]; ring
theorem eps_smul3 (r : ℝ) (x b c d : Vec4) : eps b c (r • x) d = r * eps b c x d := by
  simp only [eps_expand, Vec4.smul_t, Vec4.smul_x, Vec4.smul_y, Vec4.smul_z]; ring

theorem eps_sub4 (x y b c d : Vec4) : eps b c d (x - y) = eps b c d x - eps b c d y := by
  simp only [eps_expand, Vec4.sub_t, Vec4.sub_x, Vec4.sub_y, Vec4.sub_z]; ring
theorem eps_smul4 (r : ℝ) (x b c d : Vec4) : eps b c d (r • x) = r * eps b c d x := by
  simp only [eps_expand, Vec4.smul_t, Vec4.smul_x, Vec4.smul_y, Vec4.smul_z]; ring

theorem eps_swap2 (n a b c : Vec4) : eps a n b c = -eps n a b c := by simp only [eps_expand]; ring
theorem eps_swap3 (n a b c : Vec4) : eps a b n c = eps n a b c := by simp only [eps_expand]; ring
theorem eps_swap4 (n a b c : Vec4) : eps a b c n = -eps n a b c := by simp only [eps_expand]; ring

/-- The product of two oriented volumes. -/
theorem normal_normal (a b c d e f : Vec4) : mink (normal a b c) (normal d e f) =
    -(mink a d * (mink b e * mink c f - mink b f * mink c e)
      - mink a e * (mink b d * mink c f - mink b f * mink c d)
      + mink a f * (mink b d * mink c e - mink b e * mink c d)) := by
  simp only [mink, normal, eps_expand]
  ring

theorem eps_normal (a b c d e f : Vec4) : eps (normal a b c) d e f =
    -(mink a d * (mink b e * mink c f - mink b f * mink c e)
      - mink a e * (mink b d * mink c f - mink b f * mink c d)
      + mink a f * (mink b d * mink c e - mink b e * mink c d)) := by
  rw [← normal_normal, mink_normal]

/-- The square of an oriented volume is minus the Gram determinant. -/
theorem eps_sq (a b c d : Vec4) : eps a b c d ^ 2 =
    -(!![mink a a, mink a b, mink a c, mink a d; mink a b, mink b b, mink b c, mink b d;
      mink a c, mink b c, mink c c, mink c d; mink a d, mink b d, mink c d, mink d d] :
      Matrix (Fin 4) (Fin 4) ℝ).det := by
  simp [Matrix.det_succ_row_zero, Fin.sum_univ_succ, Fin.succAbove, eps_expand, mink]
  ring

theorem E6_eq (a b c d e f : Vec4) : E6 a b c d e f =
    mink d e * eps f a b c - mink d f * eps e a b c + mink e f * eps d a b c
    - (mink a b * eps c d e f - mink a c * eps b d e f + mink b c * eps a d e f) := by
  rw [E6, mink_comm (normal a b c), tri, tri]
  simp only [mink_normal, eps_add1, eps_sub1, eps_smul1]

theorem T6_eq (a b c d e f : Vec4) : T6 a b c d e f =
    mink a b * T4 c d e f - mink a c * T4 b d e f + mink a d * T4 b c e f - mink a e * T4 b c d f
    + mink a f * T4 b c d e := by
  rw [T6, normal_normal, tri, tri]
  simp only [mink_add_left, mink_sub_left, mink_smul_left, mink_add_right, mink_sub_right,
    mink_smul_right, T4]
  ring

end Sidis.Dirac
