import Verif.Lemmas.QedRad
import Verif.Lemmas.EpsAnti
import Verif.Lemmas.RadGeom

/-! # The tensor with a radiated photon: components -/

namespace Sidis.Dirac

open Spec Spec.Qed Matrix

/-- The antisymmetric part of the tensor with a radiated photon. -/
noncomputable def radP (k1 k2 k s u : Vec4) (m c1 c2 : ℝ) (a b : Vec4) : ℝ :=
  m * (mink u u * (E4 k2 a s b + E4 a k1 s b)
  - c1 * (E4 k2 a (tri s u k) b + pairs k1 s u k a b)
  - c2 * (E4 (tri k u k2) a s b + (mink k1 s * E4 k u a b + mink k u * E4 k1 s a b))
  - c1 * (E4 k2 a (tri k u s) b + pairs k u k1 s a b)
  - c2 * (E4 (tri k2 u k) a s b + (mink u k * E4 k1 s a b + mink k1 s * E4 u k a b))
  + c1 ^ 2 * (-4 * mink s k * E4 k2 a k b)
  + c1 * c2 * (-4 * (mink k s * eps a b k k1 - mink k k1 * eps a b k s))
  + c2 ^ 2 * (-4 * mink k2 k * E4 k a s b))

theorem radP_anti {k : Vec4} (hk : mink k k = 0) (k1 k2 s u : Vec4) (m c1 c2 : ℝ) (a b : Vec4) :
    radP₀ k1 k2 k s u m c1 c2 a b - radP₀ k1 k2 k s u m c1 c2 b a =
      2 * radP k1 k2 k s u m c1 c2 a b := by
  have e1 := anti1 k2 s u k a b
  have e2 := anti2 k1 s u k a b
  have e3 := anti3 k2 s k u a b
  have e4 := anti6 k1 s k u a b
  have e5 := anti1 k2 k u s a b
  have e6 := anti2 k u k1 s a b
  have e7 := anti4 k2 u k s a b
  have e8 := anti5 u k k1 s a b
  have f1 : E4 k2 b s a = -E4 k2 a s b := by simp only [E4, eps_expand]; ring
  have f2 : E4 b k1 s a = -E4 a k1 s b := by simp only [E4, eps_expand]; ring
  have f3 : E4 k2 b k a = -E4 k2 a k b := by simp only [E4, eps_expand]; ring
  have f4 : E4 k b s a = -E4 k a s b := by simp only [E4, eps_expand]; ring
  have sc := schouten k a b k s k1
  have g1 : E4 k b s k1 = eps b k s k1 := by simp only [E4, eps_expand]; ring
  have g2 : E4 k k1 s a = eps a k s k1 * (-1) := by simp only [E4, eps_expand]; ring
  have g3 : E4 k a s k1 = eps a k s k1 := by simp only [E4, eps_expand]; ring
  have g4 : E4 k k1 s b = eps b k s k1 * (-1) := by simp only [E4, eps_expand]; ring
  rw [hk] at sc
  unfold radP₀ radP
  rw [f1, f2, f3, f4, g1, g2, g3, g4, mink_comm a k, mink_comm b k]
  linear_combination (-c1 * m) * (e1 + e2 + e5 + e6) - c2 * m * (e3 + e4 + e7 + e8)
    - 8 * c1 * c2 * m * sc

/-- The invariants of a photon with the momenta of `Dots`. -/
structure RadDots (K : KinematicsRad ℝ) (p k1 q h k : Vec4) : Prop where
  dots : Dots K.project p k1 q h
  kk : mink k k = 0
  pk : mink p k = K.R / 2
  qk : mink q k = K.R * K.tau / 2
  k1k : mink k1 k = K.R * K.z_1 / 2
  hk : mink h k = K.R * K.mu / 2
  volk : eps k p k1 q = K.R * K.vol_phi_k_R
  volhk : eps k p h q = K.vol_phi_hk
  svol : eps h p k1 k = K.vol_phi_h - K.shift_vol_phi_h

end Sidis.Dirac
