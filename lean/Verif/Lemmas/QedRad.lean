import Verif.Lemmas.QedBorn

/-! # The tensor with a radiated photon: closed form -/

namespace Sidis.Dirac

open Spec Spec.Qed Matrix

section
variable (k1 k2 k s u : Vec4) (m c1 c2 : ℝ)

/-- The contraction with two vectors of the tensor with a radiated photon. -/
noncomputable def radG (lambda : ℝ) (a b : Vec4) : ℂ :=
  ∑ α, (-(metric α : ℝ) : ℂ) * pairing k1 k2 m lambda s (vtx u k c1 c2 α (slash a))
    (vtxBar u k c1 c2 α (slash b))

/-- Its symmetric part. -/
noncomputable def radU (a b : Vec4) : ℝ :=
  mink u u * (T4 k2 a k1 b + m ^ 2 * mink a b)
  - c1 * (T6 k2 a k1 u k b + m ^ 2 * T4 a u k b) - c2 * (T6 k2 a k1 b k u + m ^ 2 * T4 a b k u)
  - c1 * (T6 k2 a k u k1 b + m ^ 2 * T4 a k u b) - c2 * (T6 k2 u k a k1 b + m ^ 2 * T4 u k a b)
  + c1 ^ 2 * (-4 * mink k1 k * T4 k2 a k b) + 2 * (c1 * c2 * (4 * m ^ 2 * (mink a k * mink b k)))
  + c2 ^ 2 * (-4 * mink k2 k * T4 k a k1 b)

/-- Its polarised part. -/
noncomputable def radP₀ (a b : Vec4) : ℝ :=
  mink u u * (m * (E4 k2 a s b + E4 a k1 s b))
  - c1 * (m * (E6 k2 a s u k b + E6 a k1 s u k b)) - c2 * (m * (E6 k2 a s b k u + E6 a k1 s b k u))
  - c1 * (m * (E6 k2 a k u s b + E6 a k u k1 s b)) - c2 * (m * (E6 k2 u k a s b + E6 u k a k1 s b))
  + c1 ^ 2 * (-4 * m * mink s k * E4 k2 a k b)
  + c1 * c2 * (-4 * m * mink a k * E4 k b s k1 - 4 * m * mink b k * E4 k k1 s a)
  + c2 ^ 2 * (-4 * m * mink k2 k * E4 k a s b)

variable {k1 k2 k s m}

theorem radG_eq (hk : mink k k = 0) (hs : mink k1 s = 0) (lambda : ℝ) (a b : Vec4) :
    radG k1 k2 k s u m c1 c2 lambda a b = -(4 * (radU k1 k2 k u m c1 c2 a b : ℂ)
      + lambda * (4 * Complex.I * (radP₀ k1 k2 k s u m c1 c2 a b : ℂ))) := by
  have h0 := sum_vtx u k c1 c2 (slash a) (unpolarised k1 m) (slash b)
  have h5 := sum_vtx u k c1 c2 (slash a) (unpolarised k1 m * (gamma5 * slash s)) (slash b)
  have e : radG k1 k2 k s u m c1 c2 lambda a b =
      -((unpolarised k2 m * ∑ α, (metric α : ℂ) • (vtx u k c1 c2 α (slash a) * unpolarised k1 m
        * vtxBar u k c1 c2 α (slash b))).trace
      + lambda * (unpolarised k2 m * ∑ α, (metric α : ℂ) • (vtx u k c1 c2 α (slash a) *
        (unpolarised k1 m * (gamma5 * slash s)) * vtxBar u k c1 c2 α (slash b))).trace) := by
    simp only [radG, pairing, polarised, Fin.sum_univ_four, mul_add, add_mul, mul_one, trace_add,
      smul_mul_assoc, mul_smul_comm, trace_smul, smul_eq_mul, neg_mul]
    ring
  rw [e, h0, h5]
  simp only [mul_add, mul_sub, mul_smul_comm, trace_add, trace_sub, trace_smul, smul_eq_mul]
  rw [trU1, trU2, trU3, trU4, trU5, trU6 k1 k2 m hk, trU7 k1 k2 m hk, trU8 k1 k2 m hk, trU9 k1 k2 m hk,
    trP1, trP2, trP3, trP4, trP5, trP6 _ _ hk hs, trP7 _ _ hk, trP8 _ _ hk hs, trP9 _ _ hk]
  rw [radU, radP₀]
  push_cast
  ring


theorem vtx_add (α : Fin 4) (X Y : Spinor) (d1 d2 : ℂ) :
    vtx u k d1 d2 α (X + Y) = vtx u k d1 d2 α X + vtx u k d1 d2 α Y := by
  simp only [vtx, add_mul, mul_add, smul_add]; abel

theorem vtx_smul (α : Fin 4) (c : ℂ) (X : Spinor) (d1 d2 : ℂ) :
    vtx u k d1 d2 α (c • X) = c • vtx u k d1 d2 α X := by
  simp only [vtx, smul_mul_assoc, mul_smul_comm, smul_sub, smul_comm c]

theorem vtxBar_add (α : Fin 4) (X Y : Spinor) (d1 d2 : ℂ) :
    vtxBar u k d1 d2 α (X + Y) = vtxBar u k d1 d2 α X + vtxBar u k d1 d2 α Y := by
  simp only [vtxBar, add_mul, mul_add, smul_add]; abel

theorem vtxBar_smul (α : Fin 4) (c : ℂ) (X : Spinor) (d1 d2 : ℂ) :
    vtxBar u k d1 d2 α (c • X) = c • vtxBar u k d1 d2 α X := by
  simp only [vtxBar, smul_mul_assoc, mul_smul_comm, smul_sub, smul_comm c]

theorem radG_bilin (lambda : ℝ) : Bilin (radG k1 k2 k s u m c1 c2 lambda) := by
  constructor <;> intros <;>
    simp only [radG, pairing, slash_add, slash_smul, vtx_add, vtx_smul, vtxBar_add, vtxBar_smul,
      add_mul, mul_add, trace_add, smul_mul_assoc, mul_smul_comm, trace_smul, smul_eq_mul,
      Fin.sum_univ_four] <;> ring

theorem bar_vtx (α : Fin 4) (a : Vec4) :
    bar (vtx u k c1 c2 α (slash a)) = vtxBar u k c1 c2 α (slash a) := by
  have e : vtx u k c1 c2 α (slash a) = (component u α : ℂ) • slash a
      + (-(c1 : ℂ)) • (slash a * slash k * gamma α) + (-(c2 : ℂ)) • (gamma α * slash k * slash a) := by
    rw [vtx]; module
  rw [e]
  simp only [bar_add, bar_smul, bar_mul, bar_slash, gamma_adj, map_neg, Complex.conj_ofReal, vtxBar,
    ← mul_assoc]
  module

theorem radG_conj (hs : mink k1 s = 0) (lambda : ℝ) (a b : Vec4) :
    (starRingEnd ℂ) (radG k1 k2 k s u m c1 c2 lambda a b) = radG k1 k2 k s u m c1 c2 lambda b a := by
  rw [radG, map_sum, radG]
  refine Finset.sum_congr rfl fun α _ => ?_
  rw [map_mul, map_neg, Complex.conj_ofReal, pairing_conj k2 hs, bar_vtx, ← bar_vtx, bar_bar]

/-- Gauge invariance: the current is conserved. -/
theorem ward (h1 : mink k1 k1 = m ^ 2) (h2 : mink k2 k2 = m ^ 2) (hk : mink k k = 0)
    (n1 : mink k1 k ≠ 0) (n2 : mink k2 k ≠ 0) (α : Fin 4) :
    unpolarised k2 m * (vtx (eik k1 k2 k) k (1 / (2 * mink k1 k) : ℝ) (1 / (2 * mink k2 k) : ℝ) α
      (slash (k1 - k2 - k)) * unpolarised k1 m) = 0 := by
  have a1 : 2 * (1 / (2 * mink k1 k)) * mink k1 k = 1 := by field_simp
  have a2 : 2 * (1 / (2 * mink k2 k)) * mink k2 k = 1 := by field_simp
  rw [vtx, comp_eik]
  generalize (1 / (2 * mink k1 k)) = c1 at *
  generalize (1 / (2 * mink k2 k)) = c2 at *
  have e1 : slash k1 * slash k = ((2 * mink k1 k : ℝ) : ℂ) • 1 - slash k * slash k1 := by
    rw [← slash_anti]; abel
  have e2 : slash k * slash k2 = ((2 * mink k2 k : ℝ) : ℂ) • 1 - slash k2 * slash k := by
    rw [mink_comm, ← slash_anti]; abel
  have kk : slash k * slash k = 0 := by rw [slash_sq, hk]; simp
  have r1 := on_shell_right h1
  have l2 := on_shell_left h2
  have g1 : slash k1 * gamma α = ((2 * component k1 α : ℝ) : ℂ) • 1 - gamma α * slash k1 := by
    rw [gamma_slash]; abel
  have g2 := gamma_slash α k2
  set A := unpolarised k1 m
  set B := unpolarised k2 m
  have t0 : B * (slash (k1 - k2 - k) * A) = -(B * slash k * A) := by
    rw [slash_sub, slash_sub, sub_mul, sub_mul, r1, mul_sub, mul_sub, ← mul_assoc B (slash k2), l2,
      ← mul_assoc]
    simp only [mul_smul_comm, smul_mul_assoc]
    module
  have t1 : B * (slash (k1 - k2 - k) * slash k * gamma α * A) =
      ((2 * mink k1 k : ℝ) : ℂ) • (B * gamma α * A)
        - ((2 * component k1 α : ℝ) : ℂ) • (B * slash k * A) := by
    have : B * (slash (k1 - k2 - k) * slash k * gamma α * A) =
        B * (slash k1 * slash k) * (gamma α * A) - (B * slash k2) * (slash k * gamma α * A)
          - B * (slash k * slash k) * (gamma α * A) := by
      rw [slash_sub, slash_sub]; simp only [sub_mul, mul_sub, mul_assoc]
    rw [this, l2, kk, e1]
    have : B * (((2 * mink k1 k : ℝ) : ℂ) • 1 - slash k * slash k1) * (gamma α * A) =
        ((2 * mink k1 k : ℝ) : ℂ) • (B * gamma α * A) - B * slash k * (slash k1 * gamma α) * A := by
      simp only [sub_mul, mul_sub, mul_assoc, smul_mul_assoc, mul_smul_comm, one_mul]
    rw [this, g1]
    have : B * slash k * (((2 * component k1 α : ℝ) : ℂ) • 1 - gamma α * slash k1) * A =
        ((2 * component k1 α : ℝ) : ℂ) • (B * slash k * A) - B * slash k * gamma α * (slash k1 * A) := by
      simp only [sub_mul, mul_sub, mul_assoc, smul_mul_assoc, mul_smul_comm, one_mul]
    rw [this, r1]
    simp only [mul_smul_comm, smul_mul_assoc, mul_assoc, mul_zero, zero_mul]
    module
  have t2 : B * (gamma α * slash k * slash (k1 - k2 - k) * A) =
      -(((2 * mink k2 k : ℝ) : ℂ) • (B * gamma α * A))
        + ((2 * component k2 α : ℝ) : ℂ) • (B * slash k * A) := by
    have : B * (gamma α * slash k * slash (k1 - k2 - k) * A) =
        B * gamma α * slash k * (slash k1 * A) - B * gamma α * (slash k * slash k2) * A
          - B * gamma α * (slash k * slash k) * A := by
      rw [slash_sub, slash_sub]; simp only [sub_mul, mul_sub, mul_assoc]
    rw [this, r1, kk, e2]
    have : B * gamma α * (((2 * mink k2 k : ℝ) : ℂ) • 1 - slash k2 * slash k) * A =
        ((2 * mink k2 k : ℝ) : ℂ) • (B * gamma α * A) - B * (gamma α * slash k2) * slash k * A := by
      simp only [sub_mul, mul_sub, mul_assoc, smul_mul_assoc, mul_smul_comm, one_mul]
    rw [this, g2]
    have : B * (((2 * component k2 α : ℝ) : ℂ) • 1 - slash k2 * gamma α) * slash k * A =
        ((2 * component k2 α : ℝ) : ℂ) • (B * slash k * A) - (B * slash k2) * gamma α * slash k * A := by
      simp only [sub_mul, mul_sub, mul_assoc, smul_mul_assoc, mul_smul_comm, one_mul]
    rw [this, l2]
    simp only [mul_smul_comm, smul_mul_assoc, mul_assoc, mul_zero, zero_mul]
    module
  have : B * ((((2 * c1 * component k1 α - 2 * c2 * component k2 α : ℝ) : ℂ) • slash (k1 - k2 - k)
      - (c1 : ℂ) • (slash (k1 - k2 - k) * slash k * gamma α)
      - (c2 : ℂ) • (gamma α * slash k * slash (k1 - k2 - k))) * A) =
      ((2 * c1 * component k1 α - 2 * c2 * component k2 α : ℝ) : ℂ) • (B * (slash (k1 - k2 - k) * A))
      - (c1 : ℂ) • (B * (slash (k1 - k2 - k) * slash k * gamma α * A))
      - (c2 : ℂ) • (B * (gamma α * slash k * slash (k1 - k2 - k) * A)) := by
    simp only [sub_mul, mul_sub, smul_mul_assoc, mul_smul_comm]
  rw [this, t0, t1, t2]
  have : ((2 * c1 * component k1 α - 2 * c2 * component k2 α : ℝ) : ℂ) • -(B * slash k * A)
      - (c1 : ℂ) • (((2 * mink k1 k : ℝ) : ℂ) • (B * gamma α * A)
        - ((2 * component k1 α : ℝ) : ℂ) • (B * slash k * A))
      - (c2 : ℂ) • (-(((2 * mink k2 k : ℝ) : ℂ) • (B * gamma α * A))
        + ((2 * component k2 α : ℝ) : ℂ) • (B * slash k * A)) =
      ((2 * c2 * mink k2 k - 2 * c1 * mink k1 k : ℝ) : ℂ) • (B * gamma α * A) := by
    push_cast
    module
  rw [this, a1, a2]
  simp

theorem radG_left (h1 : mink k1 k1 = m ^ 2) (h2 : mink k2 k2 = m ^ 2) (hk : mink k k = 0)
    (n1 : mink k1 k ≠ 0) (n2 : mink k2 k ≠ 0) (lambda : ℝ) (b : Vec4) :
    radG k1 k2 k s (eik k1 k2 k) m (1 / (2 * mink k1 k)) (1 / (2 * mink k2 k)) lambda
      (k1 - k2 - k) b = 0 := by
  rw [radG]
  refine Finset.sum_eq_zero fun α _ => ?_
  have e : ∀ X Z Y : Spinor, unpolarised k2 m * (X * (unpolarised k1 m * Z) * Y) =
      unpolarised k2 m * (X * unpolarised k1 m) * (Z * Y) := fun X Z Y => by simp only [mul_assoc]
  rw [pairing, polarised, e, ward h1 h2 hk n1 n2, zero_mul, trace_zero, mul_zero]

theorem radG_right (hs : mink k1 s = 0) (h1 : mink k1 k1 = m ^ 2) (h2 : mink k2 k2 = m ^ 2)
    (hk : mink k k = 0) (n1 : mink k1 k ≠ 0) (n2 : mink k2 k ≠ 0) (lambda : ℝ) (a : Vec4) :
    radG k1 k2 k s (eik k1 k2 k) m (1 / (2 * mink k1 k)) (1 / (2 * mink k2 k)) lambda
      a (k1 - k2 - k) = 0 := by
  have := radG_conj (k2 := k2) (k := k) (m := m) (eik k1 k2 k) (1 / (2 * mink k1 k))
    (1 / (2 * mink k2 k)) hs lambda (k1 - k2 - k) a
  rw [← this, radG_left h1 h2 hk n1 n2, map_zero]

theorem radG_tensor (hs : mink k1 s = 0) (h1 : mink k1 k1 = m ^ 2) (h2 : mink k2 k2 = m ^ 2)
    (hk : mink k k = 0) (lambda : ℝ) (μ ν : Fin 4) :
    radiativeTensor k1 k2 k m lambda s μ ν = radG k1 k2 k s (eik k1 k2 k) m (1 / (2 * mink k1 k))
      (1 / (2 * mink k2 k)) lambda (bas μ) (bas ν) := by
  rw [radiativeTensor, radG]
  refine Finset.sum_congr rfl fun α _ => ?_
  congr 1
  rw [currentTensor, pairing, slash_bas, slash_bas]
  have el := emission_left (s := s) h1 h2 hk lambda α μ
  have er := emission_right h1 h2 hk hs lambda α ν
  rw [el]
  generalize vtx (eik k1 k2 k) k ((1 / (2 * mink k1 k) : ℝ) : ℂ) ((1 / (2 * mink k2 k) : ℝ) : ℂ) α (gamma μ) = V at *
  have : -(unpolarised k2 m * V * polarised k1 m lambda s) * bar (emissionVertex k1 k2 k m α ν) =
      -(unpolarised k2 m * (V * (polarised k1 m lambda s * bar (emissionVertex k1 k2 k m α ν)))) := by
    simp only [neg_mul, mul_assoc]
  rw [this, trace_neg, trace_mul_comm]
  have : V * (polarised k1 m lambda s * bar (emissionVertex k1 k2 k m α ν)) * unpolarised k2 m =
      V * (polarised k1 m lambda s * bar (emissionVertex k1 k2 k m α ν) * unpolarised k2 m) := by
    simp only [mul_assoc]
  rw [this, er, mul_neg, trace_neg, neg_neg, trace_mul_comm (unpolarised k2 m)]
  simp only [mul_assoc]

end

end Sidis.Dirac
