import Verif.Lemmas.DiracTrace

/-! # The radiative leptonic tensor -/

namespace Sidis.Dirac

open Spec Spec.Qed Matrix

/-- The vertex with a photon between on-shell leptons, `γ^μ` replaced by `X`. -/
noncomputable def vtx (u k : Vec4) (c1 c2 : ℂ) (α : Fin 4) (X : Spinor) : Spinor :=
  (component u α : ℂ) • X - c1 • (X * slash k * gamma α) - c2 • (gamma α * slash k * X)

/-- Its adjoint. -/
noncomputable def vtxBar (u k : Vec4) (c1 c2 : ℂ) (α : Fin 4) (X : Spinor) : Spinor :=
  (component u α : ℂ) • X - c1 • (gamma α * slash k * X) - c2 • (X * slash k * gamma α)

theorem sum_vtx (u k : Vec4) (c1 c2 : ℂ) (X A Y : Spinor) :
    ∑ α, (metric α : ℂ) • (vtx u k c1 c2 α X * A * vtxBar u k c1 c2 α Y) =
      (mink u u : ℂ) • (X * A * Y)
      - c1 • (X * A * slash u * slash k * Y) - c2 • (X * A * Y * slash k * slash u)
      - c1 • (X * slash k * slash u * A * Y) - c2 • (slash u * slash k * X * A * Y)
      + (c1 * c1) • (X * slash k * contr A * slash k * Y)
      + (c1 * c2) • (X * slash k * contr (A * Y * slash k))
      + (c1 * c2) • (contr (slash k * X * A) * slash k * Y)
      + (c2 * c2) • contr (slash k * X * A * Y * slash k) := by
  have eu : slash u = ∑ α, ((metric α * component u α : ℝ) : ℂ) • gamma α := rfl
  have em : (mink u u : ℂ) = ∑ α, ((metric α * component u α * component u α : ℝ) : ℂ) := by
    simp only [Fin.sum_univ_four, metric, component, mink]
    simp; ring
  rw [eu, em]
  simp only [contr, vtx, vtxBar, Fin.sum_univ_four, add_mul, mul_add, sub_mul, mul_sub,
    smul_mul_assoc, mul_smul_comm, smul_add, smul_sub, smul_smul, mul_assoc]
  push_cast
  module

theorem tr7_5 (a b c d e f g : Vec4) :
    (gamma5 * (slash a * slash b * slash c * slash d * slash e * slash f * slash g)).trace = 0 :=
  tr_odd5 (by simp only [mul_assoc, gamma5_slash, gamma5_mul_slash, mul_neg, neg_neg])

section
variable (k1 k2 k s : Vec4) (m : ℝ)

local notation "A₀" => unpolarised k1 m
local notation "B₀" => unpolarised k2 m
local notation "A₅" => unpolarised k1 m * (gamma5 * slash s)

/-- Normal form: products to the left, `γ5` in front. -/
macro "norm_tr" : tactic => `(tactic|
  (simp only [unpolarised, add_mul, mul_add, smul_mul_assoc, mul_smul_comm, one_mul, mul_one,
      trace_add, trace_smul, smul_smul, mul_assoc, gamma5_mul_slash, mul_neg, neg_mul, trace_neg,
      smul_neg, neg_neg]
   simp only [← mul_assoc]
   try simp only [mul_assoc gamma5]))

theorem trU1 (a b : Vec4) : (B₀ * (slash a * A₀ * slash b)).trace =
    4 * ((T4 k2 a k1 b + m ^ 2 * mink a b : ℝ) : ℂ) := by
  norm_tr
  simp only [tr4, tr3, tr2]
  push_cast
  simp only [smul_eq_mul]
  ring

theorem trP1 (a b : Vec4) : (B₀ * (slash a * A₅ * slash b)).trace =
    4 * Complex.I * ((m * (E4 k2 a s b + E4 a k1 s b) : ℝ) : ℂ) := by
  norm_tr
  simp only [tr4_5, tr3_5, tr5_5, tr3, tr2]
  push_cast
  simp only [smul_eq_mul]
  ring

theorem trU2 (a b u : Vec4) : (B₀ * (slash a * A₀ * slash u * slash k * slash b)).trace =
    4 * ((T6 k2 a k1 u k b + m ^ 2 * T4 a u k b : ℝ) : ℂ) := by
  norm_tr
  simp only [tr6, tr5, tr4, tr3, tr2]
  push_cast
  simp only [smul_eq_mul]
  ring

theorem trU3 (a b u : Vec4) : (B₀ * (slash a * A₀ * slash b * slash k * slash u)).trace =
    4 * ((T6 k2 a k1 b k u + m ^ 2 * T4 a b k u : ℝ) : ℂ) := by
  norm_tr
  simp only [tr6, tr5, tr4, tr3, tr2]
  push_cast
  simp only [smul_eq_mul]
  ring

theorem trU4 (a b u : Vec4) : (B₀ * (slash a * slash k * slash u * A₀ * slash b)).trace =
    4 * ((T6 k2 a k u k1 b + m ^ 2 * T4 a k u b : ℝ) : ℂ) := by
  norm_tr
  simp only [tr6, tr5, tr4, tr3, tr2]
  push_cast
  simp only [smul_eq_mul]
  ring

theorem trU5 (a b u : Vec4) : (B₀ * (slash u * slash k * slash a * A₀ * slash b)).trace =
    4 * ((T6 k2 u k a k1 b + m ^ 2 * T4 u k a b : ℝ) : ℂ) := by
  norm_tr
  simp only [tr6, tr5, tr4, tr3, tr2]
  push_cast
  simp only [smul_eq_mul]
  ring

theorem trP2 (a b u : Vec4) : (B₀ * (slash a * A₅ * slash u * slash k * slash b)).trace =
    4 * Complex.I * ((m * (E6 k2 a s u k b + E6 a k1 s u k b) : ℝ) : ℂ) := by
  norm_tr
  simp only [tr6_5, tr4_5, tr3_5, tr5_5, tr7_5, tr2_5]
  push_cast
  simp only [smul_eq_mul]
  ring

theorem trP3 (a b u : Vec4) : (B₀ * (slash a * A₅ * slash b * slash k * slash u)).trace =
    4 * Complex.I * ((m * (E6 k2 a s b k u + E6 a k1 s b k u) : ℝ) : ℂ) := by
  norm_tr
  simp only [tr6_5, tr4_5, tr3_5, tr5_5, tr7_5, tr2_5]
  push_cast
  simp only [smul_eq_mul]
  ring

theorem trP4 (a b u : Vec4) : (B₀ * (slash a * slash k * slash u * A₅ * slash b)).trace =
    4 * Complex.I * ((m * (E6 k2 a k u s b + E6 a k u k1 s b) : ℝ) : ℂ) := by
  norm_tr
  simp only [tr6_5, tr4_5, tr3_5, tr5_5, tr7_5, tr2_5]
  push_cast
  simp only [smul_eq_mul]
  ring

theorem trP5 (a b u : Vec4) : (B₀ * (slash u * slash k * slash a * A₅ * slash b)).trace =
    4 * Complex.I * ((m * (E6 k2 u k a s b + E6 u k a k1 s b) : ℝ) : ℂ) := by
  norm_tr
  simp only [tr6_5, tr4_5, tr3_5, tr5_5, tr7_5, tr2_5]
  push_cast
  simp only [smul_eq_mul]
  ring

theorem contr_unpolarised (l : Vec4) :
    contr (unpolarised l m) = (-2 : ℂ) • slash l + (4 * (m : ℂ)) • 1 := by
  rw [unpolarised, contr_add, contr_slash, contr_smul, contr_one, smul_smul, mul_comm]

variable {k}

theorem sandwich_unpolarised (hk : mink k k = 0) (l : Vec4) :
    slash k * contr (unpolarised l m) * slash k = ((-4 * mink l k : ℝ) : ℂ) • slash k := by
  rw [contr_unpolarised, mul_add, add_mul, mul_smul_comm, smul_mul_assoc, slash_sandwich hk,
    mul_smul_comm, smul_mul_assoc, mul_one, slash_null hk, smul_zero, add_zero, smul_smul]
  push_cast; ring_nf

theorem trU6 (hk : mink k k = 0) (a b : Vec4) :
    (B₀ * (slash a * slash k * contr A₀ * slash k * slash b)).trace =
      4 * ((-4 * mink k1 k * T4 k2 a k b : ℝ) : ℂ) := by
  have : slash a * slash k * contr A₀ * slash k * slash b
      = slash a * (slash k * contr A₀ * slash k) * slash b := by simp only [mul_assoc]
  rw [this, sandwich_unpolarised m hk]
  norm_tr
  simp only [tr4, tr3]
  push_cast
  simp only [smul_eq_mul]
  ring

theorem trU9 (hk : mink k k = 0) (a b : Vec4) :
    (B₀ * contr (slash k * slash a * A₀ * slash b * slash k)).trace =
      4 * ((-4 * mink k2 k * T4 k a k1 b : ℝ) : ℂ) := by
  have : (contr B₀ * (slash k * slash a * A₀ * slash b * slash k)).trace
      = ((slash k * contr B₀ * slash k) * (slash a * A₀ * slash b)).trace := by
    rw [← mul_assoc, trace_mul_comm]
    simp only [mul_assoc]
  rw [trace_contr, this, sandwich_unpolarised m hk]
  norm_tr
  simp only [tr4, tr3]
  push_cast
  simp only [smul_eq_mul]
  ring

theorem contr_slash2 (a b : Vec4) : contr (slash a * slash b) = ((4 * mink a b : ℝ) : ℂ) • 1 := by
  rw [contr_slash_mul, contr_slash, mul_smul_comm]
  have h := slash_anti a b
  rw [eq_sub_of_add_eq' h]
  push_cast
  module

theorem contr_slash3 (a b c : Vec4) : contr (slash a * slash b * slash c)
    = (-2 : ℂ) • (slash c * slash b * slash a) := by
  rw [mul_assoc, contr_slash_mul, contr_slash2, mul_smul_comm, mul_one]
  have h := slash_anti b c
  have : slash b * slash c * slash a = ((2 * mink b c : ℝ) : ℂ) • slash a
      - slash c * slash b * slash a := by
    rw [eq_sub_of_add_eq h, sub_mul, smul_mul_assoc, one_mul]
  rw [this]
  push_cast
  module

theorem contr_slash4 (a b c d : Vec4) : contr (slash a * slash b * slash c * slash d)
    = (2 : ℂ) • (slash b * slash c * slash d * slash a + slash a * slash d * slash c * slash b) := by
  have : slash a * slash b * slash c * slash d = slash a * (slash b * slash c * slash d) := by
    simp only [mul_assoc]
  rw [this, contr_slash_mul, contr_slash3, mul_smul_comm]
  simp only [mul_assoc]
  module

theorem contr_mul_slash (X : Spinor) (a : Vec4) :
    contr (X * slash a) = (2 : ℂ) • (slash a * X) - contr X * slash a := by
  have : ∀ α, gamma α * (X * slash a) * gamma α = ((2 * component a α : ℝ) : ℂ) • (gamma α * X)
      - (gamma α * X * gamma α) * slash a := by
    intro α
    have h : slash a * gamma α = ((2 * component a α : ℝ) : ℂ) • 1 - gamma α * slash a := by
      rw [gamma_slash]; abel
    rw [mul_assoc, mul_assoc, h, mul_sub, mul_sub, mul_smul_comm, mul_one, mul_smul_comm]
    simp only [mul_assoc]
  have e : (2 : ℂ) • (slash a * X) = ∑ α, (metric α : ℂ) • (((2 * component a α : ℝ) : ℂ) •
      (gamma α * X)) := by
    simp only [slash, Finset.sum_mul, Finset.smul_sum, smul_mul_assoc, smul_smul]
    refine Finset.sum_congr rfl fun α _ => ?_
    congr 1
    push_cast; ring
  rw [e]
  simp only [contr, this, smul_sub, Finset.sum_sub_distrib, Finset.sum_mul, smul_mul_assoc]

/-- The other form of the contraction of four matrices. -/
theorem contr_slash4' (a b c d : Vec4) : contr (slash a * slash b * slash c * slash d)
    = (2 : ℂ) • (slash d * slash a * slash b * slash c + slash c * slash b * slash a * slash d) := by
  rw [contr_mul_slash, contr_slash3, smul_mul_assoc]
  simp only [mul_assoc]
  module

theorem trU7 (hk : mink k k = 0) (a b : Vec4) :
    (B₀ * (slash a * slash k * contr (A₀ * slash b * slash k))).trace =
      4 * ((4 * m ^ 2 * (mink a k * mink b k) : ℝ) : ℂ) := by
  have e : contr (A₀ * slash b * slash k)
      = (-2 : ℂ) • (slash k * slash b * slash k1) + (m : ℂ) • (((4 * mink b k : ℝ) : ℂ) • 1) := by
    rw [unpolarised, add_mul, add_mul, contr_add, contr_slash3, smul_mul_assoc, smul_mul_assoc,
      one_mul, contr_smul, contr_slash2]
  have e2 : slash k * (slash k * slash b * slash k1) = 0 := by
    rw [← mul_assoc, ← mul_assoc, slash_null hk, zero_mul, zero_mul]
  rw [e, mul_add, mul_smul_comm, mul_assoc, e2]
  norm_tr
  simp only [mul_zero, trace_zero, smul_zero, zero_add, tr3, tr2, smul_eq_mul, zero_mul]
  push_cast
  ring

theorem trU8 (hk : mink k k = 0) (a b : Vec4) :
    (B₀ * (contr (slash k * slash a * A₀) * slash k * slash b)).trace =
      4 * ((4 * m ^ 2 * (mink a k * mink b k) : ℝ) : ℂ) := by
  have e : contr (slash k * slash a * A₀)
      = (-2 : ℂ) • (slash k1 * slash a * slash k) + (m : ℂ) • (((4 * mink k a : ℝ) : ℂ) • 1) := by
    rw [unpolarised, mul_add, contr_add, contr_slash3, mul_smul_comm, mul_one, contr_smul,
      contr_slash2]
  have e2 : slash k1 * slash a * slash k * slash k = 0 := by
    rw [mul_assoc, slash_null hk, mul_zero]
  rw [e, add_mul, smul_mul_assoc, e2, mink_comm k a]
  norm_tr
  simp only [mul_zero, trace_zero, smul_zero, zero_add, zero_mul, tr3, tr2, smul_eq_mul, mink_comm k b]
  push_cast
  ring

variable {k1 s}

theorem contr_polarised (hs : mink k1 s = 0) : contr A₅ = (2 * (m : ℂ)) • (gamma5 * slash s) := by
  have e : A₅ = -(gamma5 * (slash k1 * slash s)) + (m : ℂ) • (gamma5 * slash s) := by
    rw [unpolarised, add_mul, gamma5_mul_slash, smul_mul_assoc, one_mul]
  have e0 : -(gamma5 * (slash k1 * slash s)) = (-1 : ℂ) • (gamma5 * (slash k1 * slash s)) := by module
  rw [e, e0, contr_add, contr_smul, contr_smul, contr_gamma5_mul, contr_gamma5_mul, contr_slash2, hs,
    contr_slash]
  simp only [mul_smul_comm]
  push_cast
  module

theorem trP6 (hk : mink k k = 0) (hs : mink k1 s = 0) (a b : Vec4) :
    (B₀ * (slash a * slash k * contr A₅ * slash k * slash b)).trace =
      4 * Complex.I * ((-4 * m * mink s k * E4 k2 a k b : ℝ) : ℂ) := by
  have : slash a * slash k * contr A₅ * slash k * slash b
      = (-2 * (m : ℂ)) • (slash a * (gamma5 * (slash k * slash s * slash k)) * slash b) := by
    have e : slash k * (gamma5 * slash s) * slash k = -(gamma5 * (slash k * slash s * slash k)) := by
      rw [gamma5_mul_slash, neg_mul]; simp only [mul_assoc]
    have e' : slash a * slash k * (gamma5 * slash s) * slash k * slash b
        = slash a * (slash k * (gamma5 * slash s) * slash k) * slash b := by simp only [mul_assoc]
    rw [contr_polarised m hs, mul_smul_comm, smul_mul_assoc, smul_mul_assoc, e', e, mul_neg, neg_mul]
    module
  rw [this, slash_sandwich hk]
  norm_tr
  simp only [tr4_5, tr3_5]
  push_cast
  simp only [smul_eq_mul]
  ring

theorem trP9 (hk : mink k k = 0) (a b : Vec4) :
    (B₀ * contr (slash k * slash a * A₅ * slash b * slash k)).trace =
      4 * Complex.I * ((-4 * m * mink k2 k * E4 k a s b : ℝ) : ℂ) := by
  have : (contr B₀ * (slash k * slash a * A₅ * slash b * slash k)).trace
      = ((slash k * contr B₀ * slash k) * (slash a * A₅ * slash b)).trace := by
    rw [← mul_assoc, trace_mul_comm]
    simp only [mul_assoc]
  rw [trace_contr, this, sandwich_unpolarised m hk]
  norm_tr
  simp only [tr4_5, tr5_5, tr3_5]
  push_cast
  simp only [smul_eq_mul]
  ring

theorem trP7 (hk : mink k k = 0) (a b : Vec4) :
    (B₀ * (slash a * slash k * contr (A₅ * slash b * slash k))).trace =
      4 * Complex.I * ((-4 * m * mink a k * E4 k b s k1 : ℝ) : ℂ) := by
  have e : A₅ * slash b * slash k = (-1 : ℂ) • (gamma5 * (slash k1 * slash s * slash b * slash k))
      + (m : ℂ) • (gamma5 * (slash s * slash b * slash k)) := by
    rw [unpolarised, add_mul, gamma5_mul_slash, smul_mul_assoc, one_mul]
    simp only [add_mul, neg_mul, mul_assoc, smul_mul_assoc]
    module
  have e1 : contr (A₅ * slash b * slash k) = (2 : ℂ) • (gamma5 * (slash k * slash k1 * slash s * slash b))
      + (2 : ℂ) • (gamma5 * (slash b * slash s * slash k1 * slash k))
      + (2 * (m : ℂ)) • (gamma5 * (slash k * slash b * slash s)) := by
    rw [e, contr_add, contr_smul, contr_smul, contr_gamma5_mul, contr_gamma5_mul, contr_slash4',
      contr_slash3]
    simp only [mul_smul_comm, mul_add, smul_add]
    module
  have z1 : slash k * (gamma5 * (slash k * slash k1 * slash s * slash b)) = 0 := by
    rw [gamma5_mul_slash]
    simp [mul_assoc, slash_null hk, ← mul_assoc (slash k) (slash k)]
  have z2 : slash k * (gamma5 * (slash k * slash b * slash s)) = 0 := by
    rw [gamma5_mul_slash]
    simp [mul_assoc, slash_null hk, ← mul_assoc (slash k) (slash k)]
  have e2 : slash a * slash k * contr (A₅ * slash b * slash k)
      = (-2 : ℂ) • (slash a * (gamma5 * (slash k * slash b * slash s * slash k1 * slash k))) := by
    have e' : slash k * contr (A₅ * slash b * slash k)
        = (-2 : ℂ) • (gamma5 * (slash k * slash b * slash s * slash k1 * slash k)) := by
      rw [e1]
      simp only [mul_add, mul_smul_comm, z1, z2, smul_zero, zero_add, add_zero]
      rw [gamma5_mul_slash]
      simp only [mul_assoc]
      module
    rw [mul_assoc, e', mul_smul_comm]
  have e3 : (slash a * (gamma5 * (slash k * slash b * slash s * slash k1 * slash k))).trace
      = ((2 * mink a k : ℝ) : ℂ) * (gamma5 * (slash k * slash b * slash s * slash k1)).trace := by
    have : slash a * (gamma5 * (slash k * slash b * slash s * slash k1 * slash k))
        = (slash a * (gamma5 * (slash k * slash b * slash s * slash k1))) * slash k := by
      simp only [mul_assoc]
    rw [this, trace_mul_comm]
    have : slash k * (slash a * (gamma5 * (slash k * slash b * slash s * slash k1)))
        = gamma5 * ((slash k * slash a * slash k) * slash b * slash s * slash k1) := by
      rw [gamma5_mul_slash, mul_neg, gamma5_mul_slash, neg_neg]
      simp only [mul_assoc]
    rw [this, slash_sandwich hk]
    simp only [smul_mul_assoc, mul_smul_comm, trace_smul, smul_eq_mul]
  have e4 : (slash k2 * (slash a * (gamma5 * (slash k * slash b * slash s * slash k1 * slash k)))).trace
      = 0 := by
    rw [gamma5_mul_slash, mul_neg, gamma5_mul_slash, neg_neg]
    simp only [← mul_assoc]
    simp only [mul_assoc gamma5, tr7_5]
  rw [e2, mul_smul_comm, trace_smul, unpolarised, add_mul, trace_add, e4, smul_mul_assoc, one_mul,
    trace_smul, e3, tr4_5]
  push_cast
  simp only [smul_eq_mul]
  ring

theorem trP8 (hk : mink k k = 0) (hs : mink k1 s = 0) (a b : Vec4) :
    (B₀ * (contr (slash k * slash a * A₅) * slash k * slash b)).trace =
      4 * Complex.I * ((-4 * m * mink b k * E4 k k1 s a : ℝ) : ℂ) := by
  have h1 : slash k1 * slash s = -(slash s * slash k1) := by
    have := slash_anti k1 s
    rw [hs] at this
    simp only [mul_zero, Complex.ofReal_zero, zero_smul] at this
    exact eq_neg_of_add_eq_zero_left this
  have e : slash k * slash a * A₅ = gamma5 * (slash k * slash a * slash s * slash k1)
      + (m : ℂ) • (gamma5 * (slash k * slash a * slash s)) := by
    rw [unpolarised, add_mul, gamma5_mul_slash, smul_mul_assoc, one_mul, h1]
    simp only [mul_add, mul_assoc, mul_neg, neg_neg, mul_smul_comm, gamma5_mul_slash]
  have e1 : contr (slash k * slash a * A₅) * slash k
      = (-2 : ℂ) • (gamma5 * (slash k * slash k1 * slash s * slash a * slash k)) := by
    rw [e, contr_add, contr_smul, contr_gamma5_mul, contr_gamma5_mul, contr_slash4, contr_slash3]
    simp only [mul_smul_comm, mul_add, smul_add, add_mul, smul_mul_assoc, neg_mul, mul_assoc,
      slash_null hk, mul_zero, smul_zero, zero_add]
    module
  have e3 : (gamma5 * (slash k * slash k1 * slash s * slash a * slash k) * slash b).trace
      = ((2 * mink b k : ℝ) : ℂ) * (gamma5 * (slash k * slash k1 * slash s * slash a)).trace := by
    have : gamma5 * (slash k * slash k1 * slash s * slash a * slash k) * slash b
        = (gamma5 * (slash k * slash k1 * slash s * slash a)) * (slash k * slash b) := by
      simp only [mul_assoc]
    rw [this, trace_mul_comm]
    have : slash k * slash b * (gamma5 * (slash k * slash k1 * slash s * slash a))
        = gamma5 * ((slash k * slash b * slash k) * slash k1 * slash s * slash a) := by
      rw [mul_assoc, gamma5_mul_slash, mul_neg, gamma5_mul_slash, neg_neg]
      simp only [mul_assoc]
    rw [this, slash_sandwich hk]
    simp only [smul_mul_assoc, mul_smul_comm, trace_smul, smul_eq_mul]
  have e4 : (slash k2 * (gamma5 * (slash k * slash k1 * slash s * slash a * slash k) * slash b)).trace
      = 0 := by
    rw [mul_assoc gamma5, gamma5_mul_slash, trace_neg]
    simp only [← mul_assoc]
    simp only [mul_assoc gamma5, tr7_5, neg_zero]
  rw [e1, smul_mul_assoc, mul_smul_comm, trace_smul, unpolarised, add_mul, trace_add, e4,
    smul_mul_assoc, one_mul, trace_smul, e3, tr4_5]
  push_cast
  simp only [smul_eq_mul]
  ring

end

end Sidis.Dirac
