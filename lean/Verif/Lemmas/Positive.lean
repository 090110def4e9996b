import Verif.Lemmas.DiracTensor
import Verif.Spec.Positive

/-! # Leptonic tensors are positive -/

namespace Sidis.Dirac

open Spec Spec.Qed Matrix

/-- `J^μ (J^ν)^* W_{μν}` -/
noncomputable def form (W : Tensor) (J : Fin 4 → ℂ) : ℝ :=
  (∑ μ, ∑ ν, ((metric μ * metric ν : ℝ) : ℂ) * (J μ * starRingEnd ℂ (J ν)) * W μ ν).re

theorem form_nonneg {W : Tensor} (hW : Positive W) (J : Fin 4 → ℂ) : 0 ≤ form W J := by
  have h := hW fun μ => metric μ * starRingEnd ℂ (J μ)
  rw [form]
  refine h.trans_eq ?_
  congr 1
  refine Finset.sum_congr rfl fun μ _ => Finset.sum_congr rfl fun ν _ => ?_
  rw [map_mul, Complex.conj_conj, Complex.conj_ofReal]
  push_cast
  ring

theorem full_sum {ι : Type*} [Fintype ι] {L : Tensor} (W : Tensor) {J : ι → Fin 4 → ℂ} {c : ℝ}
    (hL : ∀ μ ν, L μ ν = (c : ℂ) * ∑ i, J i μ * starRingEnd ℂ (J i ν)) :
    (full L W).re = c * ∑ i, form W (J i) := by
  have e : full L W = (c : ℂ) * ∑ i, ∑ μ, ∑ ν,
      ((metric μ * metric ν : ℝ) : ℂ) * (J i μ * starRingEnd ℂ (J i ν)) * W μ ν := by
    rw [full, Finset.sum_comm' (t' := Finset.univ) (s' := fun _ => Finset.univ) (by simp)]
    rw [Finset.sum_comm (s := (Finset.univ : Finset ι)), Finset.mul_sum]
    rw [Finset.sum_comm]
    refine Finset.sum_congr rfl fun μ _ => ?_
    rw [Finset.sum_comm, Finset.mul_sum]
    refine Finset.sum_congr rfl fun ν _ => ?_
    rw [hL]
    simp only [Finset.mul_sum, Finset.sum_mul]
    refine Finset.sum_congr rfl fun i _ => ?_
    ring
  rw [e, Complex.re_ofReal_mul, Complex.re_sum]
  rfl

theorem gamma0_herm : (gamma 0)ᴴ = gamma 0 := by
  ext i j
  fin_cases i <;> fin_cases j <;> simp [gamma]

theorem herm_left {X : Spinor} (h : bar X = X) : (gamma 0 * X)ᴴ = gamma 0 * X := by
  have : gamma 0 * bar X = Xᴴ * gamma 0 := by
    rw [bar, mul_assoc, ← mul_assoc, gamma0_sq, one_mul]
  rw [conjTranspose_mul, gamma0_herm, ← this, h]

theorem herm_right {X : Spinor} (h : bar X = X) : (X * gamma 0)ᴴ = X * gamma 0 := by
  have : bar X * gamma 0 = gamma 0 * Xᴴ := by
    rw [bar, mul_assoc, gamma0_sq, mul_one]
  rw [conjTranspose_mul, gamma0_herm, ← this, h]

section
variable {k s : Vec4} {m : ℝ}

theorem bar_gamma5 : bar gamma5 = -gamma5 := by
  have h : gamma5ᴴ = gamma5 := by
    rw [gamma5_eq]
    ext i j
    fin_cases i <;> fin_cases j <;> simp
  rw [bar, h, gamma_gamma5, neg_mul, mul_assoc, gamma0_sq, mul_one]

theorem bar_spin (c : ℝ) (s : Vec4) :
    bar (1 + (c : ℂ) • (gamma5 * slash s)) = 1 + (c : ℂ) • (gamma5 * slash s) := by
  rw [bar_add, bar_one, bar_smul, bar_mul, bar_slash, bar_gamma5, Complex.conj_ofReal, mul_neg,
    gamma5_slash, neg_neg]

theorem bar_polarised (hs : mink k s = 0) (c : ℝ) : bar (polarised k m c s) = polarised k m c s := by
  rw [polarised, bar_mul, bar_spin, bar_unpolarised, ← pol_comm hs, polarised]

/-- Squares of the density matrices of pure states. -/
theorem pure_sq (hk : mink k k = m ^ 2) (hs : mink k s = 0) (hss : mink s s = -1) {c : ℝ}
    (hc : c ^ 2 = 1) : polarised k m c s * gamma 0 * polarised k m c s =
      ((4 * k.t : ℝ) : ℂ) • polarised k m c s := by
  have hP : (1 + (c : ℂ) • (gamma5 * slash s)) * (1 + (c : ℂ) • (gamma5 * slash s)) =
      (2 : ℂ) • (1 + (c : ℂ) • (gamma5 * slash s)) := by
    have e : (gamma5 * slash s) * (gamma5 * slash s) = 1 := by
      rw [mul_assoc, gamma5_mul_slash, mul_neg, gamma5_mul_gamma5, slash_sq, hss]
      simp
    have hcc : (c : ℂ) * c = 1 := by rw [← pow_two]; exact_mod_cast hc
    rw [add_mul, mul_add, mul_add, smul_mul_smul_comm, e, hcc, one_smul, one_mul, mul_one, one_mul]
    module
  have h0 := dirac_left hk 0
  set P := 1 + (c : ℂ) • (gamma5 * slash s) with hPd
  have e1 : polarised k m c s = P * unpolarised k m := pol_comm hs c
  have e2 : polarised k m c s = unpolarised k m * P := rfl
  calc _ = P * unpolarised k m * gamma 0 * (unpolarised k m * P) := by rw [← e1, ← e2]
    _ = P * (unpolarised k m * gamma 0 * unpolarised k m) * P := by simp only [mul_assoc]
    _ = ((2 * component k 0 : ℝ) : ℂ) • (P * (unpolarised k m * P)) := by
        rw [h0, mul_smul_comm, smul_mul_assoc, mul_assoc]
    _ = ((2 * component k 0 : ℝ) : ℂ) • (P * P * unpolarised k m) := by
        rw [← e2, e1, mul_assoc]
    _ = _ := by
        rw [hP, smul_mul_assoc, ← e1, smul_smul]
        congr 1
        simp only [component, Matrix.cons_val_zero]
        push_cast; ring

end

section
variable {k1 k2 k s : Vec4} {m : ℝ}

/-- Amplitudes between pure states. -/
noncomputable def amp (Γ : Fin 4 → Spinor) (k1 k2 : Vec4) (m c : ℝ) (s : Vec4) (i : Fin 4 × Fin 4)
    (μ : Fin 4) : ℂ :=
  ((gamma 0 * unpolarised k2 m) * Γ μ * (polarised k1 m c s * gamma 0)) i.1 i.2

theorem current_pure (h1 : mink k1 k1 = m ^ 2) (h2 : mink k2 k2 = m ^ 2) (hs : mink k1 s = 0)
    (hss : mink s s = -1) (t1 : 0 < k1.t) (t2 : 0 < k2.t) {c : ℝ} (hc : c ^ 2 = 1)
    (Γ : Fin 4 → Spinor) (μ ν : Fin 4) :
    currentTensor Γ k1 k2 m c s μ ν =
      ((1 / (8 * k1.t * k2.t) : ℝ) : ℂ) *
        ∑ i, amp Γ k1 k2 m c s i μ * starRingEnd ℂ (amp Γ k1 k2 m c s i ν) := by
  set C := gamma 0 * unpolarised k2 m with hC
  set E := polarised k1 m c s * gamma 0 with hE
  have hCh : Cᴴ = C := herm_left (bar_unpolarised k2 m)
  have hEh : Eᴴ = E := herm_right (bar_polarised hs c)
  have hCC : C * C = ((2 * k2.t : ℝ) : ℂ) • C := by
    have := dirac_left h2 0
    rw [hC, mul_assoc, ← mul_assoc (unpolarised k2 m), this, mul_smul_comm]
    rfl
  have hEE : E * E = ((4 * k1.t : ℝ) : ℂ) • E := by
    rw [hE, ← mul_assoc, pure_sq h1 hs hss hc, smul_mul_assoc]
  have e : ∑ i, amp Γ k1 k2 m c s i μ * starRingEnd ℂ (amp Γ k1 k2 m c s i ν) =
      ((C * Γ μ * E) * (C * Γ ν * E)ᴴ).trace := by
    rw [Fintype.sum_prod_type, Matrix.trace]
    refine Finset.sum_congr rfl fun i _ => ?_
    rw [Matrix.diag_apply, Matrix.mul_apply]
    rfl
  have e2 : ((C * Γ μ * E) * (C * Γ ν * E)ᴴ).trace =
      ((2 * k2.t : ℝ) : ℂ) * ((4 * k1.t : ℝ) : ℂ) * (C * Γ μ * E * (Γ ν)ᴴ).trace := by
    rw [conjTranspose_mul (C * Γ ν) E, conjTranspose_mul C (Γ ν), hCh, hEh,
      show C * Γ μ * E * (E * ((Γ ν)ᴴ * C)) = C * Γ μ * (E * E) * (Γ ν)ᴴ * C by simp only [mul_assoc],
      Matrix.trace_mul_comm, hEE, ← mul_assoc, ← mul_assoc, ← mul_assoc, hCC]
    simp only [smul_mul_assoc, mul_smul_comm, Matrix.trace_smul, smul_eq_mul]
    ring
  have e3 : (C * Γ μ * E * (Γ ν)ᴴ).trace = currentTensor Γ k1 k2 m c s μ ν := by
    rw [currentTensor, bar, hC, hE,
      show gamma 0 * unpolarised k2 m * Γ μ * (polarised k1 m c s * gamma 0) * (Γ ν)ᴴ =
        gamma 0 * (unpolarised k2 m * Γ μ * polarised k1 m c s * (gamma 0 * (Γ ν)ᴴ)) by
          simp only [mul_assoc], Matrix.trace_mul_comm]
    simp only [mul_assoc]
  rw [e, e2, e3]
  have a1 : (k1.t : ℂ) ≠ 0 := by exact_mod_cast t1.ne'
  have a2 : (k2.t : ℂ) ≠ 0 := by exact_mod_cast t2.ne'
  push_cast
  field_simp
  ring

theorem polarised_mix (c : ℝ) : polarised k1 m c s =
    (((1 + c) / 2 : ℝ) : ℂ) • polarised k1 m 1 s + (((1 - c) / 2 : ℝ) : ℂ) • polarised k1 m (-1) s := by
  simp only [polarised, mul_add, mul_one, mul_smul_comm]
  push_cast
  module

theorem current_mix (Γ : Fin 4 → Spinor) (c : ℝ) (μ ν : Fin 4) : currentTensor Γ k1 k2 m c s μ ν =
    (((1 + c) / 2 : ℝ) : ℂ) * currentTensor Γ k1 k2 m 1 s μ ν
      + (((1 - c) / 2 : ℝ) : ℂ) * currentTensor Γ k1 k2 m (-1) s μ ν := by
  rw [currentTensor, polarised_mix c]
  simp only [mul_add, add_mul, mul_smul_comm, smul_mul_assoc, Matrix.trace_add, Matrix.trace_smul,
    smul_eq_mul, currentTensor]

theorem full_lin {L A B : Tensor} {a b : ℝ} (h : ∀ μ ν, L μ ν = (a : ℂ) * A μ ν + (b : ℂ) * B μ ν)
    (W : Tensor) : (full L W).re = a * (full A W).re + b * (full B W).re := by
  have : full L W = a * full A W + b * full B W := by
    simp only [full, h, Finset.mul_sum, ← Finset.sum_add_distrib]
    refine Finset.sum_congr rfl fun μ _ => Finset.sum_congr rfl fun ν _ => ?_
    ring
  rw [this, Complex.add_re, Complex.re_ofReal_mul, Complex.re_ofReal_mul]

theorem mix_nonneg {c x y : ℝ} (hc : |c| ≤ 1) (hx : 0 ≤ x) (hy : 0 ≤ y) :
    0 ≤ (1 + c) / 2 * x + (1 - c) / 2 * y := by
  obtain ⟨h1, h2⟩ := abs_le.1 hc
  have : 0 ≤ (1 + c) / 2 := by linarith
  have : 0 ≤ (1 - c) / 2 := by linarith
  positivity

/-- The contraction of the leptonic tensor of any vertex with a positive tensor. -/
theorem current_nonneg (h1 : mink k1 k1 = m ^ 2) (h2 : mink k2 k2 = m ^ 2) (hs : mink k1 s = 0)
    (hss : mink s s = -1) (t1 : 0 < k1.t) (t2 : 0 < k2.t) {c : ℝ} (hc : |c| ≤ 1)
    (Γ : Fin 4 → Spinor) {W : Tensor} (hW : Positive W) :
    0 ≤ (full (currentTensor Γ k1 k2 m c s) W).re := by
  rw [full_lin (current_mix Γ c) W]
  have key : ∀ c : ℝ, c ^ 2 = 1 → 0 ≤ (full (currentTensor Γ k1 k2 m c s) W).re := fun c hc => by
    rw [full_sum W (current_pure h1 h2 hs hss t1 t2 hc Γ)]
    exact mul_nonneg (by positivity) (Finset.sum_nonneg fun i _ => form_nonneg hW _)
  exact mix_nonneg hc (key 1 (by norm_num)) (key (-1) (by norm_num))

/-- A current orthogonal to a null vector has no negative norm. -/
theorem form_null {W : Tensor} (hW : Positive W) (hk : mink k k = 0) (tk : 0 < k.t)
    (J : Fin 4 → Fin 4 → ℂ) (hJ : ∀ μ, ∑ α, ((metric α * component k α : ℝ) : ℂ) * J α μ = 0) :
    0 ≤ ∑ α, -(metric α) * form W (J α) := by
  have tc : (k.t : ℂ) ≠ 0 := by exact_mod_cast tk.ne'
  have h0 : ∀ μ, J 0 μ = (k.x / k.t : ℝ) * J 1 μ + (k.y / k.t : ℝ) * J 2 μ + (k.z / k.t : ℝ) * J 3 μ := by
    intro μ
    have := hJ μ
    simp [Fin.sum_univ_four, metric, component] at this
    push_cast
    field_simp
    linear_combination this
  have hn : (k.x / k.t) ^ 2 + (k.y / k.t) ^ 2 + (k.z / k.t) ^ 2 = 1 := by
    simp only [mink] at hk
    field_simp
    linarith
  generalize k.x / k.t = a at h0 hn
  generalize k.y / k.t = b at h0 hn
  generalize k.z / k.t = d at h0 hn
  have hnc : (a : ℂ) ^ 2 + (b : ℂ) ^ 2 + (d : ℂ) ^ 2 = 1 := by exact_mod_cast hn
  have key : ∑ α, -(metric α) * form W (J α) =
      form W (fun μ => a * J 2 μ - b * J 1 μ) + form W (fun μ => a * J 3 μ - d * J 1 μ)
        + form W (fun μ => b * J 3 μ - d * J 2 μ) := by
    simp only [Fin.sum_univ_four (fun α => -(metric α) * form W (J α))]
    have m0 : metric 0 = 1 := rfl
    have m1 : metric 1 = -1 := rfl
    have m2 : metric 2 = -1 := rfl
    have m3 : metric 3 = -1 := rfl
    rw [m0, m1, m2, m3]
    have : form W (J 0) + form W (fun μ => a * J 2 μ - b * J 1 μ) + form W (fun μ => a * J 3 μ - d * J 1 μ)
        + form W (fun μ => b * J 3 μ - d * J 2 μ) = form W (J 1) + form W (J 2) + form W (J 3) := by
      simp only [form, ← Complex.add_re, ← Finset.sum_add_distrib]
      congr 1
      refine Finset.sum_congr rfl fun μ _ => Finset.sum_congr rfl fun ν _ => ?_
      rw [h0 μ, h0 ν]
      simp only [map_add, map_sub, map_mul, Complex.conj_ofReal]
      linear_combination (((metric μ * metric ν : ℝ) : ℂ) * W μ ν * (J 1 μ * starRingEnd ℂ (J 1 ν)
        + J 2 μ * starRingEnd ℂ (J 2 ν) + J 3 μ * starRingEnd ℂ (J 3 ν))) * hnc
    linarith
  rw [key]
  exact add_nonneg (add_nonneg (form_nonneg hW _) (form_nonneg hW _)) (form_nonneg hW _)

/-- The Ward identity. -/
theorem ward_emission (h1 : mink k1 k1 = m ^ 2) (h2 : mink k2 k2 = m ^ 2) (hk : mink k k = 0)
    (z1 : mink k1 k ≠ 0) (z2 : mink k2 k ≠ 0) (c : ℝ) (μ : Fin 4) :
    ∑ α, ((metric α * component k α : ℝ) : ℂ) •
      (unpolarised k2 m * emissionVertex k1 k2 k m α μ * polarised k1 m c s) = 0 := by
  have e : ∀ α, ((metric α * component k α : ℝ) : ℂ) •
      (unpolarised k2 m * emissionVertex k1 k2 k m α μ * polarised k1 m c s) =
      -(unpolarised k2 m * (((metric α * component k α : ℝ) : ℂ) •
        vtx (eik k1 k2 k) k (1 / (2 * mink k1 k) : ℝ) (1 / (2 * mink k2 k) : ℝ) α (gamma μ))
        * polarised k1 m c s) := fun α => by
    rw [emission_left h1 h2 hk, smul_neg, mul_smul_comm, smul_mul_assoc]
  simp only [e]
  rw [Finset.sum_neg_distrib, ← Finset.sum_mul, ← Finset.mul_sum]
  have v : ∑ α, ((metric α * component k α : ℝ) : ℂ) •
      vtx (eik k1 k2 k) k (1 / (2 * mink k1 k) : ℝ) (1 / (2 * mink k2 k) : ℝ) α (gamma μ) = 0 := by
    have s1 : ∑ α, ((metric α * component k α : ℝ) : ℂ) * (component (eik k1 k2 k) α : ℂ) = 0 := by
      have : ∑ α, (metric α * component k α) * component (eik k1 k2 k) α = 0 := by
        have : mink k (eik k1 k2 k) = 0 := by
          rw [eik, mink_sub_right, mink_smul_right, mink_smul_right, mink_comm k k1, mink_comm k k2]
          field_simp
          ring
        rw [← this]
        simp [Fin.sum_univ_four, metric, component, mink]
        ring
      exact_mod_cast this
    have n := slash_null hk
    calc _ = (∑ α, ((metric α * component k α : ℝ) : ℂ) * (component (eik k1 k2 k) α : ℂ)) • gamma μ
          - ((1 / (2 * mink k1 k) : ℝ) : ℂ) • (gamma μ * slash k * slash k)
          - ((1 / (2 * mink k2 k) : ℝ) : ℂ) • (slash k * slash k * gamma μ) := by
          have g : ∀ T : Spinor, ∑ α, ((metric α * component k α : ℝ) : ℂ) •
              ((component (eik k1 k2 k) α : ℂ) • gamma μ
                - ((1 / (2 * mink k1 k) : ℝ) : ℂ) • (gamma μ * T * gamma α)
                - ((1 / (2 * mink k2 k) : ℝ) : ℂ) • (gamma α * T * gamma μ)) =
              (∑ α, ((metric α * component k α : ℝ) : ℂ) * (component (eik k1 k2 k) α : ℂ)) • gamma μ
                - ((1 / (2 * mink k1 k) : ℝ) : ℂ) • (gamma μ * T * slash k)
                - ((1 / (2 * mink k2 k) : ℝ) : ℂ) • (slash k * T * gamma μ) := fun T => by
            generalize ((1 / (2 * mink k1 k) : ℝ) : ℂ) = c1
            generalize ((1 / (2 * mink k2 k) : ℝ) : ℂ) = c2
            simp only [slash, smul_sub, Finset.sum_sub_distrib, Finset.mul_sum, Finset.sum_mul,
              Finset.sum_smul, Finset.smul_sum, smul_smul, mul_smul_comm, smul_mul_assoc, mul_comm c1,
              mul_comm c2]
          exact g (slash k)
      _ = 0 := by rw [s1, mul_assoc, n]; simp
  rw [v]
  simp

theorem radiative_mix (c : ℝ) (μ ν : Fin 4) : radiativeTensor k1 k2 k m c s μ ν =
    (((1 + c) / 2 : ℝ) : ℂ) * radiativeTensor k1 k2 k m 1 s μ ν
      + (((1 - c) / 2 : ℝ) : ℂ) * radiativeTensor k1 k2 k m (-1) s μ ν := by
  simp only [radiativeTensor, Finset.mul_sum, ← Finset.sum_add_distrib]
  refine Finset.sum_congr rfl fun α _ => ?_
  rw [current_mix _ c]
  ring

theorem full_radiative (c : ℝ) (W : Tensor) : (full (radiativeTensor k1 k2 k m c s) W).re =
    ∑ α, -(metric α) * (full (currentTensor (emissionVertex k1 k2 k m α) k1 k2 m c s) W).re := by
  have : full (radiativeTensor k1 k2 k m c s) W =
      ∑ α, ((-(metric α) : ℝ) : ℂ) * full (currentTensor (emissionVertex k1 k2 k m α) k1 k2 m c s) W := by
    symm
    simp only [full, Finset.mul_sum]
    rw [Finset.sum_comm]
    refine Finset.sum_congr rfl fun μ _ => ?_
    rw [Finset.sum_comm]
    refine Finset.sum_congr rfl fun ν _ => ?_
    rw [radiativeTensor, Finset.mul_sum, Finset.sum_mul]
    refine Finset.sum_congr rfl fun α _ => ?_
    push_cast
    ring
  rw [this, Complex.re_sum]
  simp only [Complex.re_ofReal_mul]

/-- The contraction of the radiative tensor with a positive tensor. -/
theorem radiative_nonneg (h1 : mink k1 k1 = m ^ 2) (h2 : mink k2 k2 = m ^ 2) (hs : mink k1 s = 0)
    (hss : mink s s = -1) (t1 : 0 < k1.t) (t2 : 0 < k2.t) (hk : mink k k = 0) (tk : 0 < k.t)
    (z1 : mink k1 k ≠ 0) (z2 : mink k2 k ≠ 0) {c : ℝ} (hc : |c| ≤ 1) {W : Tensor} (hW : Positive W) :
    0 ≤ (full (radiativeTensor k1 k2 k m c s) W).re := by
  rw [full_lin (radiative_mix c) W]
  have key : ∀ c : ℝ, c ^ 2 = 1 → 0 ≤ (full (radiativeTensor k1 k2 k m c s) W).re := fun c hc => by
    rw [full_radiative]
    have e : ∀ α, (full (currentTensor (emissionVertex k1 k2 k m α) k1 k2 m c s) W).re = _ :=
      fun α => full_sum W (current_pure h1 h2 hs hss t1 t2 hc (emissionVertex k1 k2 k m α))
    simp only [e]
    have e' : ∑ α, -(metric α) * (1 / (8 * k1.t * k2.t) *
        ∑ i, form W (amp (emissionVertex k1 k2 k m α) k1 k2 m c s i)) =
        1 / (8 * k1.t * k2.t) * ∑ i, ∑ α, -(metric α) *
          form W (amp (emissionVertex k1 k2 k m α) k1 k2 m c s i) := by
      rw [Finset.sum_comm, Finset.mul_sum]
      refine Finset.sum_congr rfl fun α _ => ?_
      rw [← Finset.mul_sum]
      ring
    rw [e']
    refine mul_nonneg (by positivity) (Finset.sum_nonneg fun i _ => form_null hW hk tk _ fun μ => ?_)
    have w := ward_emission (s := s) h1 h2 hk z1 z2 c μ
    have w' : gamma 0 * (∑ α, ((metric α * component k α : ℝ) : ℂ) •
      (unpolarised k2 m * emissionVertex k1 k2 k m α μ * polarised k1 m c s)) * gamma 0 = 0 := by
      rw [w]; simp
    rw [Finset.mul_sum, Finset.sum_mul] at w'
    have w2 := congrFun (congrFun w' i.1) i.2
    rw [Matrix.sum_apply] at w2
    refine Eq.trans (Finset.sum_congr rfl fun α _ => ?_) w2
    rw [mul_smul_comm, smul_mul_assoc, Matrix.smul_apply, smul_eq_mul, amp]
    simp only [mul_assoc]
  exact mix_nonneg hc (key 1 (by norm_num)) (key (-1) (by norm_num))

end

end Sidis.Dirac
