import Verif.Lemmas.VertexLoop
import Verif.Lemmas.SoftEmission

/-! # The finite sum of the vertex correction and the soft emission -/

namespace Sidis.Lemmas

open Real intervalIntegral MeasureTheory Set Filter Topology Sidis.Spec Sidis.Spec.Qed

/-- `delta_vert_rad_0` with any function for the dilogarithm. -/
noncomputable def deltaWith (dil : ℝ → ℝ) (k : Kinematics ℝ) : ℝ :=
  let Q_m_sq := k.Q_sq + 2 * sq k.m
  let S_prime := k.S - k.Q_sq - k.V_1
  let X_prime := k.X + k.Q_sq - k.V_2
  let lambda_m := k.Q_sq * (k.Q_sq + 4 * sq k.m)
  let lambda_S_prime := sq S_prime - 4 * sq k.m * k.mx_sq
  let lambda_X_prime := sq X_prime - 4 * sq k.m * k.mx_sq
  let lambda_m_sqrt := √lambda_m
  let lambda_S_prime_sqrt := √lambda_S_prime
  let lambda_X_prime_sqrt := √lambda_X_prime
  let diff_m := sqrt1p1mR ((4 * sq k.m) / k.Q_sq)
  let diff_S_prime := sqrt1p1mR (-(4 * sq k.m * k.mx_sq) / sq S_prime)
  let diff_X_prime := sqrt1p1mR (-(4 * sq k.m * k.mx_sq) / sq X_prime)
  let sum_m := 2 + diff_m
  let sum_S_prime := 2 + diff_S_prime
  let sum_X_prime := 2 + diff_X_prime
  let L_m := 1 / lambda_m_sqrt * Real.log (sum_m / diff_m)
  let L_S_prime := 1 / lambda_S_prime_sqrt * Real.log (-sum_S_prime / diff_S_prime)
  let L_X_prime := 1 / lambda_X_prime_sqrt * Real.log (-sum_X_prime / diff_X_prime)
  let rho := 1 / lambda_m_sqrt * ((Q_m_sq + lambda_m_sqrt) * S_prime - 2 * sq k.m * X_prime)
  let S_phi := Q_m_sq / lambda_m_sqrt * (
    lambda_S_prime * sq L_S_prime / 4 - lambda_X_prime * sq L_X_prime / 4
    + dil (1 - 1 / (sum_S_prime * S_prime) * rho)
    + dil (1 - (sum_S_prime * S_prime) / (4 * sq k.m * k.mx_sq) * rho)
    - dil (1 - (sum_X_prime * X_prime) / (k.mx_sq * sq sum_m * k.Q_sq) * rho)
    - dil (1 - (4 * sq k.m) / (sum_X_prime * X_prime * sq sum_m * k.Q_sq) * rho))
  1 / 2 * S_prime * L_S_prime + 1 / 2 * X_prime * L_X_prime + S_phi - 2
    + (3 / 2 * k.Q_sq + 4 * sq k.m) * L_m
    - Q_m_sq / lambda_m_sqrt * (1 / 2 * lambda_m * sq L_m
      + 2 * dil ((2 * lambda_m_sqrt) / (k.Q_sq + lambda_m_sqrt)) - 1 / 2 * sq Real.pi)

theorem deltaVertRad0_with (k : Kinematics ℝ) : deltaVertRad0 k = deltaWith dilogR k := rfl

theorem deltaWith_close {f g : ℝ → ℝ} {ε : ℝ} (h : ∀ x, |f x - g x| ≤ ε) {k : Kinematics ℝ}
    (hQ : 0 ≤ k.Q_sq) :
    |deltaWith f k - deltaWith g k|
      ≤ (k.Q_sq + 2 * k.m ^ 2) / √(k.Q_sq * (k.Q_sq + 4 * k.m ^ 2)) * (6 * ε) := by
  have key : ∀ A B c C a1 a2 a3 a4 a5 D G : ℝ, 0 ≤ c →
      |(A + B + c * (C + f a1 + f a2 - f a3 - f a4) - 2 + D - c * (G + 2 * f a5 - 1 / 2 * sq π))
        - (A + B + c * (C + g a1 + g a2 - g a3 - g a4) - 2 + D - c * (G + 2 * g a5 - 1 / 2 * sq π))|
        ≤ c * (6 * ε) := by
    intro A B c C a1 a2 a3 a4 a5 D G hc
    have e : (A + B + c * (C + f a1 + f a2 - f a3 - f a4) - 2 + D - c * (G + 2 * f a5 - 1 / 2 * sq π))
        - (A + B + c * (C + g a1 + g a2 - g a3 - g a4) - 2 + D - c * (G + 2 * g a5 - 1 / 2 * sq π))
        = c * ((f a1 - g a1) + (f a2 - g a2) - (f a3 - g a3) - (f a4 - g a4) - 2 * (f a5 - g a5)) := by
      ring
    rw [e, abs_mul, abs_of_nonneg hc]
    refine mul_le_mul_of_nonneg_left ?_ hc
    have h1 := abs_le.1 (h a1)
    have h2 := abs_le.1 (h a2)
    have h3 := abs_le.1 (h a3)
    have h4 := abs_le.1 (h a4)
    have h5 := abs_le.1 (h a5)
    rw [abs_le]
    constructor <;> linarith [h1.1, h1.2, h2.1, h2.2, h3.1, h3.2, h4.1, h4.2, h5.1, h5.2]
  have e1 : k.m ^ 2 = sq k.m := by rw [Sidis.sq, pow_two]
  rw [e1]
  unfold deltaWith
  exact key _ _ _ _ _ _ _ _ _ _ _ (div_nonneg (by rw [Sidis.sq]; nlinarith [mul_self_nonneg k.m])
    (sqrt_nonneg _))

/-- The terms of one lepton in the rest frame of the undetected system. -/
theorem lepton_terms {m mx E P : ℝ} (hm : 0 < m) (hmx : 0 < mx) (hP : 0 < P) (hPE : P < E)
    (hs : E ^ 2 - P ^ 2 = m ^ 2) :
    sqrt1p1mR (-(4 * sq m * mx ^ 2) / sq (2 * mx * E)) = P / E - 1 ∧
    √(sq (2 * mx * E) - 4 * sq m * mx ^ 2) = 2 * mx * P ∧
    -(2 + (P / E - 1)) / (P / E - 1) = (E + P) / (E - P) ∧
    (2 + (P / E - 1)) * (2 * mx * E) = 2 * mx * (E + P) := by
  have hE : 0 < E := hP.trans hPE
  have hd : 0 < E - P := by linarith
  refine ⟨?_, ?_, ?_, ?_⟩
  · have e : 1 + -(4 * sq m * mx ^ 2) / sq (2 * mx * E) = (P / E) ^ 2 := by
      unfold Sidis.sq
      field_simp
      linear_combination 4 * hs
    rw [sqrt1p1mR_eq (by have : 0 ≤ (P / E) ^ 2 := by positivity
                         linarith), e, sqrt_sq (by positivity)]
  · rw [show sq (2 * mx * E) - 4 * sq m * mx ^ 2 = (2 * mx * P) ^ 2 by
      unfold Sidis.sq; linear_combination (4 * mx ^ 2) * hs, sqrt_sq (by positivity)]
  · have h1 : P / E - 1 = -((E - P) / E) := by field_simp; ring
    rw [h1]
    field_simp
    ring
  · field_simp
    ring

/-- The mass-squared of `a k1`, `k2` interpolated: the scale of the substitution of 't Hooft and
Veltman. -/
noncomputable def scale (Q m : ℝ) : ℝ := (loopD Q m + 1) / (loopD Q m - 1)

theorem lepton_mass {Q m : ℝ} (hQ : 0 < Q) : m ^ 2 = Q * (loopD Q m ^ 2 - 1) / 4 := by
  have := loopD_sq hQ (m := m)
  rw [this]; field_simp; ring

/-- The value of `delta_vert_rad_0` in terms of the lepton energies and momenta in the rest frame of
the undetected system. -/
theorem deltaWith_rest {k : Kinematics ℝ} {mx E1 E2 P1 P2 : ℝ} (hQ : 0 < k.Q_sq) (hm : 0 < k.m)
    (hmx : 0 < mx) (hmx2 : k.mx_sq = mx ^ 2)
    (hP1 : 0 < P1) (hP1E : P1 < E1) (hs1 : E1 ^ 2 - P1 ^ 2 = k.m ^ 2)
    (hP2 : 0 < P2) (hP2E : P2 < E2) (hs2 : E2 ^ 2 - P2 ^ 2 = k.m ^ 2)
    (hS : k.S - k.Q_sq - k.V_1 = 2 * mx * E1) (hX : k.X + k.Q_sq - k.V_2 = 2 * mx * E2) {v : ℝ}
    (hv : v = k.Q_sq * loopD k.Q_sq k.m * scale k.Q_sq k.m
      / (2 * (scale k.Q_sq k.m * E1 - E2))) (hdE : E2 < scale k.Q_sq k.m * E1) :
    deltaWith Li2 k = E1 / (2 * P1) * log ((E1 + P1) / (E1 - P1))
      + E2 / (2 * P2) * log ((E2 + P2) / (E2 - P2))
      + (k.Q_sq + 2 * k.m ^ 2) / (k.Q_sq * loopD k.Q_sq k.m)
        * (spence v (scale k.Q_sq k.m * E1) (scale k.Q_sq k.m * P1) - spence v E2 P2)
      + ((3 / 2 * k.Q_sq + 4 * k.m ^ 2) * logM k.Q_sq k.m - 2
        - (k.Q_sq + 2 * k.m ^ 2) / (k.Q_sq * loopD k.Q_sq k.m)
          * (1 / 2 * (k.Q_sq * loopD k.Q_sq k.m * logM k.Q_sq k.m) ^ 2
            + 2 * Li2 (2 * loopD k.Q_sq k.m / (1 + loopD k.Q_sq k.m)) - 1 / 2 * π ^ 2)) := by
  obtain ⟨a1, b1, c1, d1⟩ := lepton_terms hm hmx hP1 hP1E hs1
  obtain ⟨a2, b2, c2, d2⟩ := lepton_terms hm hmx hP2 hP2E hs2
  have hb := loopD_gt hQ hm
  have hmass := lepton_mass hQ (m := k.m)
  have hE1 : 0 < E1 := hP1.trans hP1E
  have hE2 : 0 < E2 := hP2.trans hP2E
  have ed : sqrt1p1mR ((4 * sq k.m) / k.Q_sq) = loopD k.Q_sq k.m - 1 := by
    rw [sqrt1p1mR_eq (by have : 0 ≤ 4 * sq k.m / k.Q_sq := by (unfold Sidis.sq; positivity)
                         linarith)]
    unfold loopD Sidis.sq
    rw [← pow_two]
  have el : √(k.Q_sq * (k.Q_sq + 4 * sq k.m)) = k.Q_sq * loopD k.Q_sq k.m := by
    rw [show k.Q_sq * (k.Q_sq + 4 * sq k.m) = (k.Q_sq * loopD k.Q_sq k.m) ^ 2 by
      rw [mul_pow, loopD_sq hQ]; unfold Sidis.sq; field_simp,
      sqrt_sq (by have := hb; positivity)]
  have eL : 1 / (k.Q_sq * loopD k.Q_sq k.m) * log ((2 + (loopD k.Q_sq k.m - 1))
      / (loopD k.Q_sq k.m - 1)) = logM k.Q_sq k.m := by
    simp only [logM]
    rw [el, ed]
  have ha : 1 < scale k.Q_sq k.m := by
    rw [scale, lt_div_iff₀ (by linarith)]; linarith
  obtain ⟨D, hD⟩ : ∃ D, D = scale k.Q_sq k.m * E1 - E2 := ⟨_, rfl⟩
  have hD0 : 0 < D := by rw [hD]; linarith
  rw [← hD] at hv
  have hrho : 1 / (k.Q_sq * loopD k.Q_sq k.m) * ((k.Q_sq + 2 * sq k.m + k.Q_sq * loopD k.Q_sq k.m)
      * (2 * mx * E1) - 2 * sq k.m * (2 * mx * E2))
      = (loopD k.Q_sq k.m ^ 2 - 1) / loopD k.Q_sq k.m * mx * D := by
    rw [hD, Sidis.sq, ← pow_two, hmass, scale]
    have : loopD k.Q_sq k.m - 1 ≠ 0 := by linarith
    have : loopD k.Q_sq k.m ≠ 0 := by linarith
    field_simp
    ring
  have hsum : 2 + (loopD k.Q_sq k.m - 1) = loopD k.Q_sq k.m + 1 := by ring
  rw [hsum] at eL
  have hab : scale k.Q_sq k.m * (loopD k.Q_sq k.m - 1) = loopD k.Q_sq k.m + 1 := by
    rw [scale, div_mul_cancel₀]; linarith
  have e1 : E1 - P1 = k.Q_sq * (loopD k.Q_sq k.m ^ 2 - 1) / (4 * (E1 + P1)) := by
    rw [eq_div_iff (by positivity)]; linear_combination 4 * hs1 + 4 * hmass
  have e2 : E2 - P2 = k.Q_sq * (loopD k.Q_sq k.m ^ 2 - 1) / (4 * (E2 + P2)) := by
    rw [eq_div_iff (by positivity)]; linear_combination 4 * hs2 + 4 * hmass
  have hb0 : 0 < loopD k.Q_sq k.m := by linarith
  have hb1 : 0 < loopD k.Q_sq k.m - 1 := by linarith
  have hb2 : 0 < loopD k.Q_sq k.m ^ 2 - 1 := by nlinarith
  have ha0 : 0 < scale k.Q_sq k.m := by linarith
  have g1 : 1 / (2 * mx * (E1 + P1)) * ((loopD k.Q_sq k.m ^ 2 - 1) / loopD k.Q_sq k.m * mx * D)
      = (scale k.Q_sq k.m * E1 - scale k.Q_sq k.m * P1) / v := by
    rw [← mul_sub, e1, hv]
    field_simp
    ring
  have g2 : 2 * mx * (E1 + P1) / (4 * sq k.m * mx ^ 2)
      * ((loopD k.Q_sq k.m ^ 2 - 1) / loopD k.Q_sq k.m * mx * D)
      = (scale k.Q_sq k.m * E1 + scale k.Q_sq k.m * P1) / v := by
    rw [← mul_add, hv, Sidis.sq, ← pow_two, hmass]
    field_simp
  have g3 : 2 * mx * (E2 + P2) / (mx ^ 2 * sq (loopD k.Q_sq k.m + 1) * k.Q_sq)
      * ((loopD k.Q_sq k.m ^ 2 - 1) / loopD k.Q_sq k.m * mx * D) = (E2 + P2) / v := by
    rw [hv, Sidis.sq, scale]
    field_simp
    ring
  have g4 : 4 * sq k.m / (2 * mx * (E2 + P2) * sq (loopD k.Q_sq k.m + 1) * k.Q_sq)
      * ((loopD k.Q_sq k.m ^ 2 - 1) / loopD k.Q_sq k.m * mx * D) = (E2 - P2) / v := by
    rw [hv, e2, Sidis.sq, ← pow_two, hmass, Sidis.sq, scale]
    field_simp
    ring
  have hl : ∀ {E P : ℝ}, 0 < P → P < E → E ^ 2 - P ^ 2 = k.m ^ 2 →
      (sq (2 * mx * E) - 4 * sq k.m * mx ^ 2) * sq (1 / (2 * mx * P) * log ((E + P) / (E - P))) / 4
        = 1 / 4 * (log (E - P) - log (E + P)) ^ 2 := by
    intro E P hP hE hs
    rw [log_div (by linarith) (by linarith),
      show sq (2 * mx * E) - 4 * sq k.m * mx ^ 2 = (2 * mx * P) ^ 2 by
        unfold Sidis.sq; linear_combination (4 * mx ^ 2) * hs]
    unfold Sidis.sq
    field_simp
    ring
  have hlog : (log (scale k.Q_sq k.m * E1 - scale k.Q_sq k.m * P1)
      - log (scale k.Q_sq k.m * E1 + scale k.Q_sq k.m * P1)) = log (E1 - P1) - log (E1 + P1) := by
    rw [← mul_sub, ← mul_add, log_mul ha0.ne' (by linarith), log_mul ha0.ne' (by linarith)]
    ring
  have hlam : k.Q_sq * (k.Q_sq + 4 * sq k.m) = (k.Q_sq * loopD k.Q_sq k.m) ^ 2 := by
    rw [mul_pow, loopD_sq hQ]; unfold Sidis.sq; field_simp
  have harg : 2 * (k.Q_sq * loopD k.Q_sq k.m) / (k.Q_sq + k.Q_sq * loopD k.Q_sq k.m)
      = 2 * loopD k.Q_sq k.m / (1 + loopD k.Q_sq k.m) := by
    field_simp
  unfold deltaWith
  simp only [hS, hX, hmx2, ed, el, a1, b1, c1, a2, b2, c2, d1, d2, eL, hrho, hsum, g1, g2, g3, g4,
    hl hP1 hP1E hs1, hl hP2 hP2E hs2, harg]
  rw [hlam]
  unfold spence
  rw [hlog, show sq (logM k.Q_sq k.m) = logM k.Q_sq k.m ^ 2 by rw [Sidis.sq, pow_two],
    show sq k.m = k.m ^ 2 by rw [Sidis.sq, pow_two], show sq π = π ^ 2 by rw [Sidis.sq, pow_two]]
  have q1 : 1 / 2 * (2 * mx * E1) * (1 / (2 * mx * P1) * log ((E1 + P1) / (E1 - P1)))
      = E1 / (2 * P1) * log ((E1 + P1) / (E1 - P1)) := by field_simp
  have q2 : 1 / 2 * (2 * mx * E2) * (1 / (2 * mx * P2) * log ((E2 + P2) / (E2 - P2)))
      = E2 / (2 * P2) * log ((E2 + P2) / (E2 - P2)) := by field_simp
  rw [q1, q2]
  ring

theorem path_inv (p q : Vec4) (x : ℝ) : (path p q x).t ^ 2 - len2 (path p q x)
    = mink q q + 2 * x * (mink p q - mink q q) + x ^ 2 * (mink p p - 2 * mink p q + mink q q) := by
  simp only [path, len2, mink]
  ring

/-- The sum of the vertex correction and of the soft emission, as the photon mass vanishes. -/
theorem infrared_limit {k : Kinematics ℝ} {k1 k2 : Vec4} {mx alpha R : ℝ} (hQ : 0 < k.Q_sq)
    (hm : 0 < k.m) (hmx : 0 < mx) (hmx2 : k.mx_sq = mx ^ 2) (hR : 0 < R)
    (h1 : mink k1 k1 = k.m ^ 2) (h2 : mink k2 k2 = k.m ^ 2)
    (h12 : 2 * mink k1 k2 = k.Q_sq + 2 * k.m ^ 2)
    (hS : k.S - k.Q_sq - k.V_1 = 2 * mx * k1.t) (hX : k.X + k.Q_sq - k.V_2 = 2 * mx * k2.t)
    (ht1 : 0 < k1.t) (ht2 : 0 < k2.t) (hl1 : 0 < len2 k1) (hl2 : 0 < len2 k2) :
    Tendsto (fun μ => 2 * diracFormFactor alpha k.Q_sq k.m μ + softEmission alpha k1 k2 μ R)
      (𝓝[>] 0) (𝓝 (alpha / π * (deltaWith Li2 k
        + 2 * ((k.Q_sq + 2 * k.m ^ 2) * logM k.Q_sq k.m - 1) * log (2 * R / k.m)))) := by
  have hb := loopD_gt hQ hm
  have hmass := lepton_mass hQ (m := k.m)
  have hb1 : 0 < loopD k.Q_sq k.m - 1 := by linarith
  have hb0 : 0 < loopD k.Q_sq k.m := by linarith
  have ha : 1 < scale k.Q_sq k.m := by
    rw [scale, lt_div_iff₀ (by linarith)]; linarith
  have ha0 : 0 < scale k.Q_sq k.m := by linarith
  rw [mink_self] at h1 h2
  have T1 : Timelike k1 := ⟨ht1, by have : 0 < k.m ^ 2 := by positivity
                                    linarith⟩
  have T2 : Timelike k2 := ⟨ht2, by have : 0 < k.m ^ 2 := by positivity
                                    linarith⟩
  obtain ⟨a, ea⟩ : ∃ a, a = scale k.Q_sq k.m := ⟨_, rfl⟩
  have hK0 : 0 < k.Q_sq * loopD k.Q_sq k.m * a := by rw [ea]; positivity
  have hinv : ∀ x, (path (times a k1) k2 x).t ^ 2 - len2 (path (times a k1) k2 x)
      = k2.t ^ 2 - len2 k2 + x * (k.Q_sq * loopD k.Q_sq k.m * a) := by
    intro x
    have e1 : mink (times a k1) (times a k1) = a ^ 2 * k.m ^ 2 := by
      rw [← h1]; simp only [times, mink, len2]; ring
    have e2 : mink (times a k1) k2 = a * ((k.Q_sq + 2 * k.m ^ 2) / 2) := by
      rw [← h12]; simp only [times, mink]; ring
    rw [path_inv, e1, e2, mink_self, h2, hmass, ea, scale]
    field_simp
    ring
  have hI : ∫ x in (0 : ℝ)..1, 1 / ((path (times a k1) k2 x).t ^ 2 - len2 (path (times a k1) k2 x))
      = 2 * logM k.Q_sq k.m / a := by
    have hm2 : 0 < k.m ^ 2 := by positivity
    have e : ∀ x ∈ uIcc (0 : ℝ) 1, HasDerivAt
        (fun x => log (k.m ^ 2 + x * (k.Q_sq * loopD k.Q_sq k.m * a))
          / (k.Q_sq * loopD k.Q_sq k.m * a))
        (1 / ((path (times a k1) k2 x).t ^ 2 - len2 (path (times a k1) k2 x))) x := by
      intro x hx
      rw [uIcc_of_le zero_le_one] at hx
      have hp : 0 < k.m ^ 2 + x * (k.Q_sq * loopD k.Q_sq k.m * a) := by
        have := mul_nonneg hx.1 hK0.le
        linarith
      have d : HasDerivAt (fun x => k.m ^ 2 + x * (k.Q_sq * loopD k.Q_sq k.m * a))
          (k.Q_sq * loopD k.Q_sq k.m * a) x := by
        simpa using ((hasDerivAt_id x).mul_const (k.Q_sq * loopD k.Q_sq k.m * a)).const_add (k.m ^ 2)
      refine ((d.log hp.ne').div_const _).congr_deriv ?_
      rw [hinv, h2, div_right_comm, div_self hK0.ne']
    rw [integral_eq_sub_of_hasDerivAt e]
    · have e1 : k.m ^ 2 + 1 * (k.Q_sq * loopD k.Q_sq k.m * a) = a ^ 2 * k.m ^ 2 := by
        rw [hmass, ea, scale]
        field_simp
        ring
      have hL := logM_eq hQ hm
      rw [show (loopD k.Q_sq k.m + 1) / (loopD k.Q_sq k.m - 1) = a by rw [ea, scale]] at hL
      have hap : 0 < a := by rw [ea]; exact ha0
      rw [e1, log_mul (by positivity) hm2.ne', log_pow, ← hL, zero_mul, add_zero]
      push_cast
      field_simp
      ring
    · apply ContinuousOn.intervalIntegrable
      apply ContinuousOn.div continuousOn_const
      · simp only [hinv]; fun_prop
      · intro x hx
        rw [uIcc_of_le zero_le_one] at hx
        rw [hinv, h2]
        have := mul_nonneg hx.1 hK0.le
        positivity
  have hl1' : len2 (times a k1) = a ^ 2 * len2 k1 := by simp only [times, len2]; ring
  obtain ⟨hlt, hspence⟩ := spence_integral (T1.times (by rw [ea]; exact ha0)) T2 hK0 hinv hl2
  have hv := vertex_tendsto hQ hm
  have hs := softEmission_tendsto (alpha := alpha) T1 T2 (by rw [ea]; exact ha0) hR hI
  rw [hspence] at hs
  have hsum := (hv.const_mul (alpha / π)).add hs
  have hfun : (fun μ => 2 * diracFormFactor alpha k.Q_sq k.m μ + softEmission alpha k1 k2 μ R)
      =ᶠ[𝓝[>] 0] fun μ => alpha / π * ((∫ t in (0 : ℝ)..1, ∫ w in (0 : ℝ)..1,
          vertexI k.Q_sq k.m μ t w) - 2 * ((k.Q_sq + 2 * k.m ^ 2) * logM k.Q_sq k.m - 1) * log μ)
        + (softEmission alpha k1 k2 μ R + alpha / π
          * ((2 * mink k1 k2 * a * (2 * logM k.Q_sq k.m / a) - 2) * log μ)) := by
    filter_upwards [self_mem_nhdsWithin] with μ hμ
    rw [diracFormFactor_eq hQ hm hμ, h12]
    generalize (∫ t in (0 : ℝ)..1, ∫ w in (0 : ℝ)..1, vertexI k.Q_sq k.m μ t w) = J
    have hap : a ≠ 0 := by rw [ea]; exact ha0.ne'
    field_simp
    ring
  have hap : 0 < a := by rw [ea]; exact ha0
  have hP1 : 0 < √(len2 k1) := sqrt_pos.2 hl1
  have hP2 : 0 < √(len2 k2) := sqrt_pos.2 hl2
  have hP1E : √(len2 k1) < k1.t := (sqrt_lt' ht1).2 T1.2
  have hP2E : √(len2 k2) < k2.t := (sqrt_lt' ht2).2 T2.2
  have hrest := deltaWith_rest (mx := mx) (E1 := k1.t) (E2 := k2.t) (P1 := √(len2 k1))
    (P2 := √(len2 k2)) hQ hm hmx hmx2 hP1 hP1E (by rw [sq_sqrt hl1.le]; exact h1) hP2 hP2E
    (by rw [sq_sqrt hl2.le]; exact h2) hS hX (v := _) rfl
    (by rw [← ea]; exact hlt)
  convert hsum.congr' hfun.symm using 2
  rw [hrest, ← ea, hl1', sqrt_mul (by positivity), sqrt_sq hap.le, h12,
    show velocity k1.t (len2 k1) 1 = k1.t / (2 * √(len2 k1))
      * log ((k1.t + √(len2 k1)) / (k1.t - √(len2 k1))) by
        rw [← velocity_one hP1 hP1E, sq_sqrt hl1.le],
    show velocity k2.t (len2 k2) 1 = k2.t / (2 * √(len2 k2))
      * log ((k2.t + √(len2 k2)) / (k2.t - √(len2 k2))) by
        rw [← velocity_one hP2 hP2E, sq_sqrt hl2.le],
    log_div (by positivity) hm.ne', log_pow]
  rw [show (times a k1).t = a * k1.t from rfl]
  generalize spence _ (a * k1.t) _ = s1
  generalize spence _ k2.t _ = s2
  generalize log ((k1.t + √(len2 k1)) / (k1.t - √(len2 k1))) = l1
  generalize log ((k2.t + √(len2 k2)) / (k2.t - √(len2 k2))) = l2
  push_cast
  field_simp
  ring

end Sidis.Lemmas
