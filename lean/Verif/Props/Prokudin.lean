import Verif.Lemmas.Prokudin

/-! # C60, C73: the Prokudin sets -/

namespace Sidis.Props
open Real Sidis.Prokudin Lemmas

/-- The set of `ProkudinTmdSet` with another width for the distributions `hT` and `hTperp`. -/
noncomputable def withHT (T : Tables) (m : ℝ) : GaussianWwTmdSet :=
  { tmds T with mean_hT := fun _ => some m, mean_hTperp := fun _ => some m }

/-- The 18 functions of a set, all of them without a throw. -/
def allSome (v : SfVals) : Prokudin.Sf :=
  ⟨some v.F_UUL, some v.F_UUT, some v.F_UU_cos_phih, some v.F_UU_cos_2phih, some v.F_UL_sin_phih,
    some v.F_UL_sin_2phih, some v.F_UTL_sin_phih_m_phis, some v.F_UTT_sin_phih_m_phis,
    some v.F_UT_sin_2phih_m_phis, some v.F_UT_sin_3phih_m_phis, some v.F_UT_sin_phis,
    some v.F_UT_sin_phih_p_phis, some v.F_LU_sin_phih, some v.F_LL, some v.F_LL_cos_phih,
    some v.F_LT_cos_phih_m_phis, some v.F_LT_cos_2phih_m_phis, some v.F_LT_cos_phis⟩

set_option maxHeartbeats 1600000 in
/-- C60 (partial: two of the functions are not those of the distributions, see below). For pions the
explicit formulas of `ProkudinSfSet` are the structure functions that `GaussianWwTmdSfSet` computes from
the distributions of `ProkudinTmdSet`, whatever the tables, except `F_UT^sin(2φ_h-φ_S)`, which is that of
the distributions with another width of `hT` and `hTperp`, and `F_UT^sin(φ_S)`, which in addition has the
width of `h1` in its coefficient. -/
theorem c60_agree_partial (T : Tables) {h : Hadron} (hh : h = .piP ∨ h = .piM) {x z Q_sq ph_t_sq : ℝ}
    (hx : x ≠ 0) (hz : 0 < z) (hph : 0 ≤ ph_t_sq) :
    Prokudin.sf T h x z Q_sq ph_t_sq = allSome
      { (tmds T).sf h x z Q_sq ph_t_sq with
        F_UT_sin_2phih_m_phis :=
          ((withHT T pretzMean).sf h x z Q_sq ph_t_sq).F_UT_sin_2phih_m_phis
        F_UT_sin_phis := h1Mean / pretzMean *
          ((withHT T pretzMean).sf h x z Q_sq ph_t_sq).F_UT_sin_phis } := by
  have hmh := (hadron_mass_pos h).ne'
  have hM := pM_pos.ne'
  have hMd : (Nucleus.p.mass : ℝ) = Prokudin.M := rfl
  obtain ⟨s, hs, rfl⟩ : ∃ s, √ph_t_sq = s ∧ ph_t_sq = s * s :=
    ⟨_, rfl, (Real.mul_self_sqrt hph).symm⟩
  have hl : ∀ a b : ℝ, 0 < a → 0 < b → b + z ^ 2 * a ≠ 0 := fun a b ha hb => by positivity
  have hlam : ∀ a b, lambda z a b = b + z * z * a := fun a b => by simp only [lambda, sq]; ring
  have := f1Mean_pos.ne'; have := g1Mean_pos.ne'; have := h1Mean_pos.ne'
  have := collinsMean_pos.ne'; have := pretzMean_pos.ne'
  have := hl _ _ f1Mean_pos d1Mean_pos
  have := hl _ _ g1Mean_pos d1Mean_pos
  have := hl _ _ siversMean_pos d1Mean_pos
  have := hl _ _ h1Mean_pos collinsMean_pos
  have := hl _ _ bmMean_pos collinsMean_pos
  have := hl _ _ pretzMean_pos collinsMean_pos
  have hπ := pi_pos.ne'
  have hd : ∀ fl, D1 T h fl z Q_sq = some ((D1 T h fl z Q_sq).getD 0) := fun fl =>
    (pion_some T hh fl z Q_sq).1
  have hH : ∀ fl, H1perp T h fl z Q_sq = some ((H1perp T h fl z Q_sq).getD 0) := fun fl =>
    (pion_some T hh fl z Q_sq).2
  have hHM : ∀ fl, H1perpM1 T h fl z Q_sq =
      some (collinsMean / (2 * z ^ 2 * h.mass ^ 2) * (H1perp T h fl z Q_sq).getD 0) := fun fl => by
    rw [H1perpM1_eq T h fl hz.ne', hH]; rfl
  have l1 : ∀ f, loop f (D1 T h · z Q_sq) = some (∑ fl ∈ Finset.range numFlavors,
      charge fl ^ 2 * f fl * (D1 T h fl z Q_sq).getD 0) := fun f => by
    rw [← loop_some]; exact congrArg _ (funext hd)
  have l2 : ∀ f, loop f (H1perpM1 T h · z Q_sq) = some (∑ fl ∈ Finset.range numFlavors,
      charge fl ^ 2 * f fl *
        (collinsMean / (2 * z ^ 2 * h.mass ^ 2) * (H1perp T h fl z Q_sq).getD 0)) := fun f => by
    rw [← loop_some]; exact congrArg _ (funext hHM)
  simp only [Prokudin.sf, l1, l2, allSome, GaussianWwTmdSet.sf, SfVals.gaussianWw,
    convolveGaussian_sum, gaussTerm, withHT, tmds, GaussianWwTmdSet.toGaussian,
    GaussianWwTmdSet.meanTmd, GaussianWwTmdSet.meanFf, GaussianWwTmdSet.tmd, GaussianWwTmdSet.ff,
    GaussianWwTmdSet.m1, gaussianWeight, hMd, xf1TperpM1_eq, xh1perpM1_eq, xh1TperpM2_eq,
    xh1LperpM1_eq, xgT_eq T _ hx, xh1M1, G, hlam, hs, sq, Option.bind_eq_bind, Option.bind_some,
    Option.pure_def, Finset.sum_const_zero, Prokudin.Sf.mk.injEq, Option.some.injEq]
  generalize (h.mass : ℝ) = mh at *
  generalize Prokudin.M = M at *
  generalize √Q_sq = Q at *
  simp only [Finset.mul_sum, ← Finset.sum_add_distrib, ← Finset.sum_sub_distrib,
    ← Finset.sum_neg_distrib, zero_sub]
  clear l1 l2 hH hHM hd hl hlam
  generalize rexp (-(s * s) / (d1Mean + z * z * f1Mean)) = e1
  generalize rexp (-(s * s) / (d1Mean + z * z * g1Mean)) = e2
  generalize rexp (-(s * s) / (d1Mean + z * z * siversMean)) = e3
  generalize rexp (-(s * s) / (collinsMean + z * z * h1Mean)) = e4
  generalize rexp (-(s * s) / (collinsMean + z * z * bmMean)) = e5
  generalize rexp (-(s * s) / (collinsMean + z * z * pretzMean)) = e6
  simp only [div_eq_mul_inv, mul_inv]
  generalize Q⁻¹ = q
  refine ⟨?_, ?_, ?_, ?_, ?_, ?_, ?_, ?_, ?_, ?_, ?_, ?_, ?_, ?_, ?_, ?_, ?_, ?_⟩
  all_goals first
    | trivial
    | (refine Finset.sum_congr rfl fun fl _ => ?_
       first | (field_simp; done) | (field_simp; ring; done))

/-- For hadrons other than charged pions each function of `ProkudinSfSet` throws, as do the fragmentation
functions of `ProkudinTmdSet`, except the three inherited functions that are zero. -/
theorem c60_throws (T : Tables) {h : Hadron} (hh : h ≠ .piP ∧ h ≠ .piM) (x z Q_sq ph_t_sq : ℝ) :
    (∀ fl, D1 T h fl z Q_sq = none ∧ H1perp T h fl z Q_sq = none) ∧
    Prokudin.sf T h x z Q_sq ph_t_sq =
      ⟨some 0, none, none, none, none, none, some 0, none, none, none, none, none, some 0, none, none,
        none, none, none⟩ := by
  have h1 : ∀ fl, D1 T h fl z Q_sq = none := fun fl => by
    cases h <;> simp_all [D1]
  have h2 : ∀ fl, collinsCoeff h fl = none := fun fl => by
    cases h <;> simp_all [collinsCoeff]
  have h3 : ∀ fl, H1perp T h fl z Q_sq = none := fun fl => by simp [H1perp, h2]
  have h4 : ∀ fl, H1perpM1 T h fl z Q_sq = none := fun fl => by simp [H1perpM1, h2]
  have hl : ∀ (f : ℕ → ℝ), loop f (fun _ => none) = none := fun f => by
    simp [loop, numFlavors, List.range_succ_eq_map]
  refine ⟨fun fl => ⟨h1 fl, h3 fl⟩, ?_⟩
  simp only [Prokudin.sf, h1, h4, hl]
  rfl

/-- `F_UT^sin(φ_S)` of the distributions with the width `m` of `hT` and `hTperp`. -/
theorem sin_phis_closed (T : Tables) (h : Hadron) {x z Q_sq ph_t_sq m : ℝ} (hx : x ≠ 0) (hz : 0 < z)
    (hm : 0 < m) :
    ((withHT T m).sf h x z Q_sq ph_t_sq).F_UT_sin_phis =
      m / lambda z m collinsMean * (1 - ph_t_sq / lambda z m collinsMean) *
        G ph_t_sq (lambda z m collinsMean) *
        (2 * collinsMean / (h.mass * √Q_sq) * ∑ fl ∈ Finset.range numFlavors,
          charge fl ^ 2 * xh1 T fl x Q_sq * (H1perp T h fl z Q_sq).getD 0) := by
  have hmh := (hadron_mass_pos h).ne'
  have hM := pM_pos.ne'
  have hMd : (Nucleus.p.mass : ℝ) = Prokudin.M := rfl
  have hl : collinsMean + z ^ 2 * m ≠ 0 := by have := collinsMean_pos; positivity
  have hlam : lambda z m collinsMean = collinsMean + z ^ 2 * m := by simp only [lambda, sq]; ring
  simp only [GaussianWwTmdSet.sf, SfVals.gaussianWw,
    convolveGaussian_sum, gaussTerm, withHT, tmds, GaussianWwTmdSet.toGaussian,
    GaussianWwTmdSet.meanTmd, GaussianWwTmdSet.meanFf, GaussianWwTmdSet.tmd, GaussianWwTmdSet.ff,
    GaussianWwTmdSet.m1, gaussianWeight, hMd, G, hlam, sq, ← pow_two, Finset.sum_const_zero, zero_sub]
  simp only [Finset.mul_sum, ← Finset.sum_add_distrib, ← Finset.sum_neg_distrib]
  refine Finset.sum_congr rfl fun fl _ => ?_
  generalize (h.mass : ℝ) = mh at *
  generalize Prokudin.M = M at *
  generalize rexp (-ph_t_sq / (collinsMean + z ^ 2 * m)) = e
  rw [show ∀ a b : ℝ, 2 * a / (b * √Q_sq) = 2 * a / b * (√Q_sq)⁻¹ from fun a b => by
    rw [div_mul_eq_div_div]; rfl, div_eq_mul_inv _ (√Q_sq)]
  generalize (√Q_sq)⁻¹ = q
  generalize collinsMean + z ^ 2 * m = L at *
  field_simp
  ring

/-- `F_UT^sin(2φ_h-φ_S)` of the distributions with the width `m` of `hT` and `hTperp`: a part that does
not depend on the width, and the part of `hT` and `hTperp`. -/
theorem sin_2phih_closed (T : Tables) (h : Hadron) {x z Q_sq ph_t_sq m : ℝ} (hx : x ≠ 0) (hz : 0 < z)
    (hm : 0 < m) :
    ((withHT T m).sf h x z Q_sq ph_t_sq).F_UT_sin_2phih_m_phis =
      2 * Prokudin.M * x / √Q_sq * convolveGaussian (tmds T).toGaussian .WC2 .fTperp .D1 .p h x z Q_sq ph_t_sq
      - m / lambda z m collinsMean ^ 2 * G ph_t_sq (lambda z m collinsMean) *
        (ph_t_sq * (pretzMean * collinsMean / (Prokudin.M ^ 2 * h.mass * √Q_sq)) *
          ∑ fl ∈ Finset.range numFlavors,
            charge fl ^ 2 * xh1Tperp T fl x Q_sq * (H1perp T h fl z Q_sq).getD 0) := by
  have hmh := (hadron_mass_pos h).ne'
  have hM := pM_pos.ne'
  have hMd : (Nucleus.p.mass : ℝ) = Prokudin.M := rfl
  have hl : collinsMean + z ^ 2 * m ≠ 0 := by have := collinsMean_pos; positivity
  have hlam : lambda z m collinsMean = collinsMean + z ^ 2 * m := by simp only [lambda, sq]; ring
  simp only [GaussianWwTmdSet.sf, SfVals.gaussianWw,
    convolveGaussian_sum, gaussTerm, withHT, tmds, GaussianWwTmdSet.toGaussian,
    GaussianWwTmdSet.meanTmd, GaussianWwTmdSet.meanFf, GaussianWwTmdSet.tmd, GaussianWwTmdSet.ff,
    GaussianWwTmdSet.m1, gaussianWeight, hMd, G, hlam, sq, ← pow_two]
  simp only [Finset.mul_sum, ← Finset.sum_add_distrib, ← Finset.sum_sub_distrib]
  refine Finset.sum_congr rfl fun fl _ => ?_
  generalize (h.mass : ℝ) = mh at *
  generalize Prokudin.M = M at *
  generalize rexp (-ph_t_sq / (collinsMean + z ^ 2 * m)) = e
  generalize rexp (-ph_t_sq / (d1Mean + z ^ 2 * siversMean)) = e'
  rw [show ∀ a b : ℝ, a / (b * √Q_sq) = a / b * (√Q_sq)⁻¹ from fun a b => by
    rw [div_mul_eq_div_div]; rfl, div_eq_mul_inv _ (√Q_sq)]
  generalize (√Q_sq)⁻¹ = q
  generalize d1Mean + z ^ 2 * siversMean = l'
  field_simp
  ring

/-- Tables with an up quark that fragments to a positive pion, and nothing else. -/
noncomputable def upTables : Tables where
  parton f _ _ := if f = 8 then 1 else 0
  D1_pi_plus fl _ _ := if fl = 0 then 1 else 0
  D1_pi_minus _ _ _ := 0
  g1 _ _ _ := 0
  xgT _ _ _ := 0
  xh1LperpM1 _ _ _ := 0
  sb fl _ _ := if fl = 0 then 1 else 0

theorem upTables_H1perp : 0 < (H1perp upTables .piP 0 (1 / 2) 1).getD 0 ∧
    ∀ fl ≠ 0, (H1perp upTables .piP fl (1 / 2) 1).getD 0 = 0 := by
  refine ⟨?_, fun fl hfl => by simp [H1perp, collinsCoeff, D1, upTables, hfl]⟩
  have h1 : 0 < collinsGamma := by norm_num [collinsGamma]
  have h2 : 0 < collinsDelta := by norm_num [collinsDelta]
  have h3 : 0 < collinsNFav := by norm_num [collinsNFav]
  have h4 : (0 : ℝ) < 1 - 1 / 2 := by norm_num
  have h5 : 0 < E := exp_pos 1
  have := hadron_mass_pos .piP
  have := collinsM_pos; have := collinsMean_pos; have := d1Mean_pos
  simp only [H1perp, collinsCoeff, D1, upTables, Option.bind_eq_bind, Option.bind_some, Option.pure_def,
    Option.getD_some, if_true, true_or]
  positivity

theorem upTables_xh1 : 0 < xh1 upTables 0 (1 / 2) 1 ∧ 0 < xh1Tperp upTables 0 (1 / 2) 1 := by
  have h1 : 0 < h1Alpha := by norm_num [h1Alpha]
  have h2 : 0 < h1Beta := by norm_num [h1Beta]
  have h3 : 0 < pretzAlpha := by norm_num [pretzAlpha]
  have h3' : 0 < pretzBeta := by norm_num [pretzBeta]
  have h4 : (0 : ℝ) < 1 - 1 / 2 := by norm_num
  have h5 : 0 < E := exp_pos 1
  have h6 : 0 < h1N 0 := by norm_num [h1N]
  have h7 : 0 < pretzN 0 := by norm_num [pretzN]
  have := pM_pos; have := f1Mean_pos; have := pretzMean_pos; have := pretzMttSq_pos
  have h8 : xf1 upTables 0 (1 / 2) 1 - xg1 upTables 0 (1 / 2) 1 = 1 := by
    simp [xf1, xg1, upTables]
  constructor
  · simp only [xh1, upTables, if_true]
    positivity
  · rw [xh1Tperp, h8]
    unfold sq
    positivity

theorem upTables_sum (f : ℕ → ℝ) : ∑ fl ∈ Finset.range numFlavors,
    charge fl ^ 2 * f fl * (H1perp upTables .piP fl (1 / 2) 1).getD 0 =
      charge 0 ^ 2 * f 0 * (H1perp upTables .piP 0 (1 / 2) 1).getD 0 := by
  refine Finset.sum_eq_single_of_mem 0 (by simp [numFlavors]) fun fl _ h => ?_
  rw [upTables_H1perp.2 fl h, mul_zero]

/-- C60 (refutation). `F_UT^sin(φ_S)` of `ProkudinSfSet` is not that of the distributions of
`ProkudinTmdSet`: for `hT` and `hTperp` the one has 0.25 as the coefficient and the pretzelosity width in
the Gaussian, the other the width 0.15 in both. -/
theorem c60_sin_phis_refuted : ∃ (T : Tables) (h : Hadron) (x z Q_sq ph_t_sq : ℝ),
    (h = .piP ∨ h = .piM) ∧ 0 < x ∧ x < 1 ∧ 0 < z ∧ z < 1 ∧ 0 < Q_sq ∧ 0 ≤ ph_t_sq ∧
    (Prokudin.sf T h x z Q_sq ph_t_sq).F_UT_sin_phis ≠
      some ((tmds T).sf h x z Q_sq ph_t_sq).F_UT_sin_phis := by
  refine ⟨upTables, .piP, 1 / 2, 1 / 2, 1, 0, .inl rfl, by norm_num, by norm_num, by norm_num, by norm_num,
    by norm_num, le_rfl, ?_⟩
  rw [c60_agree_partial upTables (.inl rfl) (by norm_num) (by norm_num) le_rfl]
  simp only [allSome, ne_eq, Option.some.injEq]
  have e : tmds upTables = withHT upTables hTMean := rfl
  rw [e, sin_phis_closed _ _ (by norm_num) (by norm_num) pretzMean_pos,
    sin_phis_closed _ _ (by norm_num) (by norm_num) hTMean_pos, upTables_sum]
  have hc : 0 < 2 * collinsMean / (Hadron.piP.mass * √(1 : ℝ)) *
      (charge 0 ^ 2 * xh1 upTables 0 (1 / 2) 1 * (H1perp upTables .piP 0 (1 / 2) 1).getD 0) := by
    have := collinsMean_pos; have := hadron_mass_pos .piP; have := upTables_xh1.1
    have := upTables_H1perp.1
    have : 0 < charge 0 := by norm_num [charge]
    positivity
  generalize 2 * collinsMean / (Hadron.piP.mass * √(1 : ℝ)) *
      (charge 0 ^ 2 * xh1 upTables 0 (1 / 2) 1 * (H1perp upTables .piP 0 (1 / 2) 1).getD 0) = C at hc
  rw [← mul_assoc, mul_left_inj' hc.ne']
  have hπ := pi_pos.ne'
  simp only [G, neg_zero, zero_div, exp_zero, sub_zero, mul_one]
  norm_num [lambda, sq, pretzMean, collinsMean, hTMean, f1Mean, h1Mean, pretzMttSq, d1Mean, collinsMSq]
  field_simp
  norm_num

/-- C60 (refutation). `F_UT^sin(2φ_h-φ_S)` of `ProkudinSfSet` is not that of the distributions of
`ProkudinTmdSet`: for `hT` and `hTperp` the one has the pretzelosity width, the other 0.15. -/
theorem c60_sin_2phih_refuted : ∃ (T : Tables) (h : Hadron) (x z Q_sq ph_t_sq : ℝ),
    (h = .piP ∨ h = .piM) ∧ 0 < x ∧ x < 1 ∧ 0 < z ∧ z < 1 ∧ 0 < Q_sq ∧ 0 ≤ ph_t_sq ∧
    (Prokudin.sf T h x z Q_sq ph_t_sq).F_UT_sin_2phih_m_phis ≠
      some ((tmds T).sf h x z Q_sq ph_t_sq).F_UT_sin_2phih_m_phis := by
  refine ⟨upTables, .piP, 1 / 2, 1 / 2, 1, 1, .inl rfl, by norm_num, by norm_num, by norm_num, by norm_num,
    by norm_num, by norm_num, ?_⟩
  rw [c60_agree_partial upTables (.inl rfl) (by norm_num) (by norm_num) (by norm_num)]
  simp only [allSome, ne_eq, Option.some.injEq]
  have e : tmds upTables = withHT upTables hTMean := rfl
  have e2 := sin_2phih_closed upTables .piP (x := 1 / 2) (z := 1 / 2) (Q_sq := 1) (ph_t_sq := 1)
    (by norm_num) (by norm_num) hTMean_pos
  rw [← e] at e2
  rw [sin_2phih_closed _ _ (by norm_num) (by norm_num) pretzMean_pos, e2, upTables_sum]
  have hc : 0 < 1 * (pretzMean * collinsMean / (Prokudin.M ^ 2 * Hadron.piP.mass * √(1 : ℝ))) *
      (charge 0 ^ 2 * xh1Tperp upTables 0 (1 / 2) 1 * (H1perp upTables .piP 0 (1 / 2) 1).getD 0) := by
    have := collinsMean_pos; have := hadron_mass_pos .piP; have := upTables_xh1.2
    have := upTables_H1perp.1; have := pretzMean_pos; have := pM_pos
    have : 0 < charge 0 := by norm_num [charge]
    positivity
  generalize 1 * (pretzMean * collinsMean / (Prokudin.M ^ 2 * Hadron.piP.mass * √(1 : ℝ))) *
      (charge 0 ^ 2 * xh1Tperp upTables 0 (1 / 2) 1 * (H1perp upTables .piP 0 (1 / 2) 1).getD 0) = C at hc
  rw [sub_right_inj, mul_left_inj' hc.ne']
  refine ne_of_lt ?_
  have h1 : lambda (1 / 2) pretzMean collinsMean < lambda (1 / 2) hTMean collinsMean := by
    norm_num [lambda, sq, pretzMean, collinsMean, hTMean, f1Mean, h1Mean, pretzMttSq, d1Mean, collinsMSq]
  have h2 : pretzMean / lambda (1 / 2) pretzMean collinsMean ^ 3 <
      hTMean / lambda (1 / 2) hTMean collinsMean ^ 3 := by
    norm_num [lambda, sq, pretzMean, collinsMean, hTMean, f1Mean, h1Mean, pretzMttSq, d1Mean, collinsMSq]
  have h3 : 0 < lambda (1 / 2) pretzMean collinsMean := by
    norm_num [lambda, sq, pretzMean, collinsMean, hTMean, f1Mean, h1Mean, pretzMttSq, d1Mean, collinsMSq]
  have hp := pretzMean_pos
  generalize lambda (1 / 2) pretzMean collinsMean = l at *
  generalize lambda (1 / 2) hTMean collinsMean = l' at *
  have h4 : exp (-1 / l) ≤ exp (-1 / l') := exp_le_exp.mpr (by
    rw [neg_div, neg_div, neg_le_neg_iff]; exact one_div_le_one_div_of_le h3 h1.le)
  have h5 : 0 < l' := h3.trans h1
  have hπ := pi_pos
  calc pretzMean / l ^ 2 * G 1 l = pretzMean / l ^ 3 * (exp (-1 / l) / π) := by unfold G; field_simp
    _ ≤ pretzMean / l ^ 3 * (exp (-1 / l') / π) := by gcongr
    _ < hTMean / l' ^ 3 * (exp (-1 / l') / π) := by gcongr
    _ = hTMean / l' ^ 2 * G 1 l' := by unfold G; field_simp

/-! ### Positivity bounds -/

/-- C73. Positivity of the Sivers function: at every transverse momentum the number of quarks in a
transversely polarised proton, `f1 - (k/M) f1Tperp` along any direction, is not negative. -/
theorem c73_sivers (T : Tables) (fl : ℕ) {x : ℝ} (hx : 0 ≤ x) (hx' : x ≤ 1) (Q_sq : ℝ)
    (hf : 0 ≤ (tmds T).f1 fl x Q_sq) {k_sq : ℝ} (hk : 0 ≤ k_sq) :
    √k_sq / (tmds T).target.mass * |(tmds T).toGaussian.toTmdSet.tmd .f1Tperp fl x Q_sq k_sq| ≤
      (tmds T).toGaussian.toTmdSet.tmd .f1 fl x Q_sq k_sq := by
  have key := sivers_like (F := (tmds T).f1 fl x Q_sq) (k := k_sq) (N := siversN fl)
    (s := x ^ siversAlpha fl * (1 - x) ^ siversBeta fl
      * (siversAlpha fl + siversBeta fl) ^ (siversAlpha fl + siversBeta fl)
      * siversAlpha fl ^ (-siversAlpha fl) * siversBeta fl ^ (-siversBeta fl))
    f1Mean_pos (by norm_num [siversM1Sq] : 0 < siversM1Sq) (nucleus_mass_pos .p) hf hk ?_
  · refine (le_of_eq ?_).trans key
    simp only [GaussianTmdSet.toTmdSet, GaussianWwTmdSet.toGaussian, GaussianWwTmdSet.tmd,
      GaussianWwTmdSet.meanTmd, tmds, xf1Tperp, siversM1, siversMean]
    congr 3
    simp only [Prokudin.M]
    ring
  · match fl with
    | 0 =>
      have := beta_shape hx hx' (a := siversAlpha 0) (b := siversBeta 0) (by norm_num [siversAlpha])
        (by norm_num [siversBeta])
      rw [abs_mul, abs_of_nonneg this.1]
      exact mul_le_one₀ (by norm_num [siversN, abs_le]) this.1 this.2
    | 1 =>
      have := beta_shape hx hx' (a := siversAlpha 1) (b := siversBeta 1) (by norm_num [siversAlpha])
        (by norm_num [siversBeta])
      rw [abs_mul, abs_of_nonneg this.1]
      exact mul_le_one₀ (by norm_num [siversN, abs_le]) this.1 this.2
    | n + 2 => simp [siversN]

/-- C73. Positivity of the Boer-Mulders function. -/
theorem c73_boer_mulders (T : Tables) (fl : ℕ) {x : ℝ} (hx : 0 ≤ x) (hx' : x ≤ 1) (Q_sq : ℝ)
    (hf : 0 ≤ (tmds T).f1 fl x Q_sq) {k_sq : ℝ} (hk : 0 ≤ k_sq) :
    √k_sq / (tmds T).target.mass * |(tmds T).toGaussian.toTmdSet.tmd .h1perp fl x Q_sq k_sq| ≤
      (tmds T).toGaussian.toTmdSet.tmd .f1 fl x Q_sq k_sq := by
  have key := sivers_like (F := (tmds T).f1 fl x Q_sq) (k := k_sq) (N := bmLambda fl * bmA fl)
    (s := x ^ bmAlpha fl * (1 - x) ^ bmBeta * (bmAlpha fl + bmBeta) ^ (bmAlpha fl + bmBeta)
      * bmAlpha fl ^ (-bmAlpha fl) * bmBeta ^ (-bmBeta))
    f1Mean_pos (by norm_num [bmM1Sq] : 0 < bmM1Sq) (nucleus_mass_pos .p) hf hk ?_
  · refine (le_of_eq ?_).trans key
    simp only [GaussianTmdSet.toTmdSet, GaussianWwTmdSet.toGaussian, GaussianWwTmdSet.tmd,
      GaussianWwTmdSet.meanTmd, tmds, xh1perp, bmM1, bmMean]
    congr 3
    simp only [Prokudin.M]
    ring
  · have ha : 0 < bmAlpha fl := by
      match fl with
      | 0 => norm_num [bmAlpha]
      | 1 => norm_num [bmAlpha]
      | n + 2 => show (0 : ℝ) < 0.79; norm_num
    have := beta_shape hx hx' ha (b := bmBeta) (by norm_num [bmBeta])
    rw [abs_mul, abs_of_nonneg this.1]
    refine mul_le_one₀ ?_ this.1 this.2
    match fl with
    | 0 => norm_num [bmLambda, bmA, abs_le]
    | 1 => norm_num [bmLambda, bmA, abs_le]
    | n + 2 => simp [bmLambda]

/-- C73. Positivity of the Collins function, for charged pions. -/
theorem c73_collins (T : Tables) {h : Hadron} (hh : h = .piP ∨ h = .piM) (fl : ℕ) {z : ℝ} (hz : 0 < z)
    (hz' : z ≤ 1) (Q_sq : ℝ) (hf : 0 ≤ (tmds T).D1 h fl z Q_sq) {p_sq : ℝ} (hp : 0 ≤ p_sq) :
    √p_sq / (z * h.mass) * |(tmds T).toGaussian.toTmdSet.ff .H1perp h fl z Q_sq p_sq| ≤
      (tmds T).toGaussian.toTmdSet.ff .D1 h fl z Q_sq p_sq := by
  have key := sivers_like (F := (tmds T).D1 h fl z Q_sq) (k := p_sq)
    (N := -(collinsCoeff h fl).getD 0)
    (s := z ^ collinsGamma * (1 - z) ^ collinsDelta
      * (collinsGamma + collinsDelta) ^ (collinsGamma + collinsDelta)
      * collinsGamma ^ (-collinsGamma) * collinsDelta ^ (-collinsDelta))
    d1Mean_pos (by norm_num [collinsMSq] : 0 < collinsMSq)
    (mul_pos hz (hadron_mass_pos h)) hf hp ?_
  · refine (le_of_eq ?_).trans key
    have : (tmds T).H1perp h fl z Q_sq = -√(2 * E) * (z * h.mass) / √collinsMSq
        * ((d1Mean * collinsMSq) / (d1Mean + collinsMSq)) / d1Mean * -(collinsCoeff h fl).getD 0
        * (z ^ collinsGamma * (1 - z) ^ collinsDelta
          * (collinsGamma + collinsDelta) ^ (collinsGamma + collinsDelta)
          * collinsGamma ^ (-collinsGamma) * collinsDelta ^ (-collinsDelta))
        * (tmds T).D1 h fl z Q_sq := by
      rcases hh with rfl | rfl <;>
        simp only [tmds, H1perp, collinsCoeff, D1, Option.bind_eq_bind, Option.bind_some,
          Option.pure_def, Option.getD_some, collinsM, collinsMean] <;> ring
    simp only [GaussianTmdSet.toTmdSet, GaussianWwTmdSet.toGaussian, GaussianWwTmdSet.ff,
      GaussianWwTmdSet.meanFf]
    rw [this]
    rfl
  · have := beta_shape hz.le hz' (a := collinsGamma) (b := collinsDelta) (by norm_num [collinsGamma])
      (by norm_num [collinsDelta])
    rw [abs_mul, abs_of_nonneg this.1]
    refine mul_le_one₀ ?_ this.1 this.2
    rw [abs_neg]
    rcases hh with rfl | rfl <;> simp only [collinsCoeff, Option.getD_some] <;> split_ifs <;>
      norm_num [collinsNFav, collinsNDisfav, abs_le]

/-- C73. Positivity of pretzelosity: `(k²/2M²) |h1Tperp|` is at most half of the number of quarks polarised
against the proton, `f1 - g1`, spread over the transverse momentum like `f1`. -/
theorem c73_pretzelosity (T : Tables) (fl : ℕ) {x : ℝ} (hx : 0 ≤ x) (hx' : x ≤ 1) (Q_sq : ℝ)
    (hf : (tmds T).g1 fl x Q_sq ≤ (tmds T).f1 fl x Q_sq) {k_sq : ℝ} (hk : 0 ≤ k_sq) :
    k_sq / (2 * (tmds T).target.mass ^ 2) *
        |(tmds T).toGaussian.toTmdSet.tmd .h1Tperp fl x Q_sq k_sq| ≤
      1 / 2 * (((tmds T).f1 fl x Q_sq - (tmds T).g1 fl x Q_sq) *
        gaussian k_sq ((tmds T).toGaussian.meanTmd .f1 fl)) := by
  have hs := beta_shape hx hx' (a := pretzAlpha) (b := pretzBeta) (by norm_num [pretzAlpha])
    (by norm_num [pretzBeta])
  have hN : |pretzN fl * (x ^ pretzAlpha * (1 - x) ^ pretzBeta
      * (pretzAlpha + pretzBeta) ^ (pretzAlpha + pretzBeta)
      * pretzAlpha ^ (-pretzAlpha) * pretzBeta ^ (-pretzBeta))| ≤ 1 := by
    rw [abs_mul, abs_of_nonneg hs.1]
    refine mul_le_one₀ ?_ hs.1 hs.2
    match fl with
    | 0 => norm_num [pretzN]
    | 1 => norm_num [pretzN]
    | n + 2 => simp [pretzN]
  have key := pretz_like f1Mean_pos (by norm_num [pretzMttSq] : 0 < pretzMttSq) (nucleus_mass_pos .p)
    (sub_nonneg.mpr hf) hk hN
  refine (le_of_eq ?_).trans key
  simp only [GaussianTmdSet.toTmdSet, GaussianWwTmdSet.toGaussian, GaussianWwTmdSet.tmd,
    GaussianWwTmdSet.meanTmd, tmds, xh1Tperp, pretzMean, sq, Prokudin.M]
  congr 3
  ring

/-- C73. Transversity respects the bound of the table `SofferBound.dat`, at every transverse momentum. -/
theorem c73_transversity (T : Tables) (fl : ℕ) {x : ℝ} (hx : 0 ≤ x) (hx' : x ≤ 1) (Q_sq : ℝ)
    (hf : 0 ≤ T.sb fl x Q_sq) : |(tmds T).h1 fl x Q_sq| ≤ x * T.sb fl x Q_sq := by
  have hs := beta_shape hx hx' (a := h1Alpha) (b := h1Beta) (by norm_num [h1Alpha])
    (by norm_num [h1Beta])
  have hN : |h1N fl * (x ^ h1Alpha * (1 - x) ^ h1Beta
      * (h1Alpha + h1Beta) ^ (h1Alpha + h1Beta)
      * h1Alpha ^ (-h1Alpha) * h1Beta ^ (-h1Beta))| ≤ 1 := by
    rw [abs_mul, abs_of_nonneg hs.1]
    refine mul_le_one₀ ?_ hs.1 hs.2
    match fl with
    | 0 => norm_num [h1N, abs_le]
    | 1 => norm_num [h1N]
    | n + 2 => simp [h1N]
  have e : (tmds T).h1 fl x Q_sq = h1N fl * (x ^ h1Alpha * (1 - x) ^ h1Beta
      * (h1Alpha + h1Beta) ^ (h1Alpha + h1Beta)
      * h1Alpha ^ (-h1Alpha) * h1Beta ^ (-h1Beta)) * (x * T.sb fl x Q_sq) := by
    simp only [tmds, xh1]; ring
  rw [e, abs_mul, abs_of_nonneg (mul_nonneg hx hf)]
  exact mul_le_of_le_one_left (mul_nonneg hx hf) hN

/-- The tables of the refutations meet the hypotheses, and the Sivers function is not zero there. -/
example : 0 ≤ (tmds upTables).f1 0 (1 / 2) 1 ∧ (tmds upTables).g1 0 (1 / 2) 1 ≤ (tmds upTables).f1 0 (1 / 2) 1 ∧
    0 ≤ (tmds upTables).D1 .piP 0 (1 / 2) 1 ∧ 0 ≤ upTables.sb 0 (1 / 2) 1 ∧
    (tmds upTables).h1 0 (1 / 2) 1 ≠ 0 ∧ (tmds upTables).h1Tperp 0 (1 / 2) 1 ≠ 0 := by
  refine ⟨?_, ?_, ?_, ?_, upTables_xh1.1.ne', upTables_xh1.2.ne'⟩ <;>
    simp [tmds, upTables, xf1, xg1, D1]

end Sidis.Props
