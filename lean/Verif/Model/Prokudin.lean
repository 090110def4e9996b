import Verif.Model.Tmd
import Mathlib.Analysis.SpecialFunctions.Pow.Real

/-!
# Model of the Prokudin sets (include/sidis/sf_set/prokudin.hpp, src/sf_set/prokudin.cpp)

In exact real arithmetic. `std::pow` with a fractional exponent is `Real.rpow`, right for a nonnegative
base. The throw of `HadronOutOfRange` is `none`. Not modelled: finding and loading the data files, the
moves of the two classes.
-/

namespace Sidis.Prokudin

/-- The tables of `ProkudinImpl` (prokudin.cpp 193-274): the PDF library and the interpolated grids, each
as an arbitrary function. Simplification: the views give real numbers (no NaN outside of the grids). -/
structure Tables where
  /-- `pdf.parton(f, x, Q)` of the external library. -/
  parton : ℤ → ℝ → ℝ → ℝ
  (D1_pi_plus D1_pi_minus g1 xgT xh1LperpM1 sb : ℕ → ℝ → ℝ → ℝ)

/-- `NUM_FLAVORS` (prokudin.cpp 31). -/
def numFlavors : ℕ := 6

/-- `M` (prokudin.cpp 34). -/
noncomputable def M : ℝ := Nucleus.p.mass

/-- `F1_MEAN_K_PERP_SQ` (prokudin.cpp 37). -/
noncomputable def f1Mean : ℝ := 0.25
/-- `G1_MEAN_K_PERP_SQ` (prokudin.cpp 38). -/
noncomputable def g1Mean : ℝ := 0.76 * f1Mean
/-- `D1_MEAN_P_PERP_SQ` (prokudin.cpp 39). -/
noncomputable def d1Mean : ℝ := 0.2

/-- `H1_ALPHA` (prokudin.cpp 42). -/
noncomputable def h1Alpha : ℝ := 1.11
/-- `H1_BETA` (prokudin.cpp 43). -/
noncomputable def h1Beta : ℝ := 3.64
/-- `H1_N` (prokudin.cpp 44-47). -/
noncomputable def h1N : ℕ → ℝ
  | 0 => 0.46
  | 1 => -1.00
  | _ => 0
/-- `H1_MEAN_K_PERP_SQ` (prokudin.cpp 48). -/
noncomputable def h1Mean : ℝ := 0.25
/-- `HT_MEAN_K_PERP_SQ` (prokudin.cpp 51). -/
noncomputable def hTMean : ℝ := 0.15

/-- `COLLINS_M_SQ` (prokudin.cpp 54). -/
noncomputable def collinsMSq : ℝ := 1.50
/-- `COLLINS_M` (prokudin.cpp 55). -/
noncomputable def collinsM : ℝ := √collinsMSq
/-- `COLLINS_GAMMA` (prokudin.cpp 56). -/
noncomputable def collinsGamma : ℝ := 1.06
/-- `COLLINS_DELTA` (prokudin.cpp 57). -/
noncomputable def collinsDelta : ℝ := 0.07
/-- `COLLINS_N_FAV` (prokudin.cpp 58). -/
noncomputable def collinsNFav : ℝ := 0.49
/-- `COLLINS_N_DISFAV` (prokudin.cpp 59). -/
noncomputable def collinsNDisfav : ℝ := -1
/-- `COLLINS_MEAN_P_PERP_SQ` (prokudin.cpp 60-61). -/
noncomputable def collinsMean : ℝ := (d1Mean * collinsMSq) / (d1Mean + collinsMSq)

/-- `SIVERS_M_1_SQ` (prokudin.cpp 64). -/
noncomputable def siversM1Sq : ℝ := 0.19
/-- `SIVERS_M_1` (prokudin.cpp 65). -/
noncomputable def siversM1 : ℝ := √siversM1Sq
/-- `SIVERS_ALPHA` (prokudin.cpp 66-69). -/
noncomputable def siversAlpha : ℕ → ℝ
  | 0 => 0.35
  | 1 => 0.44
  | _ => 0
/-- `SIVERS_BETA` (prokudin.cpp 70-73). -/
noncomputable def siversBeta : ℕ → ℝ
  | 0 => 2.6
  | 1 => 0.90
  | _ => 0
/-- `SIVERS_N` (prokudin.cpp 74-77). -/
noncomputable def siversN : ℕ → ℝ
  | 0 => 0.40
  | 1 => -0.97
  | _ => 0
/-- `SIVERS_MEAN_K_PERP_SQ` (prokudin.cpp 78-79). -/
noncomputable def siversMean : ℝ := (f1Mean * siversM1Sq) / (f1Mean + siversM1Sq)

/-- `BM_M_1_SQ` (prokudin.cpp 82). -/
noncomputable def bmM1Sq : ℝ := 0.34
/-- `BM_M_1` (prokudin.cpp 83). -/
noncomputable def bmM1 : ℝ := √bmM1Sq
/-- `BM_ALPHA` (prokudin.cpp 84-87). -/
noncomputable def bmAlpha : ℕ → ℝ
  | 0 => 0.73
  | 1 => 1.08
  | _ => 0.79
/-- `BM_BETA` (prokudin.cpp 88). -/
noncomputable def bmBeta : ℝ := 3.46
/-- `BM_A` (prokudin.cpp 89-92). -/
noncomputable def bmA : ℕ → ℝ
  | 0 => 0.35
  | 1 => -0.90
  | 2 => 0.24
  | 3 => 0.04
  | 4 => -0.40
  | _ => -1
/-- `BM_LAMBDA` (prokudin.cpp 93-96). -/
noncomputable def bmLambda : ℕ → ℝ
  | 0 => 2.1
  | 1 => -1.111
  | _ => 0
/-- `BM_MEAN_K_PERP_SQ` (prokudin.cpp 97-98). -/
noncomputable def bmMean : ℝ := (f1Mean * bmM1Sq) / (f1Mean + bmM1Sq)

/-- `PRETZ_M_TT_SQ` (prokudin.cpp 101). -/
noncomputable def pretzMttSq : ℝ := 0.18
/-- `PRETZ_ALPHA` (prokudin.cpp 103). -/
noncomputable def pretzAlpha : ℝ := 2.5
/-- `PRETZ_BETA` (prokudin.cpp 104). -/
noncomputable def pretzBeta : ℝ := 2
/-- `PRETZ_N` (prokudin.cpp 105-108). -/
noncomputable def pretzN : ℕ → ℝ
  | 0 => 1
  | 1 => -1
  | _ => 0
/-- `PRETZ_MEAN_K_PERP_SQ` (prokudin.cpp 109-110). -/
noncomputable def pretzMean : ℝ := (f1Mean * pretzMttSq) / (f1Mean + pretzMttSq)

/-- `E` (include/sidis/constant.hpp 16), as the exact number. -/
noncomputable def E : ℝ := Real.exp 1

/-- `G` (prokudin.cpp 112-115). -/
noncomputable def G (ph_t_sq l : ℝ) : ℝ := Real.exp (-ph_t_sq / l) / (Real.pi * l)

/-- `lambda` (prokudin.cpp 116-118). -/
noncomputable def lambda (z mean_kperp_sq mean_pperp_sq : ℝ) : ℝ := sq z * mean_kperp_sq + mean_pperp_sq

/-- `charge` (prokudin.cpp 169-190). -/
noncomputable def charge : ℕ → ℝ
  | 0 => 2 / 3
  | 1 => -1 / 3
  | 2 => -1 / 3
  | 3 => -2 / 3
  | 4 => 1 / 3
  | 5 => 1 / 3
  | _ => 0

variable (T : Tables)

/-! ### Shared by the two classes: the code is the same in both -/

/-- `xf1` (prokudin.cpp 358-378, 740-758). -/
noncomputable def xf1 (fl : ℕ) (x Q_sq : ℝ) : ℝ :=
  let Q := √Q_sq
  match fl with
  | 0 => T.parton 8 x Q + T.parton (-2) x Q
  | 1 => T.parton 7 x Q + T.parton (-1) x Q
  | 2 => T.parton 3 x Q
  | 3 => T.parton (-2) x Q
  | 4 => T.parton (-1) x Q
  | 5 => T.parton (-3) x Q
  | _ => 0

/-- `xg1` (prokudin.cpp 393-395, 773-775). -/
noncomputable def xg1 (fl : ℕ) (x Q_sq : ℝ) : ℝ := x * T.g1 fl x Q_sq

/-- `xh1` (prokudin.cpp 403-412, 779-788). -/
noncomputable def xh1 (fl : ℕ) (x Q_sq : ℝ) : ℝ :=
  x * h1N fl
    * x ^ h1Alpha * (1 - x) ^ h1Beta
    * (h1Alpha + h1Beta) ^ (h1Alpha + h1Beta)
    * h1Alpha ^ (-h1Alpha)
    * h1Beta ^ (-h1Beta)
    * T.sb fl x Q_sq

/-- `D1` (prokudin.cpp 447-456, 701-710). -/
noncomputable def D1 (h : Hadron) (fl : ℕ) (z Q_sq : ℝ) : Option ℝ :=
  match h with
  | .piP => some (T.D1_pi_plus fl z Q_sq)
  | .piM => some (T.D1_pi_minus fl z Q_sq)
  | _ => none

/-- `collins_coeff` in `H1perp` and `H1perpM1` (prokudin.cpp 460-477, 713-728). -/
noncomputable def collinsCoeff (h : Hadron) (fl : ℕ) : Option ℝ :=
  match h with
  | .piP => some (if fl = 0 ∨ fl = 4 then collinsNFav
      else if fl = 1 ∨ fl = 3 then collinsNDisfav else 0)
  | .piM => some (if fl = 1 ∨ fl = 3 then collinsNFav
      else if fl = 0 ∨ fl = 4 then collinsNDisfav else 0)
  | _ => none

/-! ### `ProkudinTmdSet` -/

/-- `ProkudinTmdSet::xf1Tperp` (prokudin.cpp 380-391). -/
noncomputable def xf1Tperp (fl : ℕ) (x Q_sq : ℝ) : ℝ :=
  -√(2 * E) * M / siversM1
    * siversMean / f1Mean
    * siversN fl
    * x ^ siversAlpha fl * (1 - x) ^ siversBeta fl
    * (siversAlpha fl + siversBeta fl) ^ (siversAlpha fl + siversBeta fl)
    * siversAlpha fl ^ (-siversAlpha fl)
    * siversBeta fl ^ (-siversBeta fl)
    * xf1 T fl x Q_sq

/-- `ProkudinTmdSet::xg1Tperp` (prokudin.cpp 397-401). -/
noncomputable def xg1Tperp (fl : ℕ) (x Q_sq : ℝ) : ℝ := (2 * M * M / g1Mean) * x * T.xgT fl x Q_sq

/-- `ProkudinTmdSet::xh1perp` (prokudin.cpp 414-424). -/
noncomputable def xh1perp (fl : ℕ) (x Q_sq : ℝ) : ℝ :=
  -√(2 * E) * M / bmM1
    * bmMean / f1Mean
    * bmLambda fl * bmA fl
    * x ^ bmAlpha fl * (1 - x) ^ bmBeta
    * (bmAlpha fl + bmBeta) ^ (bmAlpha fl + bmBeta)
    * bmAlpha fl ^ (-bmAlpha fl)
    * bmBeta ^ (-bmBeta)
    * xf1 T fl x Q_sq

/-- `ProkudinTmdSet::xh1Lperp` (prokudin.cpp 426-433). -/
noncomputable def xh1Lperp (fl : ℕ) (x Q_sq : ℝ) : ℝ :=
  if fl ≠ 0 ∧ fl ≠ 1 then 0 else 2 * sq M / h1Mean * T.xh1LperpM1 fl x Q_sq

/-- `ProkudinTmdSet::xh1Tperp` (prokudin.cpp 435-445). -/
noncomputable def xh1Tperp (fl : ℕ) (x Q_sq : ℝ) : ℝ :=
  E * sq M / pretzMttSq
    * pretzMean / f1Mean
    * pretzN fl
    * x ^ pretzAlpha * (1 - x) ^ pretzBeta
    * (pretzAlpha + pretzBeta) ^ (pretzAlpha + pretzBeta)
    * pretzAlpha ^ (-pretzAlpha)
    * pretzBeta ^ (-pretzBeta)
    * (xf1 T fl x Q_sq - xg1 T fl x Q_sq)

/-- `ProkudinTmdSet::H1perp` (prokudin.cpp 458-487). -/
noncomputable def H1perp (h : Hadron) (fl : ℕ) (z Q_sq : ℝ) : Option ℝ := do
  let mh : ℝ := h.mass
  let collins_coeff ← collinsCoeff h fl
  let d ← D1 T h fl z Q_sq
  pure (√(2 * E) * z * mh / collinsM
    * collinsMean / d1Mean
    * collins_coeff
    * z ^ collinsGamma * (1 - z) ^ collinsDelta
    * (collinsGamma + collinsDelta) ^ (collinsGamma + collinsDelta)
    * collinsGamma ^ (-collinsGamma)
    * collinsDelta ^ (-collinsDelta)
    * d)

/-- `ProkudinTmdSet::ProkudinTmdSet()` (prokudin.cpp 282-318) and its overrides. Where a fragmentation
function throws, the value is 0 here; the theorems about this set are for pions. -/
noncomputable def tmds : GaussianWwTmdSet where
  flavorCount := numFlavors
  target := .p
  charge := charge
  mean_f1 := fun _ => f1Mean
  mean_f1Tperp := fun _ => siversMean
  mean_fT := fun _ => none
  mean_g1 := fun _ => g1Mean
  mean_g1Tperp := fun _ => g1Mean
  mean_gT := fun _ => some g1Mean
  mean_h1 := fun _ => h1Mean
  mean_h1perp := fun _ => bmMean
  mean_h1Lperp := fun _ => h1Mean
  mean_h1Tperp := fun _ => pretzMean
  mean_h := fun _ => none
  mean_hL := fun _ => some h1Mean
  mean_hT := fun _ => some hTMean
  mean_hTperp := fun _ => some hTMean
  mean_D1 := fun _ => d1Mean
  mean_H1perp := fun _ => collinsMean
  f1 := xf1 T
  f1Tperp := xf1Tperp T
  g1 := xg1 T
  g1Tperp := xg1Tperp T
  h1 := xh1 T
  h1perp := xh1perp T
  h1Lperp := xh1Lperp T
  h1Tperp := xh1Tperp T
  D1 := fun h fl z Q_sq => (D1 T h fl z Q_sq).getD 0
  H1perp := fun h fl z Q_sq => (H1perp T h fl z Q_sq).getD 0

/-! ### `ProkudinSfSet` -/

/-- `ProkudinSfSet::H1perpM1` (prokudin.cpp 711-737). -/
noncomputable def H1perpM1 (h : Hadron) (fl : ℕ) (z Q_sq : ℝ) : Option ℝ := do
  let mh : ℝ := h.mass
  let collins_coeff ← collinsCoeff h fl
  let d ← D1 T h fl z Q_sq
  pure (√(E / 2) / (z * mh * collinsM)
    * sq collinsMean / d1Mean
    * collins_coeff
    * z ^ collinsGamma * (1 - z) ^ collinsDelta
    * (collinsGamma + collinsDelta) ^ (collinsGamma + collinsDelta)
    * collinsGamma ^ (-collinsGamma)
    * collinsDelta ^ (-collinsDelta)
    * d)

/-- `ProkudinSfSet::xf1TperpM1` (prokudin.cpp 761-772). -/
noncomputable def xf1TperpM1 (fl : ℕ) (x Q_sq : ℝ) : ℝ :=
  -√(E / 2) / (M * siversM1)
    * sq siversMean / f1Mean
    * siversN fl
    * x ^ siversAlpha fl * (1 - x) ^ siversBeta fl
    * (siversAlpha fl + siversBeta fl) ^ (siversAlpha fl + siversBeta fl)
    * siversAlpha fl ^ (-siversAlpha fl)
    * siversBeta fl ^ (-siversBeta fl)
    * xf1 T fl x Q_sq

/-- `ProkudinSfSet::xgT` (prokudin.cpp 776-778). -/
noncomputable def xgT (fl : ℕ) (x Q_sq : ℝ) : ℝ := T.xgT fl x Q_sq

/-- `ProkudinSfSet::xh1M1` (prokudin.cpp 789-791). -/
noncomputable def xh1M1 (fl : ℕ) (x Q_sq : ℝ) : ℝ := h1Mean / (2 * sq M) * xh1 T fl x Q_sq

/-- `ProkudinSfSet::xh1LperpM1` (prokudin.cpp 792-799). -/
noncomputable def xh1LperpM1 (fl : ℕ) (x Q_sq : ℝ) : ℝ :=
  if ¬(fl = 0 ∨ fl = 1) then 0 else T.xh1LperpM1 fl x Q_sq

/-- `ProkudinSfSet::xh1TperpM2` (prokudin.cpp 800-810). -/
noncomputable def xh1TperpM2 (fl : ℕ) (x Q_sq : ℝ) : ℝ :=
  E / (2 * sq M * pretzMttSq)
    * pretzMean ^ 3 / f1Mean
    * pretzN fl
    * x ^ pretzAlpha * (1 - x) ^ pretzBeta
    * (pretzAlpha + pretzBeta) ^ (pretzAlpha + pretzBeta)
    * pretzAlpha ^ (-pretzAlpha)
    * pretzBeta ^ (-pretzBeta)
    * (xf1 T fl x Q_sq - xg1 T fl x Q_sq)

/-- `ProkudinSfSet::xh1perpM1` (prokudin.cpp 811-821). -/
noncomputable def xh1perpM1 (fl : ℕ) (x Q_sq : ℝ) : ℝ :=
  -√(E / 2) / (M * bmM1)
    * sq bmMean / f1Mean
    * bmLambda fl * bmA fl
    * x ^ bmAlpha fl * (1 - x) ^ bmBeta
    * (bmAlpha fl + bmBeta) ^ (bmAlpha fl + bmBeta)
    * bmAlpha fl ^ (-bmAlpha fl)
    * bmBeta ^ (-bmBeta)
    * xf1 T fl x Q_sq

/-- The loop over the flavours that each function of `ProkudinSfSet` has (as in prokudin.cpp 516-518),
with the distribution and the fragmentation function of each flavour. -/
noncomputable def loop (f : ℕ → ℝ) (d : ℕ → Option ℝ) : Option ℝ :=
  (List.range numFlavors).foldlM (fun result fl => do
    let dfl ← d fl
    pure (result + sq (charge fl) * f fl * dfl)) 0

/-- The functions of `ProkudinSfSet`, the inherited ones included: each a number, or `none` for a throw. -/
structure Sf where
  (F_UUL F_UUT F_UU_cos_phih F_UU_cos_2phih F_UL_sin_phih F_UL_sin_2phih
    F_UTL_sin_phih_m_phis F_UTT_sin_phih_m_phis F_UT_sin_2phih_m_phis F_UT_sin_3phih_m_phis
    F_UT_sin_phis F_UT_sin_phih_p_phis F_LU_sin_phih F_LL F_LL_cos_phih F_LT_cos_phih_m_phis
    F_LT_cos_2phih_m_phis F_LT_cos_phis : Option ℝ)

/-- The functions of `ProkudinSfSet` at a point. -/
noncomputable def sf (h : Hadron) (x z Q_sq ph_t_sq : ℝ) : Sf where
  -- structure_function.cpp 188-190 (inherited)
  F_UUL := some 0
  -- 513-521
  F_UUT := do
    let result ← loop (xf1 T · x Q_sq) (D1 T h · z Q_sq)
    let l := lambda z f1Mean d1Mean
    pure (G ph_t_sq l * result)
  -- 522-533
  F_UU_cos_phih := do
    let Q := √Q_sq
    let ph_t := √ph_t_sq
    let result ← loop (xf1 T · x Q_sq) (D1 T h · z Q_sq)
    let l := lambda z f1Mean d1Mean
    pure (-2 * f1Mean / Q * ph_t * (z / l) * G ph_t_sq l * result)
  -- 534-543
  F_UU_cos_2phih := do
    let mh : ℝ := h.mass
    let result ← loop (xh1perpM1 T · x Q_sq) (H1perpM1 T h · z Q_sq)
    let l := lambda z bmMean collinsMean
    pure (4 * M * mh * ph_t_sq * sq (z / l) * G ph_t_sq l * result)
  -- 545-558
  F_UL_sin_phih := do
    let mh : ℝ := h.mass
    let Q := √Q_sq
    let ph_t := √ph_t_sq
    let result ← loop (xh1LperpM1 T · x Q_sq) (H1perpM1 T h · z Q_sq)
    let l := lambda z h1Mean collinsMean
    pure (-8 * M * mh * z * ph_t / (Q * l) * G ph_t_sq l * result)
  -- 559-569
  F_UL_sin_2phih := do
    let mh : ℝ := h.mass
    let result ← loop (xh1LperpM1 T · x Q_sq) (H1perpM1 T h · z Q_sq)
    let l := lambda z h1Mean collinsMean
    pure (4 * M * mh * ph_t_sq * sq (z / l) * G ph_t_sq l * result)
  -- inherited
  F_UTL_sin_phih_m_phis := some 0
  -- 571-580
  F_UTT_sin_phih_m_phis := do
    let ph_t := √ph_t_sq
    let result ← loop (xf1TperpM1 T · x Q_sq) (D1 T h · z Q_sq)
    let l := lambda z siversMean d1Mean
    pure (-2 * M * z * ph_t / l * G ph_t_sq l * result)
  -- 581-605
  F_UT_sin_2phih_m_phis := do
    let mh : ℝ := h.mass
    let Q := √Q_sq
    let result_1 ← loop (xf1TperpM1 T · x Q_sq) (D1 T h · z Q_sq)
    let result_2 ← loop (xh1TperpM2 T · x Q_sq) (H1perpM1 T h · z Q_sq)
    let l_1 := lambda z siversMean d1Mean
    let l_2 := lambda z pretzMean collinsMean
    pure (2 * M * ph_t_sq / Q * (
      siversMean * sq (z / l_1) * G ph_t_sq l_1 * result_1
      - 2 * M * mh * sq (z / l_2) * G ph_t_sq l_2 * result_2))
  -- 606-616
  F_UT_sin_3phih_m_phis := do
    let mh : ℝ := h.mass
    let ph_t := √ph_t_sq
    let result ← loop (xh1TperpM2 T · x Q_sq) (H1perpM1 T h · z Q_sq)
    let l := lambda z pretzMean collinsMean
    pure (2 * sq M * mh * (z * ph_t / l) ^ 3 * G ph_t_sq l * result)
  -- 617-628
  F_UT_sin_phis := do
    let mh : ℝ := h.mass
    let Q := √Q_sq
    let result ← loop (xh1M1 T · x Q_sq) (H1perpM1 T h · z Q_sq)
    let l := lambda z pretzMean collinsMean
    pure (8 * sq M * mh * sq z / (Q * l) * (1 - ph_t_sq / l) * G ph_t_sq l * result)
  -- 629-639
  F_UT_sin_phih_p_phis := do
    let mh : ℝ := h.mass
    let ph_t := √ph_t_sq
    let result ← loop (xh1 T · x Q_sq) (H1perpM1 T h · z Q_sq)
    let l := lambda z h1Mean collinsMean
    pure (2 * mh * z * ph_t / l * G ph_t_sq l * result)
  -- inherited
  F_LU_sin_phih := some 0
  -- 641-649
  F_LL := do
    let result ← loop (xg1 T · x Q_sq) (D1 T h · z Q_sq)
    let l := lambda z g1Mean d1Mean
    pure (G ph_t_sq l * result)
  -- 650-662
  F_LL_cos_phih := do
    let Q := √Q_sq
    let ph_t := √ph_t_sq
    let result ← loop (xg1 T · x Q_sq) (D1 T h · z Q_sq)
    let l := lambda z g1Mean d1Mean
    pure (-2 * g1Mean * z * ph_t / (Q * l) * G ph_t_sq l * result)
  -- 664-675
  F_LT_cos_phih_m_phis := do
    let ph_t := √ph_t_sq
    let result ← loop (xgT T · x Q_sq) (D1 T h · z Q_sq)
    let l := lambda z g1Mean d1Mean
    pure (2 * M * x * z * ph_t / l * G ph_t_sq l * result)
  -- 676-687
  F_LT_cos_2phih_m_phis := do
    let Q := √Q_sq
    let result ← loop (xgT T · x Q_sq) (D1 T h · z Q_sq)
    let l := lambda z g1Mean d1Mean
    pure (-2 * g1Mean * M * x * ph_t_sq * sq (z / l) / Q * G ph_t_sq l * result)
  -- 688-698
  F_LT_cos_phis := do
    let Q := √Q_sq
    let result ← loop (xgT T · x Q_sq) (D1 T h · z Q_sq)
    let l := lambda z g1Mean d1Mean
    pure (-2 * M * x / Q * G ph_t_sq l * result)

end Sidis.Prokudin
