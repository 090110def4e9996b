import Verif.Model.LoadGrids
import Verif.Model.Density
import Verif.Model.Prokudin

/-!
# Model of the evaluation of the Prokudin sets from their tables (src/sf_set/prokudin.cpp 512-822)

Model/Prokudin has the formulas in exact arithmetic, with arbitrary functions in place of the tables. Here the
tables are those loaded by Model/LoadGrids, evaluated by Model/Interp; the values may be infinite or NaN. The
closed factors of the formulas, which do not depend on tables, are arbitrary functions here (`Parts`); `parts`
has those of the code, in exact arithmetic.
-/

namespace Sidis.ProkudinTables

open Sidis.Interp Sidis.Density

/-- The structure functions (include/sidis/structure_function.hpp 60-110). -/
inductive Name where
  | UUL | UUT | UU_cos_phih | UU_cos_2phih | UL_sin_phih | UL_sin_2phih
  | UTL_sin_phih_m_phis | UTT_sin_phih_m_phis | UT_sin_2phih_m_phis | UT_sin_3phih_m_phis
  | UT_sin_phis | UT_sin_phih_p_phis | LU_sin_phih | LL | LL_cos_phih
  | LT_cos_phih_m_phis | LT_cos_2phih_m_phis | LT_cos_phis
  deriving DecidableEq

/-- The part of the set that is not from tables. -/
structure Parts where
  /-- `pdf.parton(f, x, √Q²)` of the external library, with `Q²` -/
  parton : ℤ → Fl → Fl → Fl
  /-- the factors of the distributions (prokudin.cpp 761-772, 779-788, 800-822), by flavour and `x` -/
  (sivers h1 pretz bm : ℕ → Fl → Fl)
  /-- `H1_MEAN_K_PERP_SQ/(2.*sq(M))` (prokudin.cpp 790) -/
  h1M1 : Fl
  /-- the factor of `H1perpM1` (prokudin.cpp 713-737), by hadron, flavour and `z` -/
  collins : Hadron → ℕ → Fl → Fl
  /-- `sq(charge(fl))` -/
  charge_sq : ℕ → Fl
  /-- the factor in front of the sum, by hadron, `x`, `z`, `Q²`, `ph_t²` -/
  pre : Name → Hadron → Fl → Fl → Fl → Fl → Fl
  /-- the factors of the two sums of `F_UT_sin_2phih_m_phis` (prokudin.cpp 602-604) -/
  (pre_1 pre_2 : Hadron → Fl → Fl → Fl)

variable (rnd : ℝ → ℝ) {P : Type} (A : Parts) (T : LoadGrids.Tables P)

/-- `interp_...[fl]({ x, Q_sq })`: the cubic view on the grid of a flavour; reading past the end of the array
is undefined. -/
noncomputable def view (gs : List Grid) (fl : ℕ) (x Q_sq : Fl) : Res Fl :=
  match gs[fl]? with
  | none => .ub
  | some g => cubicView rnd g.data g.dims 0 [x, Q_sq]

/-- `ProkudinSfSet::D1` (prokudin.cpp 701-710); `none` is `HadronOutOfRange`. -/
noncomputable def D1 (h : Hadron) (fl : ℕ) (z Q_sq : Fl) : Option (Res Fl) :=
  match h with
  | .piP => some (view rnd T.D1_pi_plus fl z Q_sq)
  | .piM => some (view rnd T.D1_pi_minus fl z Q_sq)
  | _ => none

/-- `ProkudinSfSet::H1perpM1` (prokudin.cpp 711-737). -/
noncomputable def H1perpM1 (h : Hadron) (fl : ℕ) (z Q_sq : Fl) : Option (Res Fl) :=
  (D1 rnd T h fl z Q_sq).map fun r => r.bind fun d => .val (A.collins h fl z * d)

/-- `ProkudinSfSet::xf1` (prokudin.cpp 740-758). -/
noncomputable def xf1 (fl : ℕ) (x Q_sq : Fl) : Fl :=
  match fl with
  | 0 => A.parton 8 x Q_sq + A.parton (-2) x Q_sq
  | 1 => A.parton 7 x Q_sq + A.parton (-1) x Q_sq
  | 2 => A.parton 3 x Q_sq
  | 3 => A.parton (-2) x Q_sq
  | 4 => A.parton (-1) x Q_sq
  | 5 => A.parton (-3) x Q_sq
  | _ => .fin 0

/-- `ProkudinSfSet::xf1TperpM1` (prokudin.cpp 761-772). -/
noncomputable def xf1TperpM1 (fl : ℕ) (x Q_sq : Fl) : Res Fl := .val (A.sivers fl x * xf1 A fl x Q_sq)

/-- `ProkudinSfSet::xg1` (prokudin.cpp 773-775). -/
noncomputable def xg1 (fl : ℕ) (x Q_sq : Fl) : Res Fl :=
  (view rnd T.g1 fl x Q_sq).bind fun g => .val (x * g)

/-- `ProkudinSfSet::xgT` (prokudin.cpp 776-778). -/
noncomputable def xgT (fl : ℕ) (x Q_sq : Fl) : Res Fl := view rnd T.xgT fl x Q_sq

/-- `ProkudinSfSet::xh1` (prokudin.cpp 779-788). -/
noncomputable def xh1 (fl : ℕ) (x Q_sq : Fl) : Res Fl :=
  (view rnd T.sb fl x Q_sq).bind fun s => .val (A.h1 fl x * s)

/-- `ProkudinSfSet::xh1M1` (prokudin.cpp 789-791). -/
noncomputable def xh1M1 (fl : ℕ) (x Q_sq : Fl) : Res Fl :=
  (xh1 rnd A T fl x Q_sq).bind fun h => .val (A.h1M1 * h)

/-- `ProkudinSfSet::xh1LperpM1` (prokudin.cpp 792-799). -/
noncomputable def xh1LperpM1 (fl : ℕ) (x Q_sq : Fl) : Res Fl :=
  if ¬ (fl = 0 ∨ fl = 1) then .val (.fin 0) else view rnd T.xh1LperpM1 fl x Q_sq

/-- `ProkudinSfSet::xh1TperpM2` (prokudin.cpp 800-810). -/
noncomputable def xh1TperpM2 (fl : ℕ) (x Q_sq : Fl) : Res Fl :=
  (xg1 rnd T fl x Q_sq).bind fun g => .val (A.pretz fl x * (xf1 A fl x Q_sq - g))

/-- `ProkudinSfSet::xh1perpM1` (prokudin.cpp 811-822). -/
noncomputable def xh1perpM1 (fl : ℕ) (x Q_sq : Fl) : Res Fl := .val (A.bm fl x * xf1 A fl x Q_sq)

/-- The loop `for (fl = 0; fl < NUM_FLAVORS; ++fl) result += sq(charge(fl))*dist*frag`, for the flavours that
remain. -/
noncomputable def sumLoop (dist : ℕ → Res Fl) (frag : ℕ → Option (Res Fl)) : List ℕ → Fl → Option (Res Fl)
  | [], result => some (.val result)
  | fl :: fls, result =>
    match dist fl, frag fl with
    | _, none => none
    | .val d, some (.val f) => sumLoop dist frag fls (result + A.charge_sq fl * d * f)
    | .val _, some r => some r
    | r, some _ => some r

/-- The sum over the flavours (`NUM_FLAVORS` is 6). -/
noncomputable def sum (dist : ℕ → Res Fl) (frag : ℕ → Option (Res Fl)) : Option (Res Fl) :=
  sumLoop A dist frag [0, 1, 2, 3, 4, 5] (.fin 0)

/-- The structure functions of `ProkudinSfSet` (prokudin.cpp 515-698); those it does not override are zero
(include/sidis/structure_function.hpp 60-110). -/
noncomputable def sf (n : Name) (h : Hadron) (x z Q_sq ph_t_sq : Fl) : Option (Res Fl) :=
  let d1 := fun fl => D1 rnd T h fl z Q_sq
  let h1 := fun fl => H1perpM1 rnd A T h fl z Q_sq
  let one (dist : ℕ → Fl → Fl → Res Fl) (frag : ℕ → Option (Res Fl)) : Option (Res Fl) :=
    (sum A (fun fl => dist fl x Q_sq) frag).map fun r => r.bind fun s => .val (A.pre n h x z Q_sq ph_t_sq * s)
  match n with
  | .UUL | .UTL_sin_phih_m_phis | .LU_sin_phih => some (.val (.fin 0))
  | .UUT | .UU_cos_phih => one (fun fl x Q_sq => .val (xf1 A fl x Q_sq)) d1
  | .UU_cos_2phih => one (xh1perpM1 A) h1
  | .UL_sin_phih | .UL_sin_2phih => one (xh1LperpM1 rnd T) h1
  | .UTT_sin_phih_m_phis => one (xf1TperpM1 A) d1
  | .UT_sin_2phih_m_phis =>
    match sum A (fun fl => xf1TperpM1 A fl x Q_sq) d1, sum A (fun fl => xh1TperpM2 rnd A T fl x Q_sq) h1 with
    | none, _ => none
    | _, none => none
    | some r₁, some r₂ => some (r₁.bind fun s₁ => r₂.bind fun s₂ =>
        .val (A.pre n h x z Q_sq ph_t_sq * (A.pre_1 h z ph_t_sq * s₁ - A.pre_2 h z ph_t_sq * s₂)))
  | .UT_sin_3phih_m_phis => one (xh1TperpM2 rnd A T) h1
  | .UT_sin_phis => one (xh1M1 rnd A T) h1
  | .UT_sin_phih_p_phis => one (xh1 rnd A T) h1
  | .LL | .LL_cos_phih => one (xg1 rnd T) d1
  | .LT_cos_phih_m_phis | .LT_cos_2phih_m_phis | .LT_cos_phis => one (xgT rnd T) d1

/-! ### The factors of the code -/

/-- A real function at finite arguments. Simplification: NaN at others. -/
def lift (f : ℝ → ℝ) : Fl → Fl
  | .fin r => .fin (f r)
  | _ => .nan

open Prokudin in
/-- The factors in front of the sums (prokudin.cpp 515-698), in exact arithmetic. -/
noncomputable def factor (n : Name) (h : Hadron) (x z Q_sq ph_t_sq : ℝ) : ℝ :=
  let mh : ℝ := h.mass
  let Q := √Q_sq
  let ph_t := √ph_t_sq
  let g (l : ℝ) := Prokudin.G ph_t_sq l
  match n with
  | .UUL | .UTL_sin_phih_m_phis | .LU_sin_phih => 0
  | .UUT => let l := lambda z f1Mean d1Mean; g l
  | .UU_cos_phih => let l := lambda z f1Mean d1Mean; -2 * f1Mean / Q * ph_t * (z / l) * g l
  | .UU_cos_2phih => let l := lambda z bmMean collinsMean; 4 * Prokudin.M * mh * ph_t_sq * sq (z / l) * g l
  | .UL_sin_phih => let l := lambda z h1Mean collinsMean; -8 * Prokudin.M * mh * z * ph_t / (Q * l) * g l
  | .UL_sin_2phih => let l := lambda z h1Mean collinsMean; 4 * Prokudin.M * mh * ph_t_sq * sq (z / l) * g l
  | .UTT_sin_phih_m_phis => let l := lambda z siversMean d1Mean; -2 * Prokudin.M * z * ph_t / l * g l
  | .UT_sin_2phih_m_phis => 2 * Prokudin.M * ph_t_sq / Q
  | .UT_sin_3phih_m_phis =>
    let l := lambda z pretzMean collinsMean; 2 * sq Prokudin.M * mh * (z * ph_t / l) ^ 3 * g l
  | .UT_sin_phis =>
    let l := lambda z pretzMean collinsMean
    8 * sq Prokudin.M * mh * sq z / (Q * l) * (1 - ph_t_sq / l) * g l
  | .UT_sin_phih_p_phis => let l := lambda z h1Mean collinsMean; 2 * mh * z * ph_t / l * g l
  | .LL => let l := lambda z g1Mean d1Mean; g l
  | .LL_cos_phih => let l := lambda z g1Mean d1Mean; -2 * g1Mean * z * ph_t / (Q * l) * g l
  | .LT_cos_phih_m_phis => let l := lambda z g1Mean d1Mean; 2 * Prokudin.M * x * z * ph_t / l * g l
  | .LT_cos_2phih_m_phis =>
    let l := lambda z g1Mean d1Mean; -2 * g1Mean * Prokudin.M * x * ph_t_sq * sq (z / l) / Q * g l
  | .LT_cos_phis => let l := lambda z g1Mean d1Mean; -2 * Prokudin.M * x / Q * g l

open Prokudin in
/-- The factors of prokudin.cpp, with a library of parton distributions. -/
noncomputable def parts (parton : ℤ → ℝ → ℝ → ℝ) : Parts where
  parton f x Q_sq := match x, Q_sq with
    | .fin x, .fin Q_sq => .fin (parton f x (√Q_sq))
    | _, _ => .nan
  sivers fl := lift fun x => -√(Prokudin.E / 2) / (Prokudin.M * siversM1)
    * sq siversMean / f1Mean
    * siversN fl
    * x ^ siversAlpha fl * (1 - x) ^ siversBeta fl
    * (siversAlpha fl + siversBeta fl) ^ (siversAlpha fl + siversBeta fl)
    * siversAlpha fl ^ (-siversAlpha fl)
    * siversBeta fl ^ (-siversBeta fl)
  h1 fl := lift fun x => x * h1N fl
    * x ^ h1Alpha * (1 - x) ^ h1Beta
    * (h1Alpha + h1Beta) ^ (h1Alpha + h1Beta)
    * h1Alpha ^ (-h1Alpha)
    * h1Beta ^ (-h1Beta)
  pretz fl := lift fun x => Prokudin.E / (2 * sq Prokudin.M * pretzMttSq)
    * pretzMean ^ 3 / f1Mean
    * pretzN fl
    * x ^ pretzAlpha * (1 - x) ^ pretzBeta
    * (pretzAlpha + pretzBeta) ^ (pretzAlpha + pretzBeta)
    * pretzAlpha ^ (-pretzAlpha)
    * pretzBeta ^ (-pretzBeta)
  bm fl := lift fun x => -√(Prokudin.E / 2) / (Prokudin.M * bmM1)
    * sq bmMean / f1Mean
    * bmLambda fl * bmA fl
    * x ^ bmAlpha fl * (1 - x) ^ bmBeta
    * (bmAlpha fl + bmBeta) ^ (bmAlpha fl + bmBeta)
    * bmAlpha fl ^ (-bmAlpha fl)
    * bmBeta ^ (-bmBeta)
  h1M1 := .fin (h1Mean / (2 * sq Prokudin.M))
  collins h fl := lift fun z => √(Prokudin.E / 2) / (z * h.mass * collinsM)
    * sq collinsMean / d1Mean
    * (collinsCoeff h fl).getD 0
    * z ^ collinsGamma * (1 - z) ^ collinsDelta
    * (collinsGamma + collinsDelta) ^ (collinsGamma + collinsDelta)
    * collinsGamma ^ (-collinsGamma)
    * collinsDelta ^ (-collinsDelta)
  charge_sq fl := .fin (sq (charge fl))
  pre n h x z Q_sq ph_t_sq := match x, z, Q_sq, ph_t_sq with
    | .fin x, .fin z, .fin Q_sq, .fin ph_t_sq => .fin (factor n h x z Q_sq ph_t_sq)
    | _, _, _, _ => .nan
  pre_1 _ z ph_t_sq := match z, ph_t_sq with
    | .fin z, .fin ph_t_sq =>
      let l_1 := lambda z siversMean d1Mean
      .fin (siversMean * sq (z / l_1) * Prokudin.G ph_t_sq l_1)
    | _, _ => .nan
  pre_2 h z ph_t_sq := match z, ph_t_sq with
    | .fin z, .fin ph_t_sq =>
      let l_2 := lambda z pretzMean collinsMean
      .fin (2 * Prokudin.M * h.mass * sq (z / l_2) * Prokudin.G ph_t_sq l_2)
    | _, _ => .nan

/-! ### The cross-sections, as far as the unpolarised part is concerned -/

/-- `struct HadBaseUU` with values that may be NaN. -/
structure HadUU where
  (H_10 H_20 H_30 H_40 : Fl)

/-- `make_had_base_uu` (src/hadronic_coeff.cpp 25-43). -/
noncomputable def makeHadUU (k : Kinematics Fl) (F_UUL F_UUT F_UU_cos_phih F_UU_cos_2phih : Fl) : HadUU :=
  let sq (a : Fl) := a * a
  let H_00 := k.C_1 * F_UUL
  let H_01 := -k.C_1 * F_UU_cos_phih
  let H_11 := k.C_1 * (F_UU_cos_2phih + F_UUT)
  let H_22 := k.C_1 * (F_UUT - F_UU_cos_2phih)
  ⟨H_22,
   .fin 4 / (sq k.lambda_Y * k.ph_t_sq) * (k.lambda_Y * k.ph_t_sq * k.Q_sq * H_00
    + sq k.lambda_3 * sq k.S_x * H_11 - k.lambda_2 * k.lambda_Y * H_22
    - .fin 2 * k.S_x * k.lambda_3 * k.ph_t * k.Q * k.lambda_Y_sqrt * H_01),
   .fin 1 / k.ph_t_sq * (H_11 - H_22),
   .fin 2 / (k.lambda_Y * k.ph_t_sq) * (k.lambda_3 * k.S_x * (H_22 - H_11)
    + k.ph_t * k.Q * k.lambda_Y_sqrt * H_01)⟩

/-- `HadBaseUU::HadBaseUU(kin, sf_set)` (hadronic_coeff.cpp 356-359) with a Prokudin set. -/
noncomputable def hadUU (k : Kinematics Fl) : Option (Res HadUU) :=
  let f (n : Name) := sf rnd A T n k.hadron k.x k.z k.Q_sq k.ph_t_sq
  match f .UUL, f .UUT, f .UU_cos_phih, f .UU_cos_2phih with
  | some a, some b, some c, some d =>
    some (a.bind fun a => b.bind fun b => c.bind fun c => d.bind fun d => .val (makeHadUU k a b c d))
  | _, _, _, _ => none

/-- `xs::born_base_uu` (src/cross_section.cpp 538-544). -/
noncomputable def bornUU (coeff : Fl) (theta : Fin 4 → Fl) (had : HadUU) : Fl :=
  coeff * (theta 0 * had.H_10 + theta 1 * had.H_20 + theta 2 * had.H_30 + theta 3 * had.H_40)

/-- `xs::nrad_ir_base_uu` (cross_section.cpp 628-634). -/
noncomputable def nradUU (coeff_born coeff_amm : Fl) (born amm : Fin 4 → Fl) (had : HadUU) : Fl :=
  let th (i : Fin 4) : Fl := coeff_born * born i + coeff_amm * amm i
  th 0 * had.H_10 + th 1 * had.H_20 + th 2 * had.H_30 + th 3 * had.H_40

/-- The value of `SIDIS_MACRO_XS_FROM_BASE` (cross_section.cpp 201). -/
noncomputable def combine (uu : Fl) (up : V3 Fl) (lu : Fl) (lp : V3 Fl) (lambda_e : Fl) (eta : V3 Fl) : Fl :=
  let dot (v : V3 Fl) : Fl := v.x * eta.x + v.y * eta.y + v.z * eta.z
  uu + dot up + lambda_e * (lu + dot lp)

/-- The functions called by the generator are those of a Prokudin set: `xs::born`, `xs::nrad_ir`
(cross_section.cpp 361-374) and `xs::nrad_integ(...).val` (386-390), for a hadron the set knows. The leptonic
coefficients, the polarised parts, the vacuum polarisation and the integral over the photon are arbitrary. -/
structure Uses (F : XsFuns) : Prop where
  born : ∀ k lambda_e eta had, hadUU rnd A T k = some (.val had) → ∃ coeff theta up lu lp,
    F.born k lambda_e eta = combine (bornUU coeff theta had) up lu lp lambda_e eta
  nradIr : ∀ k lambda_e eta k_0_bar had, hadUU rnd A T k = some (.val had) → ∃ cb ca born amm up lu lp,
    F.nradIr k lambda_e eta k_0_bar = combine (nradUU cb ca born amm had) up lu lp lambda_e eta
  nradInteg : ∀ k lambda_e eta k_0_bar, ∃ rad,
    F.nradInteg k lambda_e eta k_0_bar = F.nradIr k lambda_e eta k_0_bar + rad

end Sidis.ProkudinTables
