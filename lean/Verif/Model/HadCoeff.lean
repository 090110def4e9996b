import Verif.Model.LepCoeff
import Verif.Model.Frame
import Verif.Model.Cut

/-!
# Model of the hadronic coefficients (include/sidis/hadronic_coeff.hpp, src/hadronic_coeff.cpp)

In exact real arithmetic; the names are those of the code.
-/

namespace Sidis

/-- A set of structure functions: the virtual functions `F_...` of `class SfSet`
(include/sidis/structure_function.hpp), each of the hadron, `x`, `z`, `Q_sq` and `ph_t_sq`. -/
structure SfFuns where
  (F_UUL F_UUT F_UU_cos_phih F_UU_cos_2phih F_UL_sin_phih F_UL_sin_2phih
    F_UTL_sin_phih_m_phis F_UTT_sin_phih_m_phis F_UT_sin_2phih_m_phis F_UT_sin_3phih_m_phis
    F_UT_sin_phis F_UT_sin_phih_p_phis F_LU_sin_phih F_LL F_LL_cos_phih F_LT_cos_phih_m_phis
    F_LT_cos_2phih_m_phis F_LT_cos_phis
    : Hadron → ℝ → ℝ → ℝ → ℝ → ℝ)

/-- `struct SfBaseUU` (include/sidis/structure_function.hpp). -/
@[ext] structure SfBaseUU where
  (F_UUL F_UUT F_UU_cos_phih F_UU_cos_2phih : ℝ)

/-- `struct SfBaseUL` (include/sidis/structure_function.hpp). -/
@[ext] structure SfBaseUL where
  (F_UL_sin_phih F_UL_sin_2phih : ℝ)

/-- `struct SfBaseUT` (include/sidis/structure_function.hpp). -/
@[ext] structure SfBaseUT where
  (F_UTL_sin_phih_m_phis F_UTT_sin_phih_m_phis F_UT_sin_2phih_m_phis F_UT_sin_3phih_m_phis
    F_UT_sin_phis F_UT_sin_phih_p_phis : ℝ)

/-- `struct SfBaseLU` (include/sidis/structure_function.hpp). -/
@[ext] structure SfBaseLU where
  (F_LU_sin_phih : ℝ)

/-- `struct SfBaseLL` (include/sidis/structure_function.hpp). -/
@[ext] structure SfBaseLL where
  (F_LL F_LL_cos_phih : ℝ)

/-- `struct SfBaseLT` (include/sidis/structure_function.hpp). -/
@[ext] structure SfBaseLT where
  (F_LT_cos_phih_m_phis F_LT_cos_2phih_m_phis F_LT_cos_phis : ℝ)

/-- `struct SfBaseUP` (include/sidis/structure_function.hpp). -/
@[ext] structure SfBaseUP where
  ul : SfBaseUL
  ut : SfBaseUT

/-- `struct SfBaseLP` (include/sidis/structure_function.hpp). -/
@[ext] structure SfBaseLP where
  ll : SfBaseLL
  lt : SfBaseLT

namespace SfFuns
variable (sf : SfFuns) (h : Hadron) (x z Q_sq ph_t_sq : ℝ)

/-- `SfSet::sf_base_uu` (src/structure_function.cpp 249-256). -/
def baseUU : SfBaseUU :=
  { F_UUL := sf.F_UUL h x z Q_sq ph_t_sq
    F_UUT := sf.F_UUT h x z Q_sq ph_t_sq
    F_UU_cos_phih := sf.F_UU_cos_phih h x z Q_sq ph_t_sq
    F_UU_cos_2phih := sf.F_UU_cos_2phih h x z Q_sq ph_t_sq }

/-- `SfSet::sf_base_ul` (src/structure_function.cpp 257-262). -/
def baseUL : SfBaseUL :=
  { F_UL_sin_phih := sf.F_UL_sin_phih h x z Q_sq ph_t_sq
    F_UL_sin_2phih := sf.F_UL_sin_2phih h x z Q_sq ph_t_sq }

/-- `SfSet::sf_base_ut` (src/structure_function.cpp 263-272). -/
def baseUT : SfBaseUT :=
  { F_UTL_sin_phih_m_phis := sf.F_UTL_sin_phih_m_phis h x z Q_sq ph_t_sq
    F_UTT_sin_phih_m_phis := sf.F_UTT_sin_phih_m_phis h x z Q_sq ph_t_sq
    F_UT_sin_2phih_m_phis := sf.F_UT_sin_2phih_m_phis h x z Q_sq ph_t_sq
    F_UT_sin_3phih_m_phis := sf.F_UT_sin_3phih_m_phis h x z Q_sq ph_t_sq
    F_UT_sin_phis := sf.F_UT_sin_phis h x z Q_sq ph_t_sq
    F_UT_sin_phih_p_phis := sf.F_UT_sin_phih_p_phis h x z Q_sq ph_t_sq }

/-- `SfSet::sf_base_lu` (src/structure_function.cpp 279-283). -/
def baseLU : SfBaseLU :=
  { F_LU_sin_phih := sf.F_LU_sin_phih h x z Q_sq ph_t_sq }

/-- `SfSet::sf_base_ll` (src/structure_function.cpp 284-289). -/
def baseLL : SfBaseLL :=
  { F_LL := sf.F_LL h x z Q_sq ph_t_sq
    F_LL_cos_phih := sf.F_LL_cos_phih h x z Q_sq ph_t_sq }

/-- `SfSet::sf_base_lt` (src/structure_function.cpp 290-296). -/
def baseLT : SfBaseLT :=
  { F_LT_cos_phih_m_phis := sf.F_LT_cos_phih_m_phis h x z Q_sq ph_t_sq
    F_LT_cos_2phih_m_phis := sf.F_LT_cos_2phih_m_phis h x z Q_sq ph_t_sq
    F_LT_cos_phis := sf.F_LT_cos_phis h x z Q_sq ph_t_sq }

/-- `SfSet::sf_base_up` (src/structure_function.cpp 273-278). -/
def baseUP : SfBaseUP := ⟨sf.baseUL h x z Q_sq ph_t_sq, sf.baseUT h x z Q_sq ph_t_sq⟩

/-- `SfSet::sf_base_lp` (src/structure_function.cpp 297-302). -/
def baseLP : SfBaseLP := ⟨sf.baseLL h x z Q_sq ph_t_sq, sf.baseLT h x z Q_sq ph_t_sq⟩

end SfFuns

/-- `struct HadBaseUU` (include/sidis/hadronic_coeff.hpp 31-38). -/
@[ext] structure HadBaseUU where
  (H_10 H_20 H_30 H_40 : ℝ)

/-- `struct HadBaseUL` (include/sidis/hadronic_coeff.hpp 39-44). -/
@[ext] structure HadBaseUL where
  (H_63 H_83 : ℝ)

/-- `struct HadBaseUT` (include/sidis/hadronic_coeff.hpp 45-54). -/
@[ext] structure HadBaseUT where
  (H_12 H_22 H_32 H_42 H_61 H_81 : ℝ)

/-- `struct HadBaseUP` (include/sidis/hadronic_coeff.hpp 55-61). -/
@[ext] structure HadBaseUP where
  ul : HadBaseUL
  ut : HadBaseUT

/-- `struct HadBaseLU` (include/sidis/hadronic_coeff.hpp 62-66). -/
@[ext] structure HadBaseLU where
  (H_50 : ℝ)

/-- `struct HadBaseLL` (include/sidis/hadronic_coeff.hpp 67-72). -/
@[ext] structure HadBaseLL where
  (H_73 H_93 : ℝ)

/-- `struct HadBaseLT` (include/sidis/hadronic_coeff.hpp 73-79). -/
@[ext] structure HadBaseLT where
  (H_52 H_71 H_91 : ℝ)

/-- `struct HadBaseLP` (include/sidis/hadronic_coeff.hpp 80-86). -/
@[ext] structure HadBaseLP where
  ll : HadBaseLL
  lt : HadBaseLT

/-- `make_had_base_uu` (src/hadronic_coeff.cpp 25-42). -/
noncomputable def makeHadBaseUU (k : Kinematics ℝ) (sf : SfBaseUU) : HadBaseUU :=
  let H_00 := k.C_1 * sf.F_UUL
  let H_01 := -k.C_1 * sf.F_UU_cos_phih
  let H_11 := k.C_1 * (sf.F_UU_cos_2phih + sf.F_UUT)
  let H_22 := k.C_1 * (sf.F_UUT - sf.F_UU_cos_2phih)
  { H_10 := H_22
    H_20 := 4 / (sq k.lambda_Y * k.ph_t_sq) * (k.lambda_Y * k.ph_t_sq * k.Q_sq * H_00
      + sq k.lambda_3 * sq k.S_x * H_11 - k.lambda_2 * k.lambda_Y * H_22 - 2 * k.S_x
      * k.lambda_3 * k.ph_t * k.Q * k.lambda_Y_sqrt * H_01)
    H_30 := 1 / k.ph_t_sq * (H_11 - H_22)
    H_40 := 2 / (k.lambda_Y * k.ph_t_sq) * (k.lambda_3 * k.S_x * (H_22 - H_11) + k.ph_t * k.Q
      * k.lambda_Y_sqrt * H_01) }

/-- `make_had_base_ul` (src/hadronic_coeff.cpp 43-52). -/
noncomputable def makeHadBaseUL (k : Kinematics ℝ) (sf : SfBaseUL) : HadBaseUL :=
  let H_023 := -k.C_1 * sf.F_UL_sin_phih
  let H_123 := k.C_1 * sf.F_UL_sin_2phih
  { H_63 := 4 / (k.lambda_Y_sqrt ^ 3 * k.ph_t_sq) * (k.lambda_3 * k.S_x * H_123 - k.Q * k.ph_t
      * k.lambda_Y_sqrt * H_023)
    H_83 := -2 / (k.lambda_Y_sqrt * k.ph_t_sq) * H_123 }

/-- `make_had_base_ut` (src/hadronic_coeff.cpp 53-76). -/
noncomputable def makeHadBaseUT (k : Kinematics ℝ) (sf : SfBaseUT) : HadBaseUT :=
  let H_002 := k.C_1 * sf.F_UTL_sin_phih_m_phis
  let H_012 := k.C_1 * (sf.F_UT_sin_phis - sf.F_UT_sin_2phih_m_phis)
  let H_021 := -k.C_1 * (sf.F_UT_sin_2phih_m_phis + sf.F_UT_sin_phis)
  let H_112 := k.C_1 * (sf.F_UT_sin_3phih_m_phis + sf.F_UTT_sin_phih_m_phis
      - sf.F_UT_sin_phih_p_phis)
  let H_121 := k.C_1 * (sf.F_UT_sin_3phih_m_phis + sf.F_UT_sin_phih_p_phis)
  let H_222 := k.C_1 * (sf.F_UT_sin_phih_p_phis + sf.F_UTT_sin_phih_m_phis
      - sf.F_UT_sin_3phih_m_phis)
  { H_12 := -H_222
    H_22 := 4 / (sq k.lambda_Y * k.ph_t_sq) * (-k.lambda_Y * k.ph_t_sq * k.Q_sq * H_002
      - sq k.lambda_3 * sq k.S_x * H_112 + k.lambda_2 * k.lambda_Y * H_222 + 2 * k.S_x
      * k.lambda_3 * k.ph_t * k.Q * k.lambda_Y_sqrt * H_012)
    H_32 := 1 / k.ph_t_sq * (H_222 - H_112)
    H_42 := 2 / (k.lambda_Y * k.ph_t_sq) * (k.lambda_3 * k.S_x * (H_112 - H_222) - k.ph_t * k.Q
      * k.lambda_Y_sqrt * H_012)
    H_61 := 4 / (k.lambda_Y_sqrt ^ 3 * k.ph_t_sq) * (k.lambda_3 * k.S_x * H_121 - k.Q * k.ph_t
      * k.lambda_Y_sqrt * H_021)
    H_81 := -2 / (k.lambda_Y_sqrt * k.ph_t_sq) * H_121 }

/-- `make_had_base_up` (src/hadronic_coeff.cpp 77-82). -/
noncomputable def makeHadBaseUP (k : Kinematics ℝ) (sf : SfBaseUP) : HadBaseUP :=
  ⟨makeHadBaseUL k sf.ul, makeHadBaseUT k sf.ut⟩

/-- `make_had_base_lu` (src/hadronic_coeff.cpp 83-88). -/
noncomputable def makeHadBaseLU (k : Kinematics ℝ) (sf : SfBaseLU) : HadBaseLU :=
  let H_01 := -k.C_1 * sf.F_LU_sin_phih
  { H_50 := (2 * k.Q) / (k.ph_t * k.lambda_Y_sqrt) * H_01 }

/-- `make_had_base_ll` (src/hadronic_coeff.cpp 89-98). -/
noncomputable def makeHadBaseLL (k : Kinematics ℝ) (sf : SfBaseLL) : HadBaseLL :=
  let H_023 := k.C_1 * sf.F_LL_cos_phih
  let H_123 := -k.C_1 * sf.F_LL
  { H_73 := 4 / (k.lambda_Y_sqrt ^ 3 * k.ph_t_sq) * (k.lambda_3 * k.S_x * H_123 - k.Q * k.ph_t
      * k.lambda_Y_sqrt * H_023)
    H_93 := -2 / (k.lambda_Y_sqrt * k.ph_t_sq) * H_123 }

/-- `make_had_base_lt` (src/hadronic_coeff.cpp 99-110). -/
noncomputable def makeHadBaseLT (k : Kinematics ℝ) (sf : SfBaseLT) : HadBaseLT :=
  let H_012 := -k.C_1 * (sf.F_LT_cos_phis - sf.F_LT_cos_2phih_m_phis)
  let H_021 := k.C_1 * (sf.F_LT_cos_2phih_m_phis + sf.F_LT_cos_phis)
  let H_121 := -k.C_1 * sf.F_LT_cos_phih_m_phis
  { H_52 := -(2 * k.Q) / (k.ph_t * k.lambda_Y_sqrt) * H_012
    H_71 := 4 / (k.lambda_Y_sqrt ^ 3 * k.ph_t_sq) * (k.lambda_3 * k.S_x * H_121 - k.Q * k.ph_t
      * k.lambda_Y_sqrt * H_021)
    H_91 := -2 / (k.lambda_Y_sqrt * k.ph_t_sq) * H_121 }

/-- `make_had_base_lp` (src/hadronic_coeff.cpp 111-116). -/
noncomputable def makeHadBaseLP (k : Kinematics ℝ) (sf : SfBaseLP) : HadBaseLP :=
  ⟨makeHadBaseLL k sf.ll, makeHadBaseLT k sf.lt⟩

/-- `struct HadUU` (include/sidis/hadronic_coeff.hpp 88-92). -/
@[ext] structure HadUU where
  uu : HadBaseUU

/-- `HadUU::HadUU` (src/hadronic_coeff.cpp 390-393), with `SfSet::sf_uu` (src/structure_function.cpp
304-308). -/
noncomputable def HadUU.make (k : Kinematics ℝ) (sf : SfFuns) : HadUU where
  uu := makeHadBaseUU k (sf.baseUU k.hadron k.x k.z k.Q_sq k.ph_t_sq)

/-- `struct HadUL` (include/sidis/hadronic_coeff.hpp 93-98). -/
@[ext] structure HadUL where
  uu : HadBaseUU
  ul : HadBaseUL

/-- `HadUL::HadUL` (src/hadronic_coeff.cpp 394-398), with `SfSet::sf_ul` (src/structure_function.cpp
309-314). -/
noncomputable def HadUL.make (k : Kinematics ℝ) (sf : SfFuns) : HadUL where
  uu := makeHadBaseUU k (sf.baseUU k.hadron k.x k.z k.Q_sq k.ph_t_sq)
  ul := makeHadBaseUL k (sf.baseUL k.hadron k.x k.z k.Q_sq k.ph_t_sq)

/-- `struct HadUT` (include/sidis/hadronic_coeff.hpp 99-104). -/
@[ext] structure HadUT where
  uu : HadBaseUU
  ut : HadBaseUT

/-- `HadUT::HadUT` (src/hadronic_coeff.cpp 399-403), with `SfSet::sf_ut` (src/structure_function.cpp
315-320). -/
noncomputable def HadUT.make (k : Kinematics ℝ) (sf : SfFuns) : HadUT where
  uu := makeHadBaseUU k (sf.baseUU k.hadron k.x k.z k.Q_sq k.ph_t_sq)
  ut := makeHadBaseUT k (sf.baseUT k.hadron k.x k.z k.Q_sq k.ph_t_sq)

/-- `struct HadUP` (include/sidis/hadronic_coeff.hpp 105-111). -/
@[ext] structure HadUP where
  uu : HadBaseUU
  ul : HadBaseUL
  ut : HadBaseUT

/-- `HadUP::HadUP` (src/hadronic_coeff.cpp 404-409), with `SfSet::sf_up` (src/structure_function.cpp
321-327). -/
noncomputable def HadUP.make (k : Kinematics ℝ) (sf : SfFuns) : HadUP where
  uu := makeHadBaseUU k (sf.baseUU k.hadron k.x k.z k.Q_sq k.ph_t_sq)
  ul := makeHadBaseUL k (sf.baseUL k.hadron k.x k.z k.Q_sq k.ph_t_sq)
  ut := makeHadBaseUT k (sf.baseUT k.hadron k.x k.z k.Q_sq k.ph_t_sq)

/-- `struct HadLU` (include/sidis/hadronic_coeff.hpp 112-117). -/
@[ext] structure HadLU where
  uu : HadBaseUU
  lu : HadBaseLU

/-- `HadLU::HadLU` (src/hadronic_coeff.cpp 410-414), with `SfSet::sf_lu` (src/structure_function.cpp
328-333). -/
noncomputable def HadLU.make (k : Kinematics ℝ) (sf : SfFuns) : HadLU where
  uu := makeHadBaseUU k (sf.baseUU k.hadron k.x k.z k.Q_sq k.ph_t_sq)
  lu := makeHadBaseLU k (sf.baseLU k.hadron k.x k.z k.Q_sq k.ph_t_sq)

/-- `struct HadLL` (include/sidis/hadronic_coeff.hpp 118-125). -/
@[ext] structure HadLL where
  uu : HadBaseUU
  ul : HadBaseUL
  lu : HadBaseLU
  ll : HadBaseLL

/-- `HadLL::HadLL` (src/hadronic_coeff.cpp 415-421), with `SfSet::sf_ll` (src/structure_function.cpp
334-341). -/
noncomputable def HadLL.make (k : Kinematics ℝ) (sf : SfFuns) : HadLL where
  uu := makeHadBaseUU k (sf.baseUU k.hadron k.x k.z k.Q_sq k.ph_t_sq)
  ul := makeHadBaseUL k (sf.baseUL k.hadron k.x k.z k.Q_sq k.ph_t_sq)
  lu := makeHadBaseLU k (sf.baseLU k.hadron k.x k.z k.Q_sq k.ph_t_sq)
  ll := makeHadBaseLL k (sf.baseLL k.hadron k.x k.z k.Q_sq k.ph_t_sq)

/-- `struct HadLT` (include/sidis/hadronic_coeff.hpp 126-133). -/
@[ext] structure HadLT where
  uu : HadBaseUU
  ut : HadBaseUT
  lu : HadBaseLU
  lt : HadBaseLT

/-- `HadLT::HadLT` (src/hadronic_coeff.cpp 422-428), with `SfSet::sf_lt` (src/structure_function.cpp
342-349). -/
noncomputable def HadLT.make (k : Kinematics ℝ) (sf : SfFuns) : HadLT where
  uu := makeHadBaseUU k (sf.baseUU k.hadron k.x k.z k.Q_sq k.ph_t_sq)
  ut := makeHadBaseUT k (sf.baseUT k.hadron k.x k.z k.Q_sq k.ph_t_sq)
  lu := makeHadBaseLU k (sf.baseLU k.hadron k.x k.z k.Q_sq k.ph_t_sq)
  lt := makeHadBaseLT k (sf.baseLT k.hadron k.x k.z k.Q_sq k.ph_t_sq)

/-- `struct HadLP` (include/sidis/hadronic_coeff.hpp 134-143). -/
@[ext] structure HadLP where
  uu : HadBaseUU
  ul : HadBaseUL
  ut : HadBaseUT
  lu : HadBaseLU
  ll : HadBaseLL
  lt : HadBaseLT

/-- `HadLP::HadLP` (src/hadronic_coeff.cpp 429-437), with `SfSet::sf_lp` (src/structure_function.cpp
350-359). -/
noncomputable def HadLP.make (k : Kinematics ℝ) (sf : SfFuns) : HadLP where
  uu := makeHadBaseUU k (sf.baseUU k.hadron k.x k.z k.Q_sq k.ph_t_sq)
  ul := makeHadBaseUL k (sf.baseUL k.hadron k.x k.z k.Q_sq k.ph_t_sq)
  ut := makeHadBaseUT k (sf.baseUT k.hadron k.x k.z k.Q_sq k.ph_t_sq)
  lu := makeHadBaseLU k (sf.baseLU k.hadron k.x k.z k.Q_sq k.ph_t_sq)
  ll := makeHadBaseLL k (sf.baseLL k.hadron k.x k.z k.Q_sq k.ph_t_sq)
  lt := makeHadBaseLT k (sf.baseLT k.hadron k.x k.z k.Q_sq k.ph_t_sq)

/-- `struct HadRadBaseUU` (include/sidis/hadronic_coeff.hpp 158-165). -/
@[ext] structure HadRadBaseUU where
  (H_10 H_20 H_30 H_40 : ℝ)

/-- `struct HadRadBaseUP` (include/sidis/hadronic_coeff.hpp 166-175). -/
@[ext] structure HadRadBaseUP where
  (H_1 H_2 H_3 H_4 H_6 H_8 : Vec3)

/-- `struct HadRadBaseLU` (include/sidis/hadronic_coeff.hpp 176-180). -/
@[ext] structure HadRadBaseLU where
  (H_50 : ℝ)

/-- `struct HadRadBaseLP` (include/sidis/hadronic_coeff.hpp 181-187). -/
@[ext] structure HadRadBaseLP where
  (H_5 H_7 H_9 : Vec3)

/-- `make_had_rad_base_uu` (src/hadronic_coeff.cpp 123-140). -/
noncomputable def makeHadRadBaseUU (k : KinematicsRad ℝ) (sf : SfBaseUU) : HadRadBaseUU :=
  let H_00 := k.shift_C_1 * sf.F_UUL
  let H_01 := -k.shift_C_1 * sf.F_UU_cos_phih
  let H_11 := k.shift_C_1 * (sf.F_UU_cos_2phih + sf.F_UUT)
  let H_22 := k.shift_C_1 * (sf.F_UUT - sf.F_UU_cos_2phih)
  { H_10 := H_22
    H_20 := 4 / (sq k.shift_lambda_Y * k.shift_ph_t_sq) * (k.shift_lambda_Y * k.shift_ph_t_sq
      * k.shift_Q_sq * H_00 + sq k.shift_lambda_3 * sq k.shift_S_x * H_11 - k.shift_lambda_2
      * k.shift_lambda_Y * H_22 - 2 * k.shift_S_x * k.shift_lambda_3 * k.shift_ph_t * k.shift_Q
      * k.shift_lambda_Y_sqrt * H_01)
    H_30 := 1 / k.shift_ph_t_sq * (H_11 - H_22)
    H_40 := 2 / (k.shift_lambda_Y * k.shift_ph_t_sq) * (k.shift_lambda_3 * k.shift_S_x * (H_22
      - H_11) + k.shift_ph_t * k.shift_Q * k.shift_lambda_Y_sqrt * H_01) }

/-- `make_had_rad_base_up` (src/hadronic_coeff.cpp 141-187). -/
noncomputable def makeHadRadBaseUP (k : KinematicsRad ℝ) (sf : SfBaseUP) : HadRadBaseUP :=
  let shift_rot := Frame.hadronFromShift k
  let H_002 := k.shift_C_1 * sf.ut.F_UTL_sin_phih_m_phis
  let H_012 := k.shift_C_1 * (sf.ut.F_UT_sin_phis - sf.ut.F_UT_sin_2phih_m_phis)
  let H_021 := -k.shift_C_1 * (sf.ut.F_UT_sin_2phih_m_phis + sf.ut.F_UT_sin_phis)
  let H_023 := -k.shift_C_1 * sf.ul.F_UL_sin_phih
  let H_112 := k.shift_C_1 * (sf.ut.F_UT_sin_3phih_m_phis + sf.ut.F_UTT_sin_phih_m_phis
      - sf.ut.F_UT_sin_phih_p_phis)
  let H_121 := k.shift_C_1 * (sf.ut.F_UT_sin_3phih_m_phis + sf.ut.F_UT_sin_phih_p_phis)
  let H_123 := k.shift_C_1 * sf.ul.F_UL_sin_2phih
  let H_222 := k.shift_C_1 * (sf.ut.F_UT_sin_phih_p_phis + sf.ut.F_UTT_sin_phih_m_phis
      - sf.ut.F_UT_sin_3phih_m_phis)
  { H_1 := shift_rot.apply ⟨
      0,
      -H_222,
      0⟩
    H_2 := shift_rot.apply ⟨
      0,
      4 / (sq k.shift_lambda_Y * k.shift_ph_t_sq) * (-k.shift_lambda_Y * k.shift_ph_t_sq
        * k.shift_Q_sq * H_002 - sq k.shift_lambda_3 * sq k.shift_S_x * H_112
        + k.shift_lambda_2 * k.shift_lambda_Y * H_222 + 2 * k.shift_S_x * k.shift_lambda_3
        * k.shift_ph_t * k.shift_Q * k.shift_lambda_Y_sqrt * H_012),
      0⟩
    H_3 := shift_rot.apply ⟨
      0,
      1 / k.shift_ph_t_sq * (H_222 - H_112),
      0⟩
    H_4 := shift_rot.apply ⟨
      0,
      2 / (k.shift_lambda_Y * k.shift_ph_t_sq) * (k.shift_lambda_3 * k.shift_S_x * (H_112
        - H_222) - k.shift_ph_t * k.shift_Q * k.shift_lambda_Y_sqrt * H_012),
      0⟩
    H_6 := shift_rot.apply ⟨
      4 / (k.shift_lambda_Y_sqrt ^ 3 * k.shift_ph_t_sq) * (k.shift_lambda_3 * k.shift_S_x
        * H_121 - k.shift_Q * k.shift_ph_t * k.shift_lambda_Y_sqrt * H_021),
      0,
      4 / (k.shift_lambda_Y_sqrt ^ 3 * k.shift_ph_t_sq) * (k.shift_lambda_3 * k.shift_S_x
        * H_123 - k.shift_Q * k.shift_ph_t * k.shift_lambda_Y_sqrt * H_023)⟩
    H_8 := shift_rot.apply ⟨
      -2 / (k.shift_lambda_Y_sqrt * k.shift_ph_t_sq) * H_121,
      0,
      -2 / (k.shift_lambda_Y_sqrt * k.shift_ph_t_sq) * H_123⟩ }

/-- `make_had_rad_base_lu` (src/hadronic_coeff.cpp 188-193). -/
noncomputable def makeHadRadBaseLU (k : KinematicsRad ℝ) (sf : SfBaseLU) : HadRadBaseLU :=
  let H_01 := -k.shift_C_1 * sf.F_LU_sin_phih
  { H_50 := (2 * k.shift_Q) / (k.shift_ph_t * k.shift_lambda_Y_sqrt) * H_01 }

/-- `make_had_rad_base_lp` (src/hadronic_coeff.cpp 194-219). -/
noncomputable def makeHadRadBaseLP (k : KinematicsRad ℝ) (sf : SfBaseLP) : HadRadBaseLP :=
  let shift_rot := Frame.hadronFromShift k
  let H_012 := -k.shift_C_1 * (sf.lt.F_LT_cos_phis - sf.lt.F_LT_cos_2phih_m_phis)
  let H_021 := k.shift_C_1 * (sf.lt.F_LT_cos_2phih_m_phis + sf.lt.F_LT_cos_phis)
  let H_023 := k.shift_C_1 * sf.ll.F_LL_cos_phih
  let H_121 := -k.shift_C_1 * sf.lt.F_LT_cos_phih_m_phis
  let H_123 := -k.shift_C_1 * sf.ll.F_LL
  { H_5 := shift_rot.apply ⟨
      0,
      -(2 * k.shift_Q) / (k.shift_ph_t * k.shift_lambda_Y_sqrt) * H_012,
      0⟩
    H_7 := shift_rot.apply ⟨
      4 / (k.shift_lambda_Y_sqrt ^ 3 * k.shift_ph_t_sq) * (k.shift_lambda_3 * k.shift_S_x
        * H_121 - k.shift_Q * k.shift_ph_t * k.shift_lambda_Y_sqrt * H_021),
      0,
      4 / (k.shift_lambda_Y_sqrt ^ 3 * k.shift_ph_t_sq) * (k.shift_lambda_3 * k.shift_S_x
        * H_123 - k.shift_Q * k.shift_ph_t * k.shift_lambda_Y_sqrt * H_023)⟩
    H_9 := shift_rot.apply ⟨
      -2 / (k.shift_lambda_Y_sqrt * k.shift_ph_t_sq) * H_121,
      0,
      -2 / (k.shift_lambda_Y_sqrt * k.shift_ph_t_sq) * H_123⟩ }

/-- `struct HadRadUU` (include/sidis/hadronic_coeff.hpp 189-193). -/
@[ext] structure HadRadUU where
  uu : HadRadBaseUU

/-- `HadRadUU::HadRadUU` (src/hadronic_coeff.cpp 458-461), with `SfSet::sf_uu`
(src/structure_function.cpp 304-308). -/
noncomputable def HadRadUU.make (k : KinematicsRad ℝ) (sf : SfFuns) : HadRadUU where
  uu := makeHadRadBaseUU k
    (sf.baseUU k.hadron k.shift_x k.shift_z k.shift_Q_sq k.shift_ph_t_sq)

/-- `struct HadRadUP` (include/sidis/hadronic_coeff.hpp 194-199). -/
@[ext] structure HadRadUP where
  uu : HadRadBaseUU
  up : HadRadBaseUP

/-- `HadRadUP::HadRadUP` (src/hadronic_coeff.cpp 462-466), with `SfSet::sf_up`
(src/structure_function.cpp 321-327). -/
noncomputable def HadRadUP.make (k : KinematicsRad ℝ) (sf : SfFuns) : HadRadUP where
  uu := makeHadRadBaseUU k
    (sf.baseUU k.hadron k.shift_x k.shift_z k.shift_Q_sq k.shift_ph_t_sq)
  up := makeHadRadBaseUP k
    (sf.baseUP k.hadron k.shift_x k.shift_z k.shift_Q_sq k.shift_ph_t_sq)

/-- `struct HadRadLU` (include/sidis/hadronic_coeff.hpp 200-205). -/
@[ext] structure HadRadLU where
  uu : HadRadBaseUU
  lu : HadRadBaseLU

/-- `HadRadLU::HadRadLU` (src/hadronic_coeff.cpp 467-471), with `SfSet::sf_lu`
(src/structure_function.cpp 328-333). -/
noncomputable def HadRadLU.make (k : KinematicsRad ℝ) (sf : SfFuns) : HadRadLU where
  uu := makeHadRadBaseUU k
    (sf.baseUU k.hadron k.shift_x k.shift_z k.shift_Q_sq k.shift_ph_t_sq)
  lu := makeHadRadBaseLU k
    (sf.baseLU k.hadron k.shift_x k.shift_z k.shift_Q_sq k.shift_ph_t_sq)

/-- `struct HadRadLP` (include/sidis/hadronic_coeff.hpp 206-213). -/
@[ext] structure HadRadLP where
  uu : HadRadBaseUU
  up : HadRadBaseUP
  lu : HadRadBaseLU
  lp : HadRadBaseLP

/-- `HadRadLP::HadRadLP` (src/hadronic_coeff.cpp 472-478), with `SfSet::sf_lp`
(src/structure_function.cpp 350-359). -/
noncomputable def HadRadLP.make (k : KinematicsRad ℝ) (sf : SfFuns) : HadRadLP where
  uu := makeHadRadBaseUU k
    (sf.baseUU k.hadron k.shift_x k.shift_z k.shift_Q_sq k.shift_ph_t_sq)
  up := makeHadRadBaseUP k
    (sf.baseUP k.hadron k.shift_x k.shift_z k.shift_Q_sq k.shift_ph_t_sq)
  lu := makeHadRadBaseLU k
    (sf.baseLU k.hadron k.shift_x k.shift_z k.shift_Q_sq k.shift_ph_t_sq)
  lp := makeHadRadBaseLP k
    (sf.baseLP k.hadron k.shift_x k.shift_z k.shift_Q_sq k.shift_ph_t_sq)

/-- `diff_R` on numbers (src/hadronic_coeff.cpp 229-232). -/
noncomputable def diffR (R delta_R f_0 f_1 f_2 : ℝ) : ℝ :=
  let R_rel := R / delta_R
  1 / (2 * delta_R) * ((R_rel - 3) * f_0 - 2 * (R_rel - 2) * f_1 + (R_rel - 1) * f_2)

/-- `diff_R` on vectors (src/hadronic_coeff.cpp 233-236). -/
noncomputable def diffRVec (R delta_R : ℝ) (f_0 f_1 f_2 : Vec3) : Vec3 :=
  let R_rel := R / delta_R
  (1 / (2 * delta_R)) • ((R_rel - 3) • f_0 - (2 * (R_rel - 2)) • f_1 + (R_rel - 1) • f_2)

/-- `struct HadRadFBaseUU` (include/sidis/hadronic_coeff.hpp 229-242). -/
@[ext] structure HadRadFBaseUU where
  (H_10 H_20 H_30 H_40 H_10_diff H_20_diff H_30_diff H_40_diff : ℝ)

/-- `make_had_rad_f_base_uu_diff` (src/hadronic_coeff.cpp 238-251). -/
noncomputable def makeHadRadFBaseUUDiff (R : ℝ) (had : HadRadBaseUU) (had_0 : HadBaseUU) :
    HadRadFBaseUU where
  H_10 := had.H_10
  H_20 := had.H_20
  H_30 := had.H_30
  H_40 := had.H_40
  H_10_diff := (had.H_10 - had_0.H_10) / R
  H_20_diff := (had.H_20 - had_0.H_20) / R
  H_30_diff := (had.H_30 - had_0.H_30) / R
  H_40_diff := (had.H_40 - had_0.H_40) / R

/-- `make_had_rad_f_base_uu_deriv` (src/hadronic_coeff.cpp 252-266). -/
noncomputable def makeHadRadFBaseUUDeriv (R delta_R : ℝ) (had : HadRadBaseUU) (had_0 : HadBaseUU)
    (had_1 had_2 : HadRadBaseUU) : HadRadFBaseUU where
  H_10 := had.H_10
  H_20 := had.H_20
  H_30 := had.H_30
  H_40 := had.H_40
  H_10_diff := diffR R delta_R had_0.H_10 had_1.H_10 had_2.H_10
  H_20_diff := diffR R delta_R had_0.H_20 had_1.H_20 had_2.H_20
  H_30_diff := diffR R delta_R had_0.H_30 had_1.H_30 had_2.H_30
  H_40_diff := diffR R delta_R had_0.H_40 had_1.H_40 had_2.H_40

/-- `struct HadRadFBaseUP` (include/sidis/hadronic_coeff.hpp 243-260). -/
@[ext] structure HadRadFBaseUP where
  (H_1 H_2 H_3 H_4 H_6 H_8 H_1_diff H_2_diff H_3_diff H_4_diff H_6_diff H_8_diff : Vec3)

/-- `make_had_rad_f_base_up_diff` (src/hadronic_coeff.cpp 267-284). -/
noncomputable def makeHadRadFBaseUPDiff (R : ℝ) (had : HadRadBaseUP) (had_0 : HadBaseUP) :
    HadRadFBaseUP where
  H_1 := had.H_1
  H_2 := had.H_2
  H_3 := had.H_3
  H_4 := had.H_4
  H_6 := had.H_6
  H_8 := had.H_8
  H_1_diff := (had.H_1 - (⟨0, had_0.ut.H_12, 0⟩ : Vec3)) / R
  H_2_diff := (had.H_2 - (⟨0, had_0.ut.H_22, 0⟩ : Vec3)) / R
  H_3_diff := (had.H_3 - (⟨0, had_0.ut.H_32, 0⟩ : Vec3)) / R
  H_4_diff := (had.H_4 - (⟨0, had_0.ut.H_42, 0⟩ : Vec3)) / R
  H_6_diff := (had.H_6 - (⟨had_0.ut.H_61, 0, had_0.ul.H_63⟩ : Vec3)) / R
  H_8_diff := (had.H_8 - (⟨had_0.ut.H_81, 0, had_0.ul.H_83⟩ : Vec3)) / R

/-- `make_had_rad_f_base_up_deriv` (src/hadronic_coeff.cpp 285-303). -/
noncomputable def makeHadRadFBaseUPDeriv (R delta_R : ℝ) (had : HadRadBaseUP) (had_0 : HadBaseUP)
    (had_1 had_2 : HadRadBaseUP) : HadRadFBaseUP where
  H_1 := had.H_1
  H_2 := had.H_2
  H_3 := had.H_3
  H_4 := had.H_4
  H_6 := had.H_6
  H_8 := had.H_8
  H_1_diff := diffRVec R delta_R ⟨0, had_0.ut.H_12, 0⟩ had_1.H_1 had_2.H_1
  H_2_diff := diffRVec R delta_R ⟨0, had_0.ut.H_22, 0⟩ had_1.H_2 had_2.H_2
  H_3_diff := diffRVec R delta_R ⟨0, had_0.ut.H_32, 0⟩ had_1.H_3 had_2.H_3
  H_4_diff := diffRVec R delta_R ⟨0, had_0.ut.H_42, 0⟩ had_1.H_4 had_2.H_4
  H_6_diff := diffRVec R delta_R ⟨had_0.ut.H_61, 0, had_0.ul.H_63⟩ had_1.H_6 had_2.H_6
  H_8_diff := diffRVec R delta_R ⟨had_0.ut.H_81, 0, had_0.ul.H_83⟩ had_1.H_8 had_2.H_8

/-- `struct HadRadFBaseLU` (include/sidis/hadronic_coeff.hpp 261-268). -/
@[ext] structure HadRadFBaseLU where
  (H_50 H_50_diff : ℝ)

/-- `make_had_rad_f_base_lu_diff` (src/hadronic_coeff.cpp 304-311). -/
noncomputable def makeHadRadFBaseLUDiff (R : ℝ) (had : HadRadBaseLU) (had_0 : HadBaseLU) :
    HadRadFBaseLU where
  H_50 := had.H_50
  H_50_diff := (had.H_50 - had_0.H_50) / R

/-- `make_had_rad_f_base_lu_deriv` (src/hadronic_coeff.cpp 312-320). -/
noncomputable def makeHadRadFBaseLUDeriv (R delta_R : ℝ) (had : HadRadBaseLU) (had_0 : HadBaseLU)
    (had_1 had_2 : HadRadBaseLU) : HadRadFBaseLU where
  H_50 := had.H_50
  H_50_diff := diffR R delta_R had_0.H_50 had_1.H_50 had_2.H_50

/-- `struct HadRadFBaseLP` (include/sidis/hadronic_coeff.hpp 269-280). -/
@[ext] structure HadRadFBaseLP where
  (H_5 H_7 H_9 H_5_diff H_7_diff H_9_diff : Vec3)

/-- `make_had_rad_f_base_lp_diff` (src/hadronic_coeff.cpp 321-332). -/
noncomputable def makeHadRadFBaseLPDiff (R : ℝ) (had : HadRadBaseLP) (had_0 : HadBaseLP) :
    HadRadFBaseLP where
  H_5 := had.H_5
  H_7 := had.H_7
  H_9 := had.H_9
  H_5_diff := (had.H_5 - (⟨0, had_0.lt.H_52, 0⟩ : Vec3)) / R
  H_7_diff := (had.H_7 - (⟨had_0.lt.H_71, 0, had_0.ll.H_73⟩ : Vec3)) / R
  H_9_diff := (had.H_9 - (⟨had_0.lt.H_91, 0, had_0.ll.H_93⟩ : Vec3)) / R

/-- `make_had_rad_f_base_lp_deriv` (src/hadronic_coeff.cpp 333-345). -/
noncomputable def makeHadRadFBaseLPDeriv (R delta_R : ℝ) (had : HadRadBaseLP) (had_0 : HadBaseLP)
    (had_1 had_2 : HadRadBaseLP) : HadRadFBaseLP where
  H_5 := had.H_5
  H_7 := had.H_7
  H_9 := had.H_9
  H_5_diff := diffRVec R delta_R ⟨0, had_0.lt.H_52, 0⟩ had_1.H_5 had_2.H_5
  H_7_diff := diffRVec R delta_R ⟨had_0.lt.H_71, 0, had_0.ll.H_73⟩ had_1.H_7 had_2.H_7
  H_9_diff := diffRVec R delta_R ⟨had_0.lt.H_91, 0, had_0.ll.H_93⟩ had_1.H_9 had_2.H_9

/-- `DELTA_R_REL` (src/hadronic_coeff.cpp 228), for double precision. -/
noncomputable def deltaRRel : ℝ := √(2 * (1 / 2 ^ 52))

/-- The upper end of `cut::R_bound(kin, tau, phi_k)` (src/cut.cpp 126-151) for finite real
kinematics; `none` when the bound is invalid (a NaN end point, with which every comparison is
false). -/
noncomputable def rBoundMax (k : Kinematics ℝ) (tau phi_k : ℝ) : Option ℝ :=
  let tau_min := (k.S_x - k.lambda_Y_sqrt) / (2 * sq k.M)
  let tau_max := (k.S_x + k.lambda_Y_sqrt) / (2 * sq k.M)
  let mu := Cut.muOf k tau phi_k tau_min tau_max
  let max := 1 / (1 + tau - mu) * (k.mx_sq - sq k.Mth)
  open Classical in if 0 ≤ max then some max else none

/-- The choice made by every `HadRadF` constructor (src/hadronic_coeff.cpp 482-485, 496-499,
510-513, 524-527, 540-543, 554-558, 571-574, 587-592): the step `delta_R` when the photon is so soft
that the extrapolated derivative is used, `none` when the difference quotient is used. -/
noncomputable def softStep (k : KinematicsRad ℝ) : Option ℝ :=
  (rBoundMax k.project k.tau k.phi_k).bind fun r =>
    let delta_R := r * deltaRRel
    open Classical in if k.R < delta_R then some delta_R else none

/-- `struct HadRadFUU` (include/sidis/hadronic_coeff.hpp 282-288). -/
@[ext] structure HadRadFUU where
  uu : HadRadFBaseUU

/-- `HadRadFUU::HadRadFUU(kin, sf_set, had_0)` (src/hadronic_coeff.cpp 539-552). -/
noncomputable def HadRadFUU.make0 (k : KinematicsRad ℝ) (sf : SfFuns) (had_0 : HadUU) :
    HadRadFUU :=
  let kin_0 := k.project
  let had := HadRadUU.make k sf
  match softStep k with
  | some delta_R =>
    let kin_1 := KinematicsRad.make kin_0 k.tau k.phi_k delta_R
    let kin_2 := KinematicsRad.make kin_0 k.tau k.phi_k (2 * delta_R)
    let had_1 := HadRadUU.make kin_1 sf
    let had_2 := HadRadUU.make kin_2 sf
    { uu := makeHadRadFBaseUUDeriv k.R delta_R had.uu had_0.uu had_1.uu had_2.uu }
  | none =>
    { uu := makeHadRadFBaseUUDiff k.R had.uu had_0.uu }

/-- `HadRadFUU::HadRadFUU(kin, sf_set)` (include/sidis/hadronic_coeff.hpp 282-288). -/
noncomputable def HadRadFUU.make (k : KinematicsRad ℝ) (sf : SfFuns) : HadRadFUU :=
  .make0 k sf (.make k.project sf)

/-- `struct HadRadFUP` (include/sidis/hadronic_coeff.hpp 289-296). -/
@[ext] structure HadRadFUP where
  uu : HadRadFBaseUU
  up : HadRadFBaseUP

/-- `HadRadFUP::HadRadFUP(kin, sf_set, had_0)` (src/hadronic_coeff.cpp 553-569). -/
noncomputable def HadRadFUP.make0 (k : KinematicsRad ℝ) (sf : SfFuns) (had_0 : HadUP) :
    HadRadFUP :=
  let kin_0 := k.project
  let had := HadRadUP.make k sf
  let had_0_up : HadBaseUP := ⟨had_0.ul, had_0.ut⟩
  match softStep k with
  | some delta_R =>
    let kin_1 := KinematicsRad.make kin_0 k.tau k.phi_k delta_R
    let kin_2 := KinematicsRad.make kin_0 k.tau k.phi_k (2 * delta_R)
    let had_1 := HadRadUP.make kin_1 sf
    let had_2 := HadRadUP.make kin_2 sf
    { uu := makeHadRadFBaseUUDeriv k.R delta_R had.uu had_0.uu had_1.uu had_2.uu
      up := makeHadRadFBaseUPDeriv k.R delta_R had.up had_0_up had_1.up had_2.up }
  | none =>
    { uu := makeHadRadFBaseUUDiff k.R had.uu had_0.uu
      up := makeHadRadFBaseUPDiff k.R had.up had_0_up }

/-- `HadRadFUP::HadRadFUP(kin, sf_set)` (include/sidis/hadronic_coeff.hpp 289-296). -/
noncomputable def HadRadFUP.make (k : KinematicsRad ℝ) (sf : SfFuns) : HadRadFUP :=
  .make0 k sf (.make k.project sf)

/-- `struct HadRadFLU` (include/sidis/hadronic_coeff.hpp 297-304). -/
@[ext] structure HadRadFLU where
  uu : HadRadFBaseUU
  lu : HadRadFBaseLU

/-- `HadRadFLU::HadRadFLU(kin, sf_set, had_0)` (src/hadronic_coeff.cpp 570-585). -/
noncomputable def HadRadFLU.make0 (k : KinematicsRad ℝ) (sf : SfFuns) (had_0 : HadLU) :
    HadRadFLU :=
  let kin_0 := k.project
  let had := HadRadLU.make k sf
  match softStep k with
  | some delta_R =>
    let kin_1 := KinematicsRad.make kin_0 k.tau k.phi_k delta_R
    let kin_2 := KinematicsRad.make kin_0 k.tau k.phi_k (2 * delta_R)
    let had_1 := HadRadLU.make kin_1 sf
    let had_2 := HadRadLU.make kin_2 sf
    { uu := makeHadRadFBaseUUDeriv k.R delta_R had.uu had_0.uu had_1.uu had_2.uu
      lu := makeHadRadFBaseLUDeriv k.R delta_R had.lu had_0.lu had_1.lu had_2.lu }
  | none =>
    { uu := makeHadRadFBaseUUDiff k.R had.uu had_0.uu
      lu := makeHadRadFBaseLUDiff k.R had.lu had_0.lu }

/-- `HadRadFLU::HadRadFLU(kin, sf_set)` (include/sidis/hadronic_coeff.hpp 297-304). -/
noncomputable def HadRadFLU.make (k : KinematicsRad ℝ) (sf : SfFuns) : HadRadFLU :=
  .make0 k sf (.make k.project sf)

/-- `struct HadRadFLP` (include/sidis/hadronic_coeff.hpp 305-314). -/
@[ext] structure HadRadFLP where
  uu : HadRadFBaseUU
  up : HadRadFBaseUP
  lu : HadRadFBaseLU
  lp : HadRadFBaseLP

/-- `HadRadFLP::HadRadFLP(kin, sf_set, had_0)` (src/hadronic_coeff.cpp 586-607). -/
noncomputable def HadRadFLP.make0 (k : KinematicsRad ℝ) (sf : SfFuns) (had_0 : HadLP) :
    HadRadFLP :=
  let kin_0 := k.project
  let had := HadRadLP.make k sf
  let had_0_up : HadBaseUP := ⟨had_0.ul, had_0.ut⟩
  let had_0_lp : HadBaseLP := ⟨had_0.ll, had_0.lt⟩
  match softStep k with
  | some delta_R =>
    let kin_1 := KinematicsRad.make kin_0 k.tau k.phi_k delta_R
    let kin_2 := KinematicsRad.make kin_0 k.tau k.phi_k (2 * delta_R)
    let had_1 := HadRadLP.make kin_1 sf
    let had_2 := HadRadLP.make kin_2 sf
    { uu := makeHadRadFBaseUUDeriv k.R delta_R had.uu had_0.uu had_1.uu had_2.uu
      up := makeHadRadFBaseUPDeriv k.R delta_R had.up had_0_up had_1.up had_2.up
      lu := makeHadRadFBaseLUDeriv k.R delta_R had.lu had_0.lu had_1.lu had_2.lu
      lp := makeHadRadFBaseLPDeriv k.R delta_R had.lp had_0_lp had_1.lp had_2.lp }
  | none =>
    { uu := makeHadRadFBaseUUDiff k.R had.uu had_0.uu
      up := makeHadRadFBaseUPDiff k.R had.up had_0_up
      lu := makeHadRadFBaseLUDiff k.R had.lu had_0.lu
      lp := makeHadRadFBaseLPDiff k.R had.lp had_0_lp }

/-- `HadRadFLP::HadRadFLP(kin, sf_set)` (include/sidis/hadronic_coeff.hpp 305-314). -/
noncomputable def HadRadFLP.make (k : KinematicsRad ℝ) (sf : SfFuns) : HadRadFLP :=
  .make0 k sf (.make k.project sf)

end Sidis
