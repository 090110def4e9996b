import Verif.Model.HadCoeff
import Verif.Model.LepCoeff
import Verif.Model.Dilog

/-!
# Model of the cross-sections (include/sidis/cross_section.hpp, src/cross_section.cpp)

Finite quantities are exact reals.  The infrared cut-off `k_0_bar` and everything computed from it
can be infinite, so they are `Fl`.  Structure functions, beam and target polarisation are finite
reals.  The overloads that compute `Phenom` from the kinematics (cross_section.cpp 449-472) only
forward and are not modelled; nor are the integrals over the photon (386-447).
-/

namespace Sidis

/-- `struct Phenom` (include/sidis/phenom.hpp 36-52). -/
structure Phenom where
  alpha_qed : ℝ
  delta_vac_had : ℝ

/-- Three components of a number type (`Vec3` when the type is `ℝ`). -/
structure V3 (β : Type) where
  (x y z : β)

/-- The value returned by the three macros (cross_section.cpp 201, 250, 308):
`uu + dot(up, eta) + lambda_e*(lu + dot(lp, eta))`, with `dot` as in vector.hpp 100-102. -/
noncomputable def xsCombine {β : Type} [Add β] [Mul β] [CMath β]
    (uu : β) (up : V3 β) (lu : β) (lp : V3 β) (lambda_e : ℝ) (eta : Vec3) : β :=
  let dot (v : V3 β) : β :=
    v.x * CMath.ofReal eta.x + v.y * CMath.ofReal eta.y + v.z * CMath.ofReal eta.z
  uu + dot up + CMath.ofReal lambda_e * (lu + dot lp)

/-- The eight base cross-sections `name##_base_uu` ... `name##_base_lt2` that
`SIDIS_MACRO_XS_FROM_BASE` is instantiated with. -/
structure XsBase (β Luu Lup Llu Llp : Type) where
  uu : Luu → HadBaseUU → β
  ul : Lup → HadBaseUL → β
  ut1 : Lup → HadBaseUT → β
  ut2 : Luu → HadBaseUT → β
  lu : Llu → HadBaseLU → β
  ll : Llp → HadBaseLL → β
  lt1 : Llp → HadBaseLT → β
  lt2 : Llu → HadBaseLT → β

open Classical in
/-- `SIDIS_MACRO_XS_FROM_BASE` (src/cross_section.cpp 33-202).  Every leptonic container builds its
members from the kinematics alone, so the members are parameters here. -/
noncomputable def xsFromBase {β Luu Lup Llu Llp : Type} [Add β] [Mul β] [CMath β]
    (B : XsBase β Luu Lup Llu Llp) (lep_uu : Luu) (lep_up : Lup) (lep_lu : Llu) (lep_lp : Llp)
    (k : Kinematics ℝ) (sf : SfFuns) (lambda_e : ℝ) (eta : Vec3) : β :=
  let o : β := CMath.ofReal 0
  let ret (uu : β) (up : V3 β) (lu : β) (lp : V3 β) : β := xsCombine uu up lu lp lambda_e eta
  match decide (lambda_e ≠ 0), decide (eta.x ≠ 0), decide (eta.y ≠ 0), decide (eta.z ≠ 0) with
  | false, false, false, false =>
    let had := HadUU.make k sf
    ret (B.uu lep_uu had.uu) ⟨o, o, o⟩
      o ⟨o, o, o⟩
  | false, false, false, true =>
    let had := HadUL.make k sf
    ret (B.uu lep_uu had.uu) ⟨o, o, B.ul lep_up had.ul⟩
      o ⟨o, o, o⟩
  | false, false, true, false =>
    let had := HadUT.make k sf
    ret (B.uu lep_uu had.uu) ⟨o, B.ut2 lep_uu had.ut, o⟩
      o ⟨o, o, o⟩
  | false, false, true, true =>
    let had := HadUP.make k sf
    ret (B.uu lep_uu had.uu) ⟨o, B.ut2 lep_uu had.ut, B.ul lep_up had.ul⟩
      o ⟨o, o, o⟩
  | false, true, false, false =>
    let had := HadUT.make k sf
    ret (B.uu lep_uu had.uu) ⟨B.ut1 lep_up had.ut, o, o⟩
      o ⟨o, o, o⟩
  | false, true, false, true =>
    let had := HadUP.make k sf
    ret (B.uu lep_uu had.uu) ⟨B.ut1 lep_up had.ut, o, B.ul lep_up had.ul⟩
      o ⟨o, o, o⟩
  | false, true, true, false =>
    let had := HadUT.make k sf
    ret (B.uu lep_uu had.uu) ⟨B.ut1 lep_up had.ut, B.ut2 lep_uu had.ut, o⟩
      o ⟨o, o, o⟩
  | false, true, true, true =>
    let had := HadUP.make k sf
    ret (B.uu lep_uu had.uu) ⟨B.ut1 lep_up had.ut, B.ut2 lep_uu had.ut, B.ul lep_up had.ul⟩
      o ⟨o, o, o⟩
  | true, false, false, false =>
    let had := HadLU.make k sf
    ret (B.uu lep_uu had.uu) ⟨o, o, o⟩
      (B.lu lep_lu had.lu) ⟨o, o, o⟩
  | true, false, false, true =>
    let had := HadLL.make k sf
    ret (B.uu lep_uu had.uu) ⟨o, o, B.ul lep_up had.ul⟩
      (B.lu lep_lu had.lu) ⟨o, o, B.ll lep_lp had.ll⟩
  | true, false, true, false =>
    let had := HadLT.make k sf
    ret (B.uu lep_uu had.uu) ⟨o, B.ut2 lep_uu had.ut, o⟩
      (B.lu lep_lu had.lu) ⟨o, B.lt2 lep_lu had.lt, o⟩
  | true, false, true, true =>
    let had := HadLP.make k sf
    ret (B.uu lep_uu had.uu) ⟨o, B.ut2 lep_uu had.ut, B.ul lep_up had.ul⟩
      (B.lu lep_lu had.lu) ⟨o, B.lt2 lep_lu had.lt, B.ll lep_lp had.ll⟩
  | true, true, false, false =>
    let had := HadLT.make k sf
    ret (B.uu lep_uu had.uu) ⟨B.ut1 lep_up had.ut, o, o⟩
      (B.lu lep_lu had.lu) ⟨B.lt1 lep_lp had.lt, o, o⟩
  | true, true, false, true =>
    let had := HadLP.make k sf
    ret (B.uu lep_uu had.uu) ⟨B.ut1 lep_up had.ut, o, B.ul lep_up had.ul⟩
      (B.lu lep_lu had.lu) ⟨B.lt1 lep_lp had.lt, o, B.ll lep_lp had.ll⟩
  | true, true, true, false =>
    let had := HadLT.make k sf
    ret (B.uu lep_uu had.uu) ⟨B.ut1 lep_up had.ut, B.ut2 lep_uu had.ut, o⟩
      (B.lu lep_lu had.lu) ⟨B.lt1 lep_lp had.lt, B.lt2 lep_lu had.lt, o⟩
  | true, true, true, true =>
    let had := HadLP.make k sf
    ret (B.uu lep_uu had.uu) ⟨B.ut1 lep_up had.ut, B.ut2 lep_uu had.ut, B.ul lep_up had.ul⟩
      (B.lu lep_lu had.lu) ⟨B.lt1 lep_lp had.lt, B.lt2 lep_lu had.lt, B.ll lep_lp had.ll⟩

/-- `delta_vert_rad_0` (src/cross_section.cpp 313-357), for kinematics where every root, quotient and
logarithm in it is defined. -/
noncomputable def deltaVertRad0 (k : Kinematics ℝ) : ℝ :=
  let Q_m_sq := k.Q_sq + 2 * sq k.m
  let S_prime := k.S - k.Q_sq - k.V_1
  let X_prime := k.X + k.Q_sq - k.V_2
  let lambda_m := k.Q_sq * (k.Q_sq + 4 * sq k.m)
  let lambda_S_prime := sq S_prime - 4 * sq k.m * k.mx_sq
  let lambda_X_prime := sq X_prime - 4 * sq k.m * k.mx_sq
  let lambda_m_sqrt := √lambda_m
  let lambda_S_prime_sqrt := √lambda_S_prime
  let lambda_X_prime_sqrt := √lambda_X_prime
  let diff_m := sqrt1p1mR ((4 * sq k.m) / k.Q_sq)
  let diff_S_prime := sqrt1p1mR (-(4 * sq k.m * k.mx_sq) / sq S_prime)
  let diff_X_prime := sqrt1p1mR (-(4 * sq k.m * k.mx_sq) / sq X_prime)
  let sum_m := 2 + diff_m
  let sum_S_prime := 2 + diff_S_prime
  let sum_X_prime := 2 + diff_X_prime
  let L_m := 1 / lambda_m_sqrt * Real.log (sum_m / diff_m)
  let L_S_prime := 1 / lambda_S_prime_sqrt * Real.log (-sum_S_prime / diff_S_prime)
  let L_X_prime := 1 / lambda_X_prime_sqrt * Real.log (-sum_X_prime / diff_X_prime)
  let rho := 1 / lambda_m_sqrt * ((Q_m_sq + lambda_m_sqrt) * S_prime - 2 * sq k.m * X_prime)
  let S_phi := Q_m_sq / lambda_m_sqrt * (
    lambda_S_prime * sq L_S_prime / 4 - lambda_X_prime * sq L_X_prime / 4
    + dilogR (1 - 1 / (sum_S_prime * S_prime) * rho)
    + dilogR (1 - (sum_S_prime * S_prime) / (4 * sq k.m * k.mx_sq) * rho)
    - dilogR (1 - (sum_X_prime * X_prime) / (k.mx_sq * sq sum_m * k.Q_sq) * rho)
    - dilogR (1 - (4 * sq k.m) / (sum_X_prime * X_prime * sq sum_m * k.Q_sq) * rho))
  1 / 2 * S_prime * L_S_prime + 1 / 2 * X_prime * L_X_prime + S_phi - 2
    + (3 / 2 * k.Q_sq + 4 * sq k.m) * L_m
    - Q_m_sq / lambda_m_sqrt * (1 / 2 * lambda_m * sq L_m
      + 2 * dilogR ((2 * lambda_m_sqrt) / (k.Q_sq + lambda_m_sqrt)) - 1 / 2 * sq Real.pi)

open Classical in
/-- `std::log`: `-inf` at zero, NaN for negative arguments. -/
noncomputable def Fl.log : Fl → Fl
  | .nan => .nan
  | .ninf => .nan
  | .pinf => .pinf
  | .fin a => if 0 < a then .fin (Real.log a) else if a = 0 then .ninf else .nan

/-- `L_m` as computed in src/cross_section.cpp 482-486, 504-508, 574-578 and, for any lepton mass,
521-524. -/
noncomputable def logM (Q_sq m : ℝ) : ℝ :=
  let lambda_m_sqrt := √(Q_sq * (Q_sq + 4 * sq m))
  let diff_m := sqrt1p1mR ((4 * sq m) / Q_sq)
  let sum_m := 2 + diff_m
  1 / lambda_m_sqrt * Real.log (sum_m / diff_m)

open Classical in
/-- `xs::delta_vert_rad_ir` (src/cross_section.cpp 475-495). -/
noncomputable def deltaVertRadIr (k : Kinematics ℝ) (k_0_bar : Fl) : Fl :=
  let k0_max := (k.mx_sq - sq k.Mth) / (2 * k.mx)
  if ¬(.fin 0 < k_0_bar) then .ninf
  else
    let Q_m_sq := k.Q_sq + 2 * sq k.m
    let L_m := logM k.Q_sq k.m
    let delta_0 := deltaVertRad0 k
    let delta_shift := .fin (2 * (Q_m_sq * L_m - 1)) * Fl.log (
      if k_0_bar < .fin k0_max then (.fin 2 * k_0_bar) / .fin k.m
      else .fin ((k.mx_sq - sq k.Mth) / (k.m * k.mx)))
    .fin delta_0 + delta_shift

open Classical in
/-- `xs::delta_rad_ir_hard` (src/cross_section.cpp 496-513). -/
noncomputable def deltaRadIrHard (k : Kinematics ℝ) (k_0_bar : Fl) : Fl :=
  let k0_max := (k.mx_sq - sq k.Mth) / (2 * k.mx)
  if ¬(.fin 0 < k_0_bar) then .pinf
  else if ¬(k_0_bar < .fin k0_max) then .fin 0
  else
    let Q_m_sq := k.Q_sq + 2 * sq k.m
    let L_m := logM k.Q_sq k.m
    .fin (2 * (Q_m_sq * L_m - 1))
      * Fl.log (.fin (k.mx_sq - sq k.Mth) / (.fin 2 * k_0_bar * .fin k.mx))

/-- One turn of the loop in `xs::delta_vac_lep` (src/cross_section.cpp 520-528). -/
noncomputable def deltaVacLepTerm (Q_sq m : ℝ) : ℝ :=
  let L_m := logM Q_sq m
  2 / 3 * (Q_sq + 2 * sq m) * L_m - 10 / 9 + (8 * sq m) / (3 * Q_sq) * (1 - 2 * sq m * L_m)

/-- `xs::delta_vac_lep` (src/cross_section.cpp 515-531); the masses of the electron, the muon and the
tau are those of include/sidis/constant.hpp 25-27. -/
noncomputable def deltaVacLep (k : Kinematics ℝ) : ℝ :=
  0 + deltaVacLepTerm k.Q_sq 0.0005109989461 + deltaVacLepTerm k.Q_sq 0.1056583745
    + deltaVacLepTerm k.Q_sq 1.77686

/-- `Born::Born` (src/cross_section.cpp 534-536). -/
noncomputable def bornCoeff (k : Kinematics ℝ) (ph : Phenom) : ℝ :=
  (sq ph.alpha_qed * k.S * sq k.S_x) / (8 * k.M * k.ph_l * k.lambda_S)

/-- `Amm::Amm` (src/cross_section.cpp 572-581). -/
noncomputable def ammCoeff (k : Kinematics ℝ) (ph : Phenom) : ℝ :=
  logM k.Q_sq k.m * k.Q_sq * (ph.alpha_qed ^ 3 * sq k.m * k.S * sq k.S_x)
    / (16 * Real.pi * k.M * k.ph_l * k.lambda_S)

/-- The base functions `xs::born_base_uu` ... `xs::born_base_lt2` (src/cross_section.cpp 538-569). -/
noncomputable def bornBase (coeff : ℝ) :
    XsBase ℝ LepBornBaseUU LepBornBaseUP LepBornBaseLU LepBornBaseLP where
  uu lep had := coeff * (lep.theta_1 * had.H_10 + lep.theta_2 * had.H_20 + lep.theta_3 * had.H_30
    + lep.theta_4 * had.H_40)
  ul lep had := coeff * (lep.theta_6 * had.H_63 + lep.theta_8 * had.H_83)
  ut1 lep had := coeff * (lep.theta_6 * had.H_61 + lep.theta_8 * had.H_81)
  ut2 lep had := coeff * (lep.theta_1 * had.H_12 + lep.theta_2 * had.H_22 + lep.theta_3 * had.H_32
    + lep.theta_4 * had.H_42)
  lu lep had := coeff * lep.theta_5 * had.H_50
  ll lep had := coeff * (lep.theta_7 * had.H_73 + lep.theta_9 * had.H_93)
  lt1 lep had := coeff * (lep.theta_7 * had.H_71 + lep.theta_9 * had.H_91)
  lt2 lep had := coeff * lep.theta_5 * had.H_52

/-- The base functions `xs::amm_base_uu` ... `xs::amm_base_lt2` (src/cross_section.cpp 583-614). -/
noncomputable def ammBase (coeff : ℝ) :
    XsBase ℝ LepAmmBaseUU LepAmmBaseUP LepAmmBaseLU LepAmmBaseLP where
  uu lep had := coeff * (lep.theta_1 * had.H_10 + lep.theta_2 * had.H_20 + lep.theta_3 * had.H_30
    + lep.theta_4 * had.H_40)
  ul lep had := coeff * (lep.theta_6 * had.H_63 + lep.theta_8 * had.H_83)
  ut1 lep had := coeff * (lep.theta_6 * had.H_61 + lep.theta_8 * had.H_81)
  ut2 lep had := coeff * (lep.theta_1 * had.H_12 + lep.theta_2 * had.H_22 + lep.theta_3 * had.H_32
    + lep.theta_4 * had.H_42)
  lu lep had := coeff * lep.theta_5 * had.H_50
  ll lep had := coeff * (lep.theta_7 * had.H_73 + lep.theta_9 * had.H_93)
  lt1 lep had := coeff * (lep.theta_7 * had.H_71 + lep.theta_9 * had.H_91)
  lt2 lep had := coeff * lep.theta_5 * had.H_52

/-- `struct Nrad` (include/sidis/cross_section.hpp 254-258). -/
structure NradCoeff where
  coeff_born : Fl
  coeff_amm : Fl

/-- `Nrad::Nrad` (src/cross_section.cpp 617-626). -/
noncomputable def NradCoeff.make (k : Kinematics ℝ) (ph : Phenom) (k_0_bar : Fl) : NradCoeff :=
  let born_factor := .fin 1 + .fin (ph.alpha_qed / Real.pi)
    * (deltaVertRadIr k k_0_bar + .fin (deltaVacLep k) + .fin ph.delta_vac_had)
  ⟨born_factor * .fin (bornCoeff k ph), .fin (ammCoeff k ph)⟩

/-- The base functions `xs::nrad_ir_base_uu` ... `xs::nrad_ir_base_lt2` (src/cross_section.cpp
628-667). -/
noncomputable def nradBase (b : NradCoeff) :
    XsBase Fl LepNradBaseUU LepNradBaseUP LepNradBaseLU LepNradBaseLP :=
  let th (born amm : ℝ) : Fl := b.coeff_born * .fin born + b.coeff_amm * .fin amm
  { uu := fun lep had =>
      th lep.born.theta_1 lep.amm.theta_1 * .fin had.H_10
        + th lep.born.theta_2 lep.amm.theta_2 * .fin had.H_20
        + th lep.born.theta_3 lep.amm.theta_3 * .fin had.H_30
        + th lep.born.theta_4 lep.amm.theta_4 * .fin had.H_40
    ul := fun lep had =>
      th lep.born.theta_6 lep.amm.theta_6 * .fin had.H_63
        + th lep.born.theta_8 lep.amm.theta_8 * .fin had.H_83
    ut1 := fun lep had =>
      th lep.born.theta_6 lep.amm.theta_6 * .fin had.H_61
        + th lep.born.theta_8 lep.amm.theta_8 * .fin had.H_81
    ut2 := fun lep had =>
      th lep.born.theta_1 lep.amm.theta_1 * .fin had.H_12
        + th lep.born.theta_2 lep.amm.theta_2 * .fin had.H_22
        + th lep.born.theta_3 lep.amm.theta_3 * .fin had.H_32
        + th lep.born.theta_4 lep.amm.theta_4 * .fin had.H_42
    lu := fun lep had =>
      th lep.born.theta_5 lep.amm.theta_5 * .fin had.H_50
    ll := fun lep had =>
      th lep.born.theta_7 lep.amm.theta_7 * .fin had.H_73
        + th lep.born.theta_9 lep.amm.theta_9 * .fin had.H_93
    lt1 := fun lep had =>
      th lep.born.theta_7 lep.amm.theta_7 * .fin had.H_71
        + th lep.born.theta_9 lep.amm.theta_9 * .fin had.H_91
    lt2 := fun lep had =>
      th lep.born.theta_5 lep.amm.theta_5 * .fin had.H_52 }

/-- `xs::born` (src/cross_section.cpp 361-364). -/
noncomputable def xsBorn (k : Kinematics ℝ) (ph : Phenom) (sf : SfFuns) (lambda_e : ℝ) (eta : Vec3) :
    ℝ :=
  xsFromBase (bornBase (bornCoeff k ph)) (.make k) (.make k) (.make k) (.make k) k sf lambda_e eta

/-- `xs::amm` (src/cross_section.cpp 366-369). -/
noncomputable def xsAmm (k : Kinematics ℝ) (ph : Phenom) (sf : SfFuns) (lambda_e : ℝ) (eta : Vec3) :
    ℝ :=
  xsFromBase (ammBase (ammCoeff k ph)) (.make k) (.make k) (.make k) (.make k) k sf lambda_e eta

/-- `xs::nrad_ir` (src/cross_section.cpp 371-374). -/
noncomputable def xsNradIr (k : Kinematics ℝ) (ph : Phenom) (sf : SfFuns) (lambda_e : ℝ)
    (eta : Vec3) (k_0_bar : Fl) : Fl :=
  xsFromBase (nradBase (.make k ph k_0_bar)) (.make k) (.make k) (.make k) (.make k) k sf lambda_e eta

/-- `Rad::Rad` (src/cross_section.cpp 670-675), the member `coeff`. -/
noncomputable def radCoeff (k : KinematicsRad ℝ) (ph : Phenom) : ℝ :=
  -(ph.alpha_qed ^ 3 * k.S * sq k.S_x)
    / (64 * sq Real.pi * k.M * k.ph_l * k.lambda_S * k.lambda_Y_sqrt)

/-- `xs::rad_base_uu` (src/cross_section.cpp 677-694). -/
noncomputable def radBaseUU (coeff R : ℝ) (lep : LepRadBaseUU) (had : HadRadBaseUU) :
    ℝ :=
  coeff * (
    1 / R * (lep.theta_011 * had.H_10 + lep.theta_021 * had.H_20 + lep.theta_031 * had.H_30
        + lep.theta_041 * had.H_40)
    + (lep.theta_012 * had.H_10 + lep.theta_022 * had.H_20 + lep.theta_032 * had.H_30
        + lep.theta_042 * had.H_40)
    + R * (lep.theta_013 * had.H_10 + lep.theta_023 * had.H_20 + lep.theta_033 * had.H_30
        + lep.theta_043 * had.H_40))

/-- `xs::rad_base_up` (src/cross_section.cpp 695-721). -/
noncomputable def radBaseUP (coeff R : ℝ) (lep_uu : LepRadBaseUU) (lep_up : LepRadBaseUP)
    (had : HadRadBaseUP) :
    Vec3 :=
  coeff • (
    (1 / R) • (lep_uu.theta_011 • had.H_1 + lep_uu.theta_021 • had.H_2 + lep_uu.theta_031 • had.H_3
        + lep_uu.theta_041 • had.H_4 + lep_up.theta_061 • had.H_6 + lep_up.theta_081 • had.H_8)
    + (lep_uu.theta_012 • had.H_1 + lep_uu.theta_022 • had.H_2 + lep_uu.theta_032 • had.H_3
        + lep_uu.theta_042 • had.H_4 + lep_up.theta_062 • had.H_6 + lep_up.theta_082 • had.H_8)
    + R • (lep_uu.theta_013 • had.H_1 + lep_uu.theta_023 • had.H_2 + lep_uu.theta_033 • had.H_3
        + lep_uu.theta_043 • had.H_4 + lep_up.theta_063 • had.H_6 + lep_up.theta_083 • had.H_8)
    + (R * R) • (lep_up.theta_064 • had.H_6 + lep_up.theta_084 • had.H_8))

/-- `xs::rad_base_lu` (src/cross_section.cpp 722-727). -/
noncomputable def radBaseLU (coeff R : ℝ) (lep : LepRadBaseLU) (had : HadRadBaseLU) :
    ℝ :=
  coeff * (
    1 / R * (lep.theta_051 + lep.theta_151) * had.H_50
    + (lep.theta_052 + lep.theta_152) * had.H_50
    + R * (lep.theta_053 + lep.theta_153) * had.H_50)

/-- `xs::rad_base_lp` (src/cross_section.cpp 728-745). -/
noncomputable def radBaseLP (coeff R : ℝ) (lep_lu : LepRadBaseLU) (lep_lp : LepRadBaseLP)
    (had : HadRadBaseLP) :
    Vec3 :=
  coeff • (
    (1 / R) • ((lep_lu.theta_051 + lep_lu.theta_151) • had.H_5
        + (lep_lp.theta_071 + lep_lp.theta_171) • had.H_7
        + (lep_lp.theta_091 + lep_lp.theta_191) • had.H_9)
    + ((lep_lu.theta_052 + lep_lu.theta_152) • had.H_5
        + (lep_lp.theta_072 + lep_lp.theta_172) • had.H_7
        + (lep_lp.theta_092 + lep_lp.theta_192) • had.H_9)
    + R • ((lep_lu.theta_053 + lep_lu.theta_153) • had.H_5
        + (lep_lp.theta_073 + lep_lp.theta_173) • had.H_7
        + (lep_lp.theta_093 + lep_lp.theta_193) • had.H_9)
    + (R * R) • ((lep_lp.theta_074 + lep_lp.theta_174) • had.H_7
        + (lep_lp.theta_094 + lep_lp.theta_194) • had.H_9))

/-- `xs::rad_f_base_uu` (src/cross_section.cpp 747-764). -/
noncomputable def radFBaseUU (coeff R : ℝ) (lep : LepRadBaseUU) (had : HadRadFBaseUU) :
    ℝ :=
  coeff * (
    (lep.theta_011 * had.H_10_diff + lep.theta_021 * had.H_20_diff
        + lep.theta_031 * had.H_30_diff + lep.theta_041 * had.H_40_diff)
    + (lep.theta_012 * had.H_10 + lep.theta_022 * had.H_20 + lep.theta_032 * had.H_30
        + lep.theta_042 * had.H_40)
    + R * (lep.theta_013 * had.H_10 + lep.theta_023 * had.H_20 + lep.theta_033 * had.H_30
        + lep.theta_043 * had.H_40))

/-- `xs::rad_f_base_up` (src/cross_section.cpp 765-791). -/
noncomputable def radFBaseUP (coeff R : ℝ) (lep_uu : LepRadBaseUU) (lep_up : LepRadBaseUP)
    (had : HadRadFBaseUP) :
    Vec3 :=
  coeff • (
    (lep_uu.theta_011 • had.H_1_diff + lep_uu.theta_021 • had.H_2_diff
        + lep_uu.theta_031 • had.H_3_diff + lep_uu.theta_041 • had.H_4_diff
        + lep_up.theta_061 • had.H_6_diff + lep_up.theta_081 • had.H_8_diff)
    + (lep_uu.theta_012 • had.H_1 + lep_uu.theta_022 • had.H_2 + lep_uu.theta_032 • had.H_3
        + lep_uu.theta_042 • had.H_4 + lep_up.theta_062 • had.H_6 + lep_up.theta_082 • had.H_8)
    + R • (lep_uu.theta_013 • had.H_1 + lep_uu.theta_023 • had.H_2 + lep_uu.theta_033 • had.H_3
        + lep_uu.theta_043 • had.H_4 + lep_up.theta_063 • had.H_6 + lep_up.theta_083 • had.H_8)
    + (R * R) • (lep_up.theta_064 • had.H_6 + lep_up.theta_084 • had.H_8))

/-- `xs::rad_f_base_lu` (src/cross_section.cpp 792-797). -/
noncomputable def radFBaseLU (coeff R : ℝ) (lep : LepRadBaseLU) (had : HadRadFBaseLU) :
    ℝ :=
  coeff * (
    (lep.theta_051 + lep.theta_151) * had.H_50_diff
    + (lep.theta_052 + lep.theta_152) * had.H_50
    + R * (lep.theta_053 + lep.theta_153) * had.H_50)

/-- `xs::rad_f_base_lp` (src/cross_section.cpp 798-815). -/
noncomputable def radFBaseLP (coeff R : ℝ) (lep_lu : LepRadBaseLU) (lep_lp : LepRadBaseLP)
    (had : HadRadFBaseLP) :
    Vec3 :=
  coeff • (
    ((lep_lu.theta_051 + lep_lu.theta_151) • had.H_5_diff
        + (lep_lp.theta_071 + lep_lp.theta_171) • had.H_7_diff
        + (lep_lp.theta_091 + lep_lp.theta_191) • had.H_9_diff)
    + ((lep_lu.theta_052 + lep_lu.theta_152) • had.H_5
        + (lep_lp.theta_072 + lep_lp.theta_172) • had.H_7
        + (lep_lp.theta_092 + lep_lp.theta_192) • had.H_9)
    + R • ((lep_lu.theta_053 + lep_lu.theta_153) • had.H_5
        + (lep_lp.theta_073 + lep_lp.theta_173) • had.H_7
        + (lep_lp.theta_093 + lep_lp.theta_193) • had.H_9)
    + (R * R) • ((lep_lp.theta_074 + lep_lp.theta_174) • had.H_7
        + (lep_lp.theta_094 + lep_lp.theta_194) • had.H_9))

open Classical in
/-- `xs::rad` (src/cross_section.cpp 376-379), with `SIDIS_MACRO_XS_FROM_BASE_P` (207-251). -/
noncomputable def xsRad (k : KinematicsRad ℝ) (ph : Phenom) (sf : SfFuns) (lambda_e : ℝ)
    (eta : Vec3) : ℝ :=
  let coeff := radCoeff k ph
  let ret (uu : ℝ) (up : Vec3) (lu : ℝ) (lp : Vec3) : ℝ :=
    uu + up.dot eta + lambda_e * (lu + lp.dot eta)
  match decide (lambda_e ≠ 0), decide (eta.x ≠ 0 ∨ eta.y ≠ 0 ∨ eta.z ≠ 0) with
  | false, false =>
    let had := HadRadUU.make k sf
    ret (radBaseUU coeff k.R (.make k) had.uu) .zero 0 .zero
  | false, true =>
    let had := HadRadUP.make k sf
    ret (radBaseUU coeff k.R (.make k) had.uu) (radBaseUP coeff k.R (.make k) (.make k) had.up) 0 .zero
  | true, false =>
    let had := HadRadLU.make k sf
    ret (radBaseUU coeff k.R (.make k) had.uu) .zero (radBaseLU coeff k.R (.make k) had.lu) .zero
  | true, true =>
    let had := HadRadLP.make k sf
    ret (radBaseUU coeff k.R (.make k) had.uu) (radBaseUP coeff k.R (.make k) (.make k) had.up)
      (radBaseLU coeff k.R (.make k) had.lu) (radBaseLP coeff k.R (.make k) (.make k) had.lp)

open Classical in
/-- `xs::rad_f` (src/cross_section.cpp 381-384), with `SIDIS_MACRO_XS_FROM_BASE_P` (207-251). -/
noncomputable def xsRadF (k : KinematicsRad ℝ) (ph : Phenom) (sf : SfFuns) (lambda_e : ℝ)
    (eta : Vec3) : ℝ :=
  let coeff := radCoeff k ph
  let ret (uu : ℝ) (up : Vec3) (lu : ℝ) (lp : Vec3) : ℝ :=
    uu + up.dot eta + lambda_e * (lu + lp.dot eta)
  match decide (lambda_e ≠ 0), decide (eta.x ≠ 0 ∨ eta.y ≠ 0 ∨ eta.z ≠ 0) with
  | false, false =>
    let had := HadRadFUU.make k sf
    ret (radFBaseUU coeff k.R (.make k) had.uu) .zero 0 .zero
  | false, true =>
    let had := HadRadFUP.make k sf
    ret (radFBaseUU coeff k.R (.make k) had.uu) (radFBaseUP coeff k.R (.make k) (.make k) had.up) 0 .zero
  | true, false =>
    let had := HadRadFLU.make k sf
    ret (radFBaseUU coeff k.R (.make k) had.uu) .zero (radFBaseLU coeff k.R (.make k) had.lu) .zero
  | true, true =>
    let had := HadRadFLP.make k sf
    ret (radFBaseUU coeff k.R (.make k) had.uu) (radFBaseUP coeff k.R (.make k) (.make k) had.up)
      (radFBaseLU coeff k.R (.make k) had.lu) (radFBaseLP coeff k.R (.make k) (.make k) had.lp)

open Classical in
/-- `SIDIS_MACRO_XS_FROM_BASE_P_0` (src/cross_section.cpp 256-309) as used in `xs::rad_f_integ` (408): the
hadronic coefficients without photon are given. -/
noncomputable def xsRadF0 (k : KinematicsRad ℝ) (ph : Phenom) (sf : SfFuns) (had_0 : HadLP) (lambda_e : ℝ)
    (eta : Vec3) : ℝ :=
  let coeff := radCoeff k ph
  let ret (uu : ℝ) (up : Vec3) (lu : ℝ) (lp : Vec3) : ℝ :=
    uu + up.dot eta + lambda_e * (lu + lp.dot eta)
  match decide (lambda_e ≠ 0), decide (eta.x ≠ 0 ∨ eta.y ≠ 0 ∨ eta.z ≠ 0) with
  | false, false =>
    let had := HadRadFUU.make0 k sf ⟨had_0.uu⟩
    ret (radFBaseUU coeff k.R (.make k) had.uu) .zero 0 .zero
  | false, true =>
    let had := HadRadFUP.make0 k sf ⟨had_0.uu, had_0.ul, had_0.ut⟩
    ret (radFBaseUU coeff k.R (.make k) had.uu) (radFBaseUP coeff k.R (.make k) (.make k) had.up) 0 .zero
  | true, false =>
    let had := HadRadFLU.make0 k sf ⟨had_0.uu, had_0.lu⟩
    ret (radFBaseUU coeff k.R (.make k) had.uu) .zero (radFBaseLU coeff k.R (.make k) had.lu) .zero
  | true, true =>
    let had := HadRadFLP.make0 k sf had_0
    ret (radFBaseUU coeff k.R (.make k) had.uu) (radFBaseUP coeff k.R (.make k) (.make k) had.up)
      (radFBaseLU coeff k.R (.make k) had.lu) (radFBaseLP coeff k.R (.make k) (.make k) had.lp)

end Sidis
