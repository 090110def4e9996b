import Verif.Model.Kinematics
import Mathlib.Algebra.Order.Field.Basic

/-!
# Model of the leptonic coefficients (include/sidis/leptonic_coeff.hpp, src/leptonic_coeff.cpp)

In exact real arithmetic; the names are those of the code, `0.5` is written `1 / 2`.  The containers
`LepBornUU`, `LepBornUP`, ... (leptonic_coeff.hpp 65-89, 123-147, 185-213, 280-304) build each
member from the same kinematics with the constructors below, and are not modelled separately.
-/

namespace Sidis

/-- `struct LepBornBaseUU` (include/sidis/leptonic_coeff.hpp 39-46). -/
structure LepBornBaseUU where
  (theta_1 theta_2 theta_3 theta_4 : ℝ)

/-- `LepBornBaseUU::LepBornBaseUU` (src/leptonic_coeff.cpp 12-17). -/
noncomputable def LepBornBaseUU.make (k : Kinematics ℝ) : LepBornBaseUU :=
  { theta_1 := k.Q_sq - 2 * sq k.m
    theta_2 := 1 / 2 * (k.S * k.X - sq k.M * k.Q_sq)
    theta_3 := 1 / 2 * (k.V_1 * k.V_2 - sq k.mh * k.Q_sq)
    theta_4 := 1 / 2 * (k.S * k.V_2 + k.X * k.V_1 - k.z * k.Q_sq * k.S_x) }

/-- `struct LepBornBaseUP` (include/sidis/leptonic_coeff.hpp 47-52). -/
structure LepBornBaseUP where
  (theta_6 theta_8 : ℝ)

/-- `LepBornBaseUP::LepBornBaseUP` (src/leptonic_coeff.cpp 18-21). -/
noncomputable def LepBornBaseUP.make (k : Kinematics ℝ) : LepBornBaseUP :=
  { theta_6 := -k.S_p * k.vol_phi_h
    theta_8 := -2 * k.V_p * k.vol_phi_h }

/-- `struct LepBornBaseLU` (include/sidis/leptonic_coeff.hpp 53-57). -/
structure LepBornBaseLU where
  (theta_5 : ℝ)

/-- `LepBornBaseLU::LepBornBaseLU` (src/leptonic_coeff.cpp 22-24). -/
noncomputable def LepBornBaseLU.make (k : Kinematics ℝ) : LepBornBaseLU :=
  { theta_5 := (2 * k.S * k.vol_phi_h) / k.lambda_S_sqrt }

/-- `struct LepBornBaseLP` (include/sidis/leptonic_coeff.hpp 58-63). -/
structure LepBornBaseLP where
  (theta_7 theta_9 : ℝ)

/-- `LepBornBaseLP::LepBornBaseLP` (src/leptonic_coeff.cpp 25-37). -/
noncomputable def LepBornBaseLP.make (k : Kinematics ℝ) : LepBornBaseLP :=
  { theta_7 := k.S / (4 * k.lambda_S_sqrt) * (k.lambda_Y * k.V_p - k.S_p * k.S_x * (k.z * k.Q_sq
      + k.V_m))
    theta_9 := 1 / (2 * k.lambda_S_sqrt) * (k.S * (k.Q_sq * (k.z * k.S_x * k.V_p - sq k.mh * k.S_p)
      + k.V_m * (k.S * k.V_2 - k.X * k.V_1)) + 2 * sq k.m * (4 * sq k.M * sq k.V_m + k.lambda_Y
      * sq k.mh - k.z * sq k.S_x * (k.z * k.Q_sq + 2 * k.V_m))) }

/-- `struct LepAmmBaseUU` (include/sidis/leptonic_coeff.hpp 97-104). -/
structure LepAmmBaseUU where
  (theta_1 theta_2 theta_3 theta_4 : ℝ)

/-- `LepAmmBaseUU::LepAmmBaseUU` (src/leptonic_coeff.cpp 40-45). -/
noncomputable def LepAmmBaseUU.make (k : Kinematics ℝ) : LepAmmBaseUU :=
  { theta_1 := 6
    theta_2 := -k.lambda_Y / (2 * k.Q_sq)
    theta_3 := -2 * sq k.mh - 2 * sq k.V_m / k.Q_sq
    theta_4 := -2 * k.S_x * (k.z + k.V_m / k.Q_sq) }

/-- `struct LepAmmBaseUP` (include/sidis/leptonic_coeff.hpp 105-110). -/
structure LepAmmBaseUP where
  (theta_6 theta_8 : ℝ)

/-- `LepAmmBaseUP::LepAmmBaseUP` (src/leptonic_coeff.cpp 46-50). -/
noncomputable def LepAmmBaseUP.make (_k : Kinematics ℝ) : LepAmmBaseUP :=
  { theta_6 := 0
    theta_8 := 0 }

/-- `struct LepAmmBaseLU` (include/sidis/leptonic_coeff.hpp 111-115). -/
structure LepAmmBaseLU where
  (theta_5 : ℝ)

/-- `LepAmmBaseLU::LepAmmBaseLU` (src/leptonic_coeff.cpp 51-54). -/
noncomputable def LepAmmBaseLU.make (k : Kinematics ℝ) : LepAmmBaseLU :=
  { theta_5 := (2 * (2 * k.S + k.S_x) * k.vol_phi_h) / (k.lambda_S_sqrt * k.Q_sq) }

/-- `struct LepAmmBaseLP` (include/sidis/leptonic_coeff.hpp 116-121). -/
structure LepAmmBaseLP where
  (theta_7 theta_9 : ℝ)

/-- `LepAmmBaseLP::LepAmmBaseLP` (src/leptonic_coeff.cpp 55-69). -/
noncomputable def LepAmmBaseLP.make (k : Kinematics ℝ) : LepAmmBaseLP :=
  { theta_7 := (2 * k.S + k.S_x) / (4 * k.lambda_S_sqrt * k.Q_sq) * (k.S_x * (k.S * k.V_2 - k.X
      * k.V_1 - k.z * k.S_p * k.Q_sq) + 4 * sq k.M * k.Q_sq * k.V_p)
    theta_9 := 1 / (2 * k.lambda_S_sqrt * k.Q_sq) * (sq k.S_x * (4 * sq k.m * (sq k.mh - k.z * (k.z
      * k.Q_sq + 2 * k.V_m)) + k.V_1 * k.V_m) - 4 * (sq k.M * (k.Q_sq - 4 * sq k.m) + sq k.S)
      * (sq k.mh * k.Q_sq + sq k.V_m) + k.z * k.Q_sq * k.S_x * (k.S_x * (k.z * k.Q_sq + k.V_1
      + k.V_m) + 2 * k.S * k.V_p) + 2 * k.S * k.S_x * k.V_m * k.V_p) }

/-- `struct LepNradBaseUU` (include/sidis/leptonic_coeff.hpp 156-162). -/
structure LepNradBaseUU where
  born : LepBornBaseUU
  amm : LepAmmBaseUU

/-- `LepNradBaseUU::LepNradBaseUU` (src/leptonic_coeff.cpp 72). -/
noncomputable def LepNradBaseUU.make (k : Kinematics ℝ) : LepNradBaseUU := ⟨.make k, .make k⟩

/-- `struct LepNradBaseUP` (include/sidis/leptonic_coeff.hpp 163-169). -/
structure LepNradBaseUP where
  born : LepBornBaseUP
  amm : LepAmmBaseUP

/-- `LepNradBaseUP::LepNradBaseUP` (src/leptonic_coeff.cpp 73). -/
noncomputable def LepNradBaseUP.make (k : Kinematics ℝ) : LepNradBaseUP := ⟨.make k, .make k⟩

/-- `struct LepNradBaseLU` (include/sidis/leptonic_coeff.hpp 170-176). -/
structure LepNradBaseLU where
  born : LepBornBaseLU
  amm : LepAmmBaseLU

/-- `LepNradBaseLU::LepNradBaseLU` (src/leptonic_coeff.cpp 74). -/
noncomputable def LepNradBaseLU.make (k : Kinematics ℝ) : LepNradBaseLU := ⟨.make k, .make k⟩

/-- `struct LepNradBaseLP` (include/sidis/leptonic_coeff.hpp 177-183). -/
structure LepNradBaseLP where
  born : LepBornBaseLP
  amm : LepAmmBaseLP

/-- `LepNradBaseLP::LepNradBaseLP` (src/leptonic_coeff.cpp 75). -/
noncomputable def LepNradBaseLP.make (k : Kinematics ℝ) : LepNradBaseLP := ⟨.make k, .make k⟩

/-- `struct LepRadBaseUU` (include/sidis/leptonic_coeff.hpp 221-236). -/
structure LepRadBaseUU where
  (theta_011 theta_012 theta_013 theta_021 theta_022 theta_023 theta_031 theta_032
    theta_033 theta_041 theta_042 theta_043 : ℝ)

/-- `LepRadBaseUU::LepRadBaseUU` (src/leptonic_coeff.cpp 82-121). -/
noncomputable def LepRadBaseUU.make (k : KinematicsRad ℝ) : LepRadBaseUU :=
  let lep_born := LepBornBaseUU.make k.project
  { theta_011 := 4 * k.F_IR * lep_born.theta_1
    theta_012 := 4 * k.tau * k.F_IR
    theta_013 := -4 - 2 * k.F_d * sq k.tau
    theta_021 := 4 * k.F_IR * lep_born.theta_2
    theta_022 := 1 / 2 * (k.F_1p * k.S_x * k.S_p + 2 * k.F_2m * sq k.m * k.S_p + 2 * k.F_IR
      * (k.S_x - 2 * k.tau * sq k.M) - k.F_d * k.tau * sq k.S_p)
    theta_023 := 1 / 2 * (k.F_d * (4 * sq k.m + k.tau * (2 * k.tau * sq k.M - k.S_x)) - k.F_1p
      * k.S_p + 4 * sq k.M)
    theta_031 := 4 * k.F_IR * lep_born.theta_3
    theta_032 := 2 * (k.F_IR * (k.mu * k.V_m - k.tau * sq k.mh) + k.V_p * (k.F_2m * k.mu * sq k.m
      + k.F_1p * k.V_m - k.F_d * k.tau * k.V_p))
    theta_033 := k.F_d * (2 * sq k.mu * sq k.m + k.tau * (k.tau * sq k.mh - k.mu * k.V_m)) - k.F_1p
      * k.mu * k.V_p + 2 * sq k.mh
    theta_041 := 4 * k.F_IR * lep_born.theta_4
    theta_042 := k.F_1p * (k.S * k.V_1 - k.X * k.V_2) + k.F_2m * sq k.m * (k.mu * k.S_p + 2
      * k.V_p) - 2 * k.F_d * k.tau * k.S_p * k.V_p + k.F_IR * ((k.mu - 2 * k.tau * k.z) * k.S_x
      + 2 * k.V_m)
    theta_043 := 1 / 2 * (k.F_d * (8 * k.mu * sq k.m + k.tau * ((2 * k.tau * k.z - k.mu) * k.S_x
      - 2 * k.V_m)) - k.F_1p * (k.mu * k.S_p + 2 * k.V_p) + 4 * k.z * k.S_x) }

/-- `struct LepRadBaseUP` (include/sidis/leptonic_coeff.hpp 237-248). -/
structure LepRadBaseUP where
  (theta_061 theta_062 theta_063 theta_064 theta_081 theta_082 theta_083 theta_084 : ℝ)

/-- `LepRadBaseUP::LepRadBaseUP` (src/leptonic_coeff.cpp 122-319). -/
noncomputable def LepRadBaseUP.make (k : KinematicsRad ℝ) : LepRadBaseUP :=
  let lep_born := LepBornBaseUP.make k.project
  { theta_061 := 4 * k.F_IR * lep_born.theta_6
    theta_062 := 1 / (2 * k.lambda_1) * (k.vol_phi_h * ((4 * sq k.M * k.Q_sq * (k.Q_sq + 4
      * sq k.m) - sq k.S_x * (k.Q_sq - 4 * sq k.m) - 8 * k.Q_sq * k.S * k.X) * (k.F_1p * k.S_x
      + 2 * k.F_2m * sq k.m - k.F_d * k.tau * k.S_p) + 2 * k.F_IR * k.S_p * (2 * k.tau * (2
      * sq k.M * (k.Q_sq + 2 * sq k.m) - k.S * k.X) - k.S_x * (k.Q_sq + 4 * sq k.m))) + 2
      * k.S_p * k.vol_phi_k_R * (k.F_2m * sq k.m * (k.S_x * (k.z * k.S_p * k.Q_sq - k.S * k.V_2
      + k.V_1 * k.X) - 4 * sq k.M * k.Q_sq * k.V_p) + k.F_IR * ((k.Q_sq + 4 * sq k.m) * (k.z
      * sq k.S_x - 4 * sq k.M * k.V_m) + k.S_p * (k.X * k.V_1 - k.S * k.V_2))))
    theta_063 := 1 / (2 * k.lambda_1) * (2 * k.vol_phi_h * (k.F_1p * (2 * k.Q_sq * (k.S * k.X - 2
      * sq k.M * k.Q_sq) - k.tau * k.S_x * (sq k.S_x + 3 * k.S * k.X - 4 * sq k.m * sq k.M)
      - (k.Q_sq + 2 * sq k.m) * sq k.S_x) + k.F_2m * sq k.m * (2 * k.tau * (2 * sq k.M
      * (k.Q_sq + 2 * sq k.m) - k.S * k.X) - k.S_x * (k.Q_sq + 4 * sq k.m)) - k.F_IR * k.Q_sq
      * k.S_p + k.F_d * k.S_p * (sq k.tau * (sq k.S_x + 2 * k.S * k.X - 2 * sq k.M * (k.Q_sq
      + 4 * sq k.m)) + 2 * k.tau * k.S_x * (k.Q_sq + 2 * sq k.m) - 4 * sq k.m * k.Q_sq) + k.S_p
      * sq k.S_x) + k.vol_phi_k_R * ((k.S_x * k.F_1p + 2 * sq k.m * k.F_2m) * ((k.Q_sq + 4
      * sq k.m) * (k.z * sq k.S_x - 4 * sq k.M * k.V_m) + k.S_p * (k.X * k.V_1 - k.S * k.V_2))
      + 2 * k.F_2p * sq k.m * (k.S_x * (k.z * k.Q_sq * k.S_p - k.S * k.V_2 + k.X * k.V_1) - 4
      * sq k.M * k.Q_sq * k.V_p) + k.F_d * (4 * k.tau * (sq k.M * k.Q_sq * (4 * k.S * k.V_m
      + k.S_x * (k.V_2 - k.V_m)) + 2 * k.S * k.X * (k.S * k.V_2 - k.X * k.V_1) + 2 * sq k.m
      * k.S_p * (4 * sq k.M * k.V_m - k.z * sq k.S_x)) + (3 * k.tau * k.S_x + 2 * (k.Q_sq - 2
      * sq k.m)) * (k.S * k.V_2 - k.X * k.V_1 - k.z * k.Q_sq * k.S_p) * k.S_x + 8 * (k.Q_sq - 2
      * sq k.m) * sq k.M * k.Q_sq * k.V_p)))
    theta_064 := 1 / (2 * k.lambda_1) * (k.vol_phi_h * (k.F_1p * ((k.Q_sq + 4 * sq k.m) * k.S_x + 2
      * k.tau * (k.S * k.X - 2 * sq k.M * (k.Q_sq + 2 * sq k.m))) + k.S_p * (k.tau * k.Q_sq
      * k.F_d - 2 * k.S_x)) + k.vol_phi_k_R * (k.F_1p * ((k.Q_sq + 4 * sq k.m) * (4 * sq k.M
      * k.V_m - k.z * sq k.S_x) + k.S_p * (k.S * k.V_2 - k.X * k.V_1)) + k.F_d * k.tau * (4
      * sq k.M * k.Q_sq * k.V_p + k.S_x * (k.S * k.V_2 - k.X * k.V_1 - k.z * k.Q_sq * k.S_p))))
    theta_081 := 4 * k.F_IR * lep_born.theta_8
    theta_082 := 1 / k.lambda_1 * (k.vol_phi_h * (k.F_1p * (k.Q_sq * k.S_x * (k.S_x * k.V_p - 2
      * k.S * k.V_2) - 2 * k.V_m * (2 * k.lambda_1 + k.Q_sq * k.S * k.S_x)) - 2 * k.F_2m
      * sq k.m * (2 * k.mu * k.lambda_1 + k.Q_sq * k.S_p * k.V_p) + k.V_p * (2 * k.F_2p
      * sq k.m * (2 * k.tau * (2 * (k.Q_sq + 2 * sq k.m) * sq k.M - k.S * k.X) - (k.Q_sq + 4
      * sq k.m) * k.S_x) + k.F_d * (4 * sq k.m * ((3 * k.Q_sq + 4 * sq k.m) * k.S_x + k.tau
      * (2 * k.S * k.X - 4 * (3 * k.Q_sq + 2 * sq k.m) * sq k.M - sq k.S_x)) + k.Q_sq * (k.tau
      * (12 * k.S * k.X + sq k.S_x) + 2 * k.Q_sq * (k.S_x - 6 * k.tau * sq k.M))))) + 2 * k.V_p
      * k.vol_phi_k_R * (k.F_IR * ((k.Q_sq + 4 * sq k.m) * (k.z * sq k.S_x - 4 * sq k.M
      * k.V_m) + k.S_p * (k.X * k.V_1 - k.S * k.V_2)) + k.F_2m * sq k.m * (k.S_x * (k.X * k.V_1
      - k.S * k.V_2 + k.z * k.S_p * k.Q_sq) - 4 * k.Q_sq * k.V_p * sq k.M)))
    theta_083 := 1 / (2 * k.lambda_1) * (k.vol_phi_h * (k.F_d * (2 * k.mu * (k.Q_sq - 2 * sq k.m)
      * k.Q_sq * k.S_p + k.tau * (2 * (k.Q_sq + 8 * sq k.m) * k.S_x * k.V_p + k.Q_sq * (k.mu
      * k.S_x * k.S_p + 2 * k.S * k.V_1 - 2 * k.X * k.V_2)) - 2 * sq k.tau * (4 * (k.Q_sq + 4
      * sq k.m) * k.V_p * sq k.M - k.S_p * (k.S * k.V_1 + k.X * k.V_2))) + 2 * k.F_2m * k.mu
      * sq k.m * (2 * k.tau * (2 * (k.Q_sq + 2 * sq k.m) * sq k.M - k.S * k.X) - (k.Q_sq + 4
      * sq k.m) * k.S_x) + 4 * k.S_p * k.S_x * k.V_m - 2 * k.F_2p * k.mu * sq k.m * k.Q_sq
      * k.S_p + k.F_1p * (2 * k.tau * (sq k.X * k.V_2 - sq k.S * k.V_1) + 8 * sq k.m * k.V_m
      * (2 * k.tau * sq k.M - k.S_x) + k.Q_sq * (4 * k.mu * (k.S * k.X - 2 * k.Q_sq * sq k.M)
      - k.S_x * (2 * k.V_m + k.mu * k.S_x)))) + 2 * k.vol_phi_k_R * ((k.F_1p * k.V_m + k.F_2m
      * k.mu * sq k.m) * ((k.Q_sq + 4 * sq k.m) * (k.z * sq k.S_x - 4 * sq k.M * k.V_m) + k.S_p
      * (k.X * k.V_1 - k.S * k.V_2)) + k.F_2p * k.mu * sq k.m * (k.S_x * (k.z * k.S_p * k.Q_sq
      + k.X * k.V_1 - k.S * k.V_2) - 4 * k.Q_sq * k.V_p * sq k.M) + k.F_d * (k.mu * (k.Q_sq - 2
      * sq k.m) * (4 * k.Q_sq * k.V_p * sq k.M + k.S_x * (k.S * k.V_2 - k.X * k.V_1 - k.z
      * k.S_p * k.Q_sq)) + k.tau * (k.S_x * k.S_p * k.V_2 * (k.V_1 + k.V_p) + 2 * k.V_m * k.V_p
      * ((k.S_x - 4 * k.S) * k.X + 2 * (3 * k.Q_sq + 8 * sq k.m) * sq k.M) + k.z * k.S_x
      * (k.Q_sq * (k.X * k.V_2 - k.S * k.V_1) - (k.Q_sq + 8 * sq k.m) * k.S_x * k.V_p)))))
    theta_084 := k.mu / (2 * k.lambda_1) * (k.vol_phi_h * (k.F_1p * ((k.Q_sq + 4 * sq k.m) * k.S_x
      + 2 * k.tau * (k.S * k.X - 2 * (k.Q_sq + 2 * sq k.m) * sq k.M)) + k.S_p * (k.F_d * k.tau
      * k.Q_sq - 2 * k.S_x)) + k.vol_phi_k_R * (k.F_1p * ((k.Q_sq + 4 * sq k.m) * (4 * sq k.M
      * k.V_m - k.z * sq k.S_x) + k.S_p * (k.S * k.V_2 - k.X * k.V_1)) + k.F_d * k.tau * (4
      * k.Q_sq * k.V_p * sq k.M + k.S_x * (k.S * k.V_2 - k.X * k.V_1 - k.z * k.S_p * k.Q_sq)))) }

/-- `struct LepRadBaseLU` (include/sidis/leptonic_coeff.hpp 249-258). -/
structure LepRadBaseLU where
  (theta_051 theta_052 theta_053 theta_151 theta_152 theta_153 : ℝ)

/-- `LepRadBaseLU::LepRadBaseLU` (src/leptonic_coeff.cpp 320-420). -/
noncomputable def LepRadBaseLU.make (k : KinematicsRad ℝ) : LepRadBaseLU :=
  let lep_born := LepBornBaseLU.make k.project
  let theta_053_hat := (2 * k.S) / (k.lambda_1 * k.lambda_S_sqrt) * k.F_21 * (k.vol_phi_k_R
      * (2 * (k.mu * k.Q_sq + k.tau * k.V_1) * (k.S * k.X - sq k.M * k.Q_sq) + (k.Q_sq + k.tau
      * k.S) * (k.z * k.Q_sq * k.S_x - k.S * k.V_2 - k.X * k.V_1)) - k.vol_phi_h * sq (k.Q_sq
      + k.tau * k.S))
  { theta_051 := 4 * k.F_IR * lep_born.theta_5
    theta_052 := k.S / (k.lambda_1 * k.lambda_S_sqrt) * (k.vol_phi_h * (2 * k.F_IR * (k.S_x
      * (k.Q_sq + 4 * sq k.m) + 2 * k.tau * (k.S * k.X - 2 * sq k.M * (k.Q_sq + 2 * sq k.m)))
      + k.Q_sq * (k.S_p * (k.F_1p * k.S_x + 2 * k.F_2m * sq k.m) - k.F_d * k.tau * (4 * k.S
      * k.X + sq k.S_x))) + 2 * k.vol_phi_k_R * (k.F_2m * sq k.m * (k.S_x * (k.S * k.V_2 - k.X
      * k.V_1 - k.z * k.Q_sq * k.S_p) + 4 * sq k.M * k.Q_sq * k.V_p) + k.F_IR * ((k.Q_sq + 4
      * sq k.m) * (4 * sq k.M * k.V_m - k.z * sq k.S_x) + k.S_p * (k.S * k.V_2 - k.X * k.V_1))))
    theta_053 := theta_053_hat + k.S / (k.lambda_1 * k.lambda_S_sqrt) * (k.vol_phi_h * (8 * k.F_21
      * sq k.m * (k.tau * (k.tau * sq k.M - k.S_x) - k.Q_sq) + k.F_1p * (k.Q_sq * (4 * k.tau
      * sq k.M + k.S_p) + 2 * k.tau * k.S * k.S_x) + k.F_d * k.tau * (4 * sq k.m * (2 * k.tau
      * sq k.M - k.S_x) + k.Q_sq * (k.S_x - 4 * k.S) - 2 * k.tau * sq k.S)) + 2 * k.vol_phi_k_R
      * (2 * k.F_21 * sq k.m * (k.S_x * (2 * k.z * k.Q_sq + 2 * k.V_m + (k.tau * k.z - k.mu)
      * k.S_x) - 4 * sq k.M * (k.mu * k.Q_sq + k.tau * k.V_m)) + k.F_d * k.tau * (2 * sq k.m
      * (k.z * sq k.S_x - 4 * sq k.M * k.V_m) - 2 * sq k.M * k.Q_sq * k.V_1 + k.S * (k.z
      * k.S_x * k.Q_sq - k.S * k.V_2 + k.X * k.V_1))))
    theta_151 := 0
    theta_152 := (2 * sq k.m) / (k.lambda_1 * k.lambda_S_sqrt) * (k.vol_phi_h * (2 * k.F_21 * (2
      * sq k.m * k.lambda_Y + (k.Q_sq + k.tau * k.S) * (2 * sq k.M * k.Q_sq + k.S * k.S_x))
      - k.F_1p * k.S_x * k.lambda_Y + k.F_d * (2 * k.Q_sq * k.X * k.S_x + k.tau * k.S_x * (2
      * sq k.S - sq k.S_p) + 4 * sq k.M * k.Q_sq * (k.tau * k.S - k.Q_sq) - 4 * sq k.m
      * k.lambda_Y)) + 2 * k.vol_phi_k_R * (k.F_d * k.X - k.F_21 * k.S) * (k.S_x * (k.z * k.S_p
      * k.Q_sq + k.X * k.V_1 - k.S * k.V_2) - 4 * sq k.M * k.Q_sq * k.V_p))
    theta_153 := (2 * sq k.m) / (k.lambda_1 * k.lambda_S_sqrt) * (k.vol_phi_h * (2 * k.F_21
      * ((k.Q_sq + 2 * sq k.m) * (2 * k.tau * sq k.M + k.X) - (k.tau * k.X + 2 * sq k.m) * k.S)
      - k.F_1p * k.lambda_Y + k.F_d * (4 * sq k.m * (k.S_x - 2 * k.tau * sq k.M) + 2 * k.Q_sq
      * k.S + k.tau * (sq k.S + sq k.X))) + 2 * k.vol_phi_k_R * (k.F_21 * (2 * sq k.m * (k.z
      * sq k.S_x - 4 * sq k.M * k.V_m) + 2 * sq k.M * k.Q_sq * k.V_2 + k.X * (k.X * k.V_1 - k.S
      * k.V_2 - k.z * k.S_x * k.Q_sq)) + k.F_d * (2 * sq k.m * (4 * sq k.M * k.V_m - k.z
      * sq k.S_x) + 2 * sq k.M * k.Q_sq * k.V_1 + k.S * (k.S * k.V_2 - k.X * k.V_1 - k.z
      * k.Q_sq * k.S_x)))) }

/-- `struct LepRadBaseLP` (include/sidis/leptonic_coeff.hpp 259-278). -/
structure LepRadBaseLP where
  (theta_071 theta_072 theta_073 theta_074 theta_171 theta_172 theta_173 theta_174
    theta_091 theta_092 theta_093 theta_094 theta_191 theta_192 theta_193 theta_194 : ℝ)

/-- `LepRadBaseLP::LepRadBaseLP` (src/leptonic_coeff.cpp 421-582). -/
noncomputable def LepRadBaseLP.make (k : KinematicsRad ℝ) : LepRadBaseLP :=
  let lep_born := LepBornBaseLP.make k.project
  { theta_071 := 4 * k.F_IR * lep_born.theta_7
    theta_072 := k.S / (2 * k.lambda_S_sqrt) * (k.F_1p * k.Q_sq * (4 * sq k.M * k.V_m - k.z
      * sq k.S_x) + k.F_2m * sq k.m * (k.mu * k.lambda_Y - 2 * k.S_x * (k.z * k.Q_sq + k.V_m))
      + k.F_IR * (2 * (4 * k.tau * sq k.M - k.S_x) * k.V_p + (k.mu - 2 * k.tau * k.z) * k.S_p
      * k.S_x - 2 * k.S * k.V_2 + 2 * k.X * k.V_1) + k.F_d * k.tau * (k.Q_sq * (k.z * k.S_x
      * k.S_p - 4 * sq k.M * k.V_p) + k.S_x * (k.X * k.V_1 - k.S * k.V_2)))
    theta_073 := k.S / (4 * k.lambda_S_sqrt) * (k.F_1p * (k.S_x * (4 * k.z * k.Q_sq + 2 * k.V_m
      - k.mu * k.S_x) - 8 * k.mu * sq k.M * k.Q_sq) + 2 * k.F_2m * sq k.m * (4 * k.mu * k.tau
      * sq k.M + 2 * k.V_m - (k.mu + 2 * k.tau * k.z) * k.S_x) + 2 * k.F_IR * (2 * k.V_p - k.mu
      * k.S_p) + k.F_d * k.tau * (4 * (k.S_x - 2 * k.tau * sq k.M) * k.V_p + k.S_p * ((2
      * k.tau * k.z - k.mu) * k.S_x - 2 * k.V_m)))
    theta_074 := k.S / (4 * k.lambda_S_sqrt) * (k.F_1p * ((k.mu + 2 * k.tau * k.z) * k.S_x - 2
      * k.V_m - 4 * k.mu * k.tau * sq k.M) + k.F_d * k.tau * (k.mu * k.S_p - 2 * k.V_p))
    theta_171 := 0
    theta_172 := sq k.m / k.lambda_S_sqrt * (k.F_21 * (4 * sq k.M * (k.tau * k.S * k.V_m - k.Q_sq
      * k.V_p) - sq k.S_x * (k.tau * k.z * k.S + k.z * k.Q_sq + k.V_1) + k.mu * k.lambda_Y
      * k.S) + k.F_d * (4 * sq k.M * (k.Q_sq * k.V_p - k.tau * k.X * k.V_m) + sq k.S_x * (k.tau
      * k.z * k.X + k.V_2 - k.z * k.Q_sq) - k.mu * k.lambda_Y * k.X))
    theta_173 := sq k.m / k.lambda_S_sqrt * (k.F_21 * (2 * sq k.M * (k.mu * (k.Q_sq + k.tau * k.S)
      - 2 * k.tau * k.V_p) + k.S_x * ((k.tau * k.z - 2 * k.mu) * k.S + 2 * k.V_p - k.z
      * k.Q_sq) + (k.mu - k.tau * k.z) * sq k.S_x) + k.F_d * (2 * sq k.M * (k.mu * (k.Q_sq
      - k.tau * k.X) + 2 * k.tau * k.V_p) + k.S_x * ((2 * k.mu - k.tau * k.z) * k.S - k.z
      * k.Q_sq - 2 * k.V_p) - k.mu * sq k.S_x))
    theta_174 := sq k.m / k.lambda_S_sqrt * (k.F_21 * (2 * k.mu * k.tau * sq k.M + k.mu * k.X
      - k.tau * k.z * k.S_x - k.V_2) + k.F_d * (2 * k.mu * k.tau * sq k.M + k.V_1 - k.mu * k.S
      - k.tau * k.z * k.S_x))
    theta_091 := (2 * k.S) / k.lambda_S_sqrt * k.F_IR * (k.Q_sq * (k.z * k.S_x * k.V_p - sq k.mh
      * k.S_p) + k.V_m * (k.S * k.V_2 - k.X * k.V_1))
    theta_092 := k.S / k.lambda_S_sqrt * (k.F_1p * k.Q_sq * k.S_x * (k.z * k.V_m - sq k.mh)
      + k.F_2m * sq k.m * (k.Q_sq * (k.mu * k.z * k.S_x - 2 * sq k.mh) + k.V_m * (k.mu * k.S_x
      - 2 * k.V_m)) + k.F_d * k.tau * (k.Q_sq * (sq k.mh * k.S_p - k.z * k.S_x * k.V_p) + k.V_m
      * (k.X * k.V_1 - k.S * k.V_2)) + k.F_IR * (2 * k.V_m * (2 * k.mu * k.S - k.V_p) + 2
      * k.tau * (k.z * k.S_x * k.V_p - sq k.mh * k.S_p) - k.mu * (k.V_1 + k.V_m) * k.S_x))
    theta_093 := k.S / (2 * k.lambda_S_sqrt) * (k.F_1p * (2 * (2 * sq k.mh * k.Q_sq + sq k.V_m)
      - k.mu * k.S_x * (2 * k.z * k.Q_sq + k.V_m)) + k.F_2m * sq k.m * (k.mu * ((2 * k.tau
      * k.z - k.mu) * k.S_x + 2 * k.V_m) - 4 * k.tau * sq k.mh) + k.F_IR * k.mu * (2 * k.V_p
      - k.mu * k.S_p) + k.F_d * k.tau * (2 * k.tau * (sq k.mh * k.S_p - k.z * k.S_x * k.V_p)
      + k.mu * k.S_x * (k.V_m + k.V_1) + 2 * k.V_m * (k.V_p - 2 * k.mu * k.S)))
    theta_094 := k.S / (4 * k.lambda_S_sqrt) * (k.F_1p * (2 * k.tau * (2 * sq k.mh - k.mu * k.z
      * k.S_x) + k.mu * (k.mu * k.S_x - 2 * k.V_m)) + k.F_d * k.mu * k.tau * (k.mu * k.S_p - 2
      * k.V_p))
    theta_191 := (4 * sq k.m) / k.lambda_S_sqrt * k.F_IR * (sq k.mh * k.lambda_Y + 4 * sq k.M
      * sq k.V_m - k.z * sq k.S_x * (k.z * k.Q_sq + 2 * k.V_m))
    theta_192 := (2 * sq k.m) / k.lambda_S_sqrt * (2 * k.F_2p * sq k.m * (2 * sq k.mh * (2 * k.tau
      * sq k.M - k.S_x) + 2 * (k.z * k.S_x - 2 * k.mu * sq k.M) * k.V_m + k.z * (k.mu - k.tau
      * k.z) * sq k.S_x) + k.F_21 * k.S_x * (k.z * k.Q_sq * (k.mu * k.S - k.V_p) + k.V_m
      * ((k.mu + k.tau * k.z) * k.S - k.V_1) - sq k.mh * (k.Q_sq + k.tau * k.S)) + k.F_d
      * (k.S_x * ((sq k.mh - k.z * k.V_m) * (k.tau * k.X + 3 * k.Q_sq + 8 * sq k.m) + (k.V_m
      + k.z * k.Q_sq) * (k.V_2 - k.mu * k.X)) + 2 * (k.Q_sq + 2 * sq k.m) * (4 * sq k.M * (k.mu
      * k.V_m - k.tau * sq k.mh) + (k.z * k.tau - k.mu) * k.z * sq k.S_x)))
    theta_193 := sq k.m / k.lambda_S_sqrt * (4 * k.F_2p * sq k.m * (sq k.mh + sq k.mu * sq k.M
      - k.mu * k.z * k.S_x) + k.F_21 * (2 * sq k.mh * (k.tau * k.X - k.Q_sq) + k.S_x * (k.mu
      * (k.tau * k.z - k.mu) * k.S - 2 * k.tau * k.z * k.V_p + k.mu * k.z * k.Q_sq + k.mu
      * k.V_1) + 2 * k.V_m * (k.V_2 - k.mu * k.X)) + k.F_d * (k.mu * ((k.Q_sq + 2 * sq k.m)
      * (5 * k.z * k.S_x - 4 * k.mu * sq k.M) + (k.mu - k.tau * k.z) * k.X * k.S_x) - 2
      * sq k.mh * (k.tau * k.S + 3 * k.Q_sq + 4 * sq k.m) + k.S_x * (2 * k.tau * k.z * k.V_p
      - k.mu * k.V_2 - 2 * k.mu * k.z * sq k.m) + 2 * k.V_m * (k.mu * k.S - k.V_1)))
    theta_194 := sq k.m / k.lambda_S_sqrt * (k.F_21 * (k.mu * (k.tau * k.z * k.S_x + k.mu * k.X
      - k.V_2) - 2 * k.tau * sq k.mh) + k.F_d * (k.mu * (k.tau * k.z * k.S_x + k.V_1 - k.mu
      * k.S) - 2 * k.tau * sq k.mh)) }

end Sidis
