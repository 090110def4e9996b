import Verif.Model.Particle

/-!
# Model of `Kinematics` and `KinematicsRad` (include/sidis/kinematics.hpp, src/kinematics.cpp)

For any number type; the names are those of the code.  `0.5` is written `1/2`.
-/

namespace Sidis

/-- `struct PhaseSpace` (include/sidis/kinematics.hpp 21-36). -/
structure PhaseSpace (α : Type) where
  (x y z ph_t_sq phi_h phi : α)

/-- `struct PhaseSpaceRad` (include/sidis/kinematics.hpp 42-68). -/
structure PhaseSpaceRad (α : Type) where
  (x y z ph_t_sq phi_h phi tau phi_k R : α)

/-- `PhaseSpaceRad::project` (include/sidis/kinematics.hpp 65-67). -/
def PhaseSpaceRad.project {α : Type} (p : PhaseSpaceRad α) : PhaseSpace α :=
  ⟨p.x, p.y, p.z, p.ph_t_sq, p.phi_h, p.phi⟩

/-- `struct Kinematics` (include/sidis/kinematics.hpp 75-237). -/
structure Kinematics (α : Type) where
  (target : Nucleus)
  (beam : Lepton)
  (hadron : Hadron)
  (S M m mh Mth x y z ph_t_sq : α)
  (phi_h phi Q_sq Q t W_sq X S_x S_p : α)
  (V_1 V_2 V_m V_p lambda_S lambda_X lambda_Y lambda_1 lambda_2 : α)
  (lambda_3 lambda_S_sqrt lambda_X_sqrt lambda_Y_sqrt lambda_1_sqrt lambda_2_sqrt lambda_3_sqrt mx_sq mx : α)
  (vol_phi_h C_1 ph_0 ph_t ph_l cos_phi_h sin_phi_h q_0 q_t : α)
  (q_l phi_q cos_phi_q sin_phi_q k2_0 k2_t k2_l k1_t cos_phi : α)
  (sin_phi : α)

/-- `struct KinematicsRad` (include/sidis/kinematics.hpp 244-570). -/
structure KinematicsRad (α : Type) where
  (target : Nucleus)
  (beam : Lepton)
  (hadron : Hadron)
  (S M m mh Mth x y z ph_t_sq : α)
  (phi_h phi Q_sq Q t W_sq X S_x S_p : α)
  (V_1 V_2 V_m V_p lambda_S lambda_X lambda_Y lambda_1 lambda_2 : α)
  (lambda_3 lambda_S_sqrt lambda_X_sqrt lambda_Y_sqrt lambda_1_sqrt lambda_2_sqrt lambda_3_sqrt mx_sq mx : α)
  (vol_phi_h C_1 ph_0 ph_t ph_l cos_phi_h sin_phi_h q_0 q_t : α)
  (q_l phi_q cos_phi_q sin_phi_q k2_0 k2_t k2_l k1_t cos_phi : α)
  (sin_phi tau phi_k R tau_min tau_max mu z_1 z_2 : α)
  (lambda_V lambda_RV lambda_RY lambda_H lambda_z lambda_z_sqrt k_0_bar vol_phi_k_R vol_phi_hk : α)
  (F_22 F_21 F_2p F_2m F_d F_1p F_IR k_0 k_t : α)
  (k_l cos_phi_k sin_phi_k shift_x shift_y shift_z shift_ph_t_sq shift_phi_h shift_phi_q : α)
  (shift_cos_phi_h shift_sin_phi_h shift_cos_phi_q shift_sin_phi_q shift_Q_sq shift_Q shift_t shift_W_sq shift_S_x : α)
  (shift_V_m shift_lambda_Y shift_lambda_1 shift_lambda_2 shift_lambda_3 shift_lambda_Y_sqrt shift_lambda_1_sqrt shift_lambda_2_sqrt shift_lambda_3_sqrt : α)
  (shift_mx_sq shift_mx shift_vol_phi_h shift_C_1 shift_ph_t shift_ph_l shift_q_0 shift_q_t shift_q_l : α)
  (shift_k1_t : α)

variable {α : Type} [CMath α] [Add α] [Sub α] [Mul α] [Div α] [Neg α] [One α] [OfNat α 2]
  [OfNat α 4] [LT α] [DecidableLT α]

open CMath

/-- The wrapping of `phi_q` (src/kinematics.cpp 23-28). -/
noncomputable def wrapPhiQ (phi : α) : α :=
  let phi_q := fmod (pi - phi) (2 * pi)
  if pi < phi_q then phi_q - 2 * pi
  else if phi_q < -pi then phi_q + 2 * pi
  else phi_q

/-- `Kinematics::Kinematics(ps, S, ph_space)` (src/kinematics.cpp 16-112). -/
noncomputable def Kinematics.make (ps : Particles α) (S : α) (pt : PhaseSpace α) : Kinematics α :=
  let x := pt.x
  let y := pt.y
  let z := pt.z
  let ph_t_sq := pt.ph_t_sq
  let phi_h := pt.phi_h
  let phi := pt.phi
  let phi_q := wrapPhiQ phi
  let cos_phi_h := cos phi_h
  let sin_phi_h := sin phi_h
  let cos_phi := cos phi
  let sin_phi := sin phi
  let cos_phi_q := -cos_phi
  let sin_phi_q := sin_phi
  let M := ps.M
  let m := ps.m
  let mh := ps.mh
  let Q_sq := S * x * y
  let Q := sqrt Q_sq
  let X := (1 - y) * S
  let S_x := S * y
  let S_p := S * (2 - y)
  let lambda_S := sq S - 4 * sq M * sq m
  let lambda_X := sq X - 4 * sq M * sq m
  let lambda_Y := sq S_x + 4 * sq M * Q_sq
  let lambda_1 := Q_sq * (S * X - sq M * Q_sq) - sq m * lambda_Y
  let lambda_S_sqrt := sqrt lambda_S
  let lambda_X_sqrt := sqrt lambda_X
  let lambda_Y_sqrt := sqrt lambda_Y
  let lambda_1_sqrt := sqrt lambda_1
  let ph_0 := (z * S_x) / (2 * M)
  let ph_t := sqrt ph_t_sq
  let ph_ratio_sq := ph_t_sq / sq ph_0 + sq (mh / ph_0)
  let ph_l := ph_0 * sqrt (1 - ph_ratio_sq)
  let q_0 := S_x / (2 * M)
  let q_t := lambda_1_sqrt / lambda_S_sqrt
  let q_l := (2 * sq M * Q_sq + S * S_x) / (2 * M * lambda_S_sqrt)
  let k2_0 := X / (2 * M)
  let k2_l := (S * X - 2 * sq M * Q_sq - 4 * sq M * sq m) / (2 * M * lambda_S_sqrt)
  let k2_t := lambda_1_sqrt / lambda_S_sqrt
  let k1_t := lambda_1_sqrt / lambda_Y_sqrt
  let V_1 := ph_0 * S / M - (ph_l * (S * S_x + 2 * sq M * Q_sq)) / (M * lambda_Y_sqrt)
    - 2 * ph_t * k1_t * cos_phi_h
  let V_2 := ph_0 * X / M - (ph_l * (X * S_x - 2 * sq M * Q_sq)) / (M * lambda_Y_sqrt)
    - 2 * ph_t * k1_t * cos_phi_h
  let V_p := 1 / 2 * (V_1 + V_2)
  let lambda_Y_ratio := (4 * sq M * Q_sq) / sq S_x
  let V_m := -(ph_0 * S_x) / (2 * M)
    * sqrt1p_1m (lambda_Y_ratio - ph_ratio_sq * (1 + lambda_Y_ratio))
  let t := sq mh - Q_sq - 2 * V_m
  let W_sq := sq M + S_x - Q_sq
  let mx_sq := sq M + t + (1 - z) * S_x
  let mx := sqrt mx_sq
  let lambda_2 := sq V_m + sq mh * Q_sq
  let lambda_3 := V_m + z * Q_sq
  let lambda_2_sqrt := sqrt lambda_2
  let lambda_3_sqrt := sqrt lambda_3
  let vol_phi_h := -(1 / 2) * ph_t * lambda_1_sqrt * sin_phi_h
  let C_1 := (4 * M * ph_l * (Q_sq + 2 * x * sq M)) / sq (sq Q_sq)
  { target := ps.target, beam := ps.beam, hadron := ps.hadron, S := S, M := M, m := m, mh := mh
    Mth := ps.Mth, x := x, y := y, z := z, ph_t_sq := ph_t_sq, phi_h := phi_h, phi := phi
    Q_sq := Q_sq, Q := Q, t := t, W_sq := W_sq, X := X, S_x := S_x, S_p := S_p, V_1 := V_1
    V_2 := V_2, V_m := V_m, V_p := V_p, lambda_S := lambda_S, lambda_X := lambda_X
    lambda_Y := lambda_Y, lambda_1 := lambda_1, lambda_2 := lambda_2, lambda_3 := lambda_3
    lambda_S_sqrt := lambda_S_sqrt, lambda_X_sqrt := lambda_X_sqrt
    lambda_Y_sqrt := lambda_Y_sqrt, lambda_1_sqrt := lambda_1_sqrt
    lambda_2_sqrt := lambda_2_sqrt, lambda_3_sqrt := lambda_3_sqrt, mx_sq := mx_sq, mx := mx
    vol_phi_h := vol_phi_h, C_1 := C_1, ph_0 := ph_0, ph_t := ph_t, ph_l := ph_l
    cos_phi_h := cos_phi_h, sin_phi_h := sin_phi_h, q_0 := q_0, q_t := q_t, q_l := q_l
    phi_q := phi_q, cos_phi_q := cos_phi_q, sin_phi_q := sin_phi_q, k2_0 := k2_0, k2_t := k2_t
    k2_l := k2_l, k1_t := k1_t, cos_phi := cos_phi, sin_phi := sin_phi }

/-- `KinematicsRad::KinematicsRad(kin, tau, phi_k, R)` (src/kinematics.cpp 114-312). -/
noncomputable def KinematicsRad.make (kin : Kinematics α) (tau phi_k R : α) : KinematicsRad α :=
  let S := kin.S
  let M := kin.M
  let m := kin.m
  let mh := kin.mh
  let y := kin.y
  let z := kin.z
  let ph_t_sq := kin.ph_t_sq
  let phi_h := kin.phi_h
  let Q_sq := kin.Q_sq
  let t := kin.t
  let W_sq := kin.W_sq
  let X := kin.X
  let S_x := kin.S_x
  let S_p := kin.S_p
  let V_1 := kin.V_1
  let V_2 := kin.V_2
  let V_m := kin.V_m
  let V_p := kin.V_p
  let lambda_S := kin.lambda_S
  let lambda_Y := kin.lambda_Y
  let lambda_1 := kin.lambda_1
  let lambda_S_sqrt := kin.lambda_S_sqrt
  let lambda_Y_sqrt := kin.lambda_Y_sqrt
  let lambda_1_sqrt := kin.lambda_1_sqrt
  let mx_sq := kin.mx_sq
  let mx := kin.mx
  let vol_phi_h := kin.vol_phi_h
  let ph_0 := kin.ph_0
  let ph_t := kin.ph_t
  let ph_l := kin.ph_l
  let q_t := kin.q_t
  let q_l := kin.q_l
  let cos_phi_q := kin.cos_phi_q
  let sin_phi_q := kin.sin_phi_q
  let cos_phi := kin.cos_phi
  let sin_phi := kin.sin_phi
  let cos_phi_k := cos phi_k
  let sin_phi_k := sin phi_k
  let tau_min := (S_x - lambda_Y_sqrt) / (2 * sq M)
  let tau_max := (S_x + lambda_Y_sqrt) / (2 * sq M)
  let lambda_H := sq (z * S_x) - 4 * sq M * sq mh
  let lambda_V := z * sq S_x - 4 * sq M * V_m
  let lambda_RY := R * (S_x - 2 * sq M * tau)
  let lambda_RV := (2 * M) / lambda_Y_sqrt * (
    2 * sq M * R * ph_t * sqrt ((tau - tau_min) * (tau_max - tau)) * cos (phi_h - phi_k)
    + lambda_RY * ph_l)
  let mu := ph_0 / M + 1 / lambda_Y_sqrt * (
    (2 * tau * sq M - S_x) * ph_l / M
    - 2 * M * ph_t * cos (phi_h - phi_k) * sqrt ((tau - tau_min) * (tau_max - tau)))
  let lambda_z := (tau_max - tau) * (tau - tau_min) * lambda_1
  let lambda_z_sqrt := sqrt lambda_z
  let z_1 := 1 / lambda_Y * (
    Q_sq * S_p + tau * (S * S_x + 2 * sq M * Q_sq) - 2 * M * lambda_z_sqrt * cos_phi_k)
  let z_2 := 1 / lambda_Y * (
    Q_sq * S_p + tau * (X * S_x - 2 * sq M * Q_sq) - 2 * M * lambda_z_sqrt * cos_phi_k)
  let k_0 := R / (2 * M)
  let k_t := (M * R * lambda_z_sqrt) / (lambda_1_sqrt * lambda_Y_sqrt)
  let k_l := lambda_RY / (2 * M * lambda_Y_sqrt)
  let k_0_bar := ((1 + tau - mu) * R) / (2 * mx)
  let F_22 := 1 / sq z_2
  let F_21 := 1 / sq z_1
  let F_2p := F_22 + F_21
  let F_2m := F_22 - F_21
  let F_d := 1 / (z_1 * z_2)
  let F_1p := 1 / z_1 + 1 / z_2
  let F_IR := sq m * F_2p - (Q_sq + 2 * sq m) * F_d
  let vol_phi_k_R := -(1 / 2) * sin_phi_k * M * lambda_z_sqrt / lambda_Y_sqrt
  let vol_phi_hk := 1 / (2 * lambda_1) * (
    R * vol_phi_h * (z_1 * lambda_Y - Q_sq * S_p - tau * (S * S_x + 2 * sq M * Q_sq))
    + R * vol_phi_k_R * (S_x * (z * Q_sq * S_p - S * V_2 + X * V_1) - 4 * V_p * sq M * Q_sq))
  let shift_Q_sq := Q_sq + R * tau
  let shift_Q := sqrt shift_Q_sq
  let shift_S_x := S_x - R
  let shift_V_m := V_m + (lambda_RV - z * R * S_x) / (4 * sq M)
  let shift_x := shift_Q_sq / shift_S_x
  let shift_y := y - R / S
  let shift_z := S_x / shift_S_x * z
  let shift_t := t - R * tau + (z * R * S_x - lambda_RV) / (2 * sq M)
  let shift_W_sq := W_sq - R * (1 + tau)
  let shift_lambda_Y := lambda_Y + sq R - 2 * lambda_RY
  let shift_lambda_1 := lambda_1 + 1 / (4 * sq M) * (
    (sq R - 2 * lambda_RY) * lambda_S
    + R * (S - 2 * sq M * z_1) * (
      2 * S * S_x + 4 * sq M * Q_sq - R * (S - 2 * sq M * z_1)))
  let shift_lambda_2 := sq shift_V_m + sq mh * shift_Q_sq
  let shift_lambda_3 := shift_V_m + shift_z * shift_Q_sq
  let shift_lambda_Y_sqrt := sqrt shift_lambda_Y
  let shift_lambda_1_sqrt := sqrt shift_lambda_1
  let shift_lambda_2_sqrt := sqrt shift_lambda_2
  let shift_lambda_3_sqrt := sqrt shift_lambda_3
  let shift_ph_t_sq := ph_t_sq + 1 / shift_lambda_Y * (
    (sq R - 2 * lambda_RY) * sq ph_l
    + (lambda_Y_sqrt * lambda_RV * ph_l) / M
    - sq lambda_RV / (4 * sq M))
  let shift_ph_t := sqrt shift_ph_t_sq
  let shift_ph_l := 1 / shift_lambda_Y_sqrt * (lambda_Y_sqrt * ph_l - lambda_RV / (2 * M))
  let shift_q_0 := shift_S_x / (2 * M)
  let shift_q_t := shift_lambda_1_sqrt / lambda_S_sqrt
  let shift_q_l := q_l - R / (2 * M * lambda_S_sqrt) * (S - 2 * sq M * z_1)
  let shift_k1_t := shift_lambda_1_sqrt / shift_lambda_Y_sqrt
  let shift_mx_sq := mx_sq - R * (1 + tau) + (z * R * S_x - lambda_RV) / (2 * sq M)
  let shift_mx := sqrt shift_mx_sq
  let shift_vol_phi_h := vol_phi_h + 1 / (2 * lambda_1) * (
    R * vol_phi_h * (
      tau * lambda_S + 2 * sq m * S_x + Q_sq * S - z_1 * (S * S_x + 2 * sq M * Q_sq))
    + R * vol_phi_k_R * (
      2 * sq m * (4 * V_m * sq M - z * sq S_x)
      + S * (S * V_2 - X * V_1 - z * Q_sq * S_x)
      + 2 * V_1 * sq M * Q_sq))
  let shift_C_1 :=
    (4 * M * shift_ph_l * (shift_Q_sq + 2 * shift_x * sq M)) / sq (sq shift_Q_sq)
  let shift_sin_phi_h := -2 * shift_vol_phi_h / (shift_ph_t * shift_q_t * lambda_S_sqrt)
  let shift_cos_phi_h :=
    1 / (4 * sq M * shift_ph_t * shift_q_t * shift_lambda_Y_sqrt * lambda_S_sqrt) * (
      shift_lambda_Y * (z * S * S_x - 2 * sq M * V_1)
      - (lambda_V - lambda_RV) * (S * shift_S_x + 2 * sq M * Q_sq + 2 * sq M * z_1 * R))
  let shift_phi_h := atan2 shift_sin_phi_h shift_cos_phi_h
  let shift_sin_phi_q := 1 / shift_q_t * (
    q_t * sin_phi_q
    - (2 * M) / lambda_Y_sqrt * (
      k_t * (-q_l * sin_phi * cos_phi_k + lambda_Y_sqrt / (2 * M) * cos_phi * sin_phi_k)
      + k_l * q_t * sin_phi))
  let shift_cos_phi_q := 1 / shift_q_t * (
    q_t * cos_phi_q
    - (2 * M) / lambda_Y_sqrt * (
      k_t * (q_l * cos_phi * cos_phi_k + lambda_Y_sqrt / (2 * M) * sin_phi * sin_phi_k)
      - k_l * q_t * cos_phi))
  let shift_phi_q := atan2 shift_sin_phi_q shift_cos_phi_q
  {
    target := kin.target, beam := kin.beam, hadron := kin.hadron, S := kin.S, M := kin.M
    m := kin.m, mh := kin.mh, Mth := kin.Mth, x := kin.x, y := kin.y, z := kin.z
    ph_t_sq := kin.ph_t_sq, phi_h := kin.phi_h, phi := kin.phi, Q_sq := kin.Q_sq, Q := kin.Q
    t := kin.t, W_sq := kin.W_sq, X := kin.X, S_x := kin.S_x, S_p := kin.S_p, V_1 := kin.V_1
    V_2 := kin.V_2, V_m := kin.V_m, V_p := kin.V_p, lambda_S := kin.lambda_S
    lambda_X := kin.lambda_X, lambda_Y := kin.lambda_Y, lambda_1 := kin.lambda_1
    lambda_2 := kin.lambda_2, lambda_3 := kin.lambda_3, lambda_S_sqrt := kin.lambda_S_sqrt
    lambda_X_sqrt := kin.lambda_X_sqrt, lambda_Y_sqrt := kin.lambda_Y_sqrt
    lambda_1_sqrt := kin.lambda_1_sqrt, lambda_2_sqrt := kin.lambda_2_sqrt
    lambda_3_sqrt := kin.lambda_3_sqrt, mx_sq := kin.mx_sq, mx := kin.mx
    vol_phi_h := kin.vol_phi_h, C_1 := kin.C_1, ph_0 := kin.ph_0, ph_t := kin.ph_t
    ph_l := kin.ph_l, cos_phi_h := kin.cos_phi_h, sin_phi_h := kin.sin_phi_h, q_0 := kin.q_0
    q_t := kin.q_t, q_l := kin.q_l, phi_q := kin.phi_q, cos_phi_q := kin.cos_phi_q
    sin_phi_q := kin.sin_phi_q, k2_0 := kin.k2_0, k2_t := kin.k2_t, k2_l := kin.k2_l
    k1_t := kin.k1_t, cos_phi := kin.cos_phi, sin_phi := kin.sin_phi
    tau := tau, phi_k := phi_k, R := R, tau_min := tau_min, tau_max := tau_max, mu := mu
    z_1 := z_1, z_2 := z_2, lambda_V := lambda_V, lambda_RV := lambda_RV, lambda_RY := lambda_RY
    lambda_H := lambda_H, lambda_z := lambda_z, lambda_z_sqrt := lambda_z_sqrt
    k_0_bar := k_0_bar, vol_phi_k_R := vol_phi_k_R, vol_phi_hk := vol_phi_hk, F_22 := F_22
    F_21 := F_21, F_2p := F_2p, F_2m := F_2m, F_d := F_d, F_1p := F_1p, F_IR := F_IR, k_0 := k_0
    k_t := k_t, k_l := k_l, cos_phi_k := cos_phi_k, sin_phi_k := sin_phi_k, shift_x := shift_x
    shift_y := shift_y, shift_z := shift_z, shift_ph_t_sq := shift_ph_t_sq
    shift_phi_h := shift_phi_h, shift_phi_q := shift_phi_q, shift_cos_phi_h := shift_cos_phi_h
    shift_sin_phi_h := shift_sin_phi_h, shift_cos_phi_q := shift_cos_phi_q
    shift_sin_phi_q := shift_sin_phi_q, shift_Q_sq := shift_Q_sq, shift_Q := shift_Q
    shift_t := shift_t, shift_W_sq := shift_W_sq, shift_S_x := shift_S_x, shift_V_m := shift_V_m
    shift_lambda_Y := shift_lambda_Y, shift_lambda_1 := shift_lambda_1
    shift_lambda_2 := shift_lambda_2, shift_lambda_3 := shift_lambda_3
    shift_lambda_Y_sqrt := shift_lambda_Y_sqrt, shift_lambda_1_sqrt := shift_lambda_1_sqrt
    shift_lambda_2_sqrt := shift_lambda_2_sqrt, shift_lambda_3_sqrt := shift_lambda_3_sqrt
    shift_mx_sq := shift_mx_sq, shift_mx := shift_mx, shift_vol_phi_h := shift_vol_phi_h
    shift_C_1 := shift_C_1, shift_ph_t := shift_ph_t, shift_ph_l := shift_ph_l
    shift_q_0 := shift_q_0, shift_q_t := shift_q_t, shift_q_l := shift_q_l
    shift_k1_t := shift_k1_t }

/-- `KinematicsRad::project` (src/kinematics.cpp 314-383). -/
def KinematicsRad.project (k : KinematicsRad α) : Kinematics α :=
  {
    target := k.target, beam := k.beam, hadron := k.hadron, S := k.S, M := k.M, m := k.m
    mh := k.mh, Mth := k.Mth, x := k.x, y := k.y, z := k.z, ph_t_sq := k.ph_t_sq
    phi_h := k.phi_h, phi := k.phi, Q_sq := k.Q_sq, Q := k.Q, t := k.t, W_sq := k.W_sq, X := k.X
    S_x := k.S_x, S_p := k.S_p, V_1 := k.V_1, V_2 := k.V_2, V_m := k.V_m, V_p := k.V_p
    lambda_S := k.lambda_S, lambda_X := k.lambda_X, lambda_Y := k.lambda_Y
    lambda_1 := k.lambda_1, lambda_2 := k.lambda_2, lambda_3 := k.lambda_3
    lambda_S_sqrt := k.lambda_S_sqrt, lambda_X_sqrt := k.lambda_X_sqrt
    lambda_Y_sqrt := k.lambda_Y_sqrt, lambda_1_sqrt := k.lambda_1_sqrt
    lambda_2_sqrt := k.lambda_2_sqrt, lambda_3_sqrt := k.lambda_3_sqrt, mx_sq := k.mx_sq
    mx := k.mx, vol_phi_h := k.vol_phi_h, C_1 := k.C_1, ph_0 := k.ph_0, ph_t := k.ph_t
    ph_l := k.ph_l, cos_phi_h := k.cos_phi_h, sin_phi_h := k.sin_phi_h, q_0 := k.q_0
    q_t := k.q_t, q_l := k.q_l, phi_q := k.phi_q, cos_phi_q := k.cos_phi_q
    sin_phi_q := k.sin_phi_q, k2_0 := k.k2_0, k2_t := k.k2_t, k2_l := k.k2_l, k1_t := k.k1_t
    cos_phi := k.cos_phi, sin_phi := k.sin_phi }

/-- `KinematicsRad::project_shift` (src/kinematics.cpp 385-456). -/
def KinematicsRad.projectShift (k : KinematicsRad α) : Kinematics α :=
  {
    target := k.target, beam := k.beam, hadron := k.hadron, S := k.S, M := k.M, m := k.m
    mh := k.mh, Mth := k.Mth, x := k.shift_x, y := k.shift_y, z := k.shift_z
    ph_t_sq := k.shift_ph_t_sq, phi_h := k.shift_phi_h, phi := k.phi, Q_sq := k.shift_Q_sq
    Q := k.shift_Q, t := k.shift_t, W_sq := k.shift_W_sq, X := k.X, S_x := k.shift_S_x
    S_p := k.S_p, V_1 := k.V_1, V_2 := k.V_2, V_m := k.shift_V_m, V_p := k.V_p
    lambda_S := k.lambda_S, lambda_X := k.lambda_X, lambda_Y := k.shift_lambda_Y
    lambda_1 := k.shift_lambda_1, lambda_2 := k.shift_lambda_2, lambda_3 := k.shift_lambda_3
    lambda_S_sqrt := k.lambda_S_sqrt, lambda_X_sqrt := k.lambda_X_sqrt
    lambda_Y_sqrt := k.shift_lambda_Y_sqrt, lambda_1_sqrt := k.shift_lambda_1_sqrt
    lambda_2_sqrt := k.shift_lambda_2_sqrt, lambda_3_sqrt := k.shift_lambda_3_sqrt
    mx_sq := k.shift_mx_sq, mx := k.shift_mx, vol_phi_h := k.shift_vol_phi_h, C_1 := k.shift_C_1
    ph_0 := k.ph_0, ph_t := k.shift_ph_t, ph_l := k.shift_ph_l, cos_phi_h := k.shift_cos_phi_h
    sin_phi_h := k.shift_sin_phi_h, q_0 := k.shift_q_0, q_t := k.shift_q_t, q_l := k.shift_q_l
    phi_q := k.shift_phi_q, cos_phi_q := k.shift_cos_phi_q, sin_phi_q := k.shift_sin_phi_q
    k2_0 := k.k2_0, k2_t := k.k2_t, k2_l := k.k2_l, k1_t := k.shift_k1_t, cos_phi := k.cos_phi
    sin_phi := k.sin_phi }

/-- `KinematicsRad::KinematicsRad(ps, S, ph_space)` (include/sidis/kinematics.hpp 550-565). -/
noncomputable def KinematicsRad.ofPoint (ps : Particles α) (S : α) (pt : PhaseSpaceRad α) :
    KinematicsRad α :=
  .make (.make ps S ⟨pt.x, pt.y, pt.z, pt.ph_t_sq, pt.phi_h, pt.phi⟩) pt.tau pt.phi_k pt.R

end Sidis
