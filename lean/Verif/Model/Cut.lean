import Verif.Model.Kinematics
import Verif.Model.Map

/-!
# Model of cuts, kinematic limits, validity and phase-space sampling (src/cut.cpp)

Over `Fl`: NaN and infinities are followed, finite arithmetic is exact.
-/

namespace Sidis

/-- `struct Cut` (include/sidis/cut.hpp 33-67). -/
structure Cut where
  (x y z ph_t_sq phi_h phi Q_sq t W_sq r mx_sq : Bound)
  (qt_to_Q lab_mom_q lab_mom_k2 lab_mom_h lab_theta_q lab_theta_k2 lab_theta_h : Bound)

/-- `struct CutRad` (include/sidis/cut.hpp 72-86). -/
structure CutRad where
  (tau phi_k R k_0_bar lab_mom_k lab_theta_k : Bound)

namespace Cut

open CMath CMap

section
variable {α : Type} [CMath α] [CMap α] [Add α] [Sub α] [Mul α] [Div α] [Neg α] [One α] [OfNat α 2]
  [OfNat α 4]

/-- `qt_to_Q` in `valid(Cut, Kinematics)` (src/cut.cpp 298). -/
def qtToQ (kin : Kinematics α) : α := sqrt (kin.ph_t_sq / kin.Q_sq) / kin.z
/-- `lambda_h_sqrt` (src/cut.cpp 299). -/
def lambdaHSqrt (kin : Kinematics α) : α := sqrt (sq (kin.z * kin.S_x) - 4 * sq (kin.M * kin.mh))
/-- `lab_mom_q` (src/cut.cpp 300). -/
def labMomQ (kin : Kinematics α) : α := kin.lambda_Y_sqrt / (2 * kin.M)
/-- `lab_mom_k2` (src/cut.cpp 301). -/
def labMomK2 (kin : Kinematics α) : α := kin.lambda_X_sqrt / (2 * kin.M)
/-- `lab_mom_h` (src/cut.cpp 302). -/
def labMomH (kin : Kinematics α) : α := lambdaHSqrt kin / (2 * kin.M)
/-- `lab_theta_q` (src/cut.cpp 303-305). -/
def labThetaQ (kin : Kinematics α) : α :=
  acos ((kin.S * kin.S_x + 2 * sq kin.M * kin.Q_sq) / (kin.lambda_S_sqrt * kin.lambda_Y_sqrt))
/-- `lab_theta_k2` (src/cut.cpp 306-308). -/
def labThetaK2 (kin : Kinematics α) : α :=
  acos ((kin.S * kin.X - 2 * sq kin.M * kin.Q_sq - 4 * sq (kin.M * kin.m))
    / (kin.lambda_S_sqrt * kin.lambda_X_sqrt))
/-- `lab_theta_h` (src/cut.cpp 309-311). -/
def labThetaH (kin : Kinematics α) : α :=
  acos ((kin.z * kin.S * kin.S_x - 2 * sq kin.M * kin.V_1)
    / (kin.lambda_S_sqrt * lambdaHSqrt kin))
/-- `lab_theta_k` in `valid(CutRad, KinematicsRad)` (src/cut.cpp 357). -/
def labThetaK (kin : KinematicsRad α) : α :=
  acos ((kin.S - 2 * sq kin.M * kin.z_1) / kin.lambda_S_sqrt)

/-- `mu` as computed in `R_bound` (src/cut.cpp 128-133). -/
def muOf (kin : Kinematics α) (tau phi_k tau_min tau_max : α) : α :=
  kin.ph_0 / kin.M
    + 1 / kin.lambda_Y_sqrt * (
      (2 * tau * sq kin.M - kin.S_x) * kin.ph_l / kin.M
      - 2 * kin.M * kin.ph_t * cos (kin.phi_h - phi_k) * sqrt ((tau - tau_min) * (tau_max - tau)))

end

/-- `S_min` (src/cut.cpp 39-41). -/
noncomputable def SMin (ps : Particles Fl) : Fl :=
  sq (ps.Mth + ps.mh) + 2 * ps.m * (ps.Mth + ps.mh) - sq ps.M

/-- `x_bound(ps, S)` (src/cut.cpp 42-59). -/
noncomputable def xBound (ps : Particles Fl) (S : Fl) : Bound :=
  let M := ps.M
  let m := ps.m
  let mh := ps.mh
  let Mth := ps.Mth
  let lambda_S := sq S - 4 * sq M * sq m
  let L := S - (sq (Mth + mh) - sq M)
  let denom := 2 * (lambda_S + sq M * (sq (Mth + mh) - sq M))
  let a := lambda_S - S * (sq (Mth + mh) - sq M)
  let b := sqrt (lambda_S * (L - 2 * m * (Mth + mh)) * (L + 2 * m * (Mth + mh)))
  let x_1 := (a - b) / denom
  let x_2 := (a + b) / denom
  let kin_b := Bound.mk' x_1 x_2
  Bound.unit.inter kin_b

/-- `y_bound(ps, S, x)` (src/cut.cpp 60-74). -/
noncomputable def yBound (ps : Particles Fl) (S x : Fl) : Bound :=
  let M := ps.M
  let m := ps.m
  let mh := ps.mh
  let Mth := ps.Mth
  let lambda_S := sq S - 4 * sq M * sq m
  let px_threshold := (sq (Mth + mh) - sq M) / ((1 - x) * S)
  let q_threshold := (x * lambda_S) / (S * (sq (M * x) + S * x + sq m))
  let kin_b := Bound.mk' px_threshold q_threshold
  Bound.unit.inter kin_b

/-- `z_bound(ps, S, x, y)` (src/cut.cpp 75-97). -/
noncomputable def zBound (ps : Particles Fl) (S x y : Fl) : Bound :=
  let M := ps.M
  let mh := ps.mh
  let Mth := ps.Mth
  let S_x := S * y
  let Q_sq := S * x * y
  let lambda_Y := sq S_x + 4 * sq M * Q_sq
  let L := (1 - x) * S_x + sq M
  let denom := 2 * S_x * L
  let a := (S_x + 2 * sq M) * (L - sq Mth + sq mh)
  let b := sqrt (lambda_Y * (L - sq (Mth - mh)) * (L - sq (Mth + mh)))
  let z_crossover := 2 * sq M * (L - sq Mth + sq mh) / (S_x * (S_x + 2 * sq M))
  let z_0 := (2 * M * mh) / S_x
  let z_1 := (a - b) / denom
  let z_2 := (a + b) / denom
  let px_threshold_min := if z_0 < z_crossover then z_0 else z_1
  let px_threshold_max := z_2
  let kin_b := Bound.mk' px_threshold_min px_threshold_max
  Bound.unit.inter kin_b

/-- `ph_t_sq_bound(ps, S, x, y, z)` (src/cut.cpp 98-117). -/
noncomputable def phTSqBound (ps : Particles Fl) (S x y z : Fl) : Bound :=
  let M := ps.M
  let mh := ps.mh
  let Mth := ps.Mth
  let S_x := S * y
  let Q_sq := S * x * y
  let lambda_Y := sq S_x + 4 * sq M * Q_sq
  let L := (1 - x) * S_x + sq M
  let ph_0 := (z * S_x) / (2 * M)
  let det := (S_x + 2 * sq M) * S_x / (2 * sq M) * z - L + sq Mth - sq mh
  let det := if det < 0 then 0 else det
  let px_threshold := sq ph_0 - sq mh - sq M / lambda_Y * sq det
  let kin_b := Bound.mk' 0 px_threshold
  Bound.positive.inter kin_b

/-- `tau_bound(kin)` (src/cut.cpp 118-125). -/
noncomputable def tauBound (kin : Kinematics Fl) : Bound :=
  let min := (kin.S_x - kin.lambda_Y_sqrt) / (2 * sq kin.M)
  let max := (kin.S_x + kin.lambda_Y_sqrt) / (2 * sq kin.M)
  let kin_b := Bound.mk' min max
  Bound.full.inter kin_b

/-- `R_bound(kin, tau, phi_k)` (src/cut.cpp 126-151). -/
noncomputable def RBound (kin : Kinematics Fl) (tau phi_k : Fl) : Bound :=
  let tau_b := tauBound kin
  let mu := muOf kin tau phi_k tau_b.min tau_b.max
  let rad := Bound.mk' 0 (1 / (1 + tau - mu) * (kin.mx_sq - sq kin.Mth))
  rad

open Classical in
/-- `x_bound(cut, ps, S)` (src/cut.cpp 154-181). -/
noncomputable def xBoundCut (cut : Cut) (ps : Particles Fl) (S : Fl) : Bound :=
  let result := xBound ps S
  let result := if cut.x.valid then result.inter cut.x else result
  let result := if cut.Q_sq.valid then
      let Q_sq := Bound.mk' (cut.Q_sq.min / S)
        (cut.Q_sq.max / (cut.Q_sq.max + sq (ps.Mth + ps.mh) - sq ps.M))
      result.inter Q_sq
    else result
  if cut.W_sq.valid then
    let W_sq_min := cut.W_sq.min
    let M := ps.M
    let m := ps.m
    let lambda_S := sq S - 4 * sq M * sq m
    let L := S - (W_sq_min - sq M)
    let denom := 2 * (lambda_S + sq M * (W_sq_min - sq M))
    let a := lambda_S - S * (W_sq_min - sq M)
    let b := sqrt (lambda_S * (sq L - 4 * sq m * W_sq_min))
    let x_1 := (a - b) / denom
    let x_2 := (a + b) / denom
    let W_sq := Bound.mk' x_1 x_2
    result.inter W_sq
  else result

open Classical in
/-- `y_bound(cut, ps, S, x)` (src/cut.cpp 182-196). -/
noncomputable def yBoundCut (cut : Cut) (ps : Particles Fl) (S x : Fl) : Bound :=
  let result := yBound ps S x
  let result := if cut.y.valid then result.inter cut.y else result
  let result := if cut.Q_sq.valid then
      let Q_sq := cut.Q_sq.unscale (S * x)
      result.inter Q_sq
    else result
  if cut.W_sq.valid then
    let W_sq := (cut.W_sq.unshift (sq ps.M)).unscale ((1 - x) * S)
    result.inter W_sq
  else result

open Classical in
/-- `z_bound(cut, ps, S, x, y)` (src/cut.cpp 197-203). -/
noncomputable def zBoundCut (cut : Cut) (ps : Particles Fl) (S x y : Fl) : Bound :=
  let result := zBound ps S x y
  if cut.z.valid then result.inter cut.z else result

open Classical in
/-- `ph_t_sq_bound(cut, ps, S, x, y, z)` (src/cut.cpp 204-210). -/
noncomputable def phTSqBoundCut (cut : Cut) (ps : Particles Fl) (S x y z : Fl) : Bound :=
  let result := phTSqBound ps S x y z
  if cut.ph_t_sq.valid then result.inter cut.ph_t_sq else result

open Classical in
/-- `tau_bound(cut, kin)` (src/cut.cpp 211-217). -/
noncomputable def tauBoundCut (cut : CutRad) (kin : Kinematics Fl) : Bound :=
  let result := tauBound kin
  if cut.tau.valid then result.inter cut.tau else result

open Classical in
/-- `R_bound(cut, kin, tau, phi_k)` (src/cut.cpp 218-235). -/
noncomputable def RBoundCut (cut : CutRad) (kin : Kinematics Fl) (tau phi_k : Fl) : Bound :=
  let result := RBound kin tau phi_k
  let result := if cut.R.valid then result.inter cut.R else result
  if cut.k_0_bar.valid then
    let tau_b := tauBound kin
    let mu := muOf kin tau phi_k tau_b.min tau_b.max
    let k_0_bar := (cut.k_0_bar.scale (2 * kin.mx)).unscale (1 + tau - mu)
    result.inter k_0_bar
  else result

open Classical in
/-- `valid(kin)` (src/cut.cpp 238-272). -/
noncomputable def valid (kin : Kinematics Fl) : Bool :=
  if ¬ (0 < kin.S) then false
  else if ¬ (0 ≤ kin.x ∧ kin.x ≤ 1) then false
  else if ¬ (0 ≤ kin.y ∧ kin.y ≤ 1) then false
  else if ¬ (0 ≤ kin.z ∧ kin.z ≤ 1) then false
  else if ¬ (0 ≤ kin.ph_t_sq) then false
  else if ¬ kin.phi_h.isFinite then false
  else if ¬ kin.phi.isFinite then false
  else if ¬ (kin.Mth ≤ kin.mx) then false
  else if ¬ (kin.mx_sq ≤ kin.S + sq kin.M - sq kin.mh) then false
  else if ¬ (0 ≤ kin.q_t) then false
  else if ¬ kin.q_l.isFinite then false
  else if ¬ (0 ≤ kin.ph_t) then false
  else if ¬ kin.ph_l.isFinite then false
  else if ¬ (kin.mh ≤ kin.ph_0) then false
  else true

open Classical in
/-- `valid(kin_rad)` (src/cut.cpp 273-295). -/
noncomputable def validRad (kin : KinematicsRad Fl) : Bool :=
  if ¬ valid kin.project then false
  else if ¬ (kin.tau_min ≤ kin.tau ∧ kin.tau ≤ kin.tau_max) then false
  else if ¬ kin.phi_k.isFinite then false
  else if ¬ (0 ≤ kin.R ∧ kin.R ≤ (RBound kin.project kin.tau kin.phi_k).max) then false
  else true

open Classical in
/-- `valid(cut, kin)` (src/cut.cpp 297-353). -/
noncomputable def validCut (cut : Cut) (kin : Kinematics Fl) : Bool :=
  if ¬ valid kin then false
  else if cut.x.valid ∧ ¬ cut.x.contains kin.x then false
  else if cut.y.valid ∧ ¬ cut.y.contains kin.y then false
  else if cut.z.valid ∧ ¬ cut.z.contains kin.z then false
  else if cut.ph_t_sq.valid ∧ ¬ cut.ph_t_sq.contains kin.ph_t_sq then false
  else if cut.phi_h.valid ∧ ¬ cut.phi_h.contains kin.phi_h then false
  else if cut.phi.valid ∧ ¬ cut.phi.contains kin.phi then false
  else if cut.Q_sq.valid ∧ ¬ cut.Q_sq.contains kin.Q_sq then false
  else if cut.t.valid ∧ ¬ cut.t.contains kin.t then false
  else if cut.W_sq.valid ∧ ¬ cut.W_sq.contains kin.W_sq then false
  else if cut.r.valid ∧ ¬ cut.r.contains (kin.V_2 / kin.V_1) then false
  else if cut.mx_sq.valid ∧ ¬ cut.mx_sq.contains kin.mx_sq then false
  else if cut.qt_to_Q.valid ∧ ¬ cut.qt_to_Q.contains (qtToQ kin) then false
  else if cut.lab_mom_q.valid ∧ ¬ cut.lab_mom_q.contains (labMomQ kin) then false
  else if cut.lab_mom_k2.valid ∧ ¬ cut.lab_mom_k2.contains (labMomK2 kin) then false
  else if cut.lab_mom_h.valid ∧ ¬ cut.lab_mom_h.contains (labMomH kin) then false
  else if cut.lab_theta_q.valid ∧ ¬ cut.lab_theta_q.contains (labThetaQ kin) then false
  else if cut.lab_theta_k2.valid ∧ ¬ cut.lab_theta_k2.contains (labThetaK2 kin) then false
  else if cut.lab_theta_h.valid ∧ ¬ cut.lab_theta_h.contains (labThetaH kin) then false
  else true

open Classical in
/-- `valid(cut_rad, kin)` (src/cut.cpp 355-375). -/
noncomputable def validCutRad (cut : CutRad) (kin : KinematicsRad Fl) : Bool :=
  if ¬ validRad kin then false
  else if cut.tau.valid ∧ ¬ cut.tau.contains kin.tau then false
  else if cut.phi_k.valid ∧ ¬ cut.phi_k.contains kin.phi_k then false
  else if cut.R.valid ∧ ¬ cut.R.contains kin.R then false
  else if cut.k_0_bar.valid ∧ ¬ cut.k_0_bar.contains kin.k_0_bar then false
  else if cut.lab_mom_k.valid ∧ ¬ cut.lab_mom_k.contains kin.k_0 then false
  else if cut.lab_theta_k.valid ∧ ¬ cut.lab_theta_k.contains (labThetaK kin) then false
  else true

/-- `valid(cut, cut_rad, kin)` (src/cut.cpp 377-385). -/
noncomputable def validCuts (cut : Cut) (cut_rad : CutRad) (kin : KinematicsRad Fl) : Bool :=
  if ¬ validCut cut kin.project then false
  else if ¬ validCutRad cut_rad kin then false
  else true

/-- What a `take` function returns and writes: the return value, `*kin_out` and `*jac_out`.  The
outputs are written even when the return value is false. -/
structure Taken (K : Type) where
  ok : Bool
  kin : K
  jac : Fl

/-- `PH_T_SQ_DECAY_WIDTH` (src/cut.cpp 29). -/
noncomputable def phTSqDecayWidth : Fl := .fin (1 / 4)
/-- `X_CUTOFF` (src/cut.cpp 32). -/
noncomputable def xCutoff : Fl := .fin (1 / 1000)
/-- `Bound(-PI, PI)`. -/
noncomputable def fullCircle : Bound := Bound.mk' (-pi) pi

/-- `take(ps, S, point, ph_space_out, jac_out)` (src/cut.cpp 387-410). -/
noncomputable def takePoint (ps : Particles Fl) (S : Fl) (point : Fin 6 → Fl) :
    Taken (PhaseSpace Fl) :=
  let x := (VarMap.inverse xCutoff).apply (point 0) (xBound ps S)
  let y := (VarMap.inverse 0).apply (point 1) (yBound ps S x.1)
  let z := VarMap.linear.apply (point 2) (zBound ps S x.1 y.1)
  let ph_t_sq := (VarMap.decay phTSqDecayWidth).apply (point 3) (phTSqBound ps S x.1 y.1 z.1)
  let phi_h := VarMap.linear.apply (point 4) fullCircle
  let phi := VarMap.linear.apply (point 5) fullCircle
  ⟨true, ⟨x.1, y.1, z.1, ph_t_sq.1, phi_h.1, phi.1⟩,
    x.2 * y.2 * z.2 * ph_t_sq.2 * phi_h.2 * phi.2⟩

/-- `take(ps, S, point, kin_out, jac_out)` (src/cut.cpp 412-423). -/
noncomputable def take (ps : Particles Fl) (S : Fl) (point : Fin 6 → Fl) :
    Taken (Kinematics Fl) :=
  let t := takePoint ps S point
  ⟨t.ok, .make ps S t.kin, t.jac⟩

open Classical in
/-- `take(cut, ps, S, point, kin_out, jac_out)` (src/cut.cpp 425-446). -/
noncomputable def takeCut (cut : Cut) (ps : Particles Fl) (S : Fl) (point : Fin 6 → Fl) :
    Taken (Kinematics Fl) :=
  let x := (VarMap.inverse xCutoff).apply (point 0) (xBoundCut cut ps S)
  let y := (VarMap.inverse 0).apply (point 1) (yBoundCut cut ps S x.1)
  let z := VarMap.linear.apply (point 2) (zBoundCut cut ps S x.1 y.1)
  let ph_t_sq :=
    (VarMap.decay phTSqDecayWidth).apply (point 3) (phTSqBoundCut cut ps S x.1 y.1 z.1)
  let phi_h := VarMap.linear.apply (point 4) (if cut.phi_h.valid then cut.phi_h else fullCircle)
  let phi := VarMap.linear.apply (point 5) (if cut.phi.valid then cut.phi else fullCircle)
  let kin := Kinematics.make ps S ⟨x.1, y.1, z.1, ph_t_sq.1, phi_h.1, phi.1⟩
  ⟨validCut cut kin, kin, x.2 * y.2 * z.2 * ph_t_sq.2 * phi_h.2 * phi.2⟩

/-- The maps for `tau`, `phi_k` and `R` (src/cut.cpp 503-526, 555-571); `SQRT_2` is taken to be √2
exactly. -/
noncomputable def tauMap (kin : Kinematics Fl) : VarMap Fl :=
  let tau_p1 := kin.Q_sq / kin.X
  let tau_pr := -(1 - kin.y)
  let tau_lim1 := .fin (Real.sqrt 2) * kin.lambda_1_sqrt * kin.m / sq kin.X
  let tau_limr := sq (1 - kin.y)
  .sigmoid2 tau_p1 tau_lim1 tau_pr tau_limr
@[inherit_doc tauMap] noncomputable def phiKMap (kin : Kinematics Fl) : VarMap Fl :=
  .sigmoid 0 (kin.lambda_Y_sqrt / kin.lambda_1_sqrt / .fin (Real.sqrt 2) * kin.m)
@[inherit_doc tauMap] noncomputable def RMap (kin : Kinematics Fl) : VarMap Fl :=
  .logarithm ((kin.mx_sq - sq kin.Mth)
    / (1 + kin.S_x / sq kin.M - kin.ph_l / kin.M) / .fin 128)

/-- `take(kin, point, ph_space_out, jac_out)` (src/cut.cpp 500-537); the three radiative
variables. -/
noncomputable def takePhoton (kin : Kinematics Fl) (point : Fin 3 → Fl) :
    Taken (PhaseSpaceRad Fl) :=
  let tau := (tauMap kin).apply (point 0) (tauBound kin)
  let phi_k := (phiKMap kin).apply (point 1) fullCircle
  let R := (RMap kin).apply (point 2) (RBound kin tau.1 phi_k.1)
  ⟨true, ⟨kin.x, kin.y, kin.z, kin.ph_t_sq, kin.phi_h, kin.phi, tau.1, phi_k.1, R.1⟩,
    tau.2 * phi_k.2 * R.2⟩

/-- `take(kin, point, kin_out, jac_out)` (src/cut.cpp 539-550). -/
noncomputable def takePhotonKin (kin : Kinematics Fl) (point : Fin 3 → Fl) :
    Taken (KinematicsRad Fl) :=
  let t := takePhoton kin point
  ⟨t.ok, .make kin t.kin.tau t.kin.phi_k t.kin.R, t.jac⟩

open Classical in
/-- `take(cut, kin, point, kin_out, jac_out)` (src/cut.cpp 552-583). -/
noncomputable def takePhotonCut (cut : CutRad) (kin : Kinematics Fl) (point : Fin 3 → Fl) :
    Taken (KinematicsRad Fl) :=
  let tau := (tauMap kin).apply (point 0) (tauBoundCut cut kin)
  let phi_k :=
    (phiKMap kin).apply (point 1) (if cut.phi_k.valid then cut.phi_k else fullCircle)
  let R := (RMap kin).apply (point 2) (RBoundCut cut kin tau.1 phi_k.1)
  let kin_rad := KinematicsRad.make kin tau.1 phi_k.1 R.1
  ⟨validCutRad cut kin_rad, kin_rad, tau.2 * phi_k.2 * R.2⟩

/-- The first six and last three of nine coordinates (`point` and `point + 6`). -/
def head6 (point : Fin 9 → Fl) : Fin 6 → Fl := fun i => point ⟨i, by omega⟩
@[inherit_doc head6] def tail3 (point : Fin 9 → Fl) : Fin 3 → Fl := fun i => point ⟨i + 6, by omega⟩

/-- `take(ps, S, point, ph_space_out, jac_out)` for nine coordinates (src/cut.cpp 448-463). -/
noncomputable def takeRadPoint (ps : Particles Fl) (S : Fl) (point : Fin 9 → Fl) :
    Taken (PhaseSpaceRad Fl) :=
  let t := take ps S (head6 point)
  let t' := takePhoton t.kin (tail3 point)
  ⟨t.ok && t'.ok, t'.kin, t'.jac * t.jac⟩

/-- `take(ps, S, point, kin_out, jac_out)` for nine coordinates (src/cut.cpp 465-480). -/
noncomputable def takeRad (ps : Particles Fl) (S : Fl) (point : Fin 9 → Fl) :
    Taken (KinematicsRad Fl) :=
  let t := take ps S (head6 point)
  let t' := takePhotonKin t.kin (tail3 point)
  ⟨t.ok && t'.ok, t'.kin, t'.jac * t.jac⟩

/-- `take(cut, cut_rad, ps, S, point, kin_out, jac_out)` (src/cut.cpp 482-498); `none` when
it returns false because of the first six coordinates, without writing any output. -/
noncomputable def takeRadCut (cut : Cut) (cut_rad : CutRad) (ps : Particles Fl) (S : Fl)
    (point : Fin 9 → Fl) : Option (Taken (KinematicsRad Fl)) :=
  let t := takeCut cut ps S (head6 point)
  if ¬ t.ok then none
  else
    let t' := takePhotonCut cut_rad t.kin (tail3 point)
    some ⟨t'.ok, t'.kin, if t'.ok then t'.jac * t.jac else t'.jac⟩

end Cut
end Sidis
