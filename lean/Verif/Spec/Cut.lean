import Verif.Spec.Kinematics
import Verif.Model.Cut
import Verif.Spec.Map

/-! # Specification vocabulary for cuts and validity -/

namespace Sidis.Spec

/-- The eighteen cuts and the quantities they restrict. -/
noncomputable def cutTable (cut : Cut) (kin : Kinematics Fl) : List (Bound × Fl) :=
  [(cut.x, kin.x), (cut.y, kin.y), (cut.z, kin.z), (cut.ph_t_sq, kin.ph_t_sq),
   (cut.phi_h, kin.phi_h), (cut.phi, kin.phi), (cut.Q_sq, kin.Q_sq), (cut.t, kin.t),
   (cut.W_sq, kin.W_sq), (cut.r, kin.V_2 / kin.V_1), (cut.mx_sq, kin.mx_sq),
   (cut.qt_to_Q, Cut.qtToQ kin), (cut.lab_mom_q, Cut.labMomQ kin),
   (cut.lab_mom_k2, Cut.labMomK2 kin), (cut.lab_mom_h, Cut.labMomH kin),
   (cut.lab_theta_q, Cut.labThetaQ kin), (cut.lab_theta_k2, Cut.labThetaK2 kin),
   (cut.lab_theta_h, Cut.labThetaH kin)]

/-- The six radiative cuts and the quantities they restrict. -/
noncomputable def cutRadTable (cut : CutRad) (kin : KinematicsRad Fl) : List (Bound × Fl) :=
  [(cut.tau, kin.tau), (cut.phi_k, kin.phi_k), (cut.R, kin.R), (cut.k_0_bar, kin.k_0_bar),
   (cut.lab_mom_k, kin.k_0), (cut.lab_theta_k, Cut.labThetaK kin)]

/-- A table of cuts is satisfied: each cut that is a valid Bound contains its quantity. -/
def Satisfies (table : List (Bound × Fl)) : Prop := ∀ e ∈ table, e.1.valid → e.1.contains e.2

/-- The Bounds of a set of cuts, in the order of the tables. -/
def cutBounds (c : Cut) : List Bound :=
  [c.x, c.y, c.z, c.ph_t_sq, c.phi_h, c.phi, c.Q_sq, c.t, c.W_sq, c.r, c.mx_sq, c.qt_to_Q,
   c.lab_mom_q, c.lab_mom_k2, c.lab_mom_h, c.lab_theta_q, c.lab_theta_k2, c.lab_theta_h]
@[inherit_doc cutBounds] def cutRadBounds (c : CutRad) : List Bound :=
  [c.tau, c.phi_k, c.R, c.k_0_bar, c.lab_mom_k, c.lab_theta_k]

/-- The first cut is at least as restrictive as the second. -/
def Narrower (b' b : Bound) : Prop := b.valid → b'.valid ∧ ∀ x, b'.contains x → b.contains x

/-- Finite particle data and points as floating-point numbers. -/
def finPs (ps : Particles ℝ) : Particles Fl :=
  ⟨ps.target, ps.beam, ps.hadron, .fin ps.M, .fin ps.m, .fin ps.mh, .fin ps.Mth⟩
@[inherit_doc finPs] def finPt (pt : PhaseSpace ℝ) : PhaseSpace Fl :=
  ⟨.fin pt.x, .fin pt.y, .fin pt.z, .fin pt.ph_t_sq, .fin pt.phi_h, .fin pt.phi⟩

/-- Particle data as the constructor of `Particles` accepts them. -/
structure Massive (ps : Particles ℝ) : Prop where
  M_pos : 0 < ps.M
  m_nonneg : 0 ≤ ps.m
  mh_pos : 0 < ps.mh
  Mth_ge : ps.M ≤ ps.Mth

/-- The phase space of the process, in exact arithmetic: variables in their ranges, a beam above
rest, a real scattering angle, a hadron energetic enough for its mass and transverse momentum, and a
missing mass between the threshold and the limit set by `S`. -/
structure Accepted (ps : Particles ℝ) (S : ℝ) (pt : PhaseSpace ℝ) : Prop where
  S_pos : 0 < S
  x_nonneg : 0 ≤ pt.x
  x_le : pt.x ≤ 1
  y_pos : 0 < pt.y
  y_le : pt.y ≤ 1
  z_pos : 0 < pt.z
  z_le : pt.z ≤ 1
  ph_t_sq_nonneg : 0 ≤ pt.ph_t_sq
  beam : 4 * ps.M ^ 2 * ps.m ^ 2 < S ^ 2
  lepton : ps.m ^ 2 * ((S * pt.y) ^ 2 + 4 * ps.M ^ 2 * (S * pt.x * pt.y)) ≤
    (S * pt.x * pt.y) * (S * ((1 - pt.y) * S) - ps.M ^ 2 * (S * pt.x * pt.y))
  hadron : pt.ph_t_sq + ps.mh ^ 2 ≤ (pt.z * (S * pt.y) / (2 * ps.M)) ^ 2
  missing : ps.Mth ^ 2 ≤ (Kinematics.make ps S pt).mx_sq
  missing_le : (Kinematics.make ps S pt).mx_sq ≤ S + ps.M ^ 2 - ps.mh ^ 2

/-- The phase space of the process with a photon: a point of the non-radiative phase space, `tau`
reachable by a real photon, a photon of non-negative energy, and an undetected system above
threshold once the photon has been taken out of it. -/
structure AcceptedRad (ps : Particles ℝ) (S : ℝ) (pt : PhaseSpace ℝ) (tau phi_k R : ℝ) :
    Prop where
  acc : Accepted ps S pt
  photon : ps.M ^ 2 * tau ^ 2 ≤ S * pt.y * tau + S * pt.x * pt.y
  R_nonneg : 0 ≤ R
  missing : ps.Mth ^ 2 ≤
    (KinematicsRad.make (Kinematics.make ps S pt) tau phi_k R).shift_mx_sq

/-- The conditions under which the photon variables can be sampled: a massive beam, a non-zero
scattering angle, and room for a photon. -/
structure Samplable (ps : Particles ℝ) (S : ℝ) (pt : PhaseSpace ℝ) : Prop where
  m_pos : 0 < ps.m
  angle : ps.m ^ 2 * ((S * pt.y) ^ 2 + 4 * ps.M ^ 2 * (S * pt.x * pt.y)) <
    (S * pt.x * pt.y) * (S * ((1 - pt.y) * S) - ps.M ^ 2 * (S * pt.x * pt.y))
  room : ps.Mth ^ 2 < (Kinematics.make ps S pt).mx_sq

/-- One sampled variable: the bound `b` has finite ends, `t` samples it, and the unit coordinate `p`
is carried to `x` with jacobian `j`. -/
def Axis (t : VarMap Fl) (b : Bound) (p x j : ℝ) : Prop :=
  ∃ lo hi X J, b = ⟨.fin lo, .fin hi⟩ ∧ Samples t lo hi X J ∧ X p = x ∧ J p = j

/-- Angle between two vectors. -/
noncomputable def angle (a b : Vec3) : ℝ := Real.arccos (eucl a b / (length a * length b))

end Sidis.Spec
