import Verif.Spec.Transform
import Verif.Model.Kinematics

/-!
# Specification vocabulary for kinematics

Momenta are written in the rest frame of the target with the beam along the z axis.
-/

namespace Sidis.Spec

/-- The physical region of lepton-hadron scattering: positive target mass, a moving beam
(`S = 2 p·k1 > 2 M m`), a real scattering angle of the lepton, and a hadron of energy
`z S y / (2 M)` energetic enough for its mass and transverse momentum. -/
structure Physical (ps : Particles ℝ) (S : ℝ) (pt : PhaseSpace ℝ) : Prop where
  M_pos : 0 < ps.M
  m_nonneg : 0 ≤ ps.m
  beam : 2 * ps.M * ps.m < S
  x_pos : 0 < pt.x
  y_pos : 0 < pt.y
  z_pos : 0 < pt.z
  ph_t_sq_nonneg : 0 ≤ pt.ph_t_sq
  lepton : ps.m ^ 2 * ((S * pt.y) ^ 2 + 4 * ps.M ^ 2 * (S * pt.x * pt.y)) ≤
    (S * pt.x * pt.y) * (S * ((1 - pt.y) * S) - ps.M ^ 2 * (S * pt.x * pt.y))
  hadron : pt.ph_t_sq + ps.mh ^ 2 ≤ (pt.z * (S * pt.y) / (2 * ps.M)) ^ 2

/-- Target at rest. -/
def momP (k : Kinematics ℝ) : Vec4 := ⟨k.M, 0, 0, 0⟩
/-- Beam along z, of mass `m` and energy `S / (2 M)`. -/
noncomputable def momK1 (k : Kinematics ℝ) : Vec4 :=
  ⟨k.S / (2 * k.M), 0, 0, √((k.S / (2 * k.M)) ^ 2 - k.m ^ 2)⟩
/-- Scattered lepton from its energy, transverse and longitudinal momentum and azimuth `phi`
(from the y axis towards the x axis). -/
noncomputable def momK2 (k : Kinematics ℝ) : Vec4 :=
  ⟨k.k2_0, k.k2_t * Real.sin k.phi, k.k2_t * Real.cos k.phi, k.k2_l⟩
/-- Virtual photon from its components and its azimuth `phi_q` (from the y axis towards -x). -/
noncomputable def momQ (k : Kinematics ℝ) : Vec4 :=
  ⟨k.q_0, -k.q_t * Real.sin k.phi_q, k.q_t * Real.cos k.phi_q, k.q_l⟩

/-- Axes of the lepton frame: z along the virtual photon, y horizontal (along `q × k1`), x
completing the right-handed basis. -/
noncomputable def axisZ (k : Kinematics ℝ) : Vec3 := (1 / length (momQ k).r) • (momQ k).r
@[inherit_doc axisZ] noncomputable def axisY (k : Kinematics ℝ) : Vec3 :=
  ⟨Real.cos k.phi_q, Real.sin k.phi_q, 0⟩
@[inherit_doc axisZ] noncomputable def axisX (k : Kinematics ℝ) : Vec3 :=
  (axisY k).cross (axisZ k)

/-- A momentum given by its energy, transverse and longitudinal components in the lepton frame. -/
noncomputable def momLepton (k : Kinematics ℝ) (e pt pl phi : ℝ) : Vec4 :=
  .ofVec3 e ((pt * Real.cos phi) • axisX k + (pt * Real.sin phi) • axisY k + pl • axisZ k)

/-- Detected hadron. -/
noncomputable def momH (k : Kinematics ℝ) : Vec4 := momLepton k k.ph_0 k.ph_t k.ph_l k.phi_h

/-- Radiated photon. -/
noncomputable def momK (k : KinematicsRad ℝ) : Vec4 :=
  momLepton k.project k.k_0 k.k_t k.k_l k.phi_k

/-- `ε^{μνρσ} a_μ b_ν c_ρ d_σ` with `ε^{0123} = 1` (lower components). -/
def eps (a b c d : Vec4) : ℝ :=
  (!![a.t, -a.x, -a.y, -a.z; b.t, -b.x, -b.y, -b.z; c.t, -c.x, -c.y, -c.z;
    d.t, -d.x, -d.y, -d.z] : Matrix (Fin 4) (Fin 4) ℝ).det

/-- Square in the Minkowski product. -/
def msq (a : Vec4) : ℝ := mink a a

/-- The physical region of the radiative process: a physical non-radiative point with a non-zero
scattering angle, and `tau = k·q / k·p` reachable by a real photon. -/
structure PhysicalRad (ps : Particles ℝ) (S : ℝ) (pt : PhaseSpaceRad ℝ) : Prop where
  phys : Physical ps S pt.project
  angle : ps.m ^ 2 * ((S * pt.y) ^ 2 + 4 * ps.M ^ 2 * (S * pt.x * pt.y)) <
    (S * pt.x * pt.y) * (S * ((1 - pt.y) * S) - ps.M ^ 2 * (S * pt.x * pt.y))
  tau : ps.M ^ 2 * pt.tau ^ 2 ≤ S * pt.y * pt.tau + S * pt.x * pt.y

/-- The frame of the Trento convention for a virtual photon momentum `q` and a beam `k1`: z along
`q`, y along `q × k1`, x completing the right-handed basis. -/
noncomputable def trentoZ (q : Vec3) : Vec3 := (1 / length q) • q
@[inherit_doc trentoZ] noncomputable def trentoY (q k1 : Vec3) : Vec3 :=
  (1 / length (q.cross k1)) • q.cross k1
@[inherit_doc trentoZ] noncomputable def trentoX (q k1 : Vec3) : Vec3 :=
  (trentoY q k1).cross (trentoZ q)

end Sidis.Spec
