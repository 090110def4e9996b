import Verif.Model.CrossSection

/-!
# Vocabulary for the cross-section properties

The textbook form of the cross-section (equations 1.15 and 1.43 of the paper the code follows): the
leptonic and the hadronic tensor are each described by nine numbers, and the cross-section is their
contraction.  Contractions 5, 7 and 9 are odd under the beam polarisation.  The hadronic numbers
are affine in the target polarisation `eta`.
-/

namespace Sidis.Spec

/-- Nine tensor components. -/
@[ext] structure Nine where
  (c1 c2 c3 c4 c5 c6 c7 c8 c9 : ℝ)

/-- The contraction of a leptonic with a hadronic tensor for beam polarisation `lambda_e`. -/
def contract (theta H : Nine) (lambda_e : ℝ) : ℝ :=
  theta.c1 * H.c1 + theta.c2 * H.c2 + theta.c3 * H.c3 + theta.c4 * H.c4
    + theta.c6 * H.c6 + theta.c8 * H.c8
    + lambda_e * (theta.c5 * H.c5 + theta.c7 * H.c7 + theta.c9 * H.c9)

/-- A function of the polarisations of the documented form
`σ_UU + η·σ_UP + λ (σ_LU + η·σ_LP)`. -/
def PolarisationLinear (f : ℝ → Vec3 → ℝ) : Prop :=
  ∃ (uu lu : ℝ) (up lp : Vec3), ∀ (lambda_e : ℝ) (eta : Vec3),
    f lambda_e eta = uu + up.dot eta + lambda_e * (lu + lp.dot eta)

/-- The hadronic components for target polarisation `eta`: unpolarised part plus the parts
proportional to the transverse (`x`, `y`) and longitudinal (`z`) polarisation. -/
def hadronicOf (uu : HadBaseUU) (ul : HadBaseUL) (ut : HadBaseUT) (lu : HadBaseLU) (ll : HadBaseLL)
    (lt : HadBaseLT) (eta : Vec3) : Nine where
  c1 := uu.H_10 + eta.y * ut.H_12
  c2 := uu.H_20 + eta.y * ut.H_22
  c3 := uu.H_30 + eta.y * ut.H_32
  c4 := uu.H_40 + eta.y * ut.H_42
  c5 := lu.H_50 + eta.y * lt.H_52
  c6 := eta.x * ut.H_61 + eta.z * ul.H_63
  c7 := eta.x * lt.H_71 + eta.z * ll.H_73
  c8 := eta.x * ut.H_81 + eta.z * ul.H_83
  c9 := eta.x * lt.H_91 + eta.z * ll.H_93

/-- The hadronic components computed from all structure functions at the given kinematics. -/
noncomputable def hadronic (k : Kinematics ℝ) (sf : SfFuns) (eta : Vec3) : Nine :=
  hadronicOf (makeHadBaseUU k (sf.baseUU k.hadron k.x k.z k.Q_sq k.ph_t_sq))
    (makeHadBaseUL k (sf.baseUL k.hadron k.x k.z k.Q_sq k.ph_t_sq))
    (makeHadBaseUT k (sf.baseUT k.hadron k.x k.z k.Q_sq k.ph_t_sq))
    (makeHadBaseLU k (sf.baseLU k.hadron k.x k.z k.Q_sq k.ph_t_sq))
    (makeHadBaseLL k (sf.baseLL k.hadron k.x k.z k.Q_sq k.ph_t_sq))
    (makeHadBaseLT k (sf.baseLT k.hadron k.x k.z k.Q_sq k.ph_t_sq)) eta

/-- The hadronic components with a radiated photon, computed from all structure functions at the
shifted kinematics. -/
noncomputable def hadronicRad (k : KinematicsRad ℝ) (sf : SfFuns) (eta : Vec3) : Nine :=
  let uu := makeHadRadBaseUU k (sf.baseUU k.hadron k.shift_x k.shift_z k.shift_Q_sq k.shift_ph_t_sq)
  let up := makeHadRadBaseUP k (sf.baseUP k.hadron k.shift_x k.shift_z k.shift_Q_sq k.shift_ph_t_sq)
  let lu := makeHadRadBaseLU k (sf.baseLU k.hadron k.shift_x k.shift_z k.shift_Q_sq k.shift_ph_t_sq)
  let lp := makeHadRadBaseLP k (sf.baseLP k.hadron k.shift_x k.shift_z k.shift_Q_sq k.shift_ph_t_sq)
  { c1 := uu.H_10 + up.H_1.dot eta
    c2 := uu.H_20 + up.H_2.dot eta
    c3 := uu.H_30 + up.H_3.dot eta
    c4 := uu.H_40 + up.H_4.dot eta
    c5 := lu.H_50 + lp.H_5.dot eta
    c6 := up.H_6.dot eta
    c7 := lp.H_7.dot eta
    c8 := up.H_8.dot eta
    c9 := lp.H_9.dot eta }

/-- Apply a function to the corresponding components of two tensors. -/
def Nine.map2 (f : ℝ → ℝ → ℝ) (a b : Nine) : Nine :=
  ⟨f a.c1 b.c1, f a.c2 b.c2, f a.c3 b.c3, f a.c4 b.c4, f a.c5 b.c5, f a.c6 b.c6, f a.c7 b.c7,
    f a.c8 b.c8, f a.c9 b.c9⟩

/-- Apply a function to the corresponding components of three tensors. -/
def Nine.map3 (f : ℝ → ℝ → ℝ → ℝ) (a b c : Nine) : Nine :=
  ⟨f a.c1 b.c1 c.c1, f a.c2 b.c2 c.c2, f a.c3 b.c3 c.c3, f a.c4 b.c4 c.c4, f a.c5 b.c5 c.c5,
    f a.c6 b.c6 c.c6, f a.c7 b.c7 c.c7, f a.c8 b.c8 c.c8, f a.c9 b.c9 c.c9⟩

/-- The nine leptonic components of the Born process. -/
noncomputable def leptonicBorn (k : Kinematics ℝ) : Nine where
  c1 := (LepBornBaseUU.make k).theta_1
  c2 := (LepBornBaseUU.make k).theta_2
  c3 := (LepBornBaseUU.make k).theta_3
  c4 := (LepBornBaseUU.make k).theta_4
  c5 := (LepBornBaseLU.make k).theta_5
  c6 := (LepBornBaseUP.make k).theta_6
  c7 := (LepBornBaseLP.make k).theta_7
  c8 := (LepBornBaseUP.make k).theta_8
  c9 := (LepBornBaseLP.make k).theta_9

/-- The nine leptonic components of the interference with the anomalous magnetic moment. -/
noncomputable def leptonicAmm (k : Kinematics ℝ) : Nine where
  c1 := (LepAmmBaseUU.make k).theta_1
  c2 := (LepAmmBaseUU.make k).theta_2
  c3 := (LepAmmBaseUU.make k).theta_3
  c4 := (LepAmmBaseUU.make k).theta_4
  c5 := (LepAmmBaseLU.make k).theta_5
  c6 := (LepAmmBaseUP.make k).theta_6
  c7 := (LepAmmBaseLP.make k).theta_7
  c8 := (LepAmmBaseUP.make k).theta_8
  c9 := (LepAmmBaseLP.make k).theta_9

/-- The nine leptonic components with a radiated photon of (scaled) energy `R`: the Laurent
polynomials `θ_i(R) = Σ_j θ_ij R^(j-2)`, polarised and unpolarised parts added. -/
noncomputable def leptonicRad (k : KinematicsRad ℝ) : Nine :=
  let uu := LepRadBaseUU.make k
  let up := LepRadBaseUP.make k
  let lu := LepRadBaseLU.make k
  let lp := LepRadBaseLP.make k
  let R := k.R
  { c1 := uu.theta_011 / R + uu.theta_012 + R * uu.theta_013
    c2 := uu.theta_021 / R + uu.theta_022 + R * uu.theta_023
    c3 := uu.theta_031 / R + uu.theta_032 + R * uu.theta_033
    c4 := uu.theta_041 / R + uu.theta_042 + R * uu.theta_043
    c5 := (lu.theta_051 + lu.theta_151) / R + (lu.theta_052 + lu.theta_152)
      + R * (lu.theta_053 + lu.theta_153)
    c6 := up.theta_061 / R + up.theta_062 + R * up.theta_063 + R ^ 2 * up.theta_064
    c7 := (lp.theta_071 + lp.theta_171) / R + (lp.theta_072 + lp.theta_172)
      + R * (lp.theta_073 + lp.theta_173) + R ^ 2 * (lp.theta_074 + lp.theta_174)
    c8 := up.theta_081 / R + up.theta_082 + R * up.theta_083 + R ^ 2 * up.theta_084
    c9 := (lp.theta_091 + lp.theta_191) / R + (lp.theta_092 + lp.theta_192)
      + R * (lp.theta_093 + lp.theta_193) + R ^ 2 * (lp.theta_094 + lp.theta_194) }

/-- The coefficients of `1/R` in the leptonic components with a radiated photon. -/
noncomputable def leptonicRadLeading (k : KinematicsRad ℝ) : Nine :=
  let uu := LepRadBaseUU.make k
  let up := LepRadBaseUP.make k
  let lu := LepRadBaseLU.make k
  let lp := LepRadBaseLP.make k
  { c1 := uu.theta_011
    c2 := uu.theta_021
    c3 := uu.theta_031
    c4 := uu.theta_041
    c5 := lu.theta_051 + lu.theta_151
    c6 := up.theta_061
    c7 := lp.theta_071 + lp.theta_171
    c8 := up.theta_081
    c9 := lp.theta_091 + lp.theta_191 }

/-- The leptonic components with a radiated photon without their `1/R` terms. -/
noncomputable def leptonicRadRest (k : KinematicsRad ℝ) : Nine :=
  Nine.map2 (fun t t1 => t - t1 / k.R) (leptonicRad k) (leptonicRadLeading k)

end Sidis.Spec
