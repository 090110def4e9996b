import Verif.Spec.CrossSection
import Verif.Spec.Kinematics
import Mathlib.LinearAlgebra.Matrix.Trace
import Mathlib.LinearAlgebra.Matrix.ConjTranspose
import Mathlib.Analysis.Complex.Basic
import Mathlib.Analysis.SpecialFunctions.Log.Basic
import Mathlib.MeasureTheory.Integral.IntervalIntegral.Basic

/-!
# Specification vocabulary: the leptonic tensors of quantum electrodynamics

Written from the Feynman rules, independently of the code: Dirac matrices as explicit four by four
matrices, spin sums, vertices and propagators.  Tensors have upper indices.
-/

namespace Sidis.Spec.Qed

open Matrix

/-- Matrices acting on Dirac spinors. -/
abbrev Spinor := Matrix (Fin 4) (Fin 4) ℂ

/-- The Dirac matrices `γ^μ` in the Dirac representation. -/
noncomputable def gamma : Fin 4 → Spinor :=
  ![!![1, 0, 0, 0; 0, 1, 0, 0; 0, 0, -1, 0; 0, 0, 0, -1],
    !![0, 0, 0, 1; 0, 0, 1, 0; 0, -1, 0, 0; -1, 0, 0, 0],
    !![0, 0, 0, -Complex.I; 0, 0, Complex.I, 0; 0, Complex.I, 0, 0; -Complex.I, 0, 0, 0],
    !![0, 0, 1, 0; 0, 0, 0, -1; -1, 0, 0, 0; 0, 1, 0, 0]]

/-- `γ^5 = i γ^0 γ^1 γ^2 γ^3` -/
noncomputable def gamma5 : Spinor := Complex.I • (gamma 0 * gamma 1 * gamma 2 * gamma 3)

/-- Diagonal of the metric. -/
def metric : Fin 4 → ℝ := ![1, -1, -1, -1]

/-- Components of a vector (upper index). -/
def component (v : Vec4) : Fin 4 → ℝ := ![v.t, v.x, v.y, v.z]

/-- `γ^μ v_μ` -/
noncomputable def slash (v : Vec4) : Spinor := ∑ μ, ((metric μ * component v μ : ℝ) : ℂ) • gamma μ

/-- The Dirac adjoint `γ^0 Γ† γ^0` of a vertex. -/
noncomputable def bar (Γ : Spinor) : Spinor := gamma 0 * Γᴴ * gamma 0

/-- Tensors of rank two. -/
abbrev Tensor := Fin 4 → Fin 4 → ℂ

/-- `L^{μν} W_{μν}` -/
noncomputable def full (L W : Tensor) : ℂ :=
  ∑ μ, ∑ ν, ((metric μ * metric ν : ℝ) : ℂ) * L μ ν * W μ ν

/-- Spin sum `k̸ + m` of an unobserved lepton. -/
noncomputable def unpolarised (k : Vec4) (m : ℝ) : Spinor := slash k + (m : ℂ) • 1

/-- Spin density matrix `(k̸ + m)(1 + λ γ^5 s̸)` (twice the projector) of a lepton with
polarisation `λ` along the spin vector `s`. -/
noncomputable def polarised (k : Vec4) (m lambda : ℝ) (s : Vec4) : Spinor :=
  unpolarised k m * (1 + (lambda : ℂ) • (gamma5 * slash s))

/-- Spin vector of positive helicity of a lepton of mass `m` and momentum `k`. -/
noncomputable def helicity (k : Vec4) (m : ℝ) : Vec4 :=
  ⟨length k.r / m, k.t / m * (k.x / length k.r), k.t / m * (k.y / length k.r),
    k.t / m * (k.z / length k.r)⟩

/-- The leptonic tensor of a current with vertex `Γ^μ`:
`Tr[(k̸₂ + m) Γ^μ (k̸₁ + m)(1 + λ γ^5 s̸) Γ̄^ν]`. -/
noncomputable def currentTensor (Γ : Fin 4 → Spinor) (k1 k2 : Vec4) (m lambda : ℝ) (s : Vec4) :
    Tensor := fun μ ν =>
  (unpolarised k2 m * Γ μ * polarised k1 m lambda s * bar (Γ ν)).trace

/-- The vertex with Dirac form factor one and Pauli form factor `F2`:
`γ^μ + F2 i σ^{μν} (k₂ - k₁)_ν / (2 m)`, with `σ^{μν} = (i/2) [γ^μ, γ^ν]`. -/
noncomputable def pauliVertex (k1 k2 : Vec4) (m F2 : ℝ) (μ : Fin 4) : Spinor :=
  gamma μ + ((F2 : ℂ) * Complex.I / (2 * m)) • ((Complex.I / 2) •
    (gamma μ * slash (k2 - k1) - slash (k2 - k1) * gamma μ))

/-- The Pauli form factor at one loop for a momentum transfer `Q² = -(k₂ - k₁)²`, as the integral over
the Feynman parameters of the vertex diagram. -/
noncomputable def pauliFormFactor (alpha Q_sq m : ℝ) : ℝ :=
  alpha / (2 * Real.pi) * ∫ z in (0 : ℝ)..1, ∫ y in (0 : ℝ)..(1 - z),
    2 * m ^ 2 * (z * (1 - z)) / (m ^ 2 * (1 - z) ^ 2 + Q_sq * (y * (1 - z - y)))

/-- The renormalised one-loop vacuum polarisation by a lepton of mass `m`, as the integral over the
Feynman parameter: the effective coupling at `Q²` is `alpha (1 + vacuumPolarisation ...)` to this
order. -/
noncomputable def vacuumPolarisation (alpha Q_sq m : ℝ) : ℝ :=
  2 * alpha / Real.pi * ∫ x in (0 : ℝ)..1, x * (1 - x) * Real.log (1 + Q_sq * (x * (1 - x)) / m ^ 2)

/-- Propagator of the lepton. -/
noncomputable def propagator (l : Vec4) (m : ℝ) : Spinor :=
  ((1 / (mink l l - m ^ 2) : ℝ) : ℂ) • unpolarised l m

/-- The vertex with emission of a real photon of momentum `k` and polarisation index `α`, from the
scattered or from the incoming lepton. -/
noncomputable def emissionVertex (k1 k2 k : Vec4) (m : ℝ) (α μ : Fin 4) : Spinor :=
  gamma α * propagator (k2 + k) m * gamma μ + gamma μ * propagator (k1 - k) m * gamma α

/-- The leptonic tensor with a radiated photon, summed over its polarisations
(`Σ ε_α ε_β^* = -g_{αβ}`). -/
noncomputable def radiativeTensor (k1 k2 k : Vec4) (m lambda : ℝ) (s : Vec4) : Tensor := fun μ ν =>
  ∑ α, (-(metric α : ℝ) : ℂ) * currentTensor (emissionVertex k1 k2 k m α) k1 k2 m lambda s μ ν

/-- The part of `v` orthogonal to `q`. -/
noncomputable def perp (q v : Vec4) : Vec4 := v - (mink v q / mink q q) • q

/-- `n^μ = ε^{μνρσ} a_ν b_ρ c_σ` with `ε^{0123} = 1`. -/
noncomputable def normal (a b c : Vec4) : Vec4 :=
  ⟨eps ⟨1, 0, 0, 0⟩ a b c, -eps ⟨0, 1, 0, 0⟩ a b c, -eps ⟨0, 0, 1, 0⟩ a b c, -eps ⟨0, 0, 0, 1⟩ a b c⟩

/-- The hadronic tensor with components `H` for a virtual photon `q`, target `p` and hadron `h`: the
most general hermitian tensor orthogonal to `q` for a target of spin one half, in the basis of the
reference of the code. -/
noncomputable def hadronicTensor (H : Nine) (q p h : Vec4) : Tensor := fun μ ν =>
  let a := component (perp q p)
  let b := component (perp q h)
  let n := component (normal q p h)
  let g := (if μ = ν then metric μ else 0) - component q μ * component q ν / mink q q
  ((-H.c1 * g + H.c2 * (a μ * a ν) + H.c3 * (b μ * b ν) + H.c4 * (a μ * b ν + b μ * a ν)
    + H.c6 * (a μ * n ν + n μ * a ν) + H.c8 * (b μ * n ν + n μ * b ν) : ℝ) : ℂ)
  + Complex.I * ((H.c5 * (a μ * b ν - b μ * a ν) + H.c7 * (a μ * n ν - n μ * a ν)
    + H.c9 * (b μ * n ν - n μ * b ν) : ℝ) : ℂ)

end Sidis.Spec.Qed
