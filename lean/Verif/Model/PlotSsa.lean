import Verif.Model.Asymmetry

/-!
# Model of the example programs plot_ssa and quick_start

In exact real arithmetic.  ROOT evaluates a curve at numbers `z` of its range; which ones is not modelled.
The structure functions, the coupling, the integrator and the sampling of the photon are those of
`Model.Asymmetry` (`Env`).
-/

namespace Sidis.PlotSsa

open Asym (Env)

/-- `ps` (example/plot_ssa.cpp 24-28; example/quick_start.cpp 9-14); `none` when the constructor throws. -/
noncomputable def particles : Option (Particles ℝ) :=
  Particles.make .p .e .piP (Nucleus.p.mass + Hadron.pi0.mass)

/-- One of the curves: which asymmetry, with radiative corrections or not, and the parameter `ph_t`. -/
structure Curve where
  collins : Bool
  rc : Bool
  ph_t : ℝ

/-- `ph_t_vals` (plot_ssa.cpp 34). -/
noncomputable def phTVals : List ℝ := [0.7, 0.4, 0.1]

/-- The curves in the order they are drawn (plot_ssa.cpp 77-94). -/
noncomputable def curves : List Curve :=
  phTVals.flatMap (fun ph_t => [⟨false, false, ph_t⟩, ⟨false, true, ph_t⟩]) ++
    phTVals.flatMap fun ph_t => [⟨true, false, ph_t⟩, ⟨true, true, ph_t⟩]

/-- `z_min` and `z_max` (plot_ssa.cpp 37-38). -/
noncomputable def zMin : ℝ := 0.1
@[inherit_doc zMin] noncomputable def zMax : ℝ := 0.8

/-- The variables `x` and `y` (plot_ssa.cpp 30-31). -/
noncomputable def xAt : ℝ := 0.2
@[inherit_doc xAt] noncomputable def yAt : ℝ := 0.754

/-- `S` (plot_ssa.cpp 23, 29). -/
noncomputable def sAt (ps : Particles ℝ) : ℝ := 2 * ps.M * 10.6

/-- The functions `f_sivers`, `f_sivers_rc`, `f_collins` and `f_collins_rc` (plot_ssa.cpp 42-61). -/
noncomputable def Curve.value (c : Curve) (E : Env) (ps : Particles ℝ) (z : ℝ) : Fl :=
  let ph_t_sq := c.ph_t * c.ph_t
  if c.collins then (Asym.collins E ps (sAt ps) xAt yAt z ph_t_sq c.rc).val
  else (Asym.sivers E ps (sAt ps) xAt yAt z ph_t_sq c.rc).val

/-- `S` and `phase_space` (quick_start.cpp 15-23). -/
noncomputable def quickS (ps : Particles ℝ) : ℝ := 2 * 10.6 * ps.M
@[inherit_doc quickS] noncomputable def quickPt : PhaseSpace ℝ := ⟨0.2, 0.9, 0.3, 2, 0.5 * Real.pi, 0⟩

end Sidis.PlotSsa
