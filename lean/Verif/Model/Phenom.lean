import Verif.Model.CrossSection
import Verif.Model.Interp

/-!
# Model of the phenomenological inputs (src/phenom.cpp, include/sidis/phenom.hpp)

Exact real arithmetic; the value of `Q_sq` handed to `alpha_qed` may be any floating point value.
-/

namespace Sidis.Phen

open Interp

/-- `MASS_E` (include/sidis/constant.hpp 27). -/
noncomputable def massE : ℝ := 0.0005109989461

/-- `ALPHA_QED_0` (include/sidis/phenom.hpp 22). -/
noncomputable def alpha0 : ℝ := 1 / 137.03599

/-- `Q_SQ_MAX` (src/phenom.cpp 15). -/
noncomputable def qSqMax : ℝ := 100

/-- `NF` (src/phenom.cpp 16). -/
noncomputable def nf : ℝ := 1

/-- `BETA_0` (src/phenom.cpp 17). -/
noncomputable def beta0 : ℝ := 4 / 3 * nf

/-- `beta_qed` (src/phenom.cpp 19-22). -/
noncomputable def betaQed (alpha : ℝ) : ℝ :=
  let alpha_r := alpha / (4 * Real.pi)
  4 * Real.pi * beta0 * (1 + 3 * alpha_r) * alpha_r * alpha_r

/-- `step` (src/phenom.cpp 33). -/
noncomputable def step : ℝ := 0.01

/-- The new value of `alpha` in the body of the loop (src/phenom.cpp 36-42). -/
noncomputable def rk4 (alpha_0 : ℝ) : ℝ :=
  let alpha_p1 := betaQed alpha_0
  let alpha_p2 := betaQed (alpha_0 + 0.5 * step * alpha_p1)
  let alpha_p3 := betaQed (alpha_0 + 0.5 * step * alpha_p2)
  let alpha_p4 := betaQed (alpha_0 + step * alpha_p3)
  alpha_0 + step * (alpha_p1 + 2 * alpha_p2 + 2 * alpha_p3 + alpha_p4) / 6

/-- The two vectors of `create_alpha_qed_grid`. -/
structure Tables where
  ln_Q_sq_vals : List ℝ
  alpha_vals : List ℝ

/-- Before the loop (src/phenom.cpp 25-26). -/
noncomputable def Tables.init : Tables := ⟨[2 * Real.log massE], [alpha0]⟩

/-- The body of the loop (src/phenom.cpp 32-44); `back` of a vector that is never empty. -/
noncomputable def Tables.body (t : Tables) : Tables :=
  let ln_Q_sq_0 := t.ln_Q_sq_vals.getLastD 0
  let alpha_0 := t.alpha_vals.getLastD 0
  ⟨t.ln_Q_sq_vals ++ [ln_Q_sq_0 + step], t.alpha_vals ++ [rk4 alpha_0]⟩

/-- The condition of the loop (src/phenom.cpp 29-31), with `extra = 8`. -/
def Tables.cond (Q_sq_max : ℝ) (t : Tables) : Prop :=
  t.ln_Q_sq_vals.length < 8
    ∨ t.ln_Q_sq_vals.getD (t.ln_Q_sq_vals.length - 8) 0 ≤ Real.log Q_sq_max

/-- The tables after `n` turns of the loop. -/
noncomputable def Tables.after (n : ℕ) : Tables := Tables.body^[n] .init

/-- The loop of `create_alpha_qed_grid` ends with the tables `t`: after some number of turns the
condition is false for the first time. -/
def Tables.LoopEnds (Q_sq_max : ℝ) (t : Tables) : Prop :=
  ∃ n, t = .after n ∧ ¬ t.cond Q_sq_max ∧ ∀ i < n, (Tables.after i).cond Q_sq_max

/-- The grid made from the tables (src/phenom.cpp 46-48): its data and its one dimension. -/
noncomputable def Tables.data (t : Tables) : List Fl := t.alpha_vals.map .fin

/-- See `Tables.data`. -/
noncomputable def Tables.dim (t : Tables) : Dim :=
  ⟨t.ln_Q_sq_vals.length, .fin (t.ln_Q_sq_vals.headD 0), .fin (t.ln_Q_sq_vals.getLastD 0)⟩

/-- The cubic view of the grid (src/phenom.cpp 56). -/
noncomputable def Tables.view (t : Tables) (x : Fl) : Res Fl := cubicView id t.data [t.dim] 0 [x]

open Classical in
/-- `ph::alpha_qed` (src/phenom.cpp 55-68), with the tables made when the program starts. -/
noncomputable def alphaQed (t : Tables) (Q_sq : Fl) : Res Fl :=
  if Q_sq < .fin qSqMax then t.view Q_sq.log
  else (t.view (Fl.log (.fin qSqMax))).bind fun v =>
    let alpha_r_max := v / .fin (4 * Real.pi)
    .val (.fin (4 * Real.pi) * alpha_r_max
      / (.fin 1 - alpha_r_max * .fin beta0 * Fl.log (Q_sq / .fin qSqMax)))

/-- The default argument of `ph::alpha_qed` (include/sidis/phenom.hpp 24). -/
noncomputable def alphaQedDefault (t : Tables) : Res Fl := alphaQed t (.fin 0)

open Classical in
/-- `ph::delta_vac_had` (src/phenom.cpp 70-81). -/
noncomputable def deltaVacHad (Q_sq : ℝ) : ℝ :=
  let alpha := 7.2973525664e-3
  if Q_sq < 1 then
    -(2 * Real.pi) / alpha * (-1.345e-9 - 2.302e-3 * Real.log (1 + 4.091 * Q_sq))
  else if Q_sq < 64 then
    -(2 * Real.pi) / alpha * (-1.512e-3 - 2.822e-3 * Real.log (1 + 1.218 * Q_sq))
  else
    -(2 * Real.pi) / alpha * (-1.1344e-3 - 3.0680e-3 * Real.log (1 + 0.99992 * Q_sq))

end Sidis.Phen
