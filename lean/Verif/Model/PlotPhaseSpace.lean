import Verif.Model.Example
import Mathlib.Algebra.Order.Floor.Ring
import Mathlib.Data.Rat.Floor

/-!
# Model of the example program plot_phase_space

The arguments are those after the name of the program, and `points` are the random numbers of each point.
ROOT's histograms are modelled as far as the program uses them: a hundred equal bins on each axis, and two
more that are not drawn for the values below and above.
-/

namespace Sidis.Example

/-- The check of the name of an axis (example/plot_phase_space.cpp 62-71). -/
def axisOk (radiative : Bool) (s : List Char) : Bool :=
  s == "x".toList || s == "y".toList || s == "Q_sq".toList || s == "z".toList || s == "ph_t".toList ||
  s == "ph_t_sq".toList || s == "phi_h".toList || s == "phi".toList ||
  (radiative && s == "tau".toList) || (radiative && s == "phi_k".toList) || (radiative && s == "R".toList)

/-- The value shown on an axis (example/plot_phase_space.cpp 123-146). -/
def axisValue (s : List Char) (kin : Kinematics Fl) (kin_rad : KinematicsRad Fl) : Fl :=
  if s = "x".toList then kin.x
  else if s = "y".toList then kin.y
  else if s = "Q_sq".toList then kin.Q_sq
  else if s = "z".toList then kin.z
  else if s = "ph_t".toList then kin.ph_t
  else if s = "ph_t_sq".toList then kin.ph_t_sq
  else if s = "phi_h".toList then kin.phi_h
  else if s = "phi".toList then kin.phi
  else if s = "tau".toList then kin_rad.tau
  else if s = "phi_k".toList then kin_rad.phi_k
  else if s = "R".toList then kin_rad.R
  else .fin 0

/-- The number of points for a number of axes (example/plot_phase_space.cpp 102-109). -/
def numPoints (axes : ℕ) : ℕ :=
  if axes = 1 then 100000 else if axes = 2 then 1000000 else if axes = 3 then 10000000 else 0

open Classical in
/-- The limits of an axis after one more value (example/plot_phase_space.cpp 147-152). -/
noncomputable def limitStep (l : Fl × Fl) (value : Fl) : Fl × Fl :=
  (if value < l.1 then value else l.1, if value > l.2 then value else l.2)

/-- The limits of an axis: `data_mins` and `data_maxs`, from the largest and the lowest number of the type,
`big` and `-big` (example/plot_phase_space.cpp 89-93, 147-152). -/
noncomputable def limits (big : ℝ) (values : List Fl) : Fl × Fl :=
  values.foldl limitStep (.fin big, .fin (-big))

/-- What is drawn: the titles of the axes, and for each its values, in the order of the points, and its
limits. -/
structure Plot where
  axes : List (List Char)
  data : List (List Fl)
  limits : List (Fl × Fl)

/-- `main` of example/plot_phase_space.cpp (lines 27-199) up to the drawing.  The two loops (lines 118-119)
repeat `take` on the same point, hence end at once or never.  The values are collected axis by axis and not
point by point, which makes no difference, as the axes do not share anything. -/
noncomputable def plotPhaseSpace (std : Std) (big : ℝ) (points : ℕ → Fin 9 → Fl) :
    List (List Char) → Exit Plot
  | E :: mode :: axes =>
    if axes.length + 3 < 4 ∨ axes.length + 3 > 6 then .usage
    else
      match std.stold E, radiative mode with
      | some E, some rad =>
        if ¬ axes.all (axisOk rad) then .usage
        else
          match particles with
          | none => .abort
          | some ps =>
            let S := .fin 2 * ps.M * E
            let num_points := numPoints axes.length
            let t := fun n => Cut.take ps S (Cut.head6 (points n))
            let t' := fun n => Cut.takePhotonKin (t n).kin (Cut.tail3 (points n))
            if (List.range num_points).any (fun n => ! (t n).ok || ! (t' n).ok) then .diverge
            else
              let data := axes.map fun a =>
                (List.range num_points).map fun n => axisValue a (t n).kin (t' n).kin
              .done ⟨axes, data, data.map (Example.limits big)⟩
      | _, _ => .usage
  | _ => .usage

open Classical in
/-- The bin of an axis with a hundred bins into which `Fill` and `FillN` put a value, `none` for the two bins
that are not drawn (`TAxis::FindBin` of ROOT, for limits in increasing order): values below the lower limit,
and values that are not below the upper one. -/
noncomputable def bin (lim : Fl × Fl) (value : Fl) : Option ℕ :=
  match lim.1, lim.2, value with
  | .fin lo, .fin hi, .fin v =>
    if v < lo then none
    else if ¬ v < hi then none
    else some ⌊100 * (v - lo) / (hi - lo)⌋₊
  | _, _, _ => none

/-- The cell of the histogram in which point `n` is counted (example/plot_phase_space.cpp 162-194), `none`
when it is in none that is drawn. -/
noncomputable def Plot.cell (p : Plot) (n : ℕ) : Option (List ℕ) :=
  (p.data.zip p.limits).mapM fun d => d.1[n]?.bind (bin d.2)

end Sidis.Example
