import Verif.Model.Generate

/-!
# Model of the example program `process_events` (example/process_events.cpp)

The program reads an event file of `sidisgen` and computes the total cross-section from the events
and the array `stats/norm`.  The histogram and the conversion from `Q^2` are left out, and so is the
case in which some object is missing from the file.
-/

namespace Sidis.Gen

/-- State of the loop: `weight_total` and `weight_sq_total` (process_events.cpp 78-79). -/
structure Totals where
  weight : Fl
  weightSq : Fl

/-- One round of the loop over the events (process_events.cpp 82-97), with `norm_arr` given as the
list of its elements; `norm_arr->At(type)` is 0 out of range. -/
noncomputable def processStep {K : Type} (norm : List Fl) (t : Totals) (r : Row K) : Totals :=
  let n := Integs.at' norm r.type
  ⟨t.weight + r.weight * n, t.weightSq + (r.weight * n) * (r.weight * n)⟩

/-- The totals after the loop; the cross-section that is shown is the first one (process_events.cpp
81-100). -/
noncomputable def processEvents {K : Type} (norm : List Fl) (rows : List (Row K)) : Totals :=
  rows.foldl (processStep norm) ⟨.fin 0, .fin 0⟩

end Sidis.Gen
