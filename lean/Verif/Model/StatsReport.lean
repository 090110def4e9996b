import Verif.Model.Integ
import Verif.Model.Map

/-! # Model of the statistics shown to the user (app/sidisgen/utility.hpp, main.cpp) -/

namespace Sidis.Gen

/-- The error estimates of `bubble::Stats<Double>` (external library) used by the code. -/
class StatsErr (S : Type) where
  /-- the error from `est_mean(&err)` -/
  meanErr : S → Fl
  /-- `est_rel_var()` after `rescale_count(n)` -/
  relVar : S → ℕ → Fl
  /-- the error from `est_rel_var(&err)` after `rescale_count(n)` -/
  relVarErr : S → ℕ → Fl

namespace Integrator
variable {S : Type} [StatsLib S] [StatsErr S]

/-- `acc()` (utility.hpp 161-163). -/
noncomputable def acc (a : Integrator S) : Fl := .fin a.countAcc / .fin a.count

/-- The error from `integ(&err)` (utility.hpp 179-186). -/
noncomputable def integErr (a : Integrator S) : Fl := StatsErr.meanErr a.weights / a.primeInv

/-- `rel_var()` (utility.hpp 189-191). -/
def relVar (a : Integrator S) : Fl := StatsErr.relVar a.weights a.countAcc

/-- The error from `rel_var(&err)` (utility.hpp 189-191). -/
def relVarErr (a : Integrator S) : Fl := StatsErr.relVarErr a.weights a.countAcc

end Integrator

/-- The numbers shown by `stream_write_integ`, in order. -/
structure Report where
  count : ℕ
  xs : Fl
  xsErr : Fl
  prime : Fl
  norm : Fl
  acceptance : Fl
  relVar : Fl
  relVarErr : Fl
  efficiency : Fl

/-- `std::exp(-0.5 * std::log1p(rel_var))` (main.cpp 190). -/
noncomputable def efficiency (rel_var : Fl) : Fl := CMap.exp (.fin (-0.5) * CMap.log1p rel_var)

/-- `stream_write_integ` (main.cpp 185-207): the numbers; how they are formatted is left out. -/
noncomputable def report {S : Type} [StatsLib S] [StatsErr S] (a : Integrator S) : Report :=
  let eff := efficiency a.relVar
  ⟨a.countAcc, a.integ, a.integErr, a.prime, a.norm, .fin 100 * a.acc, a.relVar, a.relVarErr,
    .fin 100 * eff⟩

end Sidis.Gen
