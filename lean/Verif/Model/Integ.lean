import Verif.Model.Fl
import Mathlib.Data.Fin.VecNotation
import Mathlib.Data.List.FinRange
import Mathlib.Algebra.Order.Floor.Defs

/-!
# Model of event statistics (app/sidisgen/utility.hpp, app/sidisgen/main.cpp)

`bubble::Stats` and `bubble::StatsAccum` come from an external library that is not part of the
repository; `StatsLib` is the interface that the code uses.  What the library is assumed to do is
stated in `Verif/Spec/Integ.lean`.  `double` is `Fl`; `std::size_t` counters are unbounded naturals
and their conversion to `double` is exact (counts stay below `2^53`).
-/

namespace Sidis.Gen

/-- The operations of `bubble::Stats<Double>` and `bubble::StatsAccum<Double>` used by the code.
`total()` and `total_fast()` of the accumulator give the same value here. -/
class StatsLib (S : Type) where
  /-- `Stats()` -/
  empty : S
  /-- `a += b` -/
  add : S → S → S
  /-- `accum += weight` -/
  push : S → Fl → S
  /-- `count()` -/
  count : S → ℕ
  /-- `est_mean()` -/
  mean : S → Fl
  /-- `est_sqrt_m2()` after `rescale_count(n)` -/
  sqrtM2 : S → ℕ → Fl
  /-- `ratio_m1_to_max1()` … `ratio_m4_to_max4()` -/
  ratio : S → Fin 4 → Fl
  /-- `max1()` -/
  max1 : S → Fl
  /-- `Stats({m1, m2, m3, m4}, max, count)` -/
  ofMoments : (Fin 4 → Fl) → Fl → ℕ → S

open StatsLib

/-- `enum class EventType` (utility.hpp 54-59). -/
inductive EventType where
  | nrad
  | rad
  deriving DecidableEq

/-- `NUM_EVENT_TYPES` (utility.hpp 61). -/
def numEventTypes : ℕ := 2

/-- `static_cast<std::size_t>(ev_type)`. -/
def EventType.idx : EventType → Fin numEventTypes
  | .nrad => ⟨0, by decide⟩
  | .rad => ⟨1, by decide⟩

/-- `Integrator` (utility.hpp 105-116). -/
structure Integrator (S : Type) where
  primeInv : Fl
  count : ℕ
  countAcc : ℕ
  weights : S

namespace Integrator
variable {S : Type} [StatsLib S]

/-- `Integrator(prime_inv, count_acc, weights)` (utility.hpp 119-123). -/
def mk' (primeInv : Fl) (countAcc : ℕ) (weights : S) : Integrator S :=
  ⟨primeInv, StatsLib.count weights, countAcc, weights⟩

/-- `Integrator()` (utility.hpp 124-127). -/
def default : Integrator S := ⟨.nan, 0, 0, empty⟩

/-- `operator+=` and `operator+` (utility.hpp 132-147, 191-194). -/
noncomputable def add (a b : Integrator S) : Integrator S :=
  if a.count = 0 then b
  else if b.count = 0 then a
  else
    let lambda := Fl.fin b.count / Fl.fin (a.count + b.count : ℕ)
    ⟨a.primeInv + lambda * (b.primeInv - a.primeInv), a.count + b.count,
      a.countAcc + b.countAcc, StatsLib.add a.weights b.weights⟩

/-- `prime()` (utility.hpp 150-152). -/
noncomputable def prime (a : Integrator S) : Fl := .fin 1 / a.primeInv

/-- `norm()` (utility.hpp 165-167). -/
noncomputable def norm (a : Integrator S) : Fl := .fin a.count * a.primeInv

/-- `weights_acc().est_sqrt_m2()` (utility.hpp 173-177). -/
def sqrtM2Acc (a : Integrator S) : Fl := StatsLib.sqrtM2 a.weights a.countAcc

/-- `integ()` (utility.hpp 179-186), without the error estimate. -/
noncomputable def integ (a : Integrator S) : Fl := StatsLib.mean a.weights / a.primeInv

end Integrator

/-- `IntegratorAccum` (utility.hpp 199-205). -/
structure Accum (S : Type) where
  primeInv : Fl
  count : ℕ
  countAcc : ℕ
  weights : S

namespace Accum
variable {S : Type} [StatsLib S]

/-- `IntegratorAccum(prime_inv)` (utility.hpp 211-215). -/
def new (primeInv : Fl) : Accum S := ⟨primeInv, 0, 0, empty⟩

open Classical in
/-- `operator+=` (utility.hpp 220-227). -/
noncomputable def push (a : Accum S) (w : Fl) : Accum S :=
  ⟨a.primeInv, a.count + 1, if ¬ w.eq (.fin 0) then a.countAcc + 1 else a.countAcc,
    StatsLib.push a.weights w⟩

/-- `total()`, `total_fast()` (utility.hpp 230-236). -/
def total (a : Accum S) : Integrator S := .mk' a.primeInv a.countAcc a.weights

end Accum

/-- `IntegratorArray` (main.cpp 59-67). -/
structure IntegratorArray (S : Type) where
  map : Fin numEventTypes → Integrator S

namespace IntegratorArray
variable {S : Type} [StatsLib S]

/-- `IntegratorArray()` (main.cpp 61). -/
def default : IntegratorArray S := ⟨fun _ => .default⟩

/-- `integs[ev_type] = integ` (main.cpp 62-64). -/
def assign (a : IntegratorArray S) (t : EventType) (i : Integrator S) : IntegratorArray S :=
  ⟨fun k => if k = t.idx then i else a.map k⟩

/-- `total()` (main.cpp 70-80). -/
noncomputable def total (a : IntegratorArray S) : Integrator S :=
  let r := (List.finRange numEventTypes).foldl
    (fun (s : Fl × ℕ × S) k =>
      (s.1 + (a.map k).prime, s.2.1 + (a.map k).countAcc, StatsLib.add s.2.2 (a.map k).weights))
    (.fin 0, 0, empty)
  .mk' (.fin 1 / r.1) r.2.1 r.2.2

/-- `operator+=` (main.cpp 82-87). -/
noncomputable def add (a b : IntegratorArray S) : IntegratorArray S :=
  ⟨fun k => (a.map k).add (b.map k)⟩

/-- The statistics loop of `command_merge_soft` (main.cpp 1090-1109), given the statistics read from
the files in order. -/
noncomputable def mergeFiles : List (IntegratorArray S) → IntegratorArray S
  | [] => default
  | first :: rest => rest.foldl add first

end IntegratorArray

/-- The six arrays of the directory `stats` of a file; `none` when an array is missing
(`dir.Get` returns `nullptr`, main.cpp 142-147). -/
structure StatsDir where
  prime : Option (List Fl)
  weightMom : Option (List Fl)
  weightMax : Option (List Fl)
  count : Option (List Fl)
  countAcc : Option (List Fl)
  norm : Option (List Fl)

/-- Outcome of reading: a value, the exception `ERROR_READING_STATS`, or undefined behaviour. -/
inductive StatsRes (α : Type) where
  | val (a : α)
  | errorReadingStats
  | ub

namespace Integs
variable {S : Type} [StatsLib S]

/-- The local arrays of `root_write_integs` (main.cpp 102-107). -/
structure Arrays where
  prime : List Fl
  weightMom : List Fl
  weightMax : List Fl
  count : List Fl
  countAcc : List Fl
  norm : List Fl

/-- `integ` for one value of `arr_idx` (main.cpp 111). -/
noncomputable def rowOf (a : IntegratorArray S) (i : ℕ) : Integrator S :=
  if h : i = 0 ∨ numEventTypes < i then a.total
  else a.map ⟨i - 1, by rcases not_or.mp h with ⟨_, h2⟩; simp only [numEventTypes] at *; omega⟩

/-- One round of the loop of `root_write_integs` (main.cpp 110-124). -/
noncomputable def writeStep (a : IntegratorArray S) (r : Arrays) (i : ℕ) : Arrays :=
  let integ := rowOf a i
  { prime := r.prime.set i integ.prime
    weightMom := (((r.weightMom.set (4 * i + 0) (ratio integ.weights 0)).set (4 * i + 1)
      (ratio integ.weights 1)).set (4 * i + 2) (ratio integ.weights 2)).set (4 * i + 3)
      (ratio integ.weights 3)
    weightMax := r.weightMax.set i (max1 integ.weights)
    count := r.count.set i (.fin integ.count)
    countAcc := r.countAcc.set i (.fin integ.countAcc)
    norm := r.norm.set i integ.norm }

/-- `root_write_integs` (main.cpp 90-136) when every object can be written. -/
noncomputable def write (a : IntegratorArray S) : StatsDir :=
  let zeros (n : ℕ) : List Fl := List.replicate n (.fin 0)
  let n := numEventTypes + 1
  let r := (List.range n).foldl (writeStep a)
    ⟨zeros n, zeros (4 * n), zeros n, zeros n, zeros n, zeros n⟩
  ⟨some r.prime, some r.weightMom, some r.weightMax, some r.count, some r.countAcc, some r.norm⟩

open Classical in
/-- Conversion of a `double` to `std::size_t` (64 bit): towards zero, undefined when the result is
out of range. -/
noncomputable def toSize : Fl → Option ℕ
  | .fin r => if -1 < r ∧ r < 2 ^ 64 then some ⌊r⌋₊ else none
  | _ => none

/-- `array->At(i)`; out of range it gives 0 (ROOT, `TArrayD::At`). -/
def at' (l : List Fl) (i : ℕ) : Fl := (l[i]?).getD (.fin 0)

/-- One round of the loop of `root_read_integs` (main.cpp 165-181). -/
noncomputable def readRow (prime weightMom weightMax count countAcc : List Fl) (i : ℕ) :
    Option (Integrator S) :=
  match toSize (at' count i), toSize (at' countAcc i) with
  | some c, some ca =>
    let weights : S := ofMoments
      ![at' weightMom (4 * i + 0), at' weightMom (4 * i + 1), at' weightMom (4 * i + 2),
        at' weightMom (4 * i + 3)] (at' weightMax i) c
    some (.mk' (.fin 1 / at' prime i) ca weights)
  | _, _ => none

/-- `root_read_integs` (main.cpp 138-183). -/
noncomputable def read (d : StatsDir) : StatsRes (IntegratorArray S) :=
  match d.prime, d.weightMom, d.weightMax, d.count, d.countAcc, d.norm with
  | some prime, some weightMom, some weightMax, some count, some countAcc, some norm =>
    if prime.length ≠ numEventTypes + 1 ∨ weightMom.length ≠ 4 * (numEventTypes + 1) ∨
        weightMax.length ≠ numEventTypes + 1 ∨ count.length ≠ numEventTypes + 1 ∨
        countAcc.length ≠ numEventTypes + 1 ∨ norm.length ≠ numEventTypes + 1 then
      .errorReadingStats
    else
      match readRow (S := S) prime weightMom weightMax count countAcc 1,
        readRow (S := S) prime weightMom weightMax count countAcc 2 with
      | some r1, some r2 => .val ⟨![r1, r2]⟩
      | _, _ => .ub
  | _, _, _, _, _, _ => .errorReadingStats

end Integs

end Sidis.Gen
