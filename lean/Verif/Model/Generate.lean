import Verif.Model.Integ

/-!
# Model of the event loop of `command_generate` (app/sidisgen/main.cpp 833-838, 886-1045)

The random engine is any state type `R`; the engine and the generators are a `Source`: arbitrary
functions from the state of the engine to a value and a new state.  `K` is the type of the
kinematics of an event, which the loop only copies.  The progress display (modelled in
`Verif/Model/ProdDiv.lean`), the optional branches, and failures of ROOT are left out.

The loop records the list of all draws (`Draw`) in the order in which they are made.  The record is
not part of the program; it is what the theorems speak about.
-/

namespace Sidis.Gen

open StatsLib

/-- `GenTuple` (main.cpp 733-737) without the generator proper: its event type, the integrator, and
the rejection scale. -/
structure GenTuple (S : Type) where
  evType : EventType
  integ : Accum S
  rejScale : Fl

/-- The random inputs: `gens[idx].gen.draw(rnd)` (main.cpp 935), giving the weight and the
kinematics of an event, and `std::uniform_real_distribution<Double>()(rnd)` (main.cpp 945-946). -/
structure Source (R K : Type) where
  draw : ℕ → R → (Fl × K) × R
  unif : R → Fl × R

open Classical in
/-- The new weight of an event of weight `w` when the random number is `rej` (main.cpp 947-955). -/
noncomputable def reweight (w rej scale : Fl) : Fl :=
  if w < rej * scale then .fin 0
  else if w < scale then scale
  else w

/-- One pass through `gen.draw` (main.cpp 935-959): index of the generator, weight after
re-weighting, kinematics. -/
structure Draw (K : Type) where
  gen : ℕ
  weight : Fl
  kin : K

/-- One entry of the tree `events`: branches `type`, `weight`, and the kinematics (main.cpp
964-1018). -/
structure Row (K : Type) where
  type : ℕ
  weight : Fl
  kin : K

/-- `ev_idx = static_cast<Int>(ev_type) + 1` (main.cpp 965). -/
def typeCode (t : EventType) : ℕ := t.idx.val + 1

variable {S R K : Type} [StatsLib S]

open Classical in
/-- The body of the do-while loop up to the new weight (main.cpp 935-956). -/
noncomputable def drawOnce (src : Source R K) (idx : ℕ) (scale : Fl) (rnd : R) :
    (Fl × K) × R :=
  let (e, rnd) := src.draw idx rnd
  if ¬ scale.eq (.fin 0) then
    let (rej, rnd) := src.unif rnd
    ((reweight e.1 rej scale, e.2), rnd)
  else (e, rnd)

open Classical in
/-- The do-while loop (main.cpp 933-961), at most `fuel` rounds; `none` when it is still running.
Result: the accepted event, the integrator, the engine, all draws. -/
noncomputable def drawLoop (src : Source R K) (idx : ℕ) (scale : Fl) :
    ℕ → Accum S → R → Option ((Fl × K) × Accum S × R × List (Draw K))
  | 0, _, _ => none
  | fuel + 1, integ, rnd =>
    let (e, rnd) := drawOnce src idx scale rnd
    let integ := integ.push e.1
    if e.1.eq (.fin 0) then
      match drawLoop src idx scale fuel integ rnd with
      | none => none
      | some (e', integ, rnd, ds) => some (e', integ, rnd, ⟨idx, e.1, e.2⟩ :: ds)
    else some (e, integ, rnd, [⟨idx, e.1, e.2⟩])

open Classical in
/-- The choice of the generator after the first event (main.cpp 915-927), from position `idx` on.
`chosen` is `chosen_gen_idx`, `none` while it has not been assigned. -/
noncomputable def choose : ℕ → Fl → Option ℕ → List (GenTuple S) → Option ℕ
  | _, _, chosen, [] => chosen
  | idx, ratioMax, chosen, g :: gs =>
    let integ := g.integ.total
    let ratio := integ.sqrtM2Acc / integ.norm
    let ratio := if ¬ ratio.isFinite then .pinf else ratio
    if ratioMax < ratio then choose (idx + 1) ratio (some idx) gs
    else choose (idx + 1) ratioMax chosen gs

/-- `chosen_gen_idx` (main.cpp 906-928). -/
noncomputable def chosenGen (eventIdx : ℕ) (gens : List (GenTuple S)) : Option ℕ :=
  if eventIdx = 0 then some 0 else choose 0 (.fin 0) none gens

/-- State of the event loop. -/
structure State (S R K : Type) where
  gens : List (GenTuple S)
  rnd : R
  rows : List (Row K)
  draws : List (Draw K)

/-- Outcome of the event loop. -/
inductive Out (α : Type) where
  | done (a : α)
  /-- still inside a do-while loop -/
  | running
  /-- an uninitialised or out of range generator index -/
  | ub
  /-- `ERROR_PARAMS_INVALID` -/
  | invalid

/-- One round of the event loop (main.cpp 886-1020). -/
noncomputable def eventStep (src : Source R K) (fuel eventIdx : ℕ) (s : State S R K) :
    Out (State S R K) :=
  match chosenGen eventIdx s.gens with
  | none => .ub
  | some idx =>
    match s.gens[idx]? with
    | none => .ub
    | some g =>
      match drawLoop src idx g.rejScale fuel g.integ s.rnd with
      | none => .running
      | some (e, integ, rnd, ds) =>
        .done ⟨s.gens.set idx { g with integ := integ }, rnd,
          s.rows ++ [⟨typeCode g.evType, e.1, e.2⟩], s.draws ++ ds⟩

/-- The event loop (main.cpp 886): `n` more events, the next one having index `eventIdx`. -/
noncomputable def eventLoop (src : Source R K) (fuel : ℕ) :
    ℕ → ℕ → State S R K → Out (State S R K)
  | 0, _, s => .done s
  | n + 1, eventIdx, s =>
    match eventStep src fuel eventIdx s with
    | .done s => eventLoop src fuel n (eventIdx + 1) s
    | .running => .running
    | .ub => .ub
    | .invalid => .invalid

/-- The generators as loaded (main.cpp 740-773): one for each enabled event type, with its
`1. / gen.prime()` and its rejection scale. -/
def load (gens : List (EventType × Fl × Fl)) : List (GenTuple S) :=
  gens.map fun g => ⟨g.1, .new g.2.1, g.2.2⟩

/-- From the check of `mc.num_events` (main.cpp 801-806) to the end of the event loop. -/
noncomputable def generate (src : Source R K) (fuel : ℕ) (gens : List (EventType × Fl × Fl))
    (numEvents : ℤ) (rnd : R) : Out (State S R K) :=
  if numEvents ≤ 0 then .invalid
  else eventLoop src fuel numEvents.toNat 0 ⟨load gens, rnd, [], []⟩

/-- The statistics written to the event file (main.cpp 1031-1050). -/
def finalStats (gens : List (GenTuple S)) : IntegratorArray S :=
  gens.foldl (fun a g => a.assign g.evType g.integ.total) .default

end Sidis.Gen
