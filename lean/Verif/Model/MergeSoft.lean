import Verif.Model.Command
import Verif.Model.Integ

/-!
# Model of the commands `merge-soft`, `merge-hard` and `inspect`

(app/sidisgen/main.cpp 437-488, 1055-1153)

An event file has the directory `params`, the directory `stats` and, under the key `events`, either the
tree of events or a chain, that is, a list of files with trees.  Simplifications: as in Model/Command;
the files that are read do not change while the command runs; names of files contain no wildcards and no
suffix that `TChain::Add` would interpret.
-/

namespace Sidis.Command

open Sidis.ParamStream Sidis.Codec Sidis.Format Sidis.Main Sidis.Gen

/-- What is stored under the key `events`. -/
inductive Events (E : Type)
  | none
  | tree (rows : List E)
  | chain (files : List Text)

/-- An event file; `stats` has no arrays if there is no such directory. -/
structure EventFile (E : Type) where
  params : Option Dir
  stats : StatsDir
  events : Events E

/-- `dir.Get` finds none of the arrays. -/
def noStats : StatsDir := ⟨none, none, none, none, none, none⟩

/-- Names of files and their contents. -/
abbrev EFS (E : Type) := Text → Option (EventFile E)

/-- Changes of the new file, in the order in which they are made. -/
inductive MergeOp
  /-- `TFile(name, "CREATE")` -/
  | create
  /-- `dir.mkdir("params", "params")` -/
  | mkdir
  /-- `dir.WriteObject(&obj, name)` -/
  | param (n : Text) (o : RootObj)
  /-- `dir.mkdir("stats", "stats")` -/
  | mkStats
  /-- one of the six arrays, in the order in which they are written -/
  | array (i : Fin 6) (l : List Fl)
  /-- `file_out.WriteObject(&chain, ...)` -/
  | chain (files : List Text)

/-- Storing one array (main.cpp 127-132). -/
def StatsDir.put (s : StatsDir) (i : Fin 6) (l : List Fl) : StatsDir :=
  match i with
  | 0 => { s with prime := some l }
  | 1 => { s with weightMom := some l }
  | 2 => { s with weightMax := some l }
  | 3 => { s with count := some l }
  | 4 => { s with countAcc := some l }
  | 5 => { s with norm := some l }

/-- The effect on the file. -/
def MergeOp.apply {E : Type} (f : Option (EventFile E)) : MergeOp → Option (EventFile E)
  | .create => some ⟨none, noStats, .none⟩
  | .mkdir => f.map fun f => { f with params := some [] }
  | .param n o => f.map fun f => { f with params := f.params.map (· ++ [(n, o)]) }
  | .mkStats => f
  | .array i l => f.map fun f => { f with stats := StatsDir.put f.stats i l }
  | .chain names => f.map fun f => { f with events := .chain names }

/-- What the command does: changes of the new file and how it ends. -/
structure MergeRun where
  ops : List MergeOp
  stop : Stop

/-- One more change before the others. -/
def MergeRun.after (o : MergeOp) (r : MergeRun) : MergeRun := { r with ops := o :: r.ops }

/-- The files after the command was interrupted (or failed) after `k` changes of the file `out`. -/
def MergeRun.files {E : Type} (out : Text) (r : MergeRun) (k : ℕ) (fs : EFS E) : EFS E := fun n =>
  if n = out ∧ r.ops.take k ≠ [] then (r.ops.take k).foldl MergeOp.apply none else fs n

/-! ### `merge-soft` -/

variable {E S : Type} [StatsLib S]

/-- The parameter loop (main.cpp 1060-1090); `acc` is `params_out`, `none` while `first`. -/
def gatherParams (fs : EFS E) : List Text → Option P → Except Stop P
  | [], none => .ok ⟨[]⟩
  | [], some p => .ok p
  | n :: ns, acc =>
    match fs n with
    | none => .error (throws ERROR_FILE_NOT_FOUND)
    | some f =>
      match readRoot f.params stdFormat with
      | none => .error (throws ERROR_READING_PARAMS)
      | some p =>
        match acc with
        | none => gatherParams fs ns (some p)
        | some out =>
          match mergeParams p out with
          | .error _ => .error (throws ERROR_MERGING_PARAMS)
          | .ok out => gatherParams fs ns (some out)

/-- The statistics loop (main.cpp 1092-1112); `acc` is `integs`, `none` while `first`. -/
noncomputable def gatherStats (fs : EFS E) : List Text → Option (IntegratorArray S) →
    Except Stop (IntegratorArray S)
  | [], none => .ok .default
  | [], some a => .ok a
  | n :: ns, acc =>
    match fs n with
    | none => .error (throws ERROR_FILE_NOT_FOUND)
    | some f =>
      match Integs.read (S := S) f.stats with
      | .errorReadingStats => .error (throws ERROR_READING_STATS)
      | .ub => .error .ub
      | .val a =>
        match acc with
        | none => gatherStats fs ns (some a)
        | some b => gatherStats fs ns (some (b.add a))

/-- The arrays of `root_write_integs` in the order in which they are written (main.cpp 127-132). -/
def statsOps (d : StatsDir) : List MergeOp :=
  [.array 0 (d.prime.getD []), .array 1 (d.weightMom.getD []), .array 2 (d.weightMax.getD []),
   .array 3 (d.count.getD []), .array 4 (d.countAcc.getD []), .array 5 (d.norm.getD [])]

/-- Writing objects one after the other until one of them is refused. -/
def writeOps (refuse : MergeOp → Bool) (code : ℤ) (next : MergeRun) : List MergeOp → MergeRun
  | [] => next
  | o :: os => if refuse o then ⟨[], throws code⟩ else (writeOps refuse code next os).after o

/-- `command_merge_soft` (main.cpp 1055-1143).  `taken`: the output cannot be created, because it exists
or for another reason; `refuse`: changes of the file that do not succeed. -/
noncomputable def mergeSoft (S : Type) [StatsLib S] (taken : Text → Bool) (refuse : MergeOp → Bool)
    (fs : EFS E) (out : Text) (names : List Text) : MergeRun :=
  match gatherParams fs names none with
  | .error s => ⟨[], s⟩
  | .ok p =>
    match gatherStats (S := S) fs names none with
    | .error s => ⟨[], s⟩
    | .ok a =>
      if taken out then ⟨[], throws ERROR_FILE_NOT_CREATED⟩
      else
        MergeRun.after .create <|
        writeOps refuse ERROR_WRITING_PARAMS
          (writeOps refuse ERROR_WRITING_STATS
            (writeOps refuse ERROR_WRITING_EVENTS ⟨[], .result (.returns SUCCESS)⟩ [.chain names])
            (.mkStats :: statsOps (Integs.write a)))
          (.mkdir :: (rootEntries p).map fun e => .param e.1 e.2)

/-- `command_merge_hard` (main.cpp 1145-1153). -/
def mergeHard : MergeRun := ⟨[], throws ERROR_UNIMPLEMENTED⟩

/-! ### `inspect` -/

/-- What `inspect` shows: the parameters as text, then for the statistics the event types shown (none
at all for a file without statistics) and whether the total is shown. -/
structure Shown (S : Type) where
  params : Text
  stats : Option (List (Gen.EventType × Integrator S) × Option (Integrator S))

/-- `command_inspect` (main.cpp 437-488).  `c` is how values are printed (doubles with 16 digits instead
of the 6 of `Codec.std`). -/
noncomputable def inspect (S : Type) [StatsLib S] (c : ParamStream.Codec Ty Val) (fs : EFS E) (name : Text) :
    Except Stop (Shown S) :=
  match fs name with
  | none => .error (throws ERROR_FILE_NOT_FOUND)
  | some f =>
    match readRoot f.params stdFormat with
    | none => .error (throws ERROR_READING_PARAMS)
    | some p =>
      match writeStream c p with
      | none => .error (.result .stdException)
      | some text =>
        match Integs.read (S := S) f.stats with
        | .errorReadingStats => .ok ⟨text, none⟩
        | .ub => .error .ub
        | .val a =>
          let shown := [Gen.EventType.nrad, .rad].filterMap fun t =>
            if (a.map t.idx).count ≠ 0 then some (t, a.map t.idx) else none
          .ok ⟨text, some (shown, if 1 < shown.length then some a.total else none)⟩

end Sidis.Command
