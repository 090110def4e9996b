import Verif.Model.Density
import Verif.Model.Dist
import Verif.Model.Main
import Verif.Model.SfMask
import Mathlib.Data.List.Sort

/-!
# ROOT parameter directories and the commands `initialize` and `generate`

(app/sidisgen/params.cpp 244-283, params_format.hpp 140-153, params_format.cpp 686-746, 838-887,
app/sidisgen/main.cpp 490-905)

A ROOT file is what has been written to it: objects under their keys, and the directory `params`.
Simplifications: messages on the terminal are left out and never fail; a key is written entirely or
not at all; names of parameters and keys contain none of the characters ROOT treats specially
(`/` and `;`), so that a key is found exactly under its name; `random_device` is a parameter.
-/

namespace Sidis.Command

open Sidis.ParamStream Sidis.Codec Sidis.Format Sidis.Main

/-! ### Parameters as ROOT objects -/

/-- The ROOT objects parameters are stored in: `TArrayI`, `TArrayD`, `TParameter` of double, of int,
of long and of bool, `TObjString`. -/
inductive RootObj
  | arrayI (l : List ℤ)
  | arrayD (l : List Dbl)
  | parD (d : Dbl)
  | parI (i : ℤ)
  | parL (i : ℤ)
  | parB (b : Bool)
  | str (s : Text)
  deriving DecidableEq

/-- `static_cast<int>` of an enumerator (utility.hpp 44-51). -/
def rcCode : RcMethod → ℤ
  | .none => 0 | .approx => 1 | .exact => 2
/-- `static_cast<int>` of an enumerator (particle.hpp 24-28). -/
def nucleusCode : Nucleus → ℤ
  | .p => 0 | .n => 1 | .d => 2
/-- `static_cast<int>` of an enumerator (particle.hpp 16-21). -/
def leptonCode : Lepton → ℤ
  | .e => 0 | .mu => 1 | .tau => 2 | .masslessE => 3
/-- `static_cast<int>` of an enumerator (particle.hpp 31-40). -/
def hadronCode : Hadron → ℤ
  | .pi0 => 0 | .piP => 1 | .piM => 2 | .k0 => 3 | .kP => 4 | .kM => 5 | .phi => 6 | .jPsi => 7

/-- `static_cast` from `int` (params_format.cpp 690-692).  Simplification: a number that is not an
enumerator is an error here; in the code it is a value different from all enumerators. -/
def rcOf (i : ℤ) : Option RcMethod :=
  if i = 0 then some .none else if i = 1 then some .approx else if i = 2 then some .exact else none
@[inherit_doc rcOf] def nucleusOf (i : ℤ) : Option Nucleus :=
  if i = 0 then some .p else if i = 1 then some .n else if i = 2 then some .d else none
@[inherit_doc rcOf] def leptonOf (i : ℤ) : Option Lepton :=
  if i = 0 then some .e else if i = 1 then some .mu else if i = 2 then some .tau
  else if i = 3 then some .masslessE else none
@[inherit_doc rcOf] def hadronOf (i : ℤ) : Option Hadron :=
  if i = 0 then some .pi0 else if i = 1 then some .piP else if i = 2 then some .piM
  else if i = 3 then some .k0 else if i = 4 then some .kP else if i = 5 then some .kM
  else if i = 6 then some .phi else if i = 7 then some .jPsi else none

/-- What becomes of a string that is passed as a `char const*`. -/
def cStr (s : Text) : Text := s.takeWhile (· != '\x00')

/-- `convert_to_root_base` (params_format.cpp 686-689, 738-746, 838-887). -/
def toRoot : Val → RootObj
  | .version a b => .arrayI [a, b]
  | .double d => .parD d
  | .int i => .parI i
  | .long i => .parL i
  | .bool b => .parB b
  | .string s => .str (cStr s)
  | .seedGen s => .arrayI s
  | .rcMethod x => .parI (rcCode x)
  | .nucleus x => .parI (nucleusCode x)
  | .lepton x => .parI (leptonCode x)
  | .hadron x => .parI (hadronCode x)
  | .vec3 x y z => .arrayD [x, y, z]
  | .bound a b => .arrayD [a, b]

/-- `Type::read_root` on the object found under the name (params_format.hpp 140-147,
params_format.cpp 690-692, 738-746, 843-887): `Get` gives a null pointer, and the parameter is unset,
when the object is of another class; `none` is an exception. -/
def fromRoot : Ty → RootObj → Option (Option Val)
  | .version, .arrayI [a, b] => some (some (.version a b))
  | .version, .arrayI _ => none
  | .double, .parD d => some (some (.double d))
  | .int, .parI i => some (some (.int i))
  | .long, .parL i => some (some (.long i))
  | .bool, .parB b => some (some (.bool b))
  | .string, .str s => some (some (.string s))
  | .seedGen, .arrayI l => some (some (.seedGen (l.foldl (fun l s => l.orderedInsert (· ≤ ·) s) [])))
  | .rcMethod, .parI i => (rcOf i).map (some ∘ .rcMethod)
  | .nucleus, .parI i => (nucleusOf i).map (some ∘ .nucleus)
  | .lepton, .parI i => (leptonOf i).map (some ∘ .lepton)
  | .hadron, .parI i => (hadronOf i).map (some ∘ .hadron)
  | .vec3, .arrayD [x, y, z] => some (some (.vec3 x y z))
  | .vec3, .arrayD _ => none
  | .bound, .arrayD [a, b] => if a.le b then some (some (.bound a b)) else none
  | .bound, .arrayD _ => none
  | _, _ => some none

/-- A ROOT directory of parameters. -/
abbrev Dir := List (Text × RootObj)

/-- The loop of `Params::read_root` (params.cpp 249-261). -/
def readDir (d : Dir) : List (Text × Params.Param Tag Ty Val) →
    Option (List (Text × Params.Param Tag Ty Val))
  | [] => some []
  | (n, q) :: es =>
    match d.lookup n with
    | none => (readDir d es).map ((n, { q with used := false, value := none }) :: ·)
    | some o =>
      match fromRoot q.type o with
      | none => none
      | some v => (readDir d es).map ((n, { q with used := false, value := v }) :: ·)

/-- `Params::read_root` (params.cpp 244-262); `none` is an exception, after which the set is not used
by any of the commands. -/
def readRoot (d : Option Dir) (p : P) : Option P :=
  match d with
  | none => none
  | some d => (readDir d p.entries).map fun es => ⟨es⟩

/-- The order of names in a `std::map<std::string, ...>`; all names are ASCII. -/
def nameLe (a b : Text) : Bool := !decide (List.Lex (· < ·) b a)

/-- The objects `Params::write_root` writes, in the order of the names (params.cpp 264-283). -/
def rootEntries (p : P) : Dir :=
  (p.entries.insertionSort fun a b => nameLe a.1 b.1).filterMap fun e =>
    e.2.value.map fun v => (e.1, toRoot v)

/-! ### Files -/

/-- A ROOT file: distributions under the keys `nrad` and `rad`, and the directory `params`. -/
structure RootFile where
  blobs : List (EventType × List UInt8)
  params : Option Dir

/-- Changes of a file, in the order in which they are made. -/
inductive Op
  /-- `TFile(name, "CREATE")` -/
  | create
  /-- `file.WriteObject(&data, ev_key)` -/
  | blob (t : EventType) (bytes : List UInt8)
  /-- `dir.mkdir("params", "params")` -/
  | mkdir
  /-- `dir.WriteObject(&obj, name)` -/
  | param (n : Text) (o : RootObj)
  /-- the tree of events -/
  | events
  /-- the statistics -/
  | stats
  deriving DecidableEq

/-- The effect on the file. -/
def Op.apply (f : Option RootFile) : Op → Option RootFile
  | .create => some ⟨[], none⟩
  | .blob t b => f.map fun f => { f with blobs := f.blobs ++ [(t, b)] }
  | .mkdir => f.map fun f => { f with params := some [] }
  | .param n o => f.map fun f => { f with params := f.params.map (· ++ [(n, o)]) }
  | .events => f
  | .stats => f

/-- A new file after some changes. -/
def fileOf (ops : List Op) : Option RootFile := ops.foldl Op.apply none

/-- How a command ends. -/
inductive Stop
  | result (r : Result)
  | ub
  deriving DecidableEq

/-- Shorthand: `throw Exception(code, ...)`. -/
def throws (code : ℤ) : Stop := .result (.exception code)

/-- What a command does: the file it creates, the changes it makes to it and how it ends. -/
structure Run where
  name : Text
  ops : List Op
  stop : Stop

/-- A command that ends before anything has been written. -/
def Run.abort (s : Stop) : Run := ⟨[], [], s⟩

/-- One more change before the others. -/
def Run.after (o : Op) (r : Run) : Run := { r with ops := o :: r.ops }

/-- Names of files and their contents. -/
abbrev FS := Text → Option RootFile

/-- The files after the command was interrupted (or failed) after `k` changes. -/
def Run.files (r : Run) (k : ℕ) (fs : FS) : FS := fun n =>
  if n = r.name ∧ r.ops.take k ≠ [] then fileOf (r.ops.take k) else fs n

/-! ### Common parts -/

/-- Reading the parameter file (main.cpp 491-507, 649-666); `text` is `none` if it cannot be
opened. -/
def loadParams (rnd : ℚ → Option ℚ) (text : Option Text) : Except Stop P :=
  match text with
  | none => .error (throws ERROR_FILE_NOT_FOUND)
  | some s =>
    match readStream (Codec.std rnd) stdFormat s with
    | (.error _, _) => .error (throws ERROR_PARAMS_PARSE)
    | (.ok _, p) => .ok p

/-- `std::string s = params[name].any()` -/
def lookString (p : P) (n : Text) : Except MErr Text := do
  match ← look p n with
  | .string s => .ok s
  | _ => .error (.badCast n)

/-- Exceptions that are not of the class `Exception`. -/
def std {α : Type} : Except MErr α → Except Stop α
  | .ok a => .ok a
  | .error _ => .error (.result .stdException)

/-- The last word of `phys.sf_set` is `test` (main.cpp 230-247). -/
def sfIsTest (name : Text) : Bool :=
  match (SfMask.readParts name.length name).reverse with
  | [] => false
  | base :: _ => base = "test".toList

/-- `params["setup.target"]` if it is read (main.cpp 249). -/
def sfTarget (p : P) (name : Text) : Except Stop Nucleus :=
  if sfIsTest name then
    match look p "setup.target".toList with
    | .ok (.nucleus x) => .ok x
    | _ => .error (.result .stdException)
  else .ok .p

/-- `alloc_sf` with its exceptions (main.cpp 218-376, called at 517 and 675). -/
def loadSf {A : Type} (env : SfMask.Env A) (p : P) : Except Stop (SfMask.SfSet A) := do
  let name ← std (lookString p "phys.sf_set".toList)
  let target ← sfTarget p name
  match SfMask.allocSf env target name with
  | .ok sf => .ok sf
  | .parseError => .error (throws ERROR_STRUCTURE_FUNCTIONS_PARSE)
  | .fileNotFound => .error (throws ERROR_FILE_NOT_FOUND)
  | .notFound => .error (throws ERROR_STRUCTURE_FUNCTIONS_NOT_FOUND)
  | .stdError => .error (.result .stdException)
  | .ub => .error .ub

/-- `Density(ev_type, params, *sf)`: whether it throws (generator.hpp 81-93). -/
noncomputable def densityOk (t : EventType) (p : P) : Except Density.Err Unit :=
  match t with
  | .nrad => (Density.nradMake p).map fun _ => ()
  | .rad => (Density.radMake p).map fun _ => ()

/-! ### Which parameters have been used -/

/-- Parameters read by `cut_from_params` (generator.cpp 17-39). -/
def readsCut : List String :=
  ["cut.x", "cut.y", "cut.z", "cut.ph_t_sq", "cut.phi_h", "cut.phi", "cut.Q_sq", "cut.t", "cut.W_sq",
   "cut.r", "cut.mx_sq", "cut.qt_to_Q", "cut.lab.mom_q", "cut.lab.mom_k2", "cut.lab.mom_h",
   "cut.lab.theta_q", "cut.lab.theta_k2", "cut.lab.theta_h"]

/-- Parameters read by `cut_rad_from_params` when radiative events are enabled
(generator.cpp 44-55). -/
def readsCutRad : List String :=
  ["cut.tau", "cut.phi_k", "cut.R", "cut.k_0_bar", "phys.soft_threshold", "cut.lab.mom_k",
   "cut.lab.theta_k"]

/-- Parameters read by the member initialisers of both densities (generator.cpp 60-71, 149-161). -/
def readsSetup : List String :=
  ["phys.rc_method", "phys.soft_threshold", "setup.target", "setup.beam", "setup.hadron",
   "phys.mass_threshold", "setup.beam_energy", "setup.beam_pol", "setup.target_pol"]

/-- Parameters read by the constructors of the densities when they succeed.  The non-radiative one
looks at `cut.k_0_bar` without marking it (`get_soft`, generator.cpp 76).  A radiative density is only
made when `mc.rad.enable` is on. -/
def readsDensity : EventType → List String
  | .nrad => readsCut ++ readsSetup
  | .rad => readsCut ++ "mc.rad.enable" :: readsCutRad ++ readsSetup ++ ["cut.k_0_bar"]

/-- Parameters read by `DistParams` (generator.cpp 206-221). -/
def readsDist (t : EventType) : List String :=
  [Density.initName t "target_eff", Density.initName t "scale_exp", Density.initName t "max_cells"]

/-- Parameters read by `p_enabled_event_types` (params_format.cpp 448-466). -/
def readsTypes (p : P) : List String :=
  match lookRc p "phys.rc_method".toList with
  | .ok .none => ["phys.rc_method", "mc.nrad.enable"]
  | _ => ["phys.rc_method", "mc.nrad.enable", "mc.rad.enable"]

/-- Parameters read by `alloc_sf` (main.cpp 229, 249). -/
def readsSf (p : P) : List String :=
  match lookString p "phys.sf_set".toList with
  | .ok name => if sfIsTest name then ["phys.sf_set", "setup.target"] else ["phys.sf_set"]
  | .error _ => ["phys.sf_set"]

/-- Reading parameters one after the other marks those that have been provided. -/
def mark (ns : List String) (p : P) : P := ns.foldl (fun p n => (Params.get p n.toList).2) p

/-- `params.filter(tag).check_complete()` and what follows (main.cpp 552-564, 861-873): whether the
command goes on. -/
def complete (t : Tag) (p : P) : Except Stop Unit :=
  match (p.filter (Filter.tag t)).checkComplete with
  | .ok _ => .ok ()
  | .error _ => do
    let strict ← std (lookBool p "strict".toList)
    if strict then .error (throws ERROR_PARAMS_INVALID) else .ok ()

/-! ### `initialize` -/

/-- Surroundings of `initialize`. -/
structure InitEnv (A B : Type) where
  rnd : ℚ → Option ℚ
  /-- the parameter file -/
  text : Option Text
  sf : SfMask.Env A
  /-- files that cannot be created, because they exist or for another reason -/
  taken : Text → Bool
  lib : Dist.Lib B
  /-- random identifiers -/
  uid : EventType → ℤ
  /-- how building goes, and how often the result is moved -/
  build : EventType → Dist.BuildFault B
  moves : EventType → ℕ
  /-- memory for the string stream -/
  stream : EventType → Option ℕ
  /-- changes of the file that do not succeed -/
  refuse : Op → Bool

/-- `Int_t`'s largest value (main.cpp 603). -/
def maxInt : ℕ := 2147483647

/-- Building one generator and serialising it (main.cpp 579-616): the bytes, or the error code. -/
def buildBlob {A B : Type} (X : InitEnv A B) (t : EventType) : Option (Except ℤ (List UInt8)) := do
  let (g, w) ← Dist.Gen.make X.lib t ⟨0, []⟩
  let (g, threw, w) ← Dist.Gen.build X.lib g .bubble (X.build t) (X.moves t) w
  if threw then
    let _ ← g.destroy w
    some (.error ERROR_BUILDING_FOAM)
  else
    let (_, w) ← g.prime w
    let (os, w) ← g.write X.lib ⟨[], false, X.stream t⟩ w
    let _ ← g.destroy w
    if os.fail ∨ maxInt < os.data.length then some (.error ERROR_WRITING_FOAM)
    else some (.ok os.data)

/-- The loop of `Params::write_root` (params.cpp 269-282). -/
def writeEntries (refuse : Op → Bool) (name : Text) (next : Run) : Dir → Run
  | [] => next
  | (n, o) :: d =>
    if refuse (.param n o) then ⟨name, [], throws ERROR_WRITING_PARAMS⟩
    else (writeEntries refuse name next d).after (.param n o)

/-- `params.write_root(file)` (params.cpp 264-283; main.cpp 633-641, 876-883); `next` is what
follows. -/
def writeRoot (refuse : Op → Bool) (name : Text) (p : P) (next : Run) : Run :=
  if refuse .mkdir then ⟨name, [], throws ERROR_WRITING_PARAMS⟩
  else (writeEntries refuse name next (rootEntries p)).after .mkdir

/-- `return SUCCESS`. -/
def finished (name : Text) : Run := ⟨name, [], .result (.returns SUCCESS)⟩

/-- The loop over the builders and the end of the command (main.cpp 575-646). -/
def buildAll {A B : Type} (X : InitEnv A B) (name : Text) (p : P) : List EventType → Run
  | [] => writeRoot X.refuse name p (finished name)
  | t :: ts =>
    match Params.set Val.ty p (nameUid t) (some (.long (X.uid t))) with
    | (.error _, _) => ⟨name, [], .result .stdException⟩
    | (.ok _, p) =>
      match buildBlob X t with
      | none => ⟨name, [], .ub⟩
      | some (.error code) => ⟨name, [], throws code⟩
      | some (.ok bytes) =>
        if X.refuse (.blob t bytes) then ⟨name, [], throws ERROR_WRITING_FOAM⟩
        else (buildAll X name p ts).after (.blob t bytes)

/-- The densities and the parameters for building (main.cpp 539-551). -/
noncomputable def checkBuilders (p : P) : List EventType → Except Stop Unit
  | [] => .ok ()
  | t :: ts =>
    match densityOk t p, Density.DistParams.make t p with
    | .ok _, .ok _ => checkBuilders p ts
    | _, _ => .error (throws ERROR_PARAMS_INVALID)

/-- Everything `initialize` checks after the file has been created (main.cpp 529-564): the event
types and the parameters with their marks. -/
noncomputable def initChecks (p : P) : Except Stop (List EventType × P) := do
  let ts ← std (enabledTypes p)
  if ts = [] then .error (throws ERROR_NO_EVENT_TYPES_ENABLED)
  else
    checkBuilders p ts
    let reads := readsSf p ++ ["file.gen"] ++ readsTypes p ++
      ts.flatMap fun t => readsDensity t ++ readsDist t
    let p := mark reads p
    complete .init p
    .ok (ts, p)

/-- `command_initialize` (main.cpp 490-647). -/
noncomputable def initCommand {A B : Type} (X : InitEnv A B) : Run :=
  match loadParams X.rnd X.text with
  | .error s => .abort s
  | .ok p =>
    match loadSf X.sf p with
    | .error s => .abort s
    | .ok _ =>
      match lookString p "file.gen".toList with
      | .error _ => .abort (.result .stdException)
      | .ok name =>
        if X.taken name then .abort (throws ERROR_FILE_NOT_CREATED)
        else
          match initChecks p with
          | .error s => ⟨name, [.create], s⟩
          | .ok (ts, p) => (buildAll X name p ts).after .create

/-! ### `generate` -/

/-- Surroundings of `generate`. -/
structure GenEnv (A B : Type) where
  rnd : ℚ → Option ℚ
  text : Option Text
  sf : SfMask.Env A
  taken : Text → Bool
  lib : Dist.Lib B
  /-- the seed drawn from `random_device` -/
  seed : ℤ
  /-- exceptions while a distribution is read, and the fate of a dead store (Model/Dist) -/
  fault : EventType → Dist.ReadFault B
  kept : EventType → Bool
  refuse : Op → Bool
  /-- how making events ends: `none` if it succeeds -/
  events : Option Stop
  stats : Option Stop

/-- `p_name_gen_rej_scale` (params_format.hpp 81-83). -/
def rejName : EventType → String
  | .nrad => "mc.nrad.gen.rej_scale"
  | .rad => "mc.rad.gen.rej_scale"

/-- Reading one distribution (main.cpp 735-757): the generator.  Errors are those of the `catch`
clause; `Filter(ev_key) & "init" & "uid"` selects the identifier. -/
noncomputable def loadBlob {A B : Type} (Y : GenEnv A B) (f : RootFile) (p : P) (t : EventType) :
    Except Stop (Dist.Gen B) :=
  match f.blobs.lookup t with
  | none => .error (throws ERROR_READING_FOAM)
  | some bytes =>
    match densityOk t p with
    | .error _ => .error (throws ERROR_READING_FOAM)
    | .ok _ =>
      match Dist.Gen.make Y.lib t ⟨0, []⟩ with
      | none => .error .ub
      | some (g, w) =>
        match g.read Y.lib ⟨bytes, false⟩ (Y.fault t) (Y.kept t) w with
        | none => .error .ub
        | some (g, is, threw, _) =>
          if threw ∨ is.fail then .error (throws ERROR_READING_FOAM)
          else
            match Density.double p (rejName t) with
            | .error _ => .error (throws ERROR_READING_FOAM)
            | .ok _ => .ok g

/-- The loop over the event types (main.cpp 725-770). -/
noncomputable def loadAll {A B : Type} (Y : GenEnv A B) (f : RootFile) (foam : P) :
    P → List EventType → Except Stop (P × List (EventType × Dist.Gen B))
  | p, [] => .ok (p, [])
  | p, t :: ts =>
    match Params.setFromAll p (foam.filter (((Filter.tag t.tag).and (.tag .init)).and (.tag .uid))) with
    | (.error _, _) => .error (.result .stdException)
    | (.ok _, p) => do
      let g ← loadBlob Y f p t
      let r ← loadAll Y f foam p ts
      .ok (r.1, (t, g) :: r.2)

/-- Adding the seed that was drawn, when none is given (main.cpp 708-710). -/
def giveSeed (set : Bool) (seed : ℤ) (p : P) : Except Stop P :=
  if set then .ok p else
  match Params.set Val.ty p "mc.seed".toList (some (.seedGen [seed])) with
  | (.ok _, p) => .ok p
  | (.error _, _) => .error (.result .stdException)

/-- The seed (main.cpp 706-717). -/
def takeSeed (seed : ℤ) (p : P) : Except Stop (P × ℤ) := do
  let set ← std (lift (p.isSet "mc.seed".toList))
  let p ← giveSeed set seed p
  match ← std (lookSeeds p "mc.seed".toList) with
  | [s] => .ok (p, s)
  | _ => .error (throws ERROR_PARAMS_INVALID)

/-- What `generate` has when the generators are loaded. -/
structure Loaded (B : Type) where
  params : P
  foam : P
  seed : ℤ
  gens : List (EventType × Dist.Gen B)

/-- The first half of `command_generate`: up to closing the generator file (main.cpp 649-772). -/
noncomputable def load {A B : Type} (Y : GenEnv A B) (fs : FS) : Except Stop (Loaded B) := do
  let p ← loadParams Y.rnd Y.text
  let _ ← loadSf Y.sf p
  let ts ← std (enabledTypes p)
  if ts = [] then .error (throws ERROR_NO_EVENT_TYPES_ENABLED)
  else
    let name ← std (lookString p "file.gen".toList)
    match fs name with
    | none => .error (throws ERROR_FILE_NOT_FOUND)
    | some f =>
      match readRoot f.params stdFormat with
      | none => .error (throws ERROR_READING_PARAMS)
      | some foam =>
        let (p, seed) ← takeSeed Y.seed p
        match checkCanProvideFoam foam p with
        | .error _ => .error (throws ERROR_FOAM_INCOMPATIBLE)
        | .ok _ =>
          let (p, gens) ← loadAll Y f foam p ts
          .ok ⟨p, foam, seed, gens⟩

/-- A switch that is only looked at if another one is on (main.cpp 831-838). -/
def askIf (c : Bool) (p : P) (n : String) : Except Stop Bool :=
  if c then std (lookBool p n.toList) else .ok false

/-- The parameters that have been read when `generate` checks for unused ones (main.cpp 649-860). -/
def readsGen (p : P) (ts : List EventType) (momenta rad : Bool) : List String :=
  readsSf p ++ ["file.gen"] ++ readsTypes p ++ ["mc.seed", "version"] ++
    ts.flatMap (fun t => readsDensity t ++ [rejName t]) ++
    ["file.event", "setup.target", "setup.beam", "setup.hadron", "setup.target_pol",
     "setup.beam_energy", "phys.mass_threshold", "mc.num_events", "file.write_momenta",
     "file.write_sf_set", "file.write_mc_coords"] ++
    (if momenta then ["mc.rad.enable"] else []) ++ (if rad then ["file.write_photon"] else [])

/-- The checks made after the event file has been created (main.cpp 783-873). -/
noncomputable def genChecks (p : P) : Except Stop P := do
  let target ← fromStd (Density.nucleus p "setup.target")
  let beam ← fromStd (Density.lepton p "setup.beam")
  let hadron ← fromStd (Density.hadron p "setup.hadron")
  let _ ← fromStd (Density.vec3 p "setup.target_pol")
  let _ ← fromStd (Density.double p "setup.beam_energy")
  let Mth ← fromStd (Density.double p "phys.mass_threshold")
  match Particles.make target beam hadron Mth with
  | none => .error (.result .stdException)
  | some _ =>
    let num ← std (lookLong p "mc.num_events".toList)
    if num ≤ 0 then .error (throws ERROR_PARAMS_INVALID)
    else
      let momenta ← std (lookBool p "file.write_momenta".toList)
      let _ ← std (lookBool p "file.write_sf_set".toList)
      let coords ← std (lookBool p "file.write_mc_coords".toList)
      let rad ← askIf momenta p "mc.rad.enable"
      let _ ← askIf rad p "file.write_photon"
      if coords then .error (throws ERROR_UNIMPLEMENTED)
      else
        let ts ← std (enabledTypes p)
        let p := mark (readsGen p ts momenta rad) p
        complete .gen p
        .ok p
where
  fromStd {α : Type} : Except Density.Err α → Except Stop α
    | .ok a => .ok a
    | .error _ => .error (.result .stdException)

/-- `command_generate` (main.cpp 649-1053). -/
noncomputable def genCommand {A B : Type} (Y : GenEnv A B) (fs : FS) : Run :=
  match load Y fs with
  | .error s => .abort s
  | .ok l =>
    match lookString l.params "file.event".toList with
    | .error _ => .abort (.result .stdException)
    | .ok name =>
      if Y.taken name then .abort (throws ERROR_FILE_NOT_CREATED)
      else
        match genChecks l.params with
        | .error s => ⟨name, [.create], s⟩
        | .ok p => (writeRoot Y.refuse name p (afterParams name)).after .create
where
  afterParams (name : Text) : Run :=
    match Y.events with
    | some s => ⟨name, [], s⟩
    | none =>
      if Y.refuse .events then ⟨name, [], throws ERROR_WRITING_EVENTS⟩
      else Run.after .events <|
        match Y.stats with
        | some s => ⟨name, [], s⟩
        | none => Run.after .stats (finished name)

end Sidis.Command
