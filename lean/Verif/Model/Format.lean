import Verif.Model.Codec

/-!
# Model of `PARAMS_STD_FORMAT` and of the checks on whole parameter sets
(app/sidisgen/params_format.cpp 45-641)

Simplification: the functions mark parameters of their arguments as used; these marks are not
tracked here (`look` is `Params::get` without the mark), since they do not influence the outcome.
-/

namespace Sidis.Format

open Sidis.ParamStream Sidis.Codec

/-- Tags (params_format.cpp 22-44). -/
inductive Tag where
  | metaInfo | file | write | init | gen | xs | cut | dist | nrad | rad | excl | seed | uid | num
  | cutNoNrad
  deriving DecidableEq

/-- One call of `add_param` (params.hpp 289-312). -/
def par (name : String) (t : Ty) (d : Option (ℕ × Val)) (tags : Finset Tag) :
    Text × Params.Param Tag Ty Val :=
  (name.toList, Params.Param.fresh t d tags)

/-- The calls of `add_param` building `PARAMS_STD_FORMAT` (params_format.cpp 45-349), in program
order (a `std::map` would iterate in the order of the names).  The number with a default is its
identity (address).  Doubles are the decimal written in the source; `BOUND_POSITIVE` is [0, inf). -/
def stdEntries : List (Text × Params.Param Tag Ty Val) := [
  -- 48-50
  par "version" .version (some (0, .version 5 0)) {.metaInfo},
  -- 54-56
  par "strict" .bool (some (1, .bool true)) {.metaInfo},
  -- 60-62
  par "file.event" .string none {.gen, .file, .nrad, .rad, .excl},
  -- 66-68
  par "file.gen" .string none {.init, .gen, .file, .nrad, .rad, .excl},
  -- 72-74
  par "file.write_momenta" .bool (some (4, .bool false)) {.gen, .write, .nrad, .rad, .excl},
  -- 78-80
  par "file.write_photon" .bool (some (5, .bool true)) {.gen, .write, .rad, .excl},
  -- 84-86
  par "file.write_sf_set" .bool (some (6, .bool false)) {.gen, .write, .nrad, .rad, .excl},
  -- 90-92
  par "file.write_mc_coords" .bool (some (7, .bool false)) {.gen, .write, .nrad, .rad, .excl},
  -- 96-98
  par "mc.nrad.enable" .bool (some (8, .bool true)) {.init, .gen, .nrad},
  -- 103-105
  par "mc.nrad.gen.rej_scale" .double (some (9, .double (.fin 0))) {.gen, .dist, .nrad},
  -- 110-112
  par "mc.nrad.init.uid" .long none {.init, .uid, .nrad},
  -- 116-118
  par "mc.nrad.init.max_cells" .int (some (11, .int 262144)) {.init, .dist, .nrad},
  -- 122-124
  par "mc.nrad.init.target_eff" .double (some (12, .double (.fin (95 / 100)))) {.init, .dist, .nrad},
  -- 129-131
  par "mc.nrad.init.scale_exp" .double (some (13, .double (.fin (50 / 100)))) {.init, .dist, .nrad},
  -- 136-138
  par "mc.rad.enable" .bool (some (14, .bool true)) {.init, .gen, .rad},
  -- 143-145
  par "mc.rad.gen.rej_scale" .double (some (15, .double (.fin 0))) {.gen, .dist, .rad},
  -- 150-152
  par "mc.rad.init.uid" .long none {.init, .uid, .rad},
  -- 156-158
  par "mc.rad.init.max_cells" .int (some (17, .int 262144)) {.init, .dist, .rad},
  -- 162-164
  par "mc.rad.init.target_eff" .double (some (18, .double (.fin (50 / 100)))) {.init, .dist, .rad},
  -- 169-171
  par "mc.rad.init.scale_exp" .double (some (19, .double (.fin (18 / 100)))) {.init, .dist, .rad},
  -- 176-178
  par "mc.num_events" .long none {.gen, .num},
  -- 182-184
  par "mc.seed" .seedGen (some (21, .seedGen [])) {.gen, .seed, .nrad, .rad, .excl},
  -- 188-190
  par "setup.beam_energy" .double none {.init, .gen, .xs, .dist, .nrad, .rad, .excl},
  -- 193-195
  par "setup.beam" .lepton none {.init, .gen, .xs, .dist, .nrad, .rad, .excl},
  -- 198-200
  par "setup.target" .nucleus none {.init, .gen, .xs, .dist, .nrad, .rad, .excl},
  -- 203-205
  par "setup.hadron" .hadron none {.init, .gen, .xs, .dist, .nrad, .rad, .excl},
  -- 208-210
  par "setup.beam_pol" .double none {.init, .gen, .xs, .dist, .nrad, .rad, .excl},
  -- 213-215
  par "setup.target_pol" .vec3 none {.init, .gen, .xs, .dist, .nrad, .rad, .excl},
  -- 218-220
  par "phys.sf_set" .string none {.init, .gen, .xs, .dist, .nrad, .rad, .excl},
  -- 225-227
  par "phys.rc_method" .rcMethod none {.init, .gen, .xs, .dist, .nrad, .rad, .excl},
  -- 233-235
  par "phys.mass_threshold" .double none {.init, .gen, .xs, .dist, .nrad, .rad, .excl},
  -- 240-242
  par "phys.soft_threshold" .double (some (31, .double (.fin (1 / 100)))) {.init, .gen, .xs, .dist, .nrad, .rad, .excl},
  -- 249-251
  par "cut.k_0_bar" .bound (some (32, .bound (.fin 0) .pinf)) {.init, .gen, .cut, .dist, .nrad, .rad, .excl},
  -- 256-258
  par "cut.x" .bound (some (33, .bound .nan .nan)) {.init, .gen, .cut, .dist, .nrad, .rad, .excl},
  -- 260-262
  par "cut.y" .bound (some (34, .bound .nan .nan)) {.init, .gen, .cut, .dist, .nrad, .rad, .excl},
  -- 264-266
  par "cut.z" .bound (some (35, .bound .nan .nan)) {.init, .gen, .cut, .dist, .nrad, .rad, .excl},
  -- 268-270
  par "cut.ph_t_sq" .bound (some (36, .bound .nan .nan)) {.init, .gen, .cut, .dist, .nrad, .rad, .excl},
  -- 272-274
  par "cut.phi_h" .bound (some (37, .bound .nan .nan)) {.init, .gen, .cut, .dist, .nrad, .rad, .excl},
  -- 276-278
  par "cut.phi" .bound (some (38, .bound .nan .nan)) {.init, .gen, .cut, .dist, .nrad, .rad, .excl},
  -- 280-282
  par "cut.Q_sq" .bound (some (39, .bound .nan .nan)) {.init, .gen, .cut, .dist, .nrad, .rad, .excl},
  -- 284-286
  par "cut.W_sq" .bound (some (40, .bound .nan .nan)) {.init, .gen, .cut, .dist, .nrad, .rad, .excl},
  -- 288-290
  par "cut.mx_sq" .bound (some (41, .bound .nan .nan)) {.init, .gen, .cut, .dist, .nrad, .rad, .excl},
  -- 292-294
  par "cut.t" .bound (some (42, .bound .nan .nan)) {.init, .gen, .cut, .dist, .nrad, .rad, .excl},
  -- 296-298
  par "cut.r" .bound (some (43, .bound .nan .nan)) {.init, .gen, .cut, .dist, .nrad, .rad, .excl},
  -- 300-302
  par "cut.qt_to_Q" .bound (some (44, .bound .nan .nan)) {.init, .gen, .cut, .dist, .nrad, .rad, .excl},
  -- 304-306
  par "cut.tau" .bound (some (45, .bound .nan .nan)) {.init, .gen, .cut, .dist, .rad, .excl, .cutNoNrad},
  -- 308-310
  par "cut.phi_k" .bound (some (46, .bound .nan .nan)) {.init, .gen, .cut, .dist, .rad, .excl, .cutNoNrad},
  -- 312-314
  par "cut.R" .bound (some (47, .bound .nan .nan)) {.init, .gen, .cut, .dist, .rad, .cutNoNrad},
  -- 316-318
  par "cut.lab.mom_q" .bound (some (48, .bound .nan .nan)) {.init, .gen, .cut, .dist, .nrad, .rad, .excl},
  -- 320-322
  par "cut.lab.mom_k2" .bound (some (49, .bound .nan .nan)) {.init, .gen, .cut, .dist, .nrad, .rad, .excl},
  -- 324-326
  par "cut.lab.mom_h" .bound (some (50, .bound .nan .nan)) {.init, .gen, .cut, .dist, .nrad, .rad, .excl},
  -- 328-330
  par "cut.lab.mom_k" .bound (some (51, .bound .nan .nan)) {.init, .gen, .cut, .dist, .rad, .cutNoNrad},
  -- 332-334
  par "cut.lab.theta_q" .bound (some (52, .bound .nan .nan)) {.init, .gen, .cut, .dist, .nrad, .rad, .excl},
  -- 336-338
  par "cut.lab.theta_k2" .bound (some (53, .bound .nan .nan)) {.init, .gen, .cut, .dist, .nrad, .rad, .excl},
  -- 340-342
  par "cut.lab.theta_h" .bound (some (54, .bound .nan .nan)) {.init, .gen, .cut, .dist, .nrad, .rad, .excl},
  -- 344-346
  par "cut.lab.theta_k" .bound (some (55, .bound .nan .nan)) {.init, .gen, .cut, .dist, .rad, .excl, .cutNoNrad}]


/-- `PARAMS_STD_FORMAT` (params_format.cpp 45-349). -/
def stdFormat : Params Text Tag Ty Val := ⟨stdEntries⟩

/-- Parameter sets of the program. -/
abbrev P := Params Text Tag Ty Val

/-- `EventType` (app/sidisgen/utility.hpp 54-59). -/
inductive EventType where
  | nrad | rad
  deriving DecidableEq

/-- `event_type_short_name` (utility.hpp 74-83) as a tag. -/
def EventType.tag : EventType → Tag
  | .nrad => .nrad
  | .rad => .rad

/-- `p_name_enable` (params_format.hpp 76-78). -/
def nameEnable : EventType → Text
  | .nrad => "mc.nrad.enable".toList
  | .rad => "mc.rad.enable".toList

/-- `p_name_init_uid` (params_format.hpp 91-93). -/
def nameUid : EventType → Text
  | .nrad => "mc.nrad.init.uid".toList
  | .rad => "mc.rad.init.uid".toList

/-- Exceptions. -/
inductive MErr where
  | params (e : Params.Err Text)
  /-- `make_incompatible_param_error` (params_format.cpp 437-444) -/
  | incompatible (n : Text)
  /-- `Any::as`, `Value::as`: wrong type (params.hpp 37-50) -/
  | badCast (n : Text)
  | failedToMerge (n : Text)
  | contaminated (n : Text)

/-- `==` on doubles. -/
def dblEq : Dbl → Dbl → Bool
  | .nan, _ => false
  | a, b => decide (a = b)

/-- `Type::equivalent`, that is `val_1 == val_2` on values of the same type
(params_format.hpp 134-139). -/
def equiv (_ : Ty) : Val → Val → Bool
  | .double a, .double b => dblEq a b
  | .vec3 a b c, .vec3 a' b' c' => dblEq a a' && dblEq b b' && dblEq c c'
  | .bound a b, .bound a' b' => dblEq a a' && dblEq b b'
  | a, b => decide (a = b)

/-- Exceptions of `Params` members. -/
def lift {α : Type} : Except (Params.Err Text) α → Except MErr α
  | .ok a => .ok a
  | .error e => .error (.params e)

/-- `params[name]` without marking it as used. -/
def look (p : P) (n : Text) : Except MErr Val := lift (p.getSoft n)

/-- `bool b = params[name].any()` -/
def lookBool (p : P) (n : Text) : Except MErr Bool := do
  match ← look p n with
  | .bool b => .ok b
  | _ => .error (.badCast n)

/-- `Long i = params[name].any()` -/
def lookLong (p : P) (n : Text) : Except MErr ℤ := do
  match ← look p n with
  | .long i => .ok i
  | _ => .error (.badCast n)

/-- `Version v = params.get<ValueVersion>(name)` -/
def lookVersion (p : P) (n : Text) : Except MErr (ℤ × ℤ) := do
  match ← look p n with
  | .version a b => .ok (a, b)
  | _ => .error (.badCast n)

/-- `SeedGen s = params[name].any()` -/
def lookSeeds (p : P) (n : Text) : Except MErr (List ℤ) := do
  match ← look p n with
  | .seedGen s => .ok s
  | _ => .error (.badCast n)

/-- `RcMethod m = params[name].any()` -/
def lookRc (p : P) (n : Text) : Except MErr RcMethod := do
  match ← look p n with
  | .rcMethod m => .ok m
  | _ => .error (.badCast n)

/-- `p_enabled_event_types` (params_format.cpp 448-466). -/
def enabledTypes (p : P) : Except MErr (List EventType) := do
  let rc ← lookRc p "phys.rc_method".toList
  if rc = .none then
    let b ← lookBool p (nameEnable .nrad)
    .ok (if b then [.nrad] else [])
  else
    let b₁ ← lookBool p (nameEnable .nrad)
    let b₂ ← lookBool p (nameEnable .rad)
    .ok ((if b₁ then [.nrad] else []) ++ (if b₂ then [.rad] else []))

/-- `Filter::REJECT` joined with the tags of the event types (params_format.cpp 486-488,
545-556). -/
def typeFilter (ts : List EventType) : Filter Tag :=
  ts.foldl (fun f t => f.or (.tag t.tag)) .reject

/-- First loop of `check_can_provide_foam` (params_format.cpp 487-495). -/
def checkEnabled (foam : P) : List EventType → Except MErr Unit
  | [] => .ok ()
  | t :: ts => do
    let b ← lookBool foam (nameEnable t)
    if b then checkEnabled foam ts else .error (.incompatible (nameEnable t))

/-- Second loop of `check_can_provide_foam` (params_format.cpp 502-514). -/
def checkUid (foam gen : P) : List EventType → Except MErr Unit
  | [] => .ok ()
  | t :: ts => do
    let uidFoam ← lookLong foam (nameUid t)
    let isSet ← lift (gen.isSet (nameUid t))
    if isSet then
      let uidGen ← lookLong gen (nameUid t)
      if uidFoam ≠ uidGen then .error (.incompatible (nameUid t)) else checkUid foam gen ts
    else checkUid foam gen ts

/-- `filter_dist` (params_format.cpp 497). -/
def filterInitDist : Filter Tag :=
  (Filter.tag .init).and (((Filter.tag .xs).or (.tag .cut)).or (.tag .dist))

/-- `check_can_provide_foam` (params_format.cpp 468-515). -/
def checkCanProvideFoam (foam gen : P) : Except MErr Unit := do
  lift (foam.checkFormat stdFormat)
  lift (gen.checkFormat stdFormat)
  let vFoam ← lookVersion foam "version".toList
  let vGen ← lookVersion gen "version".toList
  if ¬ (vFoam.1 = vGen.1 ∧ vFoam.2 ≤ vGen.2) then .error (.incompatible "version".toList)
  else
    let ts ← enabledTypes gen
    checkEnabled foam ts
    let f := filterInitDist.and (typeFilter ts)
    lift ((foam.filter f).checkEquivalent equiv (gen.filter f))
    checkUid foam gen ts

/-! ### merging -/

/-- A merge operation on values (`none`: wrong type). -/
abbrev Op := Val → Val → Option Val

/-- `std::logical_and` (params_format.cpp 371-378). -/
def opAnd : Op
  | .bool a, .bool b => some (.bool (a && b))
  | _, _ => none
/-- `std::logical_or` (380-387). -/
def opOr : Op
  | .bool a, .bool b => some (.bool (a || b))
  | _, _ => none
/-- `params_merge_version` (389-404). -/
def opVersion : Op
  | .version a b, .version c d =>
    some (if a = c then (if d < b then .version a b else .version c d)
      else (if c < a then .version a b else .version c d))
  | _, _ => none
/-- `params_merge_file` (406-415). -/
def opFile : Op
  | .string a, .string b => some (.string (if a = b then a else "<unknown>".toList))
  | _, _ => none
/-- `params_merge_seed_gen` (417-426, params_format.hpp 55-63): union of multisets. -/
def opSeeds : Op
  | .seedGen a, .seedGen b => some (.seedGen (b.foldl (fun l s => l.orderedInsert (· ≤ ·) s) a))
  | _, _ => none
/-- `params_merge_count` (428-435): addition as `std::size_t`, converted back to `Long`. -/
def opCount : Op
  | .long a, .long b => some (.long (Int.bmod (a + b) (2 ^ 64)))
  | _, _ => none

/-- `is_set` as an operand of `&&`: evaluated only when the operands before it are true (`c`). -/
def isSetWhen (c : Bool) (p : P) (n : Text) : Except MErr Bool :=
  if c then lift (p.isSet n) else .ok false

/-- `params_merge_value` (params_format.cpp 353-369). -/
def mergeValue (p₁ p₂ : P) (n : Text) (op : Op) (out : P) : Except MErr P := do
  let s₁ ← lift (p₁.isSet n)
  let s₂ ← isSetWhen (!s₁) p₂ n
  if !s₁ && !s₂ then
    match Params.set Val.ty out n none with
    | (.ok _, out') => .ok out'
    | (.error e, _) => .error (.params e)
  else
    let v₁ ← look p₁ n
    let v₂ ← look p₂ n
    match op v₁ v₂ with
    | none => .error (.badCast n)
    | some v =>
      match Params.set Val.ty out n (some v) with
      | (.ok _, out') => .ok out'
      | (.error e, _) => .error (.params e)

/-- A series of merges. -/
def mergeValues (p₁ p₂ : P) : List (Text × Op) → P → Except MErr P
  | [], out => .ok out
  | (n, op) :: l, out => do
    let out' ← mergeValue p₁ p₂ n op out
    mergeValues p₁ p₂ l out'

/-- The UID loop of `merge_params` (params_format.cpp 564-574). -/
def checkSameUid (p₁ p₂ : P) : List EventType → Except MErr Unit
  | [] => .ok ()
  | t :: ts => do
    let u₁ ← lookLong p₁ (nameUid t)
    let u₂ ← lookLong p₂ (nameUid t)
    if u₁ ≠ u₂ then .error (.incompatible (nameUid t)) else checkSameUid p₁ p₂ ts

/-- The seed check of `merge_params` (params_format.cpp 577-588). -/
def checkSeeds (p₁ p₂ : P) : Except MErr Unit := do
  let s₁ ← lift (p₁.isSet "mc.seed".toList)
  let s₂ ← isSetWhen s₁ p₂ "mc.seed".toList
  if s₁ && s₂ then
    let a ← lookSeeds p₁ "mc.seed".toList
    let b ← lookSeeds p₂ "mc.seed".toList
    if ∃ s ∈ a, s ∈ b then .error (.incompatible "mc.seed".toList) else .ok ()
  else .ok ()

/-- `filter_dist` (params_format.cpp 559). -/
def filterDist : Filter Tag := ((Filter.tag .xs).or (.tag .cut)).or (.tag .dist)

/-- `filter_set` (params_format.cpp 613). -/
def filterSet : Filter Tag := (filterDist.or (.tag .uid)).or (.tag .seed)

/-- Every parameter set in `p` is set in `r` (params_format.cpp 620-631). -/
def checkMerged (p r : P) : List Text → Except MErr Unit
  | [] => .ok ()
  | n :: ns => do
    let a ← lift (p.isSet n)
    let b ← isSetWhen a r n
    if a && !b then .error (.failedToMerge n) else checkMerged p r ns

/-- Every parameter set in the result is set in one of the inputs (params_format.cpp 632-639). -/
def checkClean (p₁ p₂ r : P) : List Text → Except MErr Unit
  | [] => .ok ()
  | n :: ns => do
    let c ← lift (r.isSet n)
    let a ← isSetWhen c p₁ n
    let b ← isSetWhen (c && !a) p₂ n
    if c && !a && !b then .error (.contaminated n) else checkClean p₁ p₂ r ns

/-- The merges of `merge_params`, in order (params_format.cpp 590-609). -/
def mergeList (p₁ : P) (ts : List EventType) : List (Text × Op) :=
  [("version".toList, opVersion), ("strict".toList, opAnd)] ++
  (p₁.filter (Filter.tag .file)).names.map (fun n => (n, opFile)) ++
  [("file.write_momenta".toList, opAnd), ("file.write_photon".toList, opAnd),
   ("file.write_sf_set".toList, opAnd), ("file.write_mc_coords".toList, opAnd)] ++
  ts.map (fun t => (nameEnable t, opOr)) ++
  [("mc.seed".toList, opSeeds), ("mc.num_events".toList, opCount)]

/-- `merge_params` (params_format.cpp 517-641).  The event types are enumerated in increasing order,
so the standard algorithms `set_intersection` and `set_union` amount to these lists. -/
def mergeParams (p₁ p₂ : P) : Except MErr P := do
  lift (p₁.checkFormat stdFormat)
  lift (p₂.checkFormat stdFormat)
  let v₁ ← lookVersion p₁ "version".toList
  let v₂ ← lookVersion p₂ "version".toList
  if v₁.1 ≠ v₂.1 then .error (.incompatible "version".toList)
  else
    let ts₁ ← enabledTypes p₁
    let ts₂ ← enabledTypes p₂
    let shared := [EventType.nrad, EventType.rad].filter fun t => t ∈ ts₁ ∧ t ∈ ts₂
    let all := [EventType.nrad, EventType.rad].filter fun t => t ∈ ts₁ ∨ t ∈ ts₂
    let fs := filterDist.and (typeFilter shared)
    lift ((p₁.filter fs).checkEquivalent equiv (p₂.filter fs))
    checkSameUid p₁ p₂ shared
    checkSeeds p₁ p₂
    let r ← mergeValues p₁ p₂ (mergeList p₁ all) stdFormat
    match Params.setFromAll r (p₁.filter (filterSet.and (typeFilter ts₁))) with
    | (.error e, _) => .error (.params e)
    | (.ok _, r₁) =>
      match Params.setFromAll r₁ (p₂.filter (filterSet.and (typeFilter ts₂))) with
      | (.error e, _) => .error (.params e)
      | (.ok _, r₂) =>
        checkMerged p₁ r₂ p₁.names
        checkMerged p₂ r₂ p₂.names
        checkClean p₁ p₂ r₂ r₂.names
        .ok r₂

/-- The parameter loop of `command_merge_soft` (app/sidisgen/main.cpp 1058-1090): the set read from
each further file is the first argument, what has been merged so far the second. -/
def mergeFiles : P → List P → Except MErr P
  | out, [] => .ok out
  | out, p :: ps => do
    let out' ← mergeParams p out
    mergeFiles out' ps

end Sidis.Format
