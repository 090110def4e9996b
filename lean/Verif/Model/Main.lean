import Verif.Model.Format

/-!
# Command line (app/sidisgen/main.cpp 1157-1259, exception.hpp)

The arguments are texts without NUL characters, as the operating system delivers them; nothing
depends on this.  What the commands do is a parameter (`Result`).
-/

namespace Sidis.Main

open Sidis.ParamStream

/-- The error codes (exception.hpp 7-28). -/
def SUCCESS : ℤ := 0
@[inherit_doc SUCCESS] def ERROR : ℤ := -1
@[inherit_doc SUCCESS] def ERROR_ARG_PARSE : ℤ := -2
@[inherit_doc SUCCESS] def ERROR_FILE_NOT_FOUND : ℤ := -3
@[inherit_doc SUCCESS] def ERROR_FILE_NOT_CREATED : ℤ := -4
@[inherit_doc SUCCESS] def ERROR_NO_EVENT_TYPES_ENABLED : ℤ := -5
@[inherit_doc SUCCESS] def ERROR_WRITING_FOAM : ℤ := -6
@[inherit_doc SUCCESS] def ERROR_READING_FOAM : ℤ := -7
@[inherit_doc SUCCESS] def ERROR_BUILDING_FOAM : ℤ := -8
@[inherit_doc SUCCESS] def ERROR_READING_PARAMS : ℤ := -9
@[inherit_doc SUCCESS] def ERROR_WRITING_PARAMS : ℤ := -10
@[inherit_doc SUCCESS] def ERROR_PARAMS_PARSE : ℤ := -11
@[inherit_doc SUCCESS] def ERROR_PARAMS_INVALID : ℤ := -12
@[inherit_doc SUCCESS] def ERROR_MERGING_PARAMS : ℤ := -13
@[inherit_doc SUCCESS] def ERROR_FOAM_INCOMPATIBLE : ℤ := -14
@[inherit_doc SUCCESS] def ERROR_FOAM_NOT_FOUND : ℤ := -15
@[inherit_doc SUCCESS] def ERROR_STRUCTURE_FUNCTIONS_NOT_FOUND : ℤ := -16
@[inherit_doc SUCCESS] def ERROR_STRUCTURE_FUNCTIONS_PARSE : ℤ := -17
@[inherit_doc SUCCESS] def ERROR_WRITING_EVENTS : ℤ := -18
@[inherit_doc SUCCESS] def ERROR_READING_STATS : ℤ := -19
@[inherit_doc SUCCESS] def ERROR_WRITING_STATS : ℤ := -20
@[inherit_doc SUCCESS] def ERROR_UNIMPLEMENTED : ℤ := -21

/-- The commands that are called from `main`. -/
inductive Command
  /-- `command_help` -/
  | help
  /-- `command_help_params` -/
  | helpParams
  /-- `command_help_param` -/
  | helpParam (topic : Text)
  /-- `command_version` -/
  | version
  /-- `command_inspect` -/
  | inspect (file : Text)
  /-- `command_initialize` -/
  | init (file : Text)
  /-- `command_generate` -/
  | generate (file : Text)
  /-- `command_merge_soft` -/
  | mergeSoft (out : Text) (files : List Text)
  /-- `command_merge_hard` -/
  | mergeHard (out : Text) (files : List Text)
  deriving DecidableEq

/-- Exceptions of `main` itself. -/
inductive ArgErr
  | unexpected (arg : Text)
  | expected (cmd : Text)
  | unrecognized (cmd : Text)
  deriving DecidableEq

/-- What `main` decides to do. -/
inductive Choice
  /-- print "Try `sidisgen help`." -/
  | hint
  | run (c : Command)
  | error (e : ArgErr)
  deriving DecidableEq

/-- `command[i]` (main.cpp 1173): the terminating NUL at the end, undefined behaviour (`none`) after
it. -/
def charAt (s : Text) (i : ℕ) : Option Char :=
  if h : i < s.length then some s[i] else if i = s.length then some '\x00' else none

/-- `command[0] == '-' && command[1] == '-' && command[2] != '-'` (main.cpp 1173). -/
def isLong (s : Text) : Option Bool := do
  let c0 ← charAt s 0
  if c0 = '-' then
    let c1 ← charAt s 1
    if c1 = '-' then
      let c2 ← charAt s 2
      some (c2 ≠ '-')
    else some false
  else some false

/-- The branches of a command with exactly one file argument (main.cpp 1190-1198, 1201-1209,
1212-1220). -/
def oneFile (name : String) (argv : List Text) (c : Text → Command) : Option Choice :=
  if 3 < argv.length then (argv[3]?).map fun a => .error (.unexpected a)
  else if argv.length < 3 then some (.error (.expected name.toList))
  else (argv[2]?).map fun f => .run (c f)

/-- The branches of the merge commands (main.cpp 1222-1231, 1233-1242). -/
def manyFiles (name : String) (argv : List Text) (c : Text → List Text → Command) : Option Choice :=
  if argv.length < 4 then some (.error (.expected name.toList))
  else (argv[2]?).map fun out => .run (c out (argv.drop 3))

/-- The body of `main` (main.cpp 1166-1247).  `none` is undefined behaviour (an access behind the
end of a string or of `argv`). -/
def dispatch (argv : List Text) : Option Choice :=
  if argv.length ≤ 1 then some .hint
  else do
    let command ← argv[1]?
    let long ← isLong command
    let command := if long then command.drop 2 else command
    if command = "help".toList ∨ command = "-?".toList then
      if 3 ≤ argv.length then
        let topic ← argv[2]?
        if topic = "params".toList then some (.run .helpParams)
        else some (.run (.helpParam topic))
      else some (.run .help)
    else if command = "version".toList ∨ command = "-v".toList then some (.run .version)
    else if command = "inspect".toList ∨ command = "-i".toList then
      oneFile "inspect" argv .inspect
    else if command = "initialize".toList ∨ command = "-i".toList then
      oneFile "initialize" argv .init
    else if command = "generate".toList ∨ command = "-g".toList then
      oneFile "generate" argv .generate
    else if command = "merge-soft".toList then manyFiles "merge-soft" argv .mergeSoft
    else if command = "merge-hard".toList then manyFiles "merge-hard" argv .mergeHard
    else some (.error (.unrecognized command))

/-- How a command ends. -/
inductive Result
  | returns (code : ℤ)
  /-- `Exception` (exception.hpp 30-47) -/
  | exception (code : ℤ)
  /-- any other `std::exception` -/
  | stdException
  /-- anything else that is thrown -/
  | unknown
  deriving DecidableEq

/-- The handlers (main.cpp 1248-1257). -/
def Result.code : Result → ℤ
  | .returns c => c
  | .exception c => c
  | .stdException => ERROR
  | .unknown => ERROR

/-- What `main` returns (main.cpp 1157-1259). -/
def main (cmd : Command → Result) (argv : List Text) : Option ℤ :=
  (dispatch argv).map fun
    | .hint => SUCCESS
    | .run c => (cmd c).code
    | .error _ => Result.code (.exception ERROR_ARG_PARSE)

/-- The exit status the calling process sees (POSIX: the low eight bits). -/
def exitStatus (code : ℤ) : ℤ := code % 256

end Sidis.Main
