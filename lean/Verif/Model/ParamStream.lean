import Verif.Model.Params

/-!
# Model of parameter files (app/sidisgen/params.cpp 15-28, 285-365)

Text is a list of characters; a stream is read up to its end (no I/O errors are modelled).
The readers and writers of the individual value types are parameters here (`Codec`); the concrete
ones are in `Verif.Model.Codec`.
-/

namespace Sidis.ParamStream

/-- A line, a name or a whole file. -/
abbrev Text := List Char

/-- `std::isspace` in the "C" locale (used at params.cpp 17 and by `operator>>`).  The code calls
`std::isspace` on a plain `char`, which is only defined for non-negative values; characters outside
ASCII are taken not to be white space. -/
def isSpace (c : Char) : Bool :=
  c == ' ' || c == '\t' || c == '\n' || c == '\x0b' || c == '\x0c' || c == '\r'

/-- First `erase` of `trim` (params.cpp 19). -/
def trimLeft (s : Text) : Text := s.dropWhile isSpace

/-- `trim` (params.cpp 15-22). -/
def trim (s : Text) : Text := ((trimLeft s).reverse.dropWhile isSpace).reverse

/-- `trim_comment` (params.cpp 25-28). -/
def trimComment (s : Text) : Text := s.takeWhile (· != '#')

/-- Lines delivered by repeated `std::getline` until it fails (params.cpp 288-290).  The last,
failing `getline` delivers an empty line, which is ignored by the loop body; it is left out. -/
def lines : Text → List Text
  | [] => [[]]
  | c :: s =>
    if c = '\n' then [] :: lines s
    else
      match lines s with
      | [] => [[c]]
      | l :: ls => (c :: l) :: ls

/-- `ss >> key; std::getline(ss, value); value = trim(value)` on the trimmed line
(params.cpp 291-296).  `operator>>` skips leading white space and reads up to the next. -/
def keyValue (line : Text) : Text × Text :=
  let s := trimLeft (trim (trimComment line))
  (s.takeWhile (!isSpace ·), trim (s.dropWhile (!isSpace ·)))

/-- The loop filling `map` (params.cpp 287-303); `std::map` as an association list. -/
def buildMap (acc : List (Text × Text)) : List Text → Except (Params.Err Text) (List (Text × Text))
  | [] => .ok acc
  | l :: ls =>
    let (key, value) := keyValue l
    if key = [] then buildMap acc ls
    else if key ∈ acc.map Prod.fst then .error (.duplicate key)
    else buildMap ((key, value) :: acc) ls

/-- `std::map::find` on an association list. -/
def assoc {β : Type} : List (Text × β) → Text → Option β
  | [], _ => none
  | (k, v) :: l, n => if n = k then some v else assoc l n

/-- Reader and writer of a value type.  `read t s` returns the value constructed and, when the
stream did not fail, the text left over (`Type::read_stream`, params.hpp 75).  `write v` is `none`
when the stream is put in a failed state (`Type::write_stream`, params.hpp 76). -/
structure Codec (T V : Type) where
  read : T → Text → V × Option Text
  write : V → Option Text

variable {Tag T V : Type} [DecidableEq T] [DecidableEq Tag]

/-- The loop over the parameters (params.cpp 306-334): entries already visited, entries to visit and
what is left of `map`.  An exception leaves the entries visited so far modified; the value of the
offending entry has been replaced as well. -/
def readEntries (c : Codec T V) :
    List (Text × Params.Param Tag T V) → List (Text × Text) →
    Except (Params.Err Text) (List (Text × Text)) × List (Text × Params.Param Tag T V)
  | [], m => (.ok m, [])
  | (n, p) :: es, m =>
    match assoc m n with
    | none =>
      let r := readEntries c es m
      (r.1, (n, p) :: r.2)
    | some s =>
      match c.read p.type s with
      | (v, none) => (.error (.parse n), (n, { p with value := some v }) :: es)
      | (v, some rem) =>
        if rem ≠ [] then
          (.error (.parse n), (n, { p with value := some v, used := false }) :: es)
        else
          let r := readEntries c es (m.filter fun e => e.1 ≠ n)
          (r.1, (n, { p with value := some v, used := false }) :: r.2)

/-- `Params::read_stream` (params.cpp 285-348). -/
def readStream (c : Codec T V) (P : Params Text Tag T V) (text : Text) :
    Except (Params.Err Text) Unit × Params Text Tag T V :=
  match buildMap [] (lines text) with
  | .error e => (.error e, P)
  | .ok m =>
    match readEntries c P.entries m with
    | (.error e, es) => (.error e, ⟨es⟩)
    | (.ok [], es) => (.ok (), ⟨es⟩)
    | (.ok (_ :: _), es) => (.error .unrecognized, ⟨es⟩)

/-- `Params::write_stream` (params.cpp 350-365): the text written; `none` when a writer fails. -/
def writeStream (c : Codec T V) (P : Params Text Tag T V) : Option Text :=
  P.entries.foldr (fun e acc =>
    match e.2.value with
    | none => acc
    | some v =>
      match c.write v, acc with
      | some t, some rest => some (e.1 ++ [' '] ++ t ++ ['\n'] ++ rest)
      | _, _ => none) (some [])

end Sidis.ParamStream
