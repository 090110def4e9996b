import Verif.Model.ParamStream
import Verif.Model.Fl
import Verif.Model.Particle

/-!
# Model of structure function sets, their filters, and `alloc_sf`

Structure functions are functions of `(hadron, x, z, Q_sq, ph_t_sq)`; the argument is kept as a whole
(`A`).  Console messages are left out.  ROOT (loading of shared libraries, `TClass`) is an interface:
`Env`.
-/

namespace Sidis.SfMask

open Sidis.ParamStream (isSpace)

/-- `NUM_SF` (include/sidis/sf_set/mask.hpp 14). -/
def numSf : ℕ := 18

/-- `SfSet` (include/sidis/structure_function.hpp 45-85): the eighteen structure functions. -/
structure SfSet (A : Type) where
  F_UUL : A → Fl
  F_UUT : A → Fl
  F_UU_cos_phih : A → Fl
  F_UU_cos_2phih : A → Fl
  F_UL_sin_phih : A → Fl
  F_UL_sin_2phih : A → Fl
  F_UTL_sin_phih_m_phis : A → Fl
  F_UTT_sin_phih_m_phis : A → Fl
  F_UT_sin_2phih_m_phis : A → Fl
  F_UT_sin_3phih_m_phis : A → Fl
  F_UT_sin_phis : A → Fl
  F_UT_sin_phih_p_phis : A → Fl
  F_LU_sin_phih : A → Fl
  F_LL : A → Fl
  F_LL_cos_phih : A → Fl
  F_LT_cos_phih_m_phis : A → Fl
  F_LT_cos_2phih_m_phis : A → Fl
  F_LT_cos_phis : A → Fl

/-- A `bool` array of `NUM_SF` elements; entries beyond the end are not read. -/
abbrev Mask := List Bool

/-- An array given by its initializer list of zeros and ones. -/
def maskOf (l : List ℕ) : Mask := l.map (· ≠ 0)

/-- mask.hpp 17-19 -/
def maskLeading : Mask := maskOf [0, 1, 0, 1, 0, 1, 0, 1, 0, 1, 0, 1, 0, 1, 0, 1, 0, 0]
/-- mask.hpp 21-23 -/
def maskSubleading : Mask := maskOf [1, 0, 1, 0, 1, 0, 1, 0, 1, 0, 1, 0, 1, 0, 1, 0, 1, 1]
/-- mask.hpp 26-28 -/
def maskUU : Mask := maskOf [1, 1, 1, 1, 0, 0, 0, 0, 0, 0, 0, 0, 0, 0, 0, 0, 0, 0]
/-- mask.hpp 29-31 -/
def maskUL : Mask := maskOf [0, 0, 0, 0, 1, 1, 0, 0, 0, 0, 0, 0, 0, 0, 0, 0, 0, 0]
/-- mask.hpp 32-34 -/
def maskUT : Mask := maskOf [0, 0, 0, 0, 0, 0, 1, 1, 1, 1, 1, 1, 0, 0, 0, 0, 0, 0]
/-- mask.hpp 35-37 -/
def maskUP : Mask := maskOf [0, 0, 0, 0, 1, 1, 1, 1, 1, 1, 1, 1, 0, 0, 0, 0, 0, 0]
/-- mask.hpp 38-40 -/
def maskUX : Mask := maskOf [1, 1, 1, 1, 1, 1, 1, 1, 1, 1, 1, 1, 0, 0, 0, 0, 0, 0]
/-- mask.hpp 41-43 -/
def maskLU : Mask := maskOf [0, 0, 0, 0, 0, 0, 0, 0, 0, 0, 0, 0, 1, 0, 0, 0, 0, 0]
/-- mask.hpp 44-46 -/
def maskLL : Mask := maskOf [0, 0, 0, 0, 0, 0, 0, 0, 0, 0, 0, 0, 0, 1, 1, 0, 0, 0]
/-- mask.hpp 47-49 -/
def maskLT : Mask := maskOf [0, 0, 0, 0, 0, 0, 0, 0, 0, 0, 0, 0, 0, 0, 0, 1, 1, 1]
/-- mask.hpp 50-52 -/
def maskLP : Mask := maskOf [0, 0, 0, 0, 0, 0, 0, 0, 0, 0, 0, 0, 0, 1, 1, 1, 1, 1]
/-- mask.hpp 53-55 -/
def maskLX : Mask := maskOf [0, 0, 0, 0, 0, 0, 0, 0, 0, 0, 0, 0, 1, 1, 1, 1, 1, 1]
/-- mask.hpp 56-58 -/
def maskXU : Mask := maskOf [1, 1, 1, 1, 0, 0, 0, 0, 0, 0, 0, 0, 1, 0, 0, 0, 0, 0]
/-- mask.hpp 59-61 -/
def maskXL : Mask := maskOf [0, 0, 0, 0, 1, 1, 0, 0, 0, 0, 0, 0, 0, 1, 1, 0, 0, 0]
/-- mask.hpp 62-64 -/
def maskXT : Mask := maskOf [0, 0, 0, 0, 0, 0, 1, 1, 1, 1, 1, 1, 0, 0, 0, 1, 1, 1]
/-- mask.hpp 65-67 -/
def maskXP : Mask := maskOf [0, 0, 0, 0, 1, 1, 1, 1, 1, 1, 1, 1, 0, 1, 1, 1, 1, 1]
/-- mask.hpp 68-70 -/
def maskXX : Mask := maskOf [1, 1, 1, 1, 1, 1, 1, 1, 1, 1, 1, 1, 1, 1, 1, 1, 1, 1]

/-- One method of `MaskSfSet` (mask.hpp 133-263). -/
def masked {A : Type} (m : Mask) (idx : ℕ) (f : A → Fl) : A → Fl := fun a =>
  if m.getD idx false then f a else .fin 0

/-- `MaskSfSet` (mask.hpp 101-264): its constructor copies the mask; its methods. -/
def maskSfSet {A : Type} (m : Mask) (sf : SfSet A) : SfSet A where
  F_UUL := masked m 0 sf.F_UUL
  F_UUT := masked m 1 sf.F_UUT
  F_UU_cos_phih := masked m 2 sf.F_UU_cos_phih
  F_UU_cos_2phih := masked m 3 sf.F_UU_cos_2phih
  F_UL_sin_phih := masked m 4 sf.F_UL_sin_phih
  F_UL_sin_2phih := masked m 5 sf.F_UL_sin_2phih
  F_UTL_sin_phih_m_phis := masked m 6 sf.F_UTL_sin_phih_m_phis
  F_UTT_sin_phih_m_phis := masked m 7 sf.F_UTT_sin_phih_m_phis
  F_UT_sin_2phih_m_phis := masked m 8 sf.F_UT_sin_2phih_m_phis
  F_UT_sin_3phih_m_phis := masked m 9 sf.F_UT_sin_3phih_m_phis
  F_UT_sin_phis := masked m 10 sf.F_UT_sin_phis
  F_UT_sin_phih_p_phis := masked m 11 sf.F_UT_sin_phih_p_phis
  F_LU_sin_phih := masked m 12 sf.F_LU_sin_phih
  F_LL := masked m 13 sf.F_LL
  F_LL_cos_phih := masked m 14 sf.F_LL_cos_phih
  F_LT_cos_phih_m_phis := masked m 15 sf.F_LT_cos_phih_m_phis
  F_LT_cos_2phih_m_phis := masked m 16 sf.F_LT_cos_2phih_m_phis
  F_LT_cos_phis := masked m 17 sf.F_LT_cos_phis

/-- `zip_and` (app/sidisgen/main.cpp 209-215). -/
def zipAnd (a b : Mask) : Mask := a.zipWith (· && ·) b

/-- Outcome of `alloc_sf`. -/
inductive Res (α : Type) where
  | ok (a : α)
  /-- `Exception` with `ERROR_STRUCTURE_FUNCTIONS_PARSE` -/
  | parseError
  /-- `Exception` with `ERROR_FILE_NOT_FOUND` -/
  | fileNotFound
  /-- `Exception` with `ERROR_STRUCTURE_FUNCTIONS_NOT_FOUND` -/
  | notFound
  /-- `std::invalid_argument` or `std::out_of_range`, thrown by `std::stoul` -/
  | stdError
  /-- undefined behaviour -/
  | ub

/-- Sequencing. -/
def Res.bind {α β : Type} : Res α → (α → Res β) → Res β
  | .ok a, f => f a
  | .parseError, _ => .parseError
  | .fileNotFound, _ => .fileNotFound
  | .notFound, _ => .notFound
  | .stdError, _ => .stdError
  | .ub, _ => .ub

/-- What the class found in a shared library is (main.cpp 269-310): it inherits from `SfSet`, or from
one of the four TMD sets, from which the structure functions are made; or none of these. -/
inductive Class (A : Type) where
  | sfSet (sf : SfSet A)
  | tmd (sf : SfSet A)
  | gaussianTmd (sf : SfSet A)
  | wwTmd (sf : SfSet A)
  | gaussianWwTmd (sf : SfSet A)
  | other

/-- Surroundings of `alloc_sf`: the built-in sets and ROOT. -/
structure Env (A : Type) where
  prokudin : SfSet A
  test : Nucleus → SfSet A
  /-- `gSystem->Load(file) == 0` -/
  load : List Char → Bool
  /-- `TClass::GetClass(name)`, `none` for a null pointer -/
  getClass : List Char → Option (Class A)

/-- `while (ss >> next_part) parts.push_back(next_part)` (main.cpp 230-233), with as many rounds as
there are characters at most. -/
def readParts : ℕ → List Char → List (List Char)
  | 0, _ => []
  | fuel + 1, s =>
    let t := s.dropWhile (isSpace ·)
    if t = [] then []
    else t.takeWhile (fun c => !isSpace c) :: readParts fuel (t.dropWhile (fun c => !isSpace c))

/-- The base structure function (main.cpp 240-318). -/
def allocBase {A : Type} (env : Env A) (target : Nucleus) (base : List Char) : Res (SfSet A) :=
  if base = "prokudin".toList then .ok env.prokudin
  else if base = "test".toList then .ok (env.test target)
  else if !env.load (base ++ ".so".toList) then .fileNotFound
  else
    match env.getClass base with
    | none => .ub
    | some (.sfSet sf) => .ok sf
    | some (.tmd sf) => .ok sf
    | some (.gaussianTmd sf) => .ok sf
    | some (.wwTmd sf) => .ok sf
    | some (.gaussianWwTmd sf) => .ok sf
    | some .other => .notFound

/-- The characters `0` to `9`. -/
def isDigit (c : Char) : Bool := c ∈ "0123456789".toList

/-- `std::regex_match(part, match, mask_regex)` with `match[1]`, for the regular expression as it is
written, `select([0-9]+)` in the POSIX basic grammar (main.cpp 322, 349). In the basic grammar the
characters `(`, `)` and `+` stand for themselves, and there is no group, so `match[1]` is empty. -/
def matchBasic (part : List Char) : Option (List Char) :=
  match part with
  | ['s', 'e', 'l', 'e', 'c', 't', '(', d, '+', ')'] => if isDigit d then some [] else none
  | _ => none

/-- The same for the extended grammar, which is what the expression is written for. Not the code. -/
def matchExtended (part : List Char) : Option (List Char) :=
  match part with
  | 's' :: 'e' :: 'l' :: 'e' :: 'c' :: 't' :: d :: ds =>
    if (d :: ds).all isDigit then some (d :: ds) else none
  | _ => none

/-- The value of a string of digits. -/
def digitsValue (ds : List Char) : ℕ := ds.foldl (fun n c => 10 * n + (c.toNat - '0'.toNat)) 0

/-- `std::stoul` on a string of digits, with 64 bit `unsigned long`. -/
def stoul (ds : List Char) : Res ℕ :=
  if ds = [] then .stdError else if digitsValue ds < 2 ^ 64 then .ok (digitsValue ds) else .stdError

/-- The mask of a filter word (main.cpp 327-363). -/
def filterMask (regexMatch : List Char → Option (List Char)) (part : List Char) : Res Mask :=
  if part = "leading".toList then .ok maskLeading
  else if part = "subleading".toList then .ok maskSubleading
  else if part = "uu".toList then .ok maskUU
  else if part = "ul".toList then .ok maskUL
  else if part = "ut".toList then .ok maskUT
  else if part = "up".toList then .ok maskUP
  else if part = "ux".toList then .ok maskUX
  else if part = "lu".toList then .ok maskLU
  else if part = "ll".toList then .ok maskLL
  else if part = "lt".toList then .ok maskLT
  else if part = "lp".toList then .ok maskLP
  else if part = "lx".toList then .ok maskLX
  else if part = "xu".toList then .ok maskXU
  else if part = "xl".toList then .ok maskXL
  else if part = "xt".toList then .ok maskXT
  else if part = "xp".toList then .ok maskXP
  else if part = "xx".toList then .ok maskXX
  else
    match regexMatch part with
    | some group =>
      (stoul group).bind fun idx =>
        if idx > numSf then .parseError
        else if idx < numSf then .ok ((List.replicate numSf false).set idx true)
        else .ub -- write behind the end of `select_mask`
    | none => .parseError

/-- The loop over the filter words, last word first (main.cpp 324-364); `parts` is already reversed.
-/
def maskLoop (regexMatch : List Char → Option (List Char)) : List (List Char) → Mask → Res Mask
  | [], mask => .ok mask
  | part :: parts, mask =>
    (filterMask regexMatch part).bind fun m => maskLoop regexMatch parts (zipAnd mask m)

/-- `alloc_sf` (main.cpp 218-376) for the value `name` of `phys.sf_set`, with the given regular
expression matcher. -/
def allocSfWith {A : Type} (regexMatch : List Char → Option (List Char)) (env : Env A)
    (target : Nucleus) (name : List Char) : Res (SfSet A) :=
  match (readParts name.length name).reverse with
  | [] => .parseError
  | base :: parts =>
    (allocBase env target base).bind fun sf =>
      (maskLoop regexMatch parts (List.replicate numSf true)).bind fun mask =>
        if mask.all id then .ok sf else .ok (maskSfSet mask sf)

/-- `alloc_sf` (main.cpp 218-376). -/
def allocSf {A : Type} (env : Env A) (target : Nucleus) (name : List Char) : Res (SfSet A) :=
  allocSfWith matchBasic env target name

end Sidis.SfMask
