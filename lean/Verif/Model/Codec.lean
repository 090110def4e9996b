import Verif.Model.ParamStream
import Verif.Model.ProdDiv
import Verif.Model.Particle
import Mathlib.Data.Rat.Floor
import Mathlib.Data.Int.Log
import Mathlib.Data.Nat.Log

/-!
# Model of the value readers and writers (app/sidisgen/params_format.cpp 643-833)

Formatted stream input and output of the C++ library ("C" locale, default flags, precision 6, as
implemented by libstdc++) on lists of characters.  A reader returns the value and, unless the
stream is in a failed state, the characters that are left.

Doubles: a finite double is the rational it denotes.  `rnd` is the conversion of an exact decimal
to the nearest double (`none` on overflow); it is a parameter, and theorems assume only that its
relative error is small.  Signed zero is not modelled.
-/

namespace Sidis.Codec

open Sidis.ParamStream

/-! ### characters and integers -/

/-- The decimal digit with value `d < 10`. -/
def digitChar (d : ℕ) : Char := Char.ofNat (48 + d)

/-- A decimal digit. -/
def isDigit (c : Char) : Bool := decide ('0' ≤ c) && decide (c ≤ '9')

/-- The last `k` decimal digits of `n`. -/
def padDigits : ℕ → ℕ → Text
  | 0, _ => []
  | k + 1, n => padDigits k (n / 10) ++ [digitChar (n % 10)]

/-- Decimal text of a natural number. -/
def natText (n : ℕ) : Text := padDigits (Nat.log 10 n + 1) n

/-- `os << i` for an integer. -/
def writeInt (i : ℤ) : Text := if i < 0 then '-' :: natText i.natAbs else natText i.natAbs

/-- Value of a string of digits. -/
def digitsVal (s : Text) : ℕ := s.foldl (fun a c => 10 * a + (c.toNat - 48)) 0

/-- An optional sign: is it a minus sign, and the rest. -/
def readSign : Text → Bool × Text
  | '-' :: s => (true, s)
  | '+' :: s => (false, s)
  | s => (false, s)

/-- `is >> i` for an integer type: skip white space, optional sign, decimal digits.  Without digits
the stream fails and the value is 0; out of range the stream fails and the value is the nearest
limit. -/
def readInt (ty : IntTy) (s : Text) : ℤ × Option Text :=
  let r := readSign (trimLeft s)
  let ds := r.2.takeWhile isDigit
  let rest := r.2.dropWhile isDigit
  if ds = [] then (0, none)
  else
    let v : ℤ := if r.1 then -(digitsVal ds : ℤ) else digitsVal ds
    if v < ty.lo then (ty.lo, none)
    else if ty.hi < v then (ty.hi, none)
    else (v, some rest)

/-- `is >> c` for a character. -/
def readChar (s : Text) : Option (Char × Text) :=
  match trimLeft s with
  | [] => none
  | c :: r => some (c, r)

/-- `is >> str`: skip white space, read up to the next; fails when nothing is left. -/
def readWord (s : Text) : Text × Option Text :=
  let t := trimLeft s
  let w := t.takeWhile (!isSpace ·)
  (w, if w = [] then none else some (t.dropWhile (!isSpace ·)))

/-! ### doubles -/

/-- A double (signed zero not modelled). -/
inductive Dbl where
  | nan | ninf | pinf
  | fin (q : ℚ)
  deriving DecidableEq

/-- `a <= b` -/
def Dbl.le : Dbl → Dbl → Bool
  | .nan, _ => false
  | _, .nan => false
  | .ninf, _ => true
  | _, .pinf => true
  | .fin a, .fin b => decide (a ≤ b)
  | _, _ => false

/-- Round to an integer, ties to even. -/
def roundEven (q : ℚ) : ℤ :=
  let f := ⌊q⌋
  if q - f < 1 / 2 then f
  else if 1 / 2 < q - f then f + 1
  else if f % 2 = 0 then f else f + 1

/-- The six significant digits `m` and the decimal exponent `X` used to print `a > 0`
(10⁵ ≤ m < 10⁶ and a ≈ m · 10^(X-5)). -/
def sixDigits (a : ℚ) : ℕ × ℤ :=
  let X := Int.log 10 a
  let m := (roundEven (a * 10 ^ (5 - X))).toNat
  if m = 1000000 then (100000, X + 1) else (m, X)

/-- Drop trailing zeros. -/
def stripZeros (s : Text) : Text := (s.reverse.dropWhile (· == '0')).reverse

/-- A fraction, with its point unless there are no digits left. -/
def fracText (s : Text) : Text := if stripZeros s = [] then [] else '.' :: stripZeros s

/-- The exponent: sign and at least two digits. -/
def expText (X : ℤ) : Text :=
  (if X < 0 then '-' else '+') ::
    (if X.natAbs < 100 then padDigits 2 X.natAbs else natText X.natAbs)

/-- The digits in the style chosen by `%g` with precision 6. -/
def formatG (m : ℕ) (X : ℤ) : Text :=
  if -4 ≤ X ∧ X < 6 then
    let dec := (5 - X).toNat
    natText (m / 10 ^ dec) ++ fracText (padDigits dec (m % 10 ^ dec))
  else
    natText (m / 10 ^ 5) ++ fracText (padDigits 5 (m % 10 ^ 5)) ++ 'e' :: expText X

/-- `os << d` for a double (default format: `%g` with precision 6). -/
def writeDouble : Dbl → Text
  | .nan => ['n', 'a', 'n']
  | .pinf => ['i', 'n', 'f']
  | .ninf => ['-', 'i', 'n', 'f']
  | .fin q =>
    if q = 0 then ['0']
    else
      let d := sixDigits |q|
      if q < 0 then '-' :: formatG d.1 d.2 else formatG d.1 d.2

/-- The part of the text after the mantissa: exponent (0 when absent) and rest; `none` when an
exponent mark is not followed by a number. -/
def readExp (s : Text) : Option (ℤ × Text) :=
  match s with
  | c :: t =>
    if c = 'e' ∨ c = 'E' then
      let r := readSign t
      let ds := r.2.takeWhile isDigit
      if ds = [] then none
      else some (if r.1 then -(digitsVal ds : ℤ) else digitsVal ds, r.2.dropWhile isDigit)
    else some (0, s)
  | [] => some (0, [])

/-- Digits after an optional decimal point. -/
def readFrac (s : Text) : Text × Text :=
  match s with
  | '.' :: t => (t.takeWhile isDigit, t.dropWhile isDigit)
  | _ => ([], s)

/-- Conversion of an exact decimal (sign and magnitude) to a double (`strtod`); the stream fails on
overflow. -/
def convert (rnd : ℚ → Option ℚ) (neg : Bool) (q : ℚ) (rest : Text) : Dbl × Option Text :=
  match rnd (if neg then -q else q) with
  | none => (if neg then .ninf else .pinf, none)
  | some x => (.fin x, some rest)

/-- `is >> d` for a double: sign, digits with an optional point, optional exponent.  Neither "inf"
nor "nan" is accepted (libstdc++).  `rnd` converts the exact decimal to a double. -/
def readDouble (rnd : ℚ → Option ℚ) (s : Text) : Dbl × Option Text :=
  let r := readSign (trimLeft s)
  let ip := r.2.takeWhile isDigit
  let f := readFrac (r.2.dropWhile isDigit)
  if ip = [] ∧ f.1 = [] then (.fin 0, none)
  else
    match readExp f.2 with
    | none => (.fin 0, none)
    | some (e, rest) =>
      convert rnd r.1 ((digitsVal (ip ++ f.1) : ℚ) * (10 : ℚ) ^ (e - (f.1.length : ℤ))) rest

/-! ### the value types -/

/-- `RcMethod` (app/sidisgen/utility.hpp 44-51). -/
inductive RcMethod where
  | none | approx | exact
  deriving DecidableEq
/-- Singleton types of values (params_format.hpp 162-187). -/
inductive Ty where
  | version | double | int | long | bool | string | seedGen
  | rcMethod | nucleus | lepton | hadron | vec3 | bound
  deriving DecidableEq

/-- Values.  A `std::multiset<Int>` of seeds is its sorted list of elements.  The ends of a `Bound`
are what `min()` and `max()` return. -/
inductive Val where
  | version (major minor : ℤ)
  | double (d : Dbl)
  | int (i : ℤ)
  | long (i : ℤ)
  | bool (b : Bool)
  | string (s : Text)
  | seedGen (seeds : List ℤ)
  | rcMethod (x : RcMethod)
  | nucleus (x : Nucleus)
  | lepton (x : Lepton)
  | hadron (x : Hadron)
  | vec3 (x y z : Dbl)
  | bound (min max : Dbl)
  deriving DecidableEq

/-- `Value::type()` -/
def Val.ty : Val → Ty
  | .version _ _ => .version
  | .double _ => .double
  | .int _ => .int
  | .long _ => .long
  | .bool _ => .bool
  | .string _ => .string
  | .seedGen _ => .seedGen
  | .rcMethod _ => .rcMethod
  | .nucleus _ => .nucleus
  | .lepton _ => .lepton
  | .hadron _ => .hadron
  | .vec3 _ _ _ => .vec3
  | .bound _ _ => .bound

/-- Names of enumerators: (value, names accepted, first one written)
(params_format.cpp 720-735). -/
def rcNames : List (RcMethod × List Text) :=
  [(.none, ["none".toList]), (.approx, ["approx".toList]), (.exact, ["exact".toList])]
/-- params_format.cpp 724-727 -/
def nucleusNames : List (Nucleus × List Text) :=
  [(.p, ["p".toList, "proton".toList]), (.n, ["n".toList, "neutron".toList]),
   (.d, ["d".toList, "deuteron".toList])]
/-- params_format.cpp 728-731 -/
def leptonNames : List (Lepton × List Text) :=
  [(.e, ["e".toList, "electron".toList]), (.mu, ["mu".toList, "muon".toList]),
   (.tau, ["tau".toList, "tauon".toList])]
/-- params_format.cpp 732-735 -/
def hadronNames : List (Hadron × List Text) :=
  [(.pi0, ["pi0".toList, "pion0".toList]), (.piP, ["pi+".toList, "pion+".toList]),
   (.piM, ["pi-".toList, "pion-".toList]), (.k0, ["K0".toList, "kaon0".toList]),
   (.kP, ["K+".toList, "kaon+".toList]), (.kM, ["K-".toList, "kaon-".toList])]

/-- Reader of an enumeration (params_format.cpp 659-673). -/
def readEnum {E : Type} (names : List (E × List Text)) (dflt : E) (s : Text) : E × Option Text :=
  let r := readWord s
  match names.find? fun e => e.2.contains r.1 with
  | some e => (e.1, r.2)
  | none => (dflt, none)

/-- Writer of an enumeration (params_format.cpp 674-684). -/
def writeEnum {E : Type} [DecidableEq E] (names : List (E × List Text)) (v : E) : Option Text :=
  match names.find? fun e => e.1 = v with
  | some e => e.2.head?
  | none => none

/-- The loop of `TypeSeedGen::read_stream_base` (params_format.cpp 794-802); at most one iteration
per character, so `fuel` is the length of the text plus one. -/
def readSeeds : ℕ → Text → List ℤ → List ℤ × Option Text
  | 0, _, acc => (acc, none)
  | fuel + 1, s, acc =>
    match readInt .int32 s with
    | (v, none) => (acc.orderedInsert (· ≤ ·) v, none)
    | (v, some []) => (acc.orderedInsert (· ≤ ·) v, some [])
    | (v, some (c :: r)) => readSeeds fuel (c :: r) (acc.orderedInsert (· ≤ ·) v)

/-- `Type::read_stream` (params_format.cpp 715-829, params_format.hpp 154-156). -/
def read (rnd : ℚ → Option ℚ) : Ty → Text → Val × Option Text
  | .version, s =>
    -- 751-761
    let a := readInt .int32 s
    match a.2 with
    | none => (.version a.1 0, none)
    | some s₁ =>
      match readChar s₁ with
      | none => (.version a.1 0, none)
      | some (c, s₂) =>
        if c ≠ '.' then (.version a.1 0, none)
        else
          let b := readInt .int32 s₂
          (.version a.1 b.1, b.2)
  | .double, s => let r := readDouble rnd s; (.double r.1, r.2)
  | .int, s => let r := readInt .int32 s; (.int r.1, r.2)
  | .long, s => let r := readInt .int64 s; (.long r.1, r.2)
  | .bool, s =>
    -- 767-778
    let r := readWord s
    if r.1 ∈ ["1".toList, "on".toList, "true".toList, "yes".toList] then (.bool true, r.2)
    else if r.1 ∈ ["0".toList, "off".toList, "false".toList, "no".toList] then (.bool false, r.2)
    else (.bool false, none)
  | .string, s =>
    -- 784-788: `getline` fails on an exhausted stream
    if s = [] then (.string [], none)
    else
      (.string (s.takeWhile (· != '\n')), some ((s.dropWhile (· != '\n')).drop 1))
  | .seedGen, s =>
    let r := readSeeds (s.length + 1) s []
    (.seedGen r.1, r.2)
  | .rcMethod, s => let r := readEnum rcNames .none s; (.rcMethod r.1, r.2)
  | .nucleus, s => let r := readEnum nucleusNames .p s; (.nucleus r.1, r.2)
  | .lepton, s => let r := readEnum leptonNames .e s; (.lepton r.1, r.2)
  | .hadron, s => let r := readEnum hadronNames .pi0 s; (.hadron r.1, r.2)
  | .vec3, s =>
    -- 815-819
    let x := readDouble rnd s
    match x.2 with
    | none => (.vec3 x.1 (.fin 0) (.fin 0), none)
    | some s₁ =>
      let y := readDouble rnd s₁
      match y.2 with
      | none => (.vec3 x.1 y.1 (.fin 0), none)
      | some s₂ =>
        let z := readDouble rnd s₂
        (.vec3 x.1 y.1 z.1, z.2)
  | .bound, s =>
    -- 823-830
    let a := readDouble rnd s
    match a.2 with
    | none => (.bound a.1 .nan, none)
    | some s₁ =>
      let b := readDouble rnd s₁
      match b.2 with
      | none => (.bound a.1 b.1, none)
      | some s₂ => if a.1.le b.1 then (.bound a.1 b.1, some s₂) else (.bound a.1 b.1, none)

/-- `Type::write_stream` (params_format.cpp 715-833).  `TypeSeedGen::write_stream_base` (803-812)
never clears its flag `first`, so no separators are written. -/
def write : Val → Option Text
  | .version a b => some (writeInt a ++ ['.'] ++ writeInt b)
  | .double d => some (writeDouble d)
  | .int i => some (writeInt i)
  | .long i => some (writeInt i)
  | .bool b => some (if b then "on".toList else "off".toList)
  | .string s => some s
  | .seedGen seeds => some (seeds.map writeInt).flatten
  | .rcMethod x => writeEnum rcNames x
  | .nucleus x => writeEnum nucleusNames x
  | .lepton x => writeEnum leptonNames x
  | .hadron x => writeEnum hadronNames x
  | .vec3 x y z => some (writeDouble x ++ [' '] ++ writeDouble y ++ [' '] ++ writeDouble z)
  | .bound a b => some (writeDouble a ++ [' '] ++ writeDouble b)

/-- The readers and writers of the standard parameters. -/
def std (rnd : ℚ → Option ℚ) : ParamStream.Codec Ty Val := ⟨read rnd, write⟩

end Sidis.Codec
