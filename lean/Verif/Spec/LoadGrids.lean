import Verif.Model.LoadGrids
import Verif.Spec.ParamStream

/-! # What is expected of the loading of tables -/

namespace Sidis.Spec

open Sidis.ParamStream

/-- A decimal number as it is written: sign, digits before and after the point, exponent. -/
structure Numeral where
  /-- `'+'`, `'-'` or nothing -/
  sign : Option Char
  int : Text
  /-- the digits after the point, if there is a point -/
  frac : Option Text
  /-- `'e'` or `'E'`, the sign and the digits of the exponent, if there is one -/
  exp : Option (Char × Option Char × Text)

/-- Decimal digits. -/
def Digits (s : Text) : Prop := ∀ c ∈ s, '0' ≤ c ∧ c ≤ '9'

/-- A sign, or none. -/
def SignOk (s : Option Char) : Prop := s = none ∨ s = some '+' ∨ s = some '-'

/-- It is a number: there are digits, in the exponent as well. -/
structure Numeral.Ok (n : Numeral) : Prop where
  sign : SignOk n.sign
  int : Digits n.int
  frac : ∀ f ∈ n.frac, Digits f
  some_digit : n.int ≠ [] ∨ ∃ f, n.frac = some f ∧ f ≠ []
  exp : ∀ m s d, n.exp = some (m, s, d) → (m = 'e' ∨ m = 'E') ∧ SignOk s ∧ Digits d ∧ d ≠ []

/-- Its characters. -/
def Numeral.text (n : Numeral) : Text :=
  n.sign.toList ++ n.int ++ (match n.frac with | none => [] | some f => '.' :: f) ++
    match n.exp with
    | none => []
    | some (m, s, d) => m :: s.toList ++ d

/-- The number written by digits. -/
def digitsNat : Text → ℕ
  | [] => 0
  | c :: s => (c.toNat - 48) * 10 ^ s.length + digitsNat s

/-- The value of the digits after the point. -/
def fracValue : Option Text → ℚ
  | none => 0
  | some f => (digitsNat f : ℚ) / 10 ^ f.length

/-- The power of ten. -/
def scale : Option (Char × Option Char × Text) → ℚ
  | none => 1
  | some (_, s, d) => if s = some '-' then 1 / 10 ^ digitsNat d else 10 ^ digitsNat d

/-- Its value. -/
def Numeral.value (n : Numeral) : ℚ :=
  (if n.sign = some '-' then -1 else 1) * ((digitsNat n.int : ℚ) + fracValue n.frac) * scale n.exp

/-- The line begins with numbers, each followed by white space or the end of the line; whatever follows the
last one. -/
inductive Row : Text → List Numeral → Prop where
  | nil (s : Text) : Row s []
  | cons (w : Text) (n : Numeral) (s : Text) (ns : List Numeral) (hw : Blank w) (hn : n.Ok)
      (hs : s = [] ∨ ∃ c t, s = c :: t ∧ isSpace c = true) (h : Row s ns) : Row (w ++ n.text ++ s) (n :: ns)

/-- The line begins with numbers, whatever follows the last one; there need not be white space between
them. -/
inductive Begins : Text → List Numeral → Prop where
  | nil (s : Text) : Begins s []
  | cons (w : Text) (n : Numeral) (s : Text) (ns : List Numeral) (hw : Blank w) (hn : n.Ok)
      (h : Begins s ns) : Begins (w ++ n.text ++ s) (n :: ns)

/-- The values of the numbers, as `Real`s. -/
def RowOf (rnd : ℚ → Option ℚ) (ns : List Numeral) (xs : List ℚ) : Prop :=
  List.Forall₂ (fun n x => rnd n.value = some x) ns xs

/-- The table of these numbers. -/
def tableOf (xss : List (List ℚ)) : Interp.Table :=
  xss.map fun (xs : List ℚ) (i : ℕ) => match xs[i]? with
    | some x => .fin x
    | none => .nan

/-- The file consists of these lines: each ends with a line feed, except possibly the last one if it has
characters. -/
def FileOf (t : Text) (ls : List Text) : Prop :=
  (∀ l ∈ ls, '\n' ∉ l) ∧
    (t = ls.flatMap (· ++ ['\n']) ∨ ∃ init last, ls = init ++ [last] ∧ last ≠ [] ∧
      t = init.flatMap (· ++ ['\n']) ++ last)

/-- The places where a data file is looked for, in this order. -/
def places (datadir name : String) : List String :=
  [datadir ++ "/sidis/sf_set/prokudin/" ++ name,
   "../share/sidis/sf_set/prokudin/" ++ name,
   "sidis/sf_set/prokudin/" ++ name,
   "prokudin/" ++ name,
   name]

/-- The file that is used: it can be opened at one of the places, and at none before. -/
def Found (disk : Text → Option Text) (datadir name : String) (t : Text) : Prop :=
  ∃ before p after, places datadir name = before ++ p :: after ∧
    (∀ q ∈ before, disk q.toList = none) ∧ disk p.toList = some t

/-- The files of the Prokudin sets in the order they are loaded, with the number of columns after the two
coordinates; the first one is read by the library mstwpdf. -/
def tableFiles : List (ℕ × String) :=
  [(6, "fragmentationpiplus.dat"), (6, "fragmentationpiminus.dat"), (6, "g1.dat"),
   (6, "gT_u_d_ubar_dbar_s_sbar.dat"), (2, "xh1Lperp_u_d.dat"), (6, "SofferBound.dat")]

/-- Two loadings fail in the same way. -/
def SameFailure {α β : Type} : LoadGrids.Load α → LoadGrids.Load β → Prop
  | .notFound f, .notFound g => f = g
  | .parseError f, .parseError g => f = g
  | .badGrid e, .badGrid e' => e = e'
  | .ub, .ub => True
  | _, _ => False

/-- The quarks. -/
inductive QuarkFlavor where
  | u | d | s | ubar | dbar | sbar
  deriving DecidableEq

/-- The flavours of the Prokudin sets, by index. -/
def flavors : List QuarkFlavor := [.u, .d, .s, .ubar, .dbar, .sbar]

/-- The columns of the file gT_u_d_ubar_dbar_s_sbar.dat, by its name. -/
def gTColumns : List QuarkFlavor := [.u, .d, .ubar, .dbar, .s, .sbar]

/-- The charge of a quark in units of the elementary charge. -/
def QuarkFlavor.charge : QuarkFlavor → ℚ
  | .u => 2 / 3
  | .d | .s => -1 / 3
  | .ubar => -2 / 3
  | .dbar | .sbar => 1 / 3

end Sidis.Spec
