import Verif.Model.ParamStream

/-!
# Specification of parameter files

What a line says, without reference to how the program cuts it up.
-/

namespace Sidis.Spec

open Sidis.ParamStream

/-- Only white space. -/
def Blank (s : Text) : Prop := ∀ c ∈ s, isSpace c = true

/-- A comment (possibly absent). -/
def Comment (s : Text) : Prop := s = [] ∨ ∃ t, s = '#' :: t

/-- A name: non-empty, no white space, no comment sign. -/
def Word (k : Text) : Prop := k ≠ [] ∧ ∀ c ∈ k, isSpace c = false ∧ c ≠ '#'

/-- The text of a value: no comment sign, no white space at either end (it may be empty, and it may
contain white space inside). -/
def Body (v : Text) : Prop :=
  (∀ c ∈ v, c ≠ '#') ∧ (∀ c ∈ v.head?, isSpace c = false) ∧ (∀ c ∈ v.getLast?, isSpace c = false)

/-- The line has nothing on it but white space and a comment. -/
def SaysNothing (line : Text) : Prop :=
  ∃ w c, Blank w ∧ Comment c ∧ line = w ++ c

/-- The line gives the name `k` the value text `v`. -/
def Says (line k v : Text) : Prop :=
  ∃ w₁ w₂ w₃ c, Blank w₁ ∧ Blank w₂ ∧ Blank w₃ ∧ Comment c ∧ Word k ∧ Body v ∧
    (v ≠ [] → w₂ ≠ []) ∧ line = w₁ ++ k ++ w₂ ++ v ++ w₃ ++ c

/-- A file as the reader of the file sees it: each line says nothing or gives a name a value. -/
inductive Line where
  | nothing (line : Text)
  | says (line k v : Text)

/-- The characters of the line. -/
def Line.text : Line → Text
  | .nothing l => l
  | .says l _ _ => l

/-- The line really says what is claimed, and is one line. -/
def Line.Ok : Line → Prop
  | .nothing l => SaysNothing l ∧ '\n' ∉ l
  | .says l k v => Says l k v ∧ '\n' ∉ l

/-- What the file says. -/
def said : List Line → List (Text × Text)
  | [] => []
  | .nothing _ :: ls => said ls
  | .says _ k v :: ls => (k, v) :: said ls

/-- The characters of the file: lines separated by newlines. -/
def fileText (ls : List Line) : Text := ['\n'].intercalate (ls.map Line.text)

/-- The value text `s` is a complete value `v` of type `t`. -/
def Parses {T V : Type} (c : Codec T V) (t : T) (s : Text) (v : V) : Prop :=
  c.read t s = (v, some [])

end Sidis.Spec
