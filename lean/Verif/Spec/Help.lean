import Verif.Model.Help
import Verif.Spec.Terminal
import Verif.Spec.ParamStream

/-! # Specification vocabulary for the help commands -/

namespace Sidis.Spec

open Help ParamStream

/-- The lines of one entry of a help table: the label at the left of the first line, and beside it the
typeset text, in a column of `width` characters that begins at column `indent`. -/
def EntryLines (indent width : ℕ) (label text : Text) (ls : List Text) : Prop :=
  ∃ cell, Typeset width (words text) cell ∧ (words text = [] → cell = [[]]) ∧ (∀ l ∈ cell, l.length ≤ width) ∧
    ls.length = max 1 cell.length ∧
    ∀ (k : ℕ) l, ls[k]? = some l →
      l = padTo indent (if k = 0 then label else []) ++ padTo width (cell.getD k [])

/-- The text says that the default is `v`. -/
def SaysDefault (doc v : Text) : Prop :=
  '\'' ∉ v ∧ ∃ pre, doc = pre ++ "Default '".toList ++ v ++ "'.".toList ∨
    doc = pre ++ "Default value '".toList ++ v ++ "'.".toList

/-- The text mentions `part`. -/
def Mentions (text part : Text) : Prop := part <:+: text

end Sidis.Spec
