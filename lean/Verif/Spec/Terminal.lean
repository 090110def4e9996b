import Verif.Model.Terminal
import Mathlib.Data.List.SplitOn

/-! # Specification vocabulary for terminal output -/

namespace Sidis.Spec

/-- The words of a text: its maximal parts without a space. -/
def words (s : List Char) : List (List Char) := (s.splitOn ' ').filter (· ≠ [])

/-- A line made of some words, with one space between them. -/
def line (ws : List (List Char)) : List Char := [' '].intercalate ws

/-- `lines` is what a typesetter makes of the words `ws`: all the words in order, one space between
the words of a line, no line longer than `width` unless it holds a single word, and a new line
only where the next word does not fit. -/
def Typeset (width : ℕ) (ws : List (List Char)) (lines : List (List Char)) : Prop :=
  ∃ groups : List (List (List Char)), groups.flatten = ws ∧ lines = groups.map line ∧
    (∀ g ∈ groups, (line g).length ≤ width ∨ ∃ w, g = [w]) ∧ (ws ≠ [] → ∀ g ∈ groups, g ≠ []) ∧
    ∀ i g h w, groups[i]? = some g → groups[i + 1]? = some h → h.head? = some w →
      width < (line g).length + 1 + w.length

/-- The words of a text after the first of them was cut at `width`. -/
def cutFirst (width : ℕ) : List (List Char) → List (List Char)
  | [] => []
  | w :: ws => if w.length ≤ width then w :: ws else w.take width :: w.drop width :: ws

/-- A text extended with spaces to `n` characters. -/
def padTo (n : ℕ) (s : List Char) : List Char := s ++ List.replicate (n - s.length) ' '

end Sidis.Spec
