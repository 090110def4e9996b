import Mathlib.Data.List.Basic
import Mathlib.Data.Nat.Notation

/-!
# Model of app/sidisgen/terminal.cpp

Strings are lists of characters.  `unsigned` is 32 bit, `std::size_t` 64 bit.  The sizes of texts and
lines are unbounded naturals (texts are shorter than `2^32`); the two places where unsigned
arithmetic can wrap for ordinary texts, the padding of a table cell and the length of the filled
part of the progress bar, are modelled with wrapping.  Failures of the output stream are left out.
-/

namespace Sidis.Terminal

/-- `while (word_begin != input.end() && *word_begin == ' ') ++word_begin` (terminal.cpp 14-16,
41-43). -/
def skipSpaces (s : List Char) : List Char := s.dropWhile (· = ' ')

/-- The variables of the loop of `split_lines`: the lines finished, the current line
(`result.back()`), `line_width`, and the text from `word_begin` on. -/
structure SplitState where
  prev : List (List Char)
  cur : List Char
  lineWidth : ℕ
  rest : List Char

/-- The position of a word (terminal.cpp 18-31): the new lines, whether the word is the first of its
line, `word_width`, the word and the text after it. -/
structure Placed where
  prev : List (List Char)
  cur : List Char
  lineWidth : ℕ
  first : Bool
  wordWidth : ℕ
  word : List Char
  after : List Char

/-- terminal.cpp 18-31. -/
def place (width : ℕ) (s : SplitState) : Placed :=
  let word := s.rest.takeWhile (· ≠ ' ')
  let after := s.rest.dropWhile (· ≠ ' ')
  let first : Bool := s.lineWidth = 0
  let wordWidth := word.length + (if first then 0 else 1)
  if s.lineWidth + wordWidth > width then
    if first then ⟨s.prev, s.cur, s.lineWidth, true, wordWidth, s.rest.take width, s.rest.drop width⟩
    else ⟨s.prev ++ [s.cur], [], 0, true, wordWidth - 1, word, after⟩
  else ⟨s.prev, s.cur, s.lineWidth, first, wordWidth, word, after⟩

/-- One round of the loop (terminal.cpp 17-44). -/
def splitStep (width : ℕ) (s : SplitState) : SplitState :=
  let p := place width s
  let word := if p.first then p.word else ' ' :: p.word
  ⟨p.prev, p.cur ++ word, p.lineWidth + p.wordWidth, skipSpaces p.after⟩

/-- The loop of `split_lines` (terminal.cpp 17-44), at most `fuel` rounds; `none` when it is still
running. -/
def splitLoop (width : ℕ) : ℕ → SplitState → Option (List (List Char))
  | 0, s => if s.rest = [] then some (s.prev ++ [s.cur]) else none
  | fuel + 1, s =>
    if s.rest = [] then some (s.prev ++ [s.cur]) else splitLoop width fuel (splitStep width s)

/-- `split_lines` (terminal.cpp 8-47) run for at most `fuel` rounds of its loop. -/
def splitLines (fuel : ℕ) (input : List Char) (width : ℕ) : Option (List (List Char)) :=
  splitLoop width fuel ⟨[], [], 0, skipSpaces input⟩

/-- `std::setw(3) << percent` (terminal.cpp 56-57): decimal digits, padded on the left. -/
def setw3 (n : ℕ) : List Char :=
  let digits := Nat.toDigits 10 n
  List.replicate (3 - digits.length) ' ' ++ digits

/-- `write_progress_bar` (terminal.cpp 49-79): the text written, `none` when it returns `false` and
writes nothing. -/
def progressBar (percent width : ℕ) : Option (List Char) :=
  let percent := if percent > 100 then 100 else percent
  let percentStr := setw3 percent ++ ['%']
  let percentWidth := percentStr.length
  let edgeWidth := ['['].length + [']'].length
  let spaceWidth := [' '].length
  if width ≤ percentWidth + edgeWidth + spaceWidth then none
  else
    let barWidth := width - percentWidth - edgeWidth - spaceWidth
    let barFilled := barWidth * percent % 2 ^ 32 / 100
    some (['['] ++ (List.range barWidth).map (fun idx => if idx < barFilled then '=' else ' ')
      ++ [']'] ++ [' '] ++ percentStr)

/-- `excess` (terminal.cpp 107-108): computed in 64 bit, stored in 32 bit. -/
def excess (width len spacing : ℕ) (last : Bool) : ℕ :=
  ((width + 2 ^ 64 - len) % 2 ^ 64 + (if last then 0 else spacing)) % 2 ^ 64 % 2 ^ 32

/-- The text of column `col` in line `subrow` of a table row, with its padding (terminal.cpp
103-109). -/
def cellText (cells : List (List (List Char))) (widths : List ℕ) (spacing subrow col : ℕ) :
    List Char :=
  let next := ((cells[col]?).bind (·[subrow]?)).getD []
  next ++ List.replicate
    (excess ((widths[col]?).getD 0) next.length spacing (col = widths.length - 1)) ' '

/-- One row of the table (terminal.cpp 90-112): the lines written for it. -/
def tableRow (fuel : ℕ) (entries : List (List Char)) (widths : List ℕ) (spacing : ℕ) :
    Option (List (List Char)) := do
  let cells ← (entries.zip widths).mapM fun (e, w) => splitLines fuel e w
  let subrowCount := (cells.map List.length).foldl (fun m n => if n > m then n else m) 0
  return (List.range subrowCount).map fun subrow =>
    ((List.range widths.length).map (cellText cells widths spacing subrow)).flatten

/-- The entries of the table, one list for each row. -/
def chunks (n : ℕ) : ℕ → List (List Char) → List (List (List Char))
  | 0, _ => []
  | rows + 1, l => l.take n :: chunks n rows (l.drop n)

/-- Result of `write_table`. -/
inductive TableRes where
  /-- returns `false` -/
  | refused
  /-- these lines were written -/
  | lines (l : List (List Char))
  /-- still inside `split_lines` -/
  | running
deriving DecidableEq

/-- `write_table` (terminal.cpp 81-116). -/
def writeTable (fuel : ℕ) (entries : List (List Char)) (widths : List ℕ) (spacing : ℕ) : TableRes :=
  if widths.length = 0 ∨ entries.length % widths.length ≠ 0 then .refused
  else
    match (chunks widths.length (entries.length / widths.length) entries).mapM
        (tableRow fuel · widths spacing) with
    | some rows => .lines rows.flatten
    | none => .running

end Sidis.Terminal
