import Verif.Model.Codec
import Verif.Model.ReadGrids

/-!
# Model of the loading of the tables of the Prokudin sets (src/sf_set/prokudin.cpp 120-274)

The disk maps the name of a file to its characters, `none` when it cannot be opened.  Simplifications: the
file does not change while it is read, no read fails, and a directory is a file that cannot be opened.
Numbers are read as in `Model.Codec`; `rnd` converts the exact decimal to a `Real`.
-/

namespace Sidis.LoadGrids

open Sidis.ParamStream Sidis.Codec Sidis.Interp

/-- The files. -/
abbrev Disk := Text → Option Text

/-- How loading ends. -/
inductive Load (α : Type) where
  | ok (a : α)
  /-- `DataFileNotFound` (src/exception.cpp 50-53) -/
  | notFound (file : Text)
  /-- `DataFileParseError` (exception.cpp 55-58) -/
  | parseError (file : Text)
  /-- an exception of `read_grids` -/
  | badGrid (e : GridError)
  | ub

def Load.bind {α β : Type} : Load α → (α → Load β) → Load β
  | .ok a, f => f a
  | .notFound n, _ => .notFound n
  | .parseError n, _ => .parseError n
  | .badGrid e, _ => .badGrid e
  | .ub, _ => .ub

/-- The end of `read_grids`. -/
def Load.ofRes {α : Type} : Res α → Load α
  | .val a => .ok a
  | .throw e => .badGrid e
  | .ub => .ub

/-- The names passed to `fin.open` in `find_file` (prokudin.cpp 121-140); the directories `SF_SET_DIR` and
`PROKUDIN_DIR` are at 18-19, `DATADIR` is defined in src/CMakeLists.txt 105. -/
def candidates (datadir name : Text) : List Text :=
  [datadir ++ "/sidis/sf_set/prokudin/".toList ++ name,
   "../share/sidis/sf_set/prokudin/".toList ++ name,
   "sidis/sf_set/prokudin/".toList ++ name,
   "prokudin/".toList ++ name,
   name]

/-- One `fin.open` after the other, until one succeeds (prokudin.cpp 122-142). -/
def openFirst (disk : Disk) : List Text → Option Text
  | [] => none
  | p :: ps =>
    match disk p with
    | some t => some t
    | none => openFirst disk ps

/-- `find_file` (prokudin.cpp 121-144). -/
def findFile (disk : Disk) (datadir name : Text) : Load Text :=
  match openFirst disk (candidates datadir name) with
  | some t => .ok t
  | none => .notFound name

/-- The lines for which `std::getline` succeeds (prokudin.cpp 154): a last line without characters is none. -/
def getlines (t : Text) : List Text :=
  if (lines t).getLast? = some [] then (lines t).dropLast else lines t

/-- The values of a row from a line (prokudin.cpp 155-164): `n` extractions. Once one fails the following
fail as well, so that the stream has failed in the end exactly when one of them has. -/
def readRow (rnd : ℚ → Option ℚ) : ℕ → Text → Option (List Dbl)
  | 0, _ => some []
  | n + 1, s =>
    match readDouble rnd s with
    | (d, some rest) => (readRow rnd n rest).map (d :: ·)
    | (_, none) => none

/-- All the rows; the first line that fails ends the loop (prokudin.cpp 154-165). -/
def readRows (rnd : ℚ → Option ℚ) (n : ℕ) : List Text → Option (List (List Dbl))
  | [] => some []
  | l :: ls =>
    match readRow rnd n l with
    | none => none
    | some r => (readRows rnd n ls).map (r :: ·)

/-- A double as a number of `Model.Fl`. -/
def toFl : Dbl → Fl
  | .nan => .nan
  | .ninf => .ninf
  | .pinf => .pinf
  | .fin q => .fin q

/-- The rows as a table for `read_grids`. -/
def toTable (rows : List (List Dbl)) : Table := rows.map fun r i => toFl (r.getD i .nan)

/-- `load_grids<Real, N, K>` (prokudin.cpp 148-168); `fl` rounds the results of `read_grids`. -/
noncomputable def loadGrids (rnd : ℚ → Option ℚ) (fl : ℝ → ℝ) (disk : Disk) (datadir : Text) (N K : ℕ)
    (name : Text) : Load (List Grid) :=
  (findFile disk datadir name).bind fun t =>
  match readRows rnd (N + K) (getlines t) with
  | none => .parseError name
  | some rows =>
    .ofRes (readGrids fl (.fin 0.000001) N K (toTable rows))

/-- The tables of `ProkudinImpl` (prokudin.cpp 193-215). What the library mstwpdf makes of its file is a
parameter `P`. -/
structure Tables (P : Type) where
  pdf : P
  D1_pi_plus : List Grid
  D1_pi_minus : List Grid
  g1 : List Grid
  xgT : List Grid
  xh1LperpM1 : List Grid
  sb : List Grid

/-- Elements of an array (prokudin.cpp 228-271). -/
def pick (gs : List Grid) : List ℕ → Load (List Grid)
  | [] => .ok []
  | i :: is =>
    match gs[i]? with
    | none => .ub
    | some g => (pick gs is).bind fun r => .ok (g :: r)

/-- `ProkudinImpl::ProkudinImpl` (prokudin.cpp 217-274), in the order of the members. -/
noncomputable def prokudinImpl {P : Type} (mstw : Text → P) (rnd : ℚ → Option ℚ) (fl : ℝ → ℝ) (disk : Disk)
    (datadir : Text) : Load (Tables P) :=
  let load := loadGrids rnd fl disk datadir 2
  (findFile disk datadir "mstw2008lo.00.dat".toList).bind fun t =>
  (load 6 "fragmentationpiplus.dat".toList).bind fun dp =>
  (load 6 "fragmentationpiminus.dat".toList).bind fun dm =>
  (load 6 "g1.dat".toList).bind fun g1 =>
  (load 6 "gT_u_d_ubar_dbar_s_sbar.dat".toList).bind fun gT =>
  (load 2 "xh1Lperp_u_d.dat".toList).bind fun h =>
  (load 6 "SofferBound.dat".toList).bind fun sb =>
  (pick dp [0, 1, 2, 3, 4, 5]).bind fun dp =>
  (pick dm [0, 1, 2, 3, 4, 5]).bind fun dm =>
  (pick g1 [0, 1, 2, 3, 4, 5]).bind fun g1 =>
  (pick gT [0, 1, 4, 2, 3, 5]).bind fun gT =>
  (pick h [0, 1]).bind fun h =>
  (pick sb [0, 1, 2, 3, 4, 5]).bind fun sb =>
  .ok ⟨mstw t, dp, dm, g1, gT, h, sb⟩

end Sidis.LoadGrids
