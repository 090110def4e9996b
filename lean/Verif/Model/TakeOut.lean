import Verif.Model.Cut

/-!
# The output arguments of `cut::take` (src/cut.cpp 387-583)

Model/Cut says what is computed.  Here the outputs are pointers: `none` is the null pointer, and `some v` one to an
object that holds `v`.  Pointers to local variables are never null, so that the inner calls are those of
Model/Cut.
-/

namespace Sidis.Cut

/-- `if (out != nullptr) { *out = v; }` (src/cut.cpp 401-406 and the like). -/
def put {α : Type} (out : Option α) (v : α) : Option α := out.map fun _ => v

/-- The returned value and what the two outputs point to afterwards. -/
@[ext] structure Out (K : Type) where
  ok : Bool
  kin : Option K
  jac : Option Fl

/-- `take(ps, S, point, ph_space_out, jac_out)` (src/cut.cpp 387-410). -/
noncomputable def takePointOut (ps : Particles Fl) (S : Fl) (point : Fin 6 → Fl) (o : Option (PhaseSpace Fl))
    (j : Option Fl) : Out (PhaseSpace Fl) :=
  let t := takePoint ps S point
  ⟨t.ok, put o t.kin, put j t.jac⟩

/-- `take(ps, S, point, kin_out, jac_out)` (src/cut.cpp 412-423). -/
noncomputable def takeOut (ps : Particles Fl) (S : Fl) (point : Fin 6 → Fl) (o : Option (Kinematics Fl))
    (j : Option Fl) : Out (Kinematics Fl) :=
  let t := takePoint ps S point
  let j := put j t.jac
  if ¬ t.ok then ⟨false, o, j⟩ else ⟨true, put o (.make ps S t.kin), j⟩

/-- `take(cut, ps, S, point, kin_out, jac_out)` (src/cut.cpp 425-446). -/
noncomputable def takeCutOut (cut : Cut) (ps : Particles Fl) (S : Fl) (point : Fin 6 → Fl)
    (o : Option (Kinematics Fl)) (j : Option Fl) : Out (Kinematics Fl) :=
  let t := takeCut cut ps S point
  ⟨t.ok, put o t.kin, put j t.jac⟩

/-- `take(kin, point, ph_space_out, jac_out)` (src/cut.cpp 500-537). -/
noncomputable def takePhotonOut (kin : Kinematics Fl) (point : Fin 3 → Fl) (o : Option (PhaseSpaceRad Fl))
    (j : Option Fl) : Out (PhaseSpaceRad Fl) :=
  let t := takePhoton kin point
  ⟨t.ok, put o t.kin, put j t.jac⟩

/-- `take(kin, point, kin_out, jac_out)` (src/cut.cpp 539-550). -/
noncomputable def takePhotonKinOut (kin : Kinematics Fl) (point : Fin 3 → Fl) (o : Option (KinematicsRad Fl))
    (j : Option Fl) : Out (KinematicsRad Fl) :=
  let t := takePhoton kin point
  let j := put j t.jac
  if ¬ t.ok then ⟨false, o, j⟩ else ⟨true, put o (.make kin t.kin.tau t.kin.phi_k t.kin.R), j⟩

/-- `take(cut, kin, point, kin_out, jac_out)` (src/cut.cpp 552-583). -/
noncomputable def takePhotonCutOut (cut : CutRad) (kin : Kinematics Fl) (point : Fin 3 → Fl)
    (o : Option (KinematicsRad Fl)) (j : Option Fl) : Out (KinematicsRad Fl) :=
  let t := takePhotonCut cut kin point
  ⟨t.ok, put o t.kin, put j t.jac⟩

/-- `take(ps, S, point, ph_space_out, jac_out)` for nine coordinates (src/cut.cpp 448-463). -/
noncomputable def takeRadPointOut (ps : Particles Fl) (S : Fl) (point : Fin 9 → Fl) (o : Option (PhaseSpaceRad Fl))
    (j : Option Fl) : Out (PhaseSpaceRad Fl) :=
  let t := take ps S (head6 point)
  if ¬ t.ok then ⟨false, o, j⟩
  else
    let r := takePhotonOut t.kin (tail3 point) o j
    if ¬ r.ok then ⟨false, r.kin, r.jac⟩ else ⟨true, r.kin, r.jac.map (· * t.jac)⟩

/-- `take(ps, S, point, kin_out, jac_out)` for nine coordinates (src/cut.cpp 465-480). -/
noncomputable def takeRadOut (ps : Particles Fl) (S : Fl) (point : Fin 9 → Fl) (o : Option (KinematicsRad Fl))
    (j : Option Fl) : Out (KinematicsRad Fl) :=
  let t := take ps S (head6 point)
  if ¬ t.ok then ⟨false, o, j⟩
  else
    let r := takePhotonKinOut t.kin (tail3 point) o j
    if ¬ r.ok then ⟨false, r.kin, r.jac⟩ else ⟨true, r.kin, r.jac.map (· * t.jac)⟩

/-- `take(cut, cut_rad, ps, S, point, kin_out, jac_out)` (src/cut.cpp 482-498). -/
noncomputable def takeRadCutOut (cut : Cut) (cut_rad : CutRad) (ps : Particles Fl) (S : Fl) (point : Fin 9 → Fl)
    (o : Option (KinematicsRad Fl)) (j : Option Fl) : Out (KinematicsRad Fl) :=
  let t := takeCut cut ps S (head6 point)
  if ¬ t.ok then ⟨false, o, j⟩
  else
    let r := takePhotonCutOut cut_rad t.kin (tail3 point) o j
    if ¬ r.ok then ⟨false, r.kin, r.jac⟩ else ⟨true, r.kin, r.jac.map (· * t.jac)⟩

end Sidis.Cut
