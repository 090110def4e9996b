import Verif.Model.Num
import Verif.Model.Bound
import Mathlib.Analysis.SpecialFunctions.Arsinh

/-! # Model of the variable maps (include/sidis/extra/map.hpp) -/

namespace Sidis

/-- Further functions of `<cmath>`, used by the maps and by the cuts. -/
class CMap (α : Type) where
  /-- `std::exp` -/
  exp : α → α
  /-- `std::log` -/
  log : α → α
  /-- `std::expm1` -/
  expm1 : α → α
  /-- `std::log1p` -/
  log1p : α → α
  /-- `std::sinh` -/
  sinh : α → α
  /-- `std::cosh` -/
  cosh : α → α
  /-- `std::asinh` -/
  asinh : α → α
  /-- `std::acos` -/
  acos : α → α

noncomputable instance : CMap ℝ where
  exp := Real.exp
  log := Real.log
  expm1 x := Real.exp x - 1
  log1p x := Real.log (1 + x)
  sinh := Real.sinh
  cosh := Real.cosh
  asinh := Real.arsinh
  acos := Real.arccos

namespace Fl

/-- A function given by its values at `-inf`, finite numbers and `+inf`, NaN at NaN. -/
def lift (lo : Fl) (f : ℝ → Fl) (hi : Fl) : Fl → Fl
  | nan => nan
  | ninf => lo
  | fin r => f r
  | pinf => hi

open Classical in
noncomputable instance : CMap Fl where
  exp := lift (fin 0) (fun r => fin (Real.exp r)) pinf
  log := lift nan (fun r => if r < 0 then nan else if r = 0 then ninf else fin (Real.log r)) pinf
  expm1 := lift (fin (-1)) (fun r => fin (Real.exp r - 1)) pinf
  log1p := lift nan
    (fun r => if r < -1 then nan else if r = -1 then ninf else fin (Real.log (1 + r))) pinf
  sinh := lift ninf (fun r => fin (Real.sinh r)) pinf
  cosh := lift pinf (fun r => fin (Real.cosh r)) pinf
  asinh := lift ninf (fun r => fin (Real.arsinh r)) pinf
  acos := lift nan (fun r => if r < -1 ∨ 1 < r then nan else fin (Real.arccos r)) nan

end Fl

/-- A map between a variable `x` and a coordinate `u`: the members `u(x)` and `x(u, &jac)`. -/
structure VarMap (α : Type) where
  u : α → α
  x : α → α
  jac : α → α

namespace VarMap

open CMath CMap

variable {α : Type} [CMath α] [CMap α] [Add α] [Sub α] [Mul α] [Div α] [Neg α] [One α] [OfNat α 2]

/-- `map::Linear` (include/sidis/extra/map.hpp 12-20). -/
def linear : VarMap α := ⟨fun x => x, fun u => u, fun _ => 1⟩

/-- `map::Inverse` (include/sidis/extra/map.hpp 23-33). -/
def inverse (offset : α) : VarMap α :=
  ⟨fun x => -1 / (x + offset), fun u => -1 / u - offset, fun u => sq (1 / u)⟩

/-- `map::Log` (include/sidis/extra/map.hpp 36-47). -/
def logarithm (offset : α) : VarMap α :=
  ⟨fun x => log (x + offset), fun u => exp u - offset, fun u => exp u⟩

/-- `map::Decay` (include/sidis/extra/map.hpp 50-60). -/
def decay (length : α) : VarMap α :=
  ⟨fun x => -expm1 (-x / length), fun u => -length * log1p (-u), fun u => length / (1 - u)⟩

/-- `map::Sigmoid` (include/sidis/extra/map.hpp 63-77). -/
def sigmoid (center width : α) : VarMap α :=
  ⟨fun x => asinh ((x - center) / width), fun u => width * sinh u + center,
   fun u => width * cosh u⟩

/-- `map::Sigmoid2::u` (include/sidis/extra/map.hpp 95-99). -/
def sigmoid2U (center width center_r width_r x : α) : α :=
  let t1 := (x - center) / width
  let t2 := (x - center * center_r) / (width * width_r)
  asinh t1 + asinh t2

/-- `map::Sigmoid2::x` (include/sidis/extra/map.hpp 100-115): the value and the jacobian. -/
def sigmoid2X (center width center_r width_r u : α) : α × α :=
  let sinhu := sinh u
  let coshu := cosh u
  let a := center_r + sq width_r + width_r * (1 + center_r) * coshu
  let b := 1 + sq width_r + 2 * width_r * coshu
  let c := sq ((center_r - 1) * (center / width))
  let det := sqrt (b + c)
  let a_p := width_r * (1 + center_r) * sinhu
  let b_p := 2 * width_r * sinhu
  let num := center * a + width * width_r * det * sinhu
  let jac := (center * a_p
    + width * width_r * (det * coshu + 1 / 2 * sinhu * b_p / det)
    - num * b_p / b) / b
  (num / b, jac)

/-- `map::Sigmoid2` (include/sidis/extra/map.hpp 83-116). -/
def sigmoid2 (center width center_r width_r : α) : VarMap α :=
  ⟨sigmoid2U center width center_r width_r, fun u => (sigmoid2X center width center_r width_r u).1,
   fun u => (sigmoid2X center width center_r width_r u).2⟩

/-- `apply_map` (include/sidis/extra/map.hpp 122-129): the variable and the jacobian. -/
noncomputable def apply (t : VarMap Fl) (p : Fl) (bound : Bound) : Fl × Fl :=
  let u_bound := Bound.mk' (t.u bound.min) (t.u bound.max)
  let u := u_bound.lerp p
  (t.x u, t.jac u * u_bound.size)

end VarMap
end Sidis
