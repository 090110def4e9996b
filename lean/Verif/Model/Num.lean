import Verif.Model.Fl
import Mathlib.Analysis.SpecialFunctions.Complex.Arg
import Mathlib.Analysis.SpecialFunctions.Log.Basic

/-!
# The C++ mathematical functions, for exact reals and for `Fl`

Code that is modelled both in exact real arithmetic and with IEEE special values is written once,
for any number type `α` with the arithmetic operations and the functions below.
-/

namespace Sidis

/-- Functions of `<cmath>` and constants used by the library. -/
class CMath (α : Type) where
  /-- a literal or constant -/
  ofReal : ℝ → α
  /-- `std::sqrt` -/
  sqrt : α → α
  /-- `std::cos` -/
  cos : α → α
  /-- `std::sin` -/
  sin : α → α
  /-- `std::fmod(x, y)` -/
  fmod : α → α → α
  /-- `std::atan2(y, x)` -/
  atan2 : α → α → α
  /-- `sqrt1p_1m` (src/math.cpp 12-14) -/
  sqrt1p_1m : α → α

/-- `PI` (include/sidis/constant.hpp 14); the literal is taken to be π exactly. -/
noncomputable def CMath.pi {α : Type} [CMath α] : α := CMath.ofReal Real.pi

/-- `sq` (include/sidis/extra/math.hpp 45-55). -/
def sq {α : Type} [Mul α] (x : α) : α := x * x

open Classical in
/-- Rounding towards zero. -/
noncomputable def truncR (x : ℝ) : ℤ := if 0 ≤ x then ⌊x⌋ else ⌈x⌉

/-- `std::fmod` for a non-zero finite divisor. -/
noncomputable def fmodR (x y : ℝ) : ℝ := x - y * truncR (x / y)

open Classical in
/-- `expm1(0.5*log1p(x))` (src/math.cpp 12-14) for `x ≥ -1`; `log1p(-1)` is `-inf` and
`expm1(-inf)` is `-1`. -/
noncomputable def sqrt1p1mR (x : ℝ) : ℝ :=
  if x = -1 then -1 else Real.exp (1 / 2 * Real.log (1 + x)) - 1

/-- `std::atan2` of finite arguments. -/
noncomputable def atan2R (y x : ℝ) : ℝ := Complex.arg ⟨x, y⟩

noncomputable instance : CMath ℝ where
  ofReal r := r
  sqrt := Real.sqrt
  cos := Real.cos
  sin := Real.sin
  fmod := fmodR
  atan2 := atan2R
  sqrt1p_1m := sqrt1p1mR

namespace Fl

noncomputable instance : Zero Fl := ⟨fin 0⟩
noncomputable instance : One Fl := ⟨fin 1⟩
noncomputable instance : OfNat Fl 2 := ⟨fin 2⟩
noncomputable instance : OfNat Fl 3 := ⟨fin 3⟩
noncomputable instance : OfNat Fl 4 := ⟨fin 4⟩

/-- `std::cos`, `std::sin`: NaN for an infinite argument. -/
noncomputable def trig (f : ℝ → ℝ) : Fl → Fl
  | fin a => fin (f a)
  | _ => nan

open Classical in
/-- `std::fmod`: NaN for an infinite dividend or a zero divisor. -/
noncomputable def fmod : Fl → Fl → Fl
  | fin a, fin b => if b = 0 then nan else fin (fmodR a b)
  | fin a, pinf => fin a
  | fin a, ninf => fin a
  | _, _ => nan

open Classical in
/-- `std::atan2` (a zero ordinate counts as `+0`). -/
noncomputable def atan2 : Fl → Fl → Fl
  | nan, _ => nan
  | _, nan => nan
  | fin y, fin x => fin (atan2R y x)
  | fin _, pinf => fin 0
  | fin y, ninf => fin (if y < 0 then -Real.pi else Real.pi)
  | pinf, fin _ => fin (Real.pi / 2)
  | ninf, fin _ => fin (-(Real.pi / 2))
  | pinf, pinf => fin (Real.pi / 4)
  | pinf, ninf => fin (3 * Real.pi / 4)
  | ninf, pinf => fin (-(Real.pi / 4))
  | ninf, ninf => fin (-(3 * Real.pi / 4))

open Classical in
/-- `expm1(0.5*log1p(x))` (src/math.cpp 12-14). -/
noncomputable def sqrt1p1m : Fl → Fl
  | fin a => if a < -1 then nan else fin (sqrt1p1mR a)
  | pinf => pinf
  | _ => nan

noncomputable instance : CMath Fl where
  ofReal := fin
  sqrt := sqrt
  cos := trig Real.cos
  sin := trig Real.sin
  fmod := fmod
  atan2 := atan2
  sqrt1p_1m := sqrt1p1m

end Fl
end Sidis
