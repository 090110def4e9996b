import Verif.Model.Num
import Mathlib.Analysis.SpecialFunctions.Log.Base
import Mathlib.Algebra.BigOperators.Group.Finset.Basic
import Mathlib.Algebra.BigOperators.Intervals

/-!
# Model of the dilogarithm (src/math.cpp 16-97)

In exact real arithmetic for finite arguments, with the numeric limits of `double`; the constant
`c` of the code is taken to be π²/6 exactly.
-/

namespace Sidis

open Classical in
/-- `log_log1m` (src/math.cpp 16-36) for a finite argument; `log1p(x)` is `log(1 + x)`.  At `x = 0`
the code multiplies `log(0) = -inf` by zero; `dilog_impl` never calls it there. -/
noncomputable def logLog1m (x : ℝ) : ℝ :=
  if x > 1 then Real.log x * Real.log (x - 1)
  else if x = 1 then 0
  else if x > 1 / 2 then Real.log (1 + (x - 1)) * Real.log (1 - x)
  else if x > 0 then Real.log x * Real.log (1 + -x)
  else Real.log (-x) * Real.log (1 + -x)

/-- The number of terms `n_max` (src/math.cpp 81-88) for a reduced argument `x` and a type with `d` binary
digits. -/
noncomputable def dilogNMax (d x : ℝ) : ℕ :=
  ⌈(1.4 * d + 6 * (1 - Real.log d)) * |x| + 0.3 * d⌉₊ + 1

/-- The loop of `dilog_impl` (src/math.cpp 89-94): `numerator` starts at `x` and gains a factor `x`
per turn. -/
noncomputable def dilogLoop (x : ℝ) : (turns n : ℕ) → (result numerator : ℝ) → ℝ
  | 0, _, result, _ => result
  | turns + 1, n, result, numerator =>
    dilogLoop x turns (n + 1) (result + numerator / (n * n)) (numerator * x)

open Classical in
/-- The reduction of the argument in `dilog_impl` (src/math.cpp 45-79) for a finite argument: the
triple `(a, b, x)`. -/
noncomputable def dilogReduce (x : ℝ) : ℝ × ℝ × ℝ :=
  let c : ℝ := Real.pi ^ 2 / 6
  if x > 2 then (-1, 2 * c - 1 / 2 * sq (Real.log x), 1 / x)
  else if x > 1 then (1, c + 1 / 2 * sq (Real.log x) - logLog1m x, (x - 1) / x)
  else if x > 1 / 2 then (-1, c - logLog1m x, 1 - x)
  else if x > -1 / 2 then (1, 0, x)
  else if x > -1 then (-1, -1 / 2 * sq (Real.log (1 + -x)), x / (x - 1))
  else (1, -c + 1 / 2 * sq (Real.log (1 + -x)) - logLog1m x, 1 / (1 - x))

/-- `dilog_impl` (src/math.cpp 38-97) for a finite argument and a type with `d` binary digits. -/
noncomputable def dilogImpl (d x : ℝ) : ℝ :=
  let (a, b, y) := dilogReduce x
  a * dilogLoop y (dilogNMax d y - 1) 1 0 y + b

/-- `dilog(float)` (src/math.cpp 142-144): 24 binary digits. -/
noncomputable def dilogF (x : ℝ) : ℝ := dilogImpl 24 x

/-- `dilog(double)` (src/math.cpp 145-147): 53 binary digits. -/
noncomputable def dilogR (x : ℝ) : ℝ := dilogImpl 53 x

/-- `dilog(long double)` (src/math.cpp 148-150): 64 binary digits (x87 extended precision). -/
noncomputable def dilogL (x : ℝ) : ℝ := dilogImpl 64 x

/-- `dilog` (src/math.cpp 49-54) for any argument. -/
noncomputable def dilogFl : Fl → Fl
  | .nan => .nan
  | .ninf => .ninf
  | .pinf => .ninf
  | .fin x => .fin (dilogR x)

end Sidis
