import Mathlib.Data.Real.Basic
import Mathlib.Analysis.Real.Sqrt
import Mathlib.Tactic.Linarith
import Mathlib.Tactic.NormNum
import Mathlib.Tactic.Push
import Mathlib.Tactic.SplitIfs

/-!
# Floating-point numbers with IEEE special values

`Fl` models the C++ type `Real` (`include/sidis/numeric.hpp.in`, a typedef for `double`).
Simplification: finite values are exact reals (no rounding, no overflow to infinity, no signed
zero; a zero divisor counts as `+0`).  NaN, the infinities and all comparison rules follow
IEEE 754.
-/

namespace Sidis

/-- A floating point value: NaN, the two infinities, or a finite real. -/
inductive Fl where
  | nan
  | ninf
  | fin (r : ℝ)
  | pinf

namespace Fl

/-- `a <= b` in IEEE 754: false as soon as one side is NaN. -/
def le : Fl → Fl → Prop
  | nan, _ => False
  | _, nan => False
  | ninf, _ => True
  | _, pinf => True
  | fin a, fin b => a ≤ b
  | fin _, ninf => False
  | pinf, _ => False

/-- `a < b` in IEEE 754: false as soon as one side is NaN. -/
def lt : Fl → Fl → Prop
  | nan, _ => False
  | _, nan => False
  | ninf, ninf => False
  | ninf, _ => True
  | pinf, _ => False
  | fin _, pinf => True
  | fin a, fin b => a < b
  | fin _, ninf => False

instance : LE Fl := ⟨le⟩
instance : LT Fl := ⟨lt⟩

noncomputable instance (a b : Fl) : Decidable (a ≤ b) := Classical.propDecidable _
noncomputable instance (a b : Fl) : Decidable (a < b) := Classical.propDecidable _

/-- `std::isnan` -/
def isNaN : Fl → Prop
  | nan => True
  | _ => False

/-- `std::isfinite` -/
def isFinite : Fl → Prop
  | fin _ => True
  | _ => False

/-- IEEE negation. -/
noncomputable def neg : Fl → Fl
  | nan => nan
  | ninf => pinf
  | pinf => ninf
  | fin a => fin (-a)

/-- IEEE addition (`inf + -inf` is NaN). -/
noncomputable def add : Fl → Fl → Fl
  | nan, _ => nan
  | _, nan => nan
  | fin a, fin b => fin (a + b)
  | fin _, ninf => ninf
  | fin _, pinf => pinf
  | ninf, pinf => nan
  | ninf, _ => ninf
  | pinf, ninf => nan
  | pinf, _ => pinf

open Classical in
/-- Infinity with the sign of `r`, NaN for `r = 0` (the value of `r * inf`). -/
noncomputable def infTimes (r : ℝ) : Fl :=
  if 0 < r then pinf else if r < 0 then ninf else nan

/-- IEEE multiplication (`0 * inf` is NaN). -/
noncomputable def mul : Fl → Fl → Fl
  | nan, _ => nan
  | _, nan => nan
  | fin a, fin b => fin (a * b)
  | fin a, pinf => infTimes a
  | fin a, ninf => infTimes (-a)
  | pinf, fin b => infTimes b
  | ninf, fin b => infTimes (-b)
  | pinf, pinf => pinf
  | ninf, ninf => pinf
  | pinf, ninf => ninf
  | ninf, pinf => ninf

open Classical in
/-- IEEE division; a zero divisor counts as `+0` (`0/0` and `inf/inf` are NaN). -/
noncomputable def div : Fl → Fl → Fl
  | nan, _ => nan
  | _, nan => nan
  | fin a, fin b => if b = 0 then infTimes a else fin (a / b)
  | fin _, pinf => fin 0
  | fin _, ninf => fin 0
  | pinf, fin b => if b < 0 then ninf else pinf
  | ninf, fin b => if b < 0 then pinf else ninf
  | pinf, _ => nan
  | ninf, _ => nan

noncomputable instance : Neg Fl := ⟨neg⟩
noncomputable instance : Add Fl := ⟨add⟩
noncomputable instance : Mul Fl := ⟨mul⟩
noncomputable instance : Div Fl := ⟨div⟩
/-- IEEE subtraction. -/
noncomputable instance : Sub Fl := ⟨fun a b => add a (neg b)⟩

open Classical in
/-- `std::sqrt`: NaN for negative arguments. -/
noncomputable def sqrt : Fl → Fl
  | nan => nan
  | ninf => nan
  | pinf => pinf
  | fin a => if a < 0 then nan else fin (Real.sqrt a)

/-- `std::fmax`: the other argument when one is NaN. -/
noncomputable def fmax (a b : Fl) : Fl :=
  match a, b with
  | nan, b => b
  | a, nan => a
  | a, b => if a < b then b else a

/-- `std::fmin`: the other argument when one is NaN. -/
noncomputable def fmin (a b : Fl) : Fl :=
  match a, b with
  | nan, b => b
  | a, nan => a
  | a, b => if b < a then b else a

/-- `a == b` in IEEE 754 (NaN differs from everything, itself included). -/
def eq : Fl → Fl → Prop
  | nan, _ => False
  | _, nan => False
  | ninf, ninf => True
  | pinf, pinf => True
  | fin a, fin b => a = b
  | _, _ => False

@[simp] theorem le_def_nan_left (b : Fl) : (nan ≤ b) ↔ False := Iff.rfl
@[simp] theorem le_def_nan_right (b : Fl) : (b ≤ nan) ↔ False := by cases b <;> exact Iff.rfl
@[simp] theorem le_fin (a b : ℝ) : (fin a ≤ fin b) ↔ a ≤ b := Iff.rfl
@[simp] theorem fin_le_pinf (a : ℝ) : (fin a ≤ pinf) ↔ True := Iff.rfl
@[simp] theorem ninf_le_fin (a : ℝ) : (ninf ≤ fin a) ↔ True := Iff.rfl
@[simp] theorem ninf_le_ninf : (ninf ≤ ninf) ↔ True := Iff.rfl
@[simp] theorem ninf_le_pinf : (ninf ≤ pinf) ↔ True := Iff.rfl
@[simp] theorem pinf_le_pinf : (pinf ≤ pinf) ↔ True := Iff.rfl
@[simp] theorem pinf_le_ninf : (pinf ≤ ninf) ↔ False := Iff.rfl
@[simp] theorem pinf_le_fin (a : ℝ) : (pinf ≤ fin a) ↔ False := Iff.rfl
@[simp] theorem fin_le_ninf (a : ℝ) : (fin a ≤ ninf) ↔ False := Iff.rfl
@[simp] theorem lt_def_nan_left (b : Fl) : (nan < b) ↔ False := Iff.rfl
@[simp] theorem lt_def_nan_right (b : Fl) : (b < nan) ↔ False := by cases b <;> exact Iff.rfl
@[simp] theorem lt_fin (a b : ℝ) : (fin a < fin b) ↔ a < b := Iff.rfl
@[simp] theorem fin_lt_pinf (a : ℝ) : (fin a < pinf) ↔ True := Iff.rfl
@[simp] theorem ninf_lt_fin (a : ℝ) : (ninf < fin a) ↔ True := Iff.rfl
@[simp] theorem ninf_lt_ninf : (ninf < ninf) ↔ False := Iff.rfl
@[simp] theorem ninf_lt_pinf : (ninf < pinf) ↔ True := Iff.rfl
@[simp] theorem pinf_lt_pinf : (pinf < pinf) ↔ False := Iff.rfl
@[simp] theorem pinf_lt_ninf : (pinf < ninf) ↔ False := Iff.rfl
@[simp] theorem pinf_lt_fin (a : ℝ) : (pinf < fin a) ↔ False := Iff.rfl
@[simp] theorem fin_lt_ninf (a : ℝ) : (fin a < ninf) ↔ False := Iff.rfl

@[simp] theorem isNaN_nan : isNaN nan ↔ True := Iff.rfl
@[simp] theorem isNaN_fin (a : ℝ) : isNaN (fin a) ↔ False := Iff.rfl
@[simp] theorem isNaN_pinf : isNaN pinf ↔ False := Iff.rfl
@[simp] theorem isNaN_ninf : isNaN ninf ↔ False := Iff.rfl
@[simp] theorem isFinite_nan : isFinite nan ↔ False := Iff.rfl
@[simp] theorem isFinite_fin (a : ℝ) : isFinite (fin a) ↔ True := Iff.rfl
@[simp] theorem isFinite_pinf : isFinite pinf ↔ False := Iff.rfl
@[simp] theorem isFinite_ninf : isFinite ninf ↔ False := Iff.rfl

@[simp] theorem neg_nan : -nan = nan := rfl
@[simp] theorem neg_pinf : -pinf = ninf := rfl
@[simp] theorem neg_ninf : -ninf = pinf := rfl
@[simp] theorem neg_fin (a : ℝ) : -(fin a) = fin (-a) := rfl
@[simp] theorem nan_add (b : Fl) : nan + b = nan := rfl
@[simp] theorem add_nan (b : Fl) : b + nan = nan := by cases b <;> rfl
@[simp] theorem add_fin (a b : ℝ) : fin a + fin b = fin (a + b) := rfl
@[simp] theorem fin_add_pinf (a : ℝ) : fin a + pinf = pinf := rfl
@[simp] theorem fin_add_ninf (a : ℝ) : fin a + ninf = ninf := rfl
@[simp] theorem pinf_add_fin (a : ℝ) : pinf + fin a = pinf := rfl
@[simp] theorem ninf_add_fin (a : ℝ) : ninf + fin a = ninf := rfl
@[simp] theorem pinf_add_pinf : pinf + pinf = pinf := rfl
@[simp] theorem ninf_add_ninf : ninf + ninf = ninf := rfl
@[simp] theorem pinf_add_ninf : pinf + ninf = nan := rfl
@[simp] theorem ninf_add_pinf : ninf + pinf = nan := rfl
theorem sub_eq (a b : Fl) : a - b = a + -b := rfl
@[simp] theorem nan_sub (b : Fl) : nan - b = nan := rfl
@[simp] theorem sub_nan (b : Fl) : b - nan = nan := by cases b <;> rfl
@[simp] theorem sub_fin (a b : ℝ) : fin a - fin b = fin (a - b) := by
  rw [sub_eq, neg_fin, add_fin, _root_.sub_eq_add_neg]
@[simp] theorem fin_sub_pinf (a : ℝ) : fin a - pinf = ninf := rfl
@[simp] theorem fin_sub_ninf (a : ℝ) : fin a - ninf = pinf := rfl
@[simp] theorem pinf_sub_fin (a : ℝ) : pinf - fin a = pinf := rfl
@[simp] theorem ninf_sub_fin (a : ℝ) : ninf - fin a = ninf := rfl
@[simp] theorem pinf_sub_pinf : pinf - pinf = nan := rfl
@[simp] theorem ninf_sub_ninf : ninf - ninf = nan := rfl
@[simp] theorem pinf_sub_ninf : pinf - ninf = pinf := rfl
@[simp] theorem ninf_sub_pinf : ninf - pinf = ninf := rfl
@[simp] theorem nan_mul (b : Fl) : nan * b = nan := rfl
@[simp] theorem mul_nan (b : Fl) : b * nan = nan := by cases b <;> rfl
@[simp] theorem mul_fin (a b : ℝ) : fin a * fin b = fin (a * b) := rfl
@[simp] theorem fin_mul_pinf (a : ℝ) : fin a * pinf = infTimes a := rfl
@[simp] theorem fin_mul_ninf (a : ℝ) : fin a * ninf = infTimes (-a) := rfl
@[simp] theorem pinf_mul_fin (a : ℝ) : pinf * fin a = infTimes a := rfl
@[simp] theorem ninf_mul_fin (a : ℝ) : ninf * fin a = infTimes (-a) := rfl
@[simp] theorem pinf_mul_pinf : pinf * pinf = pinf := rfl
@[simp] theorem ninf_mul_ninf : ninf * ninf = pinf := rfl
@[simp] theorem pinf_mul_ninf : pinf * ninf = ninf := rfl
@[simp] theorem ninf_mul_pinf : ninf * pinf = ninf := rfl
@[simp] theorem nan_div (b : Fl) : nan / b = nan := rfl
@[simp] theorem div_nan (b : Fl) : b / nan = nan := by cases b <;> rfl
theorem div_fin_zero (a : ℝ) : fin a / fin 0 = infTimes a := if_pos rfl
theorem div_fin {b : ℝ} (a : ℝ) (h : b ≠ 0) : fin a / fin b = fin (a / b) := if_neg h
@[simp] theorem fin_div_pinf (a : ℝ) : fin a / pinf = fin 0 := rfl
@[simp] theorem fin_div_ninf (a : ℝ) : fin a / ninf = fin 0 := rfl
@[simp] theorem pinf_div_pinf : pinf / pinf = nan := rfl
@[simp] theorem pinf_div_ninf : pinf / ninf = nan := rfl
@[simp] theorem ninf_div_pinf : ninf / pinf = nan := rfl
@[simp] theorem ninf_div_ninf : ninf / ninf = nan := rfl
theorem pinf_div_fin {b : ℝ} (h : 0 ≤ b) : pinf / fin b = pinf := if_neg (not_lt.mpr h)
theorem ninf_div_fin {b : ℝ} (h : 0 ≤ b) : ninf / fin b = ninf := if_neg (not_lt.mpr h)
theorem pinf_div_fin_neg {b : ℝ} (h : b < 0) : pinf / fin b = ninf := if_pos h
theorem ninf_div_fin_neg {b : ℝ} (h : b < 0) : ninf / fin b = pinf := if_pos h
theorem infTimes_pos {a : ℝ} (h : 0 < a) : infTimes a = pinf := if_pos h
theorem infTimes_neg {a : ℝ} (h : a < 0) : infTimes a = ninf := by
  simp [infTimes, h, not_lt.mpr h.le]
@[simp] theorem infTimes_zero : infTimes 0 = nan := by simp [infTimes]
@[simp] theorem sqrt_nan : sqrt nan = nan := rfl
@[simp] theorem sqrt_ninf : sqrt ninf = nan := rfl
@[simp] theorem sqrt_pinf : sqrt pinf = pinf := rfl
theorem sqrt_fin {a : ℝ} (h : 0 ≤ a) : sqrt (fin a) = fin (Real.sqrt a) := if_neg (not_lt.mpr h)
theorem sqrt_fin_neg {a : ℝ} (h : a < 0) : sqrt (fin a) = nan := if_pos h

attribute [grind =] le_def_nan_left le_def_nan_right le_fin fin_le_pinf ninf_le_fin ninf_le_ninf ninf_le_pinf pinf_le_pinf pinf_le_ninf pinf_le_fin fin_le_ninf lt_def_nan_left lt_def_nan_right lt_fin fin_lt_pinf ninf_lt_fin ninf_lt_ninf ninf_lt_pinf pinf_lt_pinf pinf_lt_ninf pinf_lt_fin fin_lt_ninf

end Fl
end Sidis
