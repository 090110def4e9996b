import Mathlib.Data.Int.Basic
import Mathlib.Data.Int.Order.Basic

/-!
# Machine integers and `math::prod_div`

A C++ integer type is described by its range.  Arithmetic on a signed type whose exact result is
out of range is undefined behaviour (`none`); on an unsigned type it wraps.  Division and
remainder truncate; a zero divisor, or a quotient that is out of range, is undefined behaviour.
-/

namespace Sidis

/-- A C++ integer type: its smallest and largest value, and whether it is unsigned (wraps). -/
structure IntTy where
  lo : ℤ
  hi : ℤ
  wraps : Bool

namespace IntTy

/-- `int` (32 bit). -/
def int32 : IntTy := ⟨-2147483648, 2147483647, false⟩
/-- `long`, `long long` (64 bit). -/
def int64 : IntTy := ⟨-9223372036854775808, 9223372036854775807, false⟩
/-- `unsigned` (32 bit). -/
def uint32 : IntTy := ⟨0, 4294967295, true⟩
/-- `unsigned long` (64 bit). -/
def uint64 : IntTy := ⟨0, 18446744073709551615, true⟩

/-- `v` is a value of the type. -/
def Has (ty : IntTy) (v : ℤ) : Prop := ty.lo ≤ v ∧ v ≤ ty.hi

instance (ty : IntTy) (v : ℤ) : Decidable (ty.Has v) := inferInstanceAs (Decidable (_ ∧ _))

/-- Result of an arithmetic operation whose exact value is `v`; `none` is undefined behaviour. -/
def norm (ty : IntTy) (v : ℤ) : Option ℤ :=
  if ty.Has v then some v
  else if ty.wraps then some (v % (ty.hi + 1))
  else none

/-- `-a` -/
def neg (ty : IntTy) (a : ℤ) : Option ℤ := ty.norm (-a)
/-- `a + b` -/
def add (ty : IntTy) (a b : ℤ) : Option ℤ := ty.norm (a + b)
/-- `a * b` -/
def mul (ty : IntTy) (a b : ℤ) : Option ℤ := ty.norm (a * b)
/-- `a / b` (truncating) -/
def div (ty : IntTy) (a b : ℤ) : Option ℤ :=
  if b = 0 then none else if ty.Has (a.tdiv b) then some (a.tdiv b) else none
/-- `a % b` (undefined when `a / b` is) -/
def mod (ty : IntTy) (a b : ℤ) : Option ℤ :=
  if b = 0 then none else if ty.Has (a.tdiv b) then some (a.tmod b) else none

end IntTy

namespace ProdDiv

/-- The loop of `prod_div_impl` (src/math.cpp 118-126).  `++k_p` cannot overflow because
`k_p < k`, so it is written as exact addition. -/
def loop (ty : IntTy) (k K : ℤ) (kp quot rem : ℤ) : Option (ℤ × ℤ) :=
  if _h : kp < k then do
    let quot_p ← ty.div quot kp
    let rem_p ← ty.mod quot kp
    let kp1 ← ty.add kp 1
    let a ← ty.mul rem kp1
    let b ← ty.mul rem_p K
    let prod_num ← ty.add a b
    let prod ← ty.div prod_num kp
    let c ← ty.div prod K
    let d ← ty.add quot_p c
    let quot' ← ty.add quot d
    let rem' ← ty.mod prod K
    loop ty k K (kp + 1) quot' rem'
  else some (quot, rem)
termination_by (k - kp).toNat
decreasing_by omega

/-- `prod_div_impl` after the sign normalisation (src/math.cpp 105-127). -/
def body (ty : IntTy) (N k K : ℤ) : Option (ℤ × ℤ) := do
  let N_max := if N ≥ 0 then ty.hi else ty.lo
  let t ← ty.div N_max N
  if k < t then
    let p ← ty.mul k N
    let rem ← ty.mod p K
    let quot ← ty.div p K
    some (quot, rem)
  else
    let k_0 ← ty.div N_max N
    let p ← ty.mul N k_0
    let quot ← ty.div p K
    let rem ← ty.mod p K
    loop ty k K k_0 quot rem

/-- `prod_div_impl(N, k, K, rem)` (src/math.cpp 99-128): the returned quotient and the value
stored in `rem`; `none` when undefined behaviour is executed. -/
def prodDiv (ty : IntTy) (N k K : ℤ) : Option (ℤ × ℤ) :=
  if k < 0 then do
    let N' ← ty.neg N
    let k' ← ty.neg k
    body ty N' k' K
  else body ty N k K

end ProdDiv
end Sidis
