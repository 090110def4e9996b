import Verif.Model.Codec
import Verif.Spec.ParamStream
import Verif.Lemmas.ParamStream
import Mathlib.Tactic.IntervalCases
import Mathlib.Tactic.Linarith
import Mathlib.Tactic.FieldSimp
import Mathlib.Tactic.Ring
import Mathlib.Tactic.NormNum
import Mathlib.Tactic.Positivity
import Mathlib.Algebra.Order.Field.Power

/-! Helper lemmas for the value readers and writers. -/

namespace Sidis.Codec

open Sidis.ParamStream

theorem digit_lt (n : ℕ) : n % 10 < 10 := Nat.mod_lt _ (by norm_num)

theorem digitChar_facts {d : ℕ} (h : d < 10) :
    isDigit (digitChar d) = true ∧ (digitChar d).toNat - 48 = d ∧ isSpace (digitChar d) = false ∧
    digitChar d ≠ '#' ∧ digitChar d ≠ '-' ∧ digitChar d ≠ '+' ∧ digitChar d ≠ '\n' ∧
    digitChar d ≠ '.' ∧ digitChar d ≠ 'e' ∧ digitChar d ≠ 'E' := by
  interval_cases d <;> decide

theorem isDigit_facts {c : Char} (h : isDigit c = true) :
    isSpace c = false ∧ c ≠ '#' ∧ c ≠ '-' ∧ c ≠ '+' ∧ c ≠ '\n' ∧ c ≠ '.' ∧ c ≠ 'e' ∧ c ≠ 'E' := by
  simp only [isDigit, Bool.and_eq_true, decide_eq_true_eq] at h
  have h1 : '0'.toNat ≤ c.toNat := h.1
  have h2 : c.toNat ≤ '9'.toNat := h.2
  have key : ∀ d : Char, isDigit d = false → c ≠ d := by
    rintro d hd rfl
    simp [isDigit, h.1, h.2] at hd
  refine ⟨?_, key _ (by decide), key _ (by decide), key _ (by decide), key _ (by decide),
    key _ (by decide), key _ (by decide), key _ (by decide)⟩
  simp only [isSpace, Bool.or_eq_false_iff, beq_eq_false_iff_ne]
  exact ⟨⟨⟨⟨⟨key _ (by decide), key _ (by decide)⟩, key _ (by decide)⟩, key _ (by decide)⟩,
    key _ (by decide)⟩, key _ (by decide)⟩

theorem padDigits_length (k n : ℕ) : (padDigits k n).length = k := by
  induction k generalizing n with
  | zero => rfl
  | succ k ih => simp [padDigits, ih]

theorem padDigits_digits (k n : ℕ) : ∀ c ∈ padDigits k n, isDigit c = true := by
  induction k generalizing n with
  | zero => simp [padDigits]
  | succ k ih =>
    intro c hc
    simp only [padDigits, List.mem_append, List.mem_singleton] at hc
    rcases hc with hc | rfl
    · exact ih _ c hc
    · exact (digitChar_facts (digit_lt n)).1

theorem digitsVal_append_one (s : Text) (c : Char) :
    digitsVal (s ++ [c]) = 10 * digitsVal s + (c.toNat - 48) := by
  simp [digitsVal]

theorem digitsVal_append (s t : Text) :
    digitsVal (s ++ t) = digitsVal s * 10 ^ t.length + digitsVal t := by
  induction t using List.reverseRecOn with
  | nil => simp [digitsVal]
  | append_singleton t c ih =>
    rw [← List.append_assoc, digitsVal_append_one, ih, digitsVal_append_one]
    simp only [List.length_append, List.length_singleton, pow_succ]
    ring

theorem digitsVal_padDigits (k n : ℕ) : digitsVal (padDigits k n) = n % 10 ^ k := by
  induction k generalizing n with
  | zero => simp [padDigits, digitsVal, Nat.mod_one]
  | succ k ih =>
    rw [padDigits, digitsVal_append_one, ih, (digitChar_facts (digit_lt n)).2.1, pow_succ',
      Nat.mod_mul, Nat.add_comm]

theorem natText_ne_nil (n : ℕ) : natText n ≠ [] := by
  intro h
  have := padDigits_length (Nat.log 10 n + 1) n
  unfold natText at h
  rw [h] at this
  simp at this

theorem natText_digits (n : ℕ) : ∀ c ∈ natText n, isDigit c = true := padDigits_digits _ _

theorem digitsVal_natText (n : ℕ) : digitsVal (natText n) = n := by
  unfold natText
  rw [digitsVal_padDigits]
  exact Nat.mod_eq_of_lt (Nat.lt_pow_succ_log_self (by norm_num) n)

/-- A string of digits followed by something that is not a digit. -/
theorem span_digits {ds rest : Text} (hd : ∀ c ∈ ds, isDigit c = true)
    (hr : ∀ c ∈ rest.head?, isDigit c = false) :
    (ds ++ rest).takeWhile isDigit = ds ∧ (ds ++ rest).dropWhile isDigit = rest := by
  rw [List.takeWhile_append_of_pos hd, List.dropWhile_append_of_pos hd]
  cases rest with
  | nil => simp
  | cons c r => simp [hr c (by simp)]

theorem head_of_digits {ds : Text} (hne : ds ≠ []) (hd : ∀ c ∈ ds, isDigit c = true) (rest : Text) :
    ∃ c r, ds ++ rest = c :: r ∧ isDigit c = true := by
  cases ds with
  | nil => exact absurd rfl hne
  | cons c r => exact ⟨c, r ++ rest, rfl, hd c (by simp)⟩

theorem trimLeft_cons {c : Char} (h : isSpace c = false) (r : Text) : trimLeft (c :: r) = c :: r :=
  trimLeft_of_head (by simpa using h)

theorem readSign_digit {c : Char} (h : isDigit c = true) (r : Text) :
    readSign (c :: r) = (false, c :: r) := by
  have hf := isDigit_facts h
  unfold readSign
  split
  · rename_i heq; exact absurd (List.cons.inj heq).1 hf.2.2.1
  · rename_i heq; exact absurd (List.cons.inj heq).1 hf.2.2.2.1
  · rfl

theorem readSign_minus (r : Text) : readSign ('-' :: r) = (true, r) := rfl

theorem readInt_writeInt (ty : IntTy) (i : ℤ) (hi : ty.Has i) (rest : Text)
    (hr : ∀ c ∈ rest.head?, isDigit c = false) :
    readInt ty (writeInt i ++ rest) = (i, some rest) := by
  have hspan := span_digits (natText_digits i.natAbs) hr
  obtain ⟨c, r, hc, hd⟩ := head_of_digits (natText_ne_nil i.natAbs) (natText_digits _) rest
  have hf := isDigit_facts hd
  unfold readInt
  by_cases hneg : i < 0
  · have e1 : trimLeft (writeInt i ++ rest) = '-' :: (natText i.natAbs ++ rest) := by
      rw [writeInt, if_pos hneg, List.cons_append]
      exact trimLeft_cons (by decide) _
    simp only [e1, readSign_minus, hspan.1, hspan.2, if_neg (natText_ne_nil i.natAbs), if_true,
      digitsVal_natText]
    have : -((i.natAbs : ℕ) : ℤ) = i := by omega
    rw [this, if_neg (not_lt.2 hi.1), if_neg (not_lt.2 hi.2)]
  · have e1 : trimLeft (writeInt i ++ rest) = natText i.natAbs ++ rest := by
      rw [writeInt, if_neg hneg, hc]
      exact trimLeft_cons hf.1 _
    have e2 : readSign (natText i.natAbs ++ rest) = (false, natText i.natAbs ++ rest) := by
      rw [hc]; exact readSign_digit hd _
    simp only [e1, e2, hspan.1, hspan.2, if_neg (natText_ne_nil i.natAbs), Bool.false_eq_true,
      if_false, digitsVal_natText]
    have : ((i.natAbs : ℕ) : ℤ) = i := by omega
    rw [this, if_neg (not_lt.2 hi.1), if_neg (not_lt.2 hi.2)]

/-! ### legal value texts -/

/-- Characters that may appear anywhere in a value text. -/
def Plain (c : Char) : Prop := isSpace c = false ∧ c ≠ '#'

theorem plain_digit {c : Char} (h : isDigit c = true) : Plain c :=
  ⟨(isDigit_facts h).1, (isDigit_facts h).2.1⟩

theorem body_of_plain {s : Text} (h : ∀ c ∈ s, Plain c) : Spec.Body s ∧ '\n' ∉ s := by
  refine ⟨⟨fun c hc => (h c hc).2, fun c hc => (h c (List.mem_of_mem_head? hc)).1,
    fun c hc => (h c (List.mem_of_mem_getLast? hc)).1⟩, fun hc => ?_⟩
  have := (h _ hc).1
  revert this; decide

theorem writeInt_plain (i : ℤ) : ∀ c ∈ writeInt i, Plain c := by
  intro c hc
  unfold writeInt at hc
  split_ifs at hc
  · rcases List.mem_cons.1 hc with rfl | hc
    · exact ⟨by decide, by decide⟩
    · exact plain_digit (natText_digits _ c hc)
  · exact plain_digit (natText_digits _ c hc)

theorem writeInt_ne_nil (i : ℤ) : writeInt i ≠ [] := by
  unfold writeInt; split_ifs
  · simp
  · exact natText_ne_nil _

/-! ### doubles -/

theorem roundEven_eq {q : ℚ} {m : ℤ} (h : |q - m| < 1 / 2) : roundEven q = m := by
  rw [abs_lt] at h
  unfold roundEven
  by_cases hle : (m : ℚ) ≤ q
  · have hf : ⌊q⌋ = m := by
      rw [Int.floor_eq_iff]; constructor <;> linarith
    simp only [hf]
    rw [if_pos (by linarith [h.2])]
  · push Not at hle
    have hf : ⌊q⌋ = m - 1 := by
      rw [Int.floor_eq_iff]; push_cast; constructor <;> linarith
    simp only [hf]
    push_cast
    rw [if_neg (by linarith [h.1]), if_pos (by linarith [h.1])]
    ring

theorem stripZeros_spec (s : Text) : ∃ j, s = stripZeros s ++ List.replicate j '0' := by
  refine ⟨(s.reverse.takeWhile (· == '0')).length, ?_⟩
  have h := List.takeWhile_append_dropWhile (p := (· == '0')) (l := s.reverse)
  have hr := congrArg List.reverse h
  rw [List.reverse_append, List.reverse_reverse] at hr
  conv_lhs => rw [← hr]
  unfold stripZeros
  congr 1
  rw [List.eq_replicate_iff]
  refine ⟨by simp, ?_⟩
  intro b hb
  have := List.mem_takeWhile_imp (List.mem_reverse.1 hb)
  simpa using this

theorem digitsVal_replicate (j : ℕ) : digitsVal (List.replicate j '0') = 0 := by
  induction j with
  | zero => rfl
  | succ j ih =>
    rw [List.replicate_succ', digitsVal_append_one, ih]
    rfl

/-- A fraction keeps its value when trailing zeros are dropped. -/
theorem stripZeros_val (s : Text) :
    (digitsVal s : ℚ) * (10 : ℚ) ^ (-(s.length : ℤ)) =
      (digitsVal (stripZeros s) : ℚ) * (10 : ℚ) ^ (-((stripZeros s).length : ℤ)) := by
  obtain ⟨j, hj⟩ := stripZeros_spec s
  conv_lhs => rw [hj]
  rw [digitsVal_append, digitsVal_replicate]
  simp only [List.length_append, List.length_replicate, Nat.add_zero]
  push_cast
  rw [neg_add, zpow_add₀ (by norm_num : (10 : ℚ) ≠ 0), mul_assoc]
  congr 1
  rw [mul_comm, mul_assoc, ← zpow_natCast, ← zpow_add₀ (by norm_num : (10 : ℚ) ≠ 0)]
  simp

theorem stripZeros_digits {s : Text} (h : ∀ c ∈ s, isDigit c = true) :
    ∀ c ∈ stripZeros s, isDigit c = true := by
  intro c hc
  obtain ⟨j, hj⟩ := stripZeros_spec s
  apply h; rw [hj]; exact List.mem_append_left _ hc

/-- What may follow a number in a value text. -/
def Stop (rest : Text) : Prop :=
  ∀ c ∈ rest.head?, isDigit c = false ∧ c ≠ '.' ∧ c ≠ 'e' ∧ c ≠ 'E'

theorem stop_nil : Stop [] := by simp [Stop]
theorem stop_space (r : Text) : Stop (' ' :: r) := by
  intro c hc
  simp only [List.head?_cons, Option.mem_def, Option.some.injEq] at hc
  subst hc; decide

theorem readFrac_fracText {fd tail : Text} (hd : ∀ c ∈ fd, isDigit c = true)
    (ht : ∀ c ∈ tail.head?, isDigit c = false ∧ c ≠ '.') :
    readFrac (fracText fd ++ tail) = (stripZeros fd, tail) := by
  unfold fracText
  split_ifs with h
  · rw [h, List.nil_append]
    unfold readFrac
    split
    · rename_i t
      exact absurd rfl (ht '.' (by simp)).2
    · rfl
  · have := span_digits (stripZeros_digits hd) (fun c hc => (ht c hc).1)
    rw [List.cons_append]
    simp only [readFrac, this.1, this.2]

theorem fracText_head {fd tail : Text} (ht : ∀ c ∈ tail.head?, isDigit c = false) :
    ∀ c ∈ (fracText fd ++ tail).head?, isDigit c = false := by
  unfold fracText
  split_ifs with h
  · simpa using ht
  · intro c hc
    simp only [List.cons_append, List.head?_cons, Option.mem_def, Option.some.injEq] at hc
    subst hc; decide

theorem readExp_stop {rest : Text} (h : Stop rest) : readExp rest = some (0, rest) := by
  cases rest with
  | nil => rfl
  | cons c r =>
    have := h c (by simp)
    simp [readExp, this.2.2.1, this.2.2.2]

theorem expDigits_spec (X : ℤ) :
    let ds := (if X.natAbs < 100 then padDigits 2 X.natAbs else natText X.natAbs)
    ds ≠ [] ∧ (∀ c ∈ ds, isDigit c = true) ∧ digitsVal ds = X.natAbs := by
  intro ds
  by_cases h : X.natAbs < 100
  · have e : ds = padDigits 2 X.natAbs := by simp only [ds, if_pos h]
    rw [e]
    refine ⟨?_, padDigits_digits _ _, ?_⟩
    · intro h0
      have := padDigits_length 2 X.natAbs
      rw [h0] at this; simp at this
    · rw [digitsVal_padDigits]; exact Nat.mod_eq_of_lt (by simpa using h)
  · have e : ds = natText X.natAbs := by simp only [ds, if_neg h]
    rw [e]
    exact ⟨natText_ne_nil _, natText_digits _, digitsVal_natText _⟩

theorem readExp_expText (X : ℤ) {rest : Text} (h : ∀ c ∈ rest.head?, isDigit c = false) :
    readExp ('e' :: (expText X ++ rest)) = some (X, rest) := by
  obtain ⟨h1, h2, h3⟩ := expDigits_spec X
  unfold expText
  set ds := (if X.natAbs < 100 then padDigits 2 X.natAbs else natText X.natAbs)
  have hs := span_digits h2 h
  by_cases hX : X < 0
  · simp only [if_pos hX, List.cons_append, readExp, true_or, if_true, readSign, hs.1, hs.2,
      if_neg h1, h3]
    congr 2; omega
  · simp only [if_neg hX, List.cons_append, readExp, true_or, if_true, readSign, hs.1, hs.2,
      if_neg h1, h3]
    simp only [Bool.false_eq_true, if_false]
    congr 2; omega

/-- Reading sign, integer digits, fraction and tail. -/
theorem readDouble_parts (rnd : ℚ → Option ℚ) (neg : Bool) (ip : ℕ) (fd tail rest : Text) (e : ℤ)
    (hd : ∀ c ∈ fd, isDigit c = true)
    (ht : ∀ c ∈ tail.head?, isDigit c = false ∧ c ≠ '.')
    (he : readExp tail = some (e, rest)) :
    readDouble rnd ((if neg then ['-'] else []) ++ (natText ip ++ (fracText fd ++ tail))) =
      convert rnd neg (((ip : ℚ) + (digitsVal fd : ℚ) * (10 : ℚ) ^ (-(fd.length : ℤ)))
                    * (10 : ℚ) ^ e) rest := by
  obtain ⟨c, r, hc, hdc⟩ := head_of_digits (natText_ne_nil ip) (natText_digits _)
    (fracText fd ++ tail)
  have hf := isDigit_facts hdc
  have hsign : readSign (trimLeft ((if neg then ['-'] else []) ++
      (natText ip ++ (fracText fd ++ tail)))) = (neg, natText ip ++ (fracText fd ++ tail)) := by
    cases neg
    · simp only [Bool.false_eq_true, if_false, List.nil_append]
      rw [hc, trimLeft_cons hf.1, readSign_digit hdc]
    · simp only [if_true, List.cons_append, List.nil_append]
      rw [trimLeft_cons (by decide), readSign_minus]
  have hspan := span_digits (natText_digits ip)
    (fracText_head (fd := fd) (tail := tail) (fun c hc => (ht c hc).1))
  have hfr := readFrac_fracText hd ht
  unfold readDouble
  simp only [hsign, hspan.1, hspan.2, hfr]
  rw [if_neg (by intro h; exact natText_ne_nil ip h.1)]
  rw [he]
  have hval : (digitsVal (natText ip ++ stripZeros fd) : ℚ) *
      (10 : ℚ) ^ (e - ((stripZeros fd).length : ℤ)) =
      ((ip : ℚ) + (digitsVal fd : ℚ) * (10 : ℚ) ^ (-(fd.length : ℤ))) * (10 : ℚ) ^ e := by
    rw [stripZeros_val fd, digitsVal_append, digitsVal_natText]
    push_cast
    rw [sub_eq_neg_add, zpow_add₀ (by norm_num : (10 : ℚ) ≠ 0), ← mul_assoc, add_mul]
    congr 2
    rw [mul_assoc, ← zpow_natCast, ← zpow_add₀ (by norm_num : (10 : ℚ) ≠ 0)]
    simp
  simp only [hval]

theorem readDouble_formatG (rnd : ℚ → Option ℚ) (neg : Bool) (m : ℕ) (X : ℤ) (rest : Text)
    (hr : Stop rest) :
    readDouble rnd ((if neg then ['-'] else []) ++ (formatG m X ++ rest)) =
      convert rnd neg ((m : ℚ) * (10 : ℚ) ^ (X - 5)) rest := by
  have h10 : (10 : ℚ) ≠ 0 := by norm_num
  have split : ∀ dec : ℕ, ((m / 10 ^ dec : ℕ) : ℚ) + ((m % 10 ^ dec : ℕ) : ℚ) * (10 : ℚ) ^ (-(dec : ℤ))
      = (m : ℚ) * (10 : ℚ) ^ (-(dec : ℤ)) := by
    intro dec
    have h := Nat.div_add_mod m (10 ^ dec)
    have h' : ((10 : ℚ) ^ dec) * ((m / 10 ^ dec : ℕ) : ℚ) + ((m % 10 ^ dec : ℕ) : ℚ) = m := by
      exact_mod_cast h
    have hp : (10 : ℚ) ^ (-(dec : ℤ)) = ((10 : ℚ) ^ dec)⁻¹ := by rw [zpow_neg, zpow_natCast]
    rw [hp, ← h']
    have : (10 : ℚ) ^ dec ≠ 0 := pow_ne_zero _ h10
    field_simp
  unfold formatG
  by_cases h : -4 ≤ X ∧ X < 6
  · rw [if_pos h]
    have key := readDouble_parts rnd neg (m / 10 ^ (5 - X).toNat)
      (padDigits (5 - X).toNat (m % 10 ^ (5 - X).toNat)) rest rest 0 (padDigits_digits _ _)
      (fun c hc => ⟨(hr c hc).1, (hr c hc).2.1⟩) (readExp_stop hr)
    rw [List.append_assoc, key]
    rw [digitsVal_padDigits, padDigits_length, Nat.mod_mod, split, zpow_zero, mul_one]
    have : -(((5 - X).toNat : ℕ) : ℤ) = X - 5 := by omega
    rw [this]
  · rw [if_neg h]
    have key := readDouble_parts rnd neg (m / 10 ^ 5)
      (padDigits 5 (m % 10 ^ 5)) ('e' :: (expText X ++ rest)) rest X (padDigits_digits _ _)
      (fun c hc => by
        simp only [List.head?_cons, Option.mem_def, Option.some.injEq] at hc
        subst hc; decide)
      (readExp_expText X (fun c hc => (hr c hc).1))
    have : natText (m / 10 ^ 5) ++ fracText (padDigits 5 (m % 10 ^ 5)) ++ 'e' :: expText X ++ rest =
        natText (m / 10 ^ 5) ++ (fracText (padDigits 5 (m % 10 ^ 5)) ++ 'e' :: (expText X ++ rest)) := by
      simp [List.append_assoc]
    rw [this, key]
    rw [digitsVal_padDigits, padDigits_length, Nat.mod_mod, split, mul_assoc, ← zpow_add₀ h10]
    have : -((5 : ℕ) : ℤ) + X = X - 5 := by push_cast; ring
    rw [this]

theorem log_eq {a : ℚ} {k : ℤ} (h1 : (10 : ℚ) ^ k ≤ a) (h2 : a < (10 : ℚ) ^ (k + 1)) :
    Int.log 10 a = k := by
  have h0 : 0 < a := lt_of_lt_of_le (by positivity) h1
  apply le_antisymm
  · have := (Int.lt_zpow_iff_log_lt (b := 10) (by norm_num) h0 (x := k + 1)).1 (by exact_mod_cast h2)
    omega
  · exact (Int.zpow_le_iff_le_log (b := 10) (by norm_num) h0).1 (by exact_mod_cast h1)

/-- Printing recovers the six digits of any number close enough to a six-digit decimal. -/
theorem sixDigits_eq {a : ℚ} {m : ℕ} {X : ℤ} (h1 : 100000 ≤ m) (h2 : m < 1000000)
    (ha : |a - (m : ℚ) * (10 : ℚ) ^ (X - 5)| ≤ (m : ℚ) * (10 : ℚ) ^ (X - 5) / 10 ^ 8) :
    sixDigits a = (m, X) := by
  have h10 : (10 : ℚ) ≠ 0 := by norm_num
  set P : ℚ := (10 : ℚ) ^ (X - 5) with hP
  have hPpos : 0 < P := by positivity
  have hX : (10 : ℚ) ^ X = 100000 * P := by
    rw [hP, show X = (X - 5) + 5 by ring, zpow_add₀ h10]; norm_num; ring
  have hX1 : (10 : ℚ) ^ (X + 1) = 1000000 * P := by
    rw [zpow_add₀ h10, hX]; norm_num; ring
  have hXm : (10 : ℚ) ^ (X - 1) = 10000 * P := by
    rw [sub_eq_add_neg, zpow_add₀ h10, hX]; norm_num; ring
  have hm1 : (100000 : ℚ) ≤ m := by exact_mod_cast h1
  have hm2 : (m : ℚ) ≤ 999999 := by exact_mod_cast (by omega : m ≤ 999999)
  rw [abs_le] at ha
  set t : ℚ := a / P with ht
  have hat : a = t * P := by rw [ht]; field_simp
  have ht1 : (m : ℚ) - m / 10 ^ 8 ≤ t := by
    have := ha.1
    rw [hat] at this
    by_contra hc
    push Not at hc
    have := mul_lt_mul_of_pos_right hc hPpos
    nlinarith
  have ht2 : t ≤ (m : ℚ) + m / 10 ^ 8 := by
    have := ha.2
    rw [hat] at this
    by_contra hc
    push Not at hc
    have := mul_lt_mul_of_pos_right hc hPpos
    nlinarith
  have hPinv : ∀ j : ℤ, a * (10 : ℚ) ^ (j - X) = t * (10 : ℚ) ^ (j - 5) := by
    intro j
    rw [hat, hP, mul_assoc, ← zpow_add₀ h10]
    congr 2; ring
  unfold sixDigits
  by_cases hlow : 100000 ≤ t
  · have hlog : Int.log 10 a = X := by
      apply log_eq
      · rw [hX, hat]; nlinarith
      · rw [hX1, hat]
        apply mul_lt_mul_of_pos_right _ hPpos
        linarith
    simp only [hlog]
    have hround : roundEven (a * 10 ^ (5 - X)) = (m : ℤ) := by
      apply roundEven_eq
      rw [hPinv 5, sub_self, zpow_zero, mul_one, abs_lt]
      push_cast
      constructor <;> linarith
    rw [hround, Int.toNat_natCast, if_neg (by omega)]
  · push Not at hlow
    have hmeq : m = 100000 := by
      by_contra hne
      have : 100001 ≤ m := by omega
      have : (100001 : ℚ) ≤ m := by exact_mod_cast this
      linarith
    subst hmeq
    push_cast at ht1 ht2
    have hlog : Int.log 10 a = X - 1 := by
      apply log_eq
      · rw [hXm, hat]; nlinarith
      · rw [show X - 1 + 1 = X by ring, hX, hat]
        exact mul_lt_mul_of_pos_right hlow hPpos
    simp only [hlog]
    have hround : roundEven (a * 10 ^ (5 - (X - 1))) = (1000000 : ℤ) := by
      apply roundEven_eq
      rw [show (5 : ℤ) - (X - 1) = 6 - X by ring, hPinv 6, abs_lt]
      norm_num
      constructor <;> linarith
    rw [hround, if_pos (show Int.toNat 1000000 = 1000000 from rfl)]
    norm_num

/-- A finite double that is the nearest double to a decimal with at most six digits. -/
def Short (rnd : ℚ → Option ℚ) (x : ℚ) : Prop :=
  ∃ (m k : ℤ), |m| < 1000000 ∧ rnd ((m : ℚ) * (10 : ℚ) ^ k) = some x ∧
    |x - (m : ℚ) * (10 : ℚ) ^ k| ≤ |(m : ℚ) * (10 : ℚ) ^ k| / 10 ^ 8

theorem normalise {m : ℕ} (h0 : m ≠ 0) (h : m < 1000000) :
    ∃ j : ℕ, 100000 ≤ m * 10 ^ j ∧ m * 10 ^ j < 1000000 := by
  rcases Nat.lt_or_ge m 10 with h1 | h1
  · exact ⟨5, by omega, by omega⟩
  rcases Nat.lt_or_ge m 100 with h2 | h2
  · exact ⟨4, by omega, by omega⟩
  rcases Nat.lt_or_ge m 1000 with h3 | h3
  · exact ⟨3, by omega, by omega⟩
  rcases Nat.lt_or_ge m 10000 with h4 | h4
  · exact ⟨2, by omega, by omega⟩
  rcases Nat.lt_or_ge m 100000 with h5 | h5
  · exact ⟨1, by omega, by omega⟩
  · exact ⟨0, by omega, by omega⟩

theorem readDouble_writeDouble (rnd : ℚ → Option ℚ) (x : ℚ) (hx : Short rnd x) (rest : Text)
    (hr : Stop rest) :
    readDouble rnd (writeDouble (.fin x) ++ rest) = (.fin x, some rest) := by
  obtain ⟨m, k, hm, hrnd, hacc⟩ := hx
  have h10 : (10 : ℚ) ≠ 0 := by norm_num
  by_cases h0 : m = 0
  · subst h0
    have hx0 : x = 0 := by
      have : |x| ≤ 0 := by simpa using hacc
      exact abs_nonpos_iff.1 this
    subst hx0
    have key := readDouble_parts rnd false 0 [] rest rest 0 (by simp)
      (fun c hc => ⟨(hr c hc).1, (hr c hc).2.1⟩) (readExp_stop hr)
    have e : writeDouble (.fin 0) ++ rest =
        ((if false then ['-'] else []) ++ (natText 0 ++ (fracText [] ++ rest))) := by
      simp [writeDouble, natText, padDigits, fracText, stripZeros, digitChar]
    rw [e, key]
    have hr0 : rnd 0 = some 0 := by simpa using hrnd
    simp [convert, digitsVal, hr0]
  · obtain ⟨j, hj1, hj2⟩ := normalise (m := m.natAbs) (by omega) (by
      have : (m.natAbs : ℤ) < 1000000 := by rw [Int.natCast_natAbs]; exact hm
      exact_mod_cast this)
    set M : ℕ := m.natAbs * 10 ^ j with hM
    set X : ℤ := k - j + 5 with hX
    set Q : ℚ := (M : ℚ) * (10 : ℚ) ^ (X - 5) with hQ
    have hQpos : 0 < Q := by
      have : (0 : ℚ) < M := by exact_mod_cast (by omega : 0 < M)
      positivity
    have habs : |(m : ℚ) * (10 : ℚ) ^ k| = Q := by
      rw [hQ, hM, hX, abs_mul, abs_of_pos (by positivity : (0 : ℚ) < (10 : ℚ) ^ k)]
      push_cast
      rw [Nat.cast_natAbs, Int.cast_abs, mul_assoc, ← zpow_natCast, ← zpow_add₀ h10]
      congr 2; ring
    rcases lt_or_gt_of_ne h0 with hneg | hpos
    · have hmk : (m : ℚ) * (10 : ℚ) ^ k = -Q := by
        rw [← habs, abs_of_neg]
        · ring
        · have : (m : ℚ) < 0 := by exact_mod_cast hneg
          exact mul_neg_of_neg_of_pos this (by positivity)
      rw [hmk] at hacc hrnd
      rw [abs_neg, abs_of_pos hQpos] at hacc
      have hxneg : x < 0 := by
        rw [abs_le] at hacc
        have := hacc.2
        linarith
      have hsix : sixDigits |x| = (M, X) := by
        apply sixDigits_eq hj1 hj2
        rw [← hQ, abs_of_neg hxneg, ← abs_neg]
        convert hacc using 2; ring
      have e : writeDouble (.fin x) ++ rest =
          ((if true then ['-'] else []) ++ (formatG M X ++ rest)) := by
        simp only [writeDouble, if_neg (ne_of_lt hxneg), hsix, if_pos hxneg, if_true,
          List.cons_append, List.nil_append]
      rw [e, readDouble_formatG rnd true M X rest hr]
      simp only [convert, if_true, ← hQ, hrnd]
    · have hmk : (m : ℚ) * (10 : ℚ) ^ k = Q := by
        rw [← habs, abs_of_pos]
        have : (0 : ℚ) < m := by exact_mod_cast hpos
        positivity
      rw [hmk] at hacc hrnd
      rw [abs_of_pos hQpos] at hacc
      have hxpos : 0 < x := by
        rw [abs_le] at hacc
        have := hacc.1
        linarith
      have hsix : sixDigits |x| = (M, X) := by
        apply sixDigits_eq hj1 hj2
        rw [← hQ, abs_of_pos hxpos]
        exact hacc
      have e : writeDouble (.fin x) ++ rest =
          ((if false then ['-'] else []) ++ (formatG M X ++ rest)) := by
        simp only [writeDouble, if_neg (ne_of_gt hxpos), hsix, if_neg (not_lt.2 hxpos.le),
          Bool.false_eq_true, if_false, List.nil_append]
      rw [e, readDouble_formatG rnd false M X rest hr]
      simp only [convert, Bool.false_eq_true, if_false, ← hQ, hrnd]

theorem fracText_plain {fd : Text} (h : ∀ c ∈ fd, isDigit c = true) : ∀ c ∈ fracText fd, Plain c := by
  intro c hc
  unfold fracText at hc
  split_ifs at hc
  · simp at hc
  · rcases List.mem_cons.1 hc with rfl | hc
    · exact ⟨by decide, by decide⟩
    · exact plain_digit (stripZeros_digits h c hc)

theorem formatG_plain (m : ℕ) (X : ℤ) : ∀ c ∈ formatG m X, Plain c := by
  intro c hc
  unfold formatG at hc
  split_ifs at hc
  · rcases List.mem_append.1 hc with hc | hc
    · exact plain_digit (natText_digits _ c hc)
    · exact fracText_plain (padDigits_digits _ _) c hc
  · rcases List.mem_append.1 hc with hc | hc
    · rcases List.mem_append.1 hc with hc | hc
      · exact plain_digit (natText_digits _ c hc)
      · exact fracText_plain (padDigits_digits _ _) c hc
    · rcases List.mem_cons.1 hc with rfl | hc
      · exact ⟨by decide, by decide⟩
      · unfold expText at hc
        rcases List.mem_cons.1 hc with rfl | hc
        · split_ifs <;> exact ⟨by decide, by decide⟩
        · exact plain_digit ((expDigits_spec X).2.1 c hc)

theorem writeDouble_plain (d : Dbl) : ∀ c ∈ writeDouble d, Plain c := by
  intro c hc
  cases d with
  | nan => simp only [writeDouble, List.mem_cons, List.not_mem_nil, or_false] at hc
           rcases hc with rfl | rfl | rfl <;> exact ⟨by decide, by decide⟩
  | ninf => simp only [writeDouble, List.mem_cons, List.not_mem_nil, or_false] at hc
            rcases hc with rfl | rfl | rfl | rfl <;> exact ⟨by decide, by decide⟩
  | pinf => simp only [writeDouble, List.mem_cons, List.not_mem_nil, or_false] at hc
            rcases hc with rfl | rfl | rfl <;> exact ⟨by decide, by decide⟩
  | fin q =>
    simp only [writeDouble] at hc
    split_ifs at hc
    · simp only [List.mem_singleton] at hc; subst hc; exact ⟨by decide, by decide⟩
    · rcases List.mem_cons.1 hc with rfl | hc
      · exact ⟨by decide, by decide⟩
      · exact formatG_plain _ _ c hc
    · exact formatG_plain _ _ c hc

/-- Leading white space is skipped. -/
theorem readDouble_space (rnd : ℚ → Option ℚ) (s : Text) :
    readDouble rnd (' ' :: s) = readDouble rnd s := by
  have : trimLeft (' ' :: s) = trimLeft s :=
    trimLeft_blank_append (w := [' ']) (by intro c hc; simp at hc; subst hc; decide) s
  unfold readDouble; rw [this]

end Sidis.Codec
