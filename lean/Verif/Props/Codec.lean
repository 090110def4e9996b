import Verif.Lemmas.Codec
import Verif.Props.ParamStream

/-!
# C39: written parameter values read back unchanged

`RoundTrips c t v` (see `Verif.Props.ParamStream`) says that `v` is written as a legal value text
which reads back, completely, as `v`.  `c39_file_round_trip` lifts this to whole files.
-/

namespace Sidis.Props

open Sidis.ParamStream Sidis.Spec Sidis.Codec

variable (rnd : ℚ → Option ℚ)

/-- **C39.** Integers (32 bit). -/
theorem c39_int (i : ℤ) (h : IntTy.int32.Has i) : RoundTrips (std rnd) .int (.int i) := by
  have hb := body_of_plain (writeInt_plain i)
  refine ⟨writeInt i, rfl, hb.1, hb.2, ?_⟩
  have := readInt_writeInt .int32 i h [] (by simp)
  rw [List.append_nil] at this
  simp only [Parses, std, Codec.read, this]

/-- **C39.** Integers (64 bit). -/
theorem c39_long (i : ℤ) (h : IntTy.int64.Has i) : RoundTrips (std rnd) .long (.long i) := by
  have hb := body_of_plain (writeInt_plain i)
  refine ⟨writeInt i, rfl, hb.1, hb.2, ?_⟩
  have := readInt_writeInt .int64 i h [] (by simp)
  rw [List.append_nil] at this
  simp only [Parses, std, Codec.read, this]

/-- **C39.** Versions. -/
theorem c39_version (a b : ℤ) (ha : IntTy.int32.Has a) (hb : IntTy.int32.Has b) :
    RoundTrips (std rnd) .version (.version a b) := by
  have hp : ∀ c ∈ writeInt a ++ ['.'] ++ writeInt b, Plain c := by
    intro c hc
    simp only [List.mem_append, List.mem_singleton] at hc
    rcases hc with (hc | rfl) | hc
    · exact writeInt_plain a c hc
    · exact ⟨by decide, by decide⟩
    · exact writeInt_plain b c hc
  have hbody := body_of_plain hp
  refine ⟨_, rfl, hbody.1, hbody.2, ?_⟩
  have h1 := readInt_writeInt .int32 a ha ('.' :: writeInt b) (by
    intro c hc; simp at hc; subst hc; decide)
  have h2 := readInt_writeInt .int32 b hb [] (by simp)
  rw [List.append_nil] at h2
  have h3 : readChar ('.' :: writeInt b) = some ('.', writeInt b) := by
    simp only [readChar, trimLeft_cons (show isSpace '.' = false by decide)]
  simp only [Parses, std, Codec.read, List.append_assoc, List.singleton_append, h1, h3, h2, ne_eq,
    not_true, if_false]

/-- **C39.** Booleans. -/
theorem c39_bool (b : Bool) : RoundTrips (std rnd) .bool (.bool b) := by
  cases b
  · refine ⟨"off".toList, rfl, (body_of_plain ?_).1, (body_of_plain ?_).2, ?_⟩
    · simp only [Plain]; decide
    · simp only [Plain]; decide
    · simp only [Parses, std, Codec.read]; decide
  · refine ⟨"on".toList, rfl, (body_of_plain ?_).1, (body_of_plain ?_).2, ?_⟩
    · simp only [Plain]; decide
    · simp only [Plain]; decide
    · simp only [Parses, std, Codec.read]; decide

/-- **C39.** Strings: any non-empty string without newline or comment sign and without white space
at its ends. -/
theorem c39_string (s : Text) (hne : s ≠ []) (hb : Body s) (hn : '\n' ∉ s) :
    RoundTrips (std rnd) .string (.string s) := by
  refine ⟨s, rfl, hb, hn, ?_⟩
  have h1 : s.takeWhile (· != '\n') = s := by
    rw [List.takeWhile_eq_self_iff]
    intro c hc
    simp only [bne_iff_ne, ne_eq]
    rintro rfl; exact hn hc
  have h2 : s.dropWhile (· != '\n') = [] := by
    rw [List.dropWhile_eq_nil_iff]
    intro c hc
    simp only [bne_iff_ne, ne_eq]
    rintro rfl; exact hn hc
  simp only [Parses, std, Codec.read, if_neg hne, h1, h2, List.drop_nil]

/-- **C39, excluded.** The empty string is written but cannot be read back. -/
theorem c39_string_empty_refuted : ¬ RoundTrips (std rnd) .string (.string []) := by
  rintro ⟨w, hw, -, -, hp⟩
  simp only [std, Codec.write, Option.some.injEq] at hw
  subst hw
  simp [Parses, std, Codec.read] at hp

/-- **C39.** Enumerations: every enumerator that can be written reads back; the ones that cannot be
written (for which no name exists) are exactly the massless electron, the phi and the J/psi. -/
theorem c39_enum :
    (∀ x, RoundTrips (std rnd) .rcMethod (.rcMethod x)) ∧
    (∀ x, RoundTrips (std rnd) .nucleus (.nucleus x)) ∧
    (∀ x, x ≠ .masslessE → RoundTrips (std rnd) .lepton (.lepton x)) ∧
    (∀ x, x ≠ .phi → x ≠ .jPsi → RoundTrips (std rnd) .hadron (.hadron x)) ∧
    write (.lepton .masslessE) = none ∧ write (.hadron .phi) = none ∧
    write (.hadron .jPsi) = none := by
  have mk : ∀ (t : Ty) (v : Val) (w : Text), write v = some w → (∀ c ∈ w, Plain c) →
      (std rnd).read t w = (v, some []) → RoundTrips (std rnd) t v := by
    intro t v w h1 h2 h3
    exact ⟨w, h1, (body_of_plain h2).1, (body_of_plain h2).2, h3⟩
  refine ⟨?_, ?_, ?_, ?_, rfl, rfl, rfl⟩
  · intro x; cases x
    · exact mk _ _ "none".toList rfl (by simp only [Plain]; decide) (by simp only [std, Codec.read]; decide)
    · exact mk _ _ "approx".toList rfl (by simp only [Plain]; decide) (by simp only [std, Codec.read]; decide)
    · exact mk _ _ "exact".toList rfl (by simp only [Plain]; decide) (by simp only [std, Codec.read]; decide)
  · intro x; cases x
    · exact mk _ _ "p".toList rfl (by simp only [Plain]; decide) (by simp only [std, Codec.read]; decide)
    · exact mk _ _ "n".toList rfl (by simp only [Plain]; decide) (by simp only [std, Codec.read]; decide)
    · exact mk _ _ "d".toList rfl (by simp only [Plain]; decide) (by simp only [std, Codec.read]; decide)
  · intro x hx; cases x
    · exact mk _ _ "e".toList rfl (by simp only [Plain]; decide) (by simp only [std, Codec.read]; decide)
    · exact mk _ _ "mu".toList rfl (by simp only [Plain]; decide) (by simp only [std, Codec.read]; decide)
    · exact mk _ _ "tau".toList rfl (by simp only [Plain]; decide) (by simp only [std, Codec.read]; decide)
    · exact absurd rfl hx
  · intro x hx hx'; cases x
    · exact mk _ _ "pi0".toList rfl (by simp only [Plain]; decide) (by simp only [std, Codec.read]; decide)
    · exact mk _ _ "pi+".toList rfl (by simp only [Plain]; decide) (by simp only [std, Codec.read]; decide)
    · exact mk _ _ "pi-".toList rfl (by simp only [Plain]; decide) (by simp only [std, Codec.read]; decide)
    · exact mk _ _ "K0".toList rfl (by simp only [Plain]; decide) (by simp only [std, Codec.read]; decide)
    · exact mk _ _ "K+".toList rfl (by simp only [Plain]; decide) (by simp only [std, Codec.read]; decide)
    · exact mk _ _ "K-".toList rfl (by simp only [Plain]; decide) (by simp only [std, Codec.read]; decide)
    · exact absurd rfl hx
    · exact absurd rfl hx'

/-- **C39.** Doubles without loss in decimal printing: the nearest double to a decimal with at most
six significant digits. -/
theorem c39_double (x : ℚ) (h : Short rnd x) : RoundTrips (std rnd) .double (.double (.fin x)) := by
  have hb := body_of_plain (writeDouble_plain (.fin x))
  refine ⟨_, rfl, hb.1, hb.2, ?_⟩
  have := readDouble_writeDouble rnd x h [] stop_nil
  rw [List.append_nil] at this
  simp only [Parses, std, Codec.read, this]

/-- No white space at either end when the two ends are plain. -/
theorem body_join {a b : Text} (ha : ∀ c ∈ a, Plain c) (hb : Body b) (hbn : '\n' ∉ b) (hne : a ≠ [])
    (hbe : b ≠ []) : Body (a ++ ' ' :: b) ∧ '\n' ∉ a ++ ' ' :: b := by
  have h := body_of_plain ha
  refine ⟨⟨?_, ?_, ?_⟩, ?_⟩
  · intro c hc
    simp only [List.mem_append, List.mem_cons] at hc
    rcases hc with hc | rfl | hc
    · exact (ha c hc).2
    · decide
    · exact hb.1 c hc
  · rw [List.head?_append_of_ne_nil _ hne]; exact h.1.2.1
  · have : (a ++ ' ' :: b).getLast? = b.getLast? := by
      rw [show a ++ ' ' :: b = (a ++ [' ']) ++ b by simp, List.getLast?_append_of_ne_nil _ hbe]
    rw [this]; exact hb.2.2
  · simp only [List.mem_append, List.mem_cons, not_or]
    exact ⟨h.2, by decide, hbn⟩

theorem writeDouble_ne_nil (x : ℚ) : writeDouble (.fin x) ≠ [] := by
  simp only [writeDouble]
  have : ∀ m X, formatG m X ≠ [] := by
    intro m X h
    unfold formatG at h
    split_ifs at h
    · exact natText_ne_nil _ (List.append_eq_nil_iff.1 h).1
    · simp at h
  split_ifs
  · simp
  · simp
  · exact this _ _

/-- **C39.** Vectors with such components. -/
theorem c39_vec3 (x y z : ℚ) (hx : Short rnd x) (hy : Short rnd y) (hz : Short rnd z) :
    RoundTrips (std rnd) .vec3 (.vec3 (.fin x) (.fin y) (.fin z)) := by
  have bz := body_of_plain (writeDouble_plain (.fin z))
  have byz := body_join (writeDouble_plain (.fin y)) bz.1 bz.2 (writeDouble_ne_nil y)
    (writeDouble_ne_nil z)
  have bxyz := body_join (writeDouble_plain (.fin x)) byz.1 byz.2 (writeDouble_ne_nil x) (by simp)
  have e : writeDouble (.fin x) ++ [' '] ++ writeDouble (.fin y) ++ [' '] ++ writeDouble (.fin z) =
      writeDouble (.fin x) ++ ' ' :: (writeDouble (.fin y) ++ ' ' :: writeDouble (.fin z)) := by simp
  refine ⟨_, rfl, e ▸ bxyz.1, e ▸ bxyz.2, ?_⟩
  have h1 := readDouble_writeDouble rnd x hx
    (' ' :: (writeDouble (.fin y) ++ ' ' :: writeDouble (.fin z))) (stop_space _)
  have h2 := readDouble_writeDouble rnd y hy (' ' :: writeDouble (.fin z)) (stop_space _)
  have h3 := readDouble_writeDouble rnd z hz [] stop_nil
  rw [List.append_nil] at h3
  rw [e]
  simp only [Parses, std, Codec.read, h1, readDouble_space, h2, h3]

/-- **C39.** Ordered finite bounds with such ends. -/
theorem c39_bound (a b : ℚ) (hab : a ≤ b) (ha : Short rnd a) (hb : Short rnd b) :
    RoundTrips (std rnd) .bound (.bound (.fin a) (.fin b)) := by
  have bb := body_of_plain (writeDouble_plain (.fin b))
  have bab := body_join (writeDouble_plain (.fin a)) bb.1 bb.2 (writeDouble_ne_nil a)
    (writeDouble_ne_nil b)
  have e : writeDouble (.fin a) ++ [' '] ++ writeDouble (.fin b) =
      writeDouble (.fin a) ++ ' ' :: writeDouble (.fin b) := by simp
  refine ⟨_, rfl, e ▸ bab.1, e ▸ bab.2, ?_⟩
  have h1 := readDouble_writeDouble rnd a ha (' ' :: writeDouble (.fin b)) (stop_space _)
  have h2 := readDouble_writeDouble rnd b hb [] stop_nil
  rw [List.append_nil] at h2
  have hle : (Dbl.fin a).le (.fin b) = true := by simp [Dbl.le, hab]
  rw [e]
  simp only [Parses, std, Codec.read, h1, readDouble_space, h2, hle, if_true]

/-- **C39, excluded.** A bound with an infinite end (such as the default of `cut.k_0_bar`) is
written as text that cannot be read back. -/
theorem c39_infinite_bound_refuted (d : Dbl) :
    ¬ RoundTrips (std rnd) .bound (.bound d .pinf) := by
  rintro ⟨w, hw, -, -, hp⟩
  simp only [std, Codec.write, Option.some.injEq] at hw
  subst hw
  simp only [Parses, std, Codec.read] at hp
  revert hp
  -- whatever is read first, the second number cannot come out as +inf on success
  have key : ∀ s : Text, (readDouble rnd s).2 ≠ none → (readDouble rnd s).1 ≠ .pinf := by
    intro s hs
    unfold readDouble at hs ⊢
    simp only at hs ⊢
    split_ifs at hs ⊢ with h
    · simp
    · split at hs
      · simp at hs
      · rename_i e rest heq
        unfold Codec.convert at hs ⊢
        split at hs
        · simp at hs
        · simp
  generalize readDouble rnd (writeDouble d ++ [' '] ++ writeDouble .pinf) = r
  obtain ⟨v, o⟩ := r
  cases o with
  | none => simp
  | some s₁ =>
    simp only
    have := key s₁
    generalize readDouble rnd s₁ = r₂ at *
    obtain ⟨v₂, o₂⟩ := r₂
    cases o₂ with
    | none => simp
    | some s₂ =>
      simp only
      split_ifs
      · intro h
        simp only [Prod.mk.injEq, Val.bound.injEq] at h
        exact this (by simp) h.1.2
      · simp

/-- **C39, excluded.** A double with more than six significant digits comes back changed: 1234567
(exactly representable) reads back as 1234570. -/
theorem c39_double_loss_refuted :
    write (.double (.fin 1234567)) = some "1.23457e+06".toList ∧
    (std some).read .double "1.23457e+06".toList = (.double (.fin 1234570), some []) := by
  constructor
  · simp only [Codec.write]
    have hlog : Int.log 10 |(1234567 : ℚ)| = 6 := by
      apply log_eq <;> norm_num [abs_of_pos]
    have hr : roundEven (|(1234567 : ℚ)| * 10 ^ ((5 : ℤ) - 6)) = 123457 := by
      apply roundEven_eq
      norm_num [abs_lt]
    have h6 : sixDigits |(1234567 : ℚ)| = (123457, 6) := by
      unfold sixDigits
      simp only [hlog, hr]
      rfl
    simp only [writeDouble, h6]
    norm_num
    decide +kernel
  · decide +kernel

/-- **C39.** A single seed. -/
theorem c39_seed_single (i : ℤ) (h : IntTy.int32.Has i) :
    RoundTrips (std rnd) .seedGen (.seedGen [i]) := by
  have hb := body_of_plain (writeInt_plain i)
  have e : write (.seedGen [i]) = some (writeInt i) := by simp [Codec.write]
  refine ⟨writeInt i, e, hb.1, hb.2, ?_⟩
  have := readInt_writeInt .int32 i h [] (by simp)
  rw [List.append_nil] at this
  simp only [Parses, std, Codec.read, readSeeds, this]
  rfl

/-- **C39, excluded.** Two seeds, the larger of them non-negative (as after merging two files), are
written without a separator and never read back as the same two seeds. -/
theorem c39_two_seeds_refuted (a b : ℤ) (hb : 0 ≤ b) :
    ¬ RoundTrips (std rnd) .seedGen (.seedGen [a, b]) := by
  rintro ⟨w, hw, -, -, hp⟩
  have e : write (.seedGen [a, b]) = some (writeInt a ++ writeInt b) := by simp [Codec.write]
  simp only [std] at hw
  rw [e] at hw
  simp only [Option.some.injEq] at hw
  subst hw
  simp only [Parses, std, Codec.read] at hp
  -- the whole text is one number
  have hone : ∃ v o, readInt .int32 (writeInt a ++ writeInt b) = (v, o) ∧ (o = none ∨ o = some []) := by
    have hbt : writeInt b = natText b.natAbs := by rw [writeInt, if_neg (not_lt.2 hb)]
    have hd : ∀ c ∈ natText a.natAbs ++ natText b.natAbs, isDigit c = true := by
      intro c hc
      rcases List.mem_append.1 hc with hc | hc <;> exact natText_digits _ c hc
    have hspan := span_digits (rest := []) hd (by simp)
    rw [List.append_nil] at hspan
    have hne : natText a.natAbs ++ natText b.natAbs ≠ [] := by
      intro h; exact natText_ne_nil _ (List.append_eq_nil_iff.1 h).1
    obtain ⟨c, r, hc, hdc⟩ := head_of_digits (natText_ne_nil a.natAbs) (natText_digits _)
      (natText b.natAbs)
    have hsign : ∃ n, readSign (trimLeft (writeInt a ++ writeInt b)) =
        (n, natText a.natAbs ++ natText b.natAbs) := by
      rw [hbt]
      by_cases ha : a < 0
      · refine ⟨true, ?_⟩
        rw [writeInt, if_pos ha, List.cons_append, trimLeft_cons (by decide), readSign_minus]
      · refine ⟨false, ?_⟩
        rw [writeInt, if_neg ha, hc, trimLeft_cons (isDigit_facts hdc).1, readSign_digit hdc]
    obtain ⟨n, hn⟩ := hsign
    unfold readInt
    simp only [hn, hspan.1, hspan.2, if_neg hne]
    split_ifs
    all_goals exact ⟨_, _, rfl, by simp⟩
  obtain ⟨v, o, hv, ho⟩ := hone
  rcases ho with rfl | rfl
  · simp [readSeeds, hv] at hp
  · simp [readSeeds, hv] at hp

/-- The documented way of asking for a random seed, `any`, is not accepted. -/
theorem c39_seed_any_refuted : ¬ ∃ v, Parses (std rnd) .seedGen "any".toList v := by
  rintro ⟨v, hv⟩
  simp only [Parses, std, Codec.read] at hv
  have : readSeeds ("any".toList.length + 1) "any".toList [] = ([0], none) := by decide
  rw [this] at hv
  simp at hv

/-! ### the hypotheses are met -/

/-- 0.95, 262144, -3.5e-7 are short; -17 and 2^62 are in range; a path is a legal string. -/
example : Short some (95 / 100) ∧ Short some 262144 ∧ Short some (-35 / 100000000) ∧
    IntTy.int32.Has (-17) ∧ IntTy.int64.Has (2 ^ 62) ∧
    (Body "out dir/events.root".toList ∧ '\n' ∉ "out dir/events.root".toList) := by
  refine ⟨⟨95, -2, by norm_num, by norm_num, by norm_num⟩, ⟨262144, 0, by norm_num, by norm_num, by norm_num⟩,
    ⟨-35, -8, by norm_num, by norm_num, by norm_num⟩, by decide, by decide, ?_⟩
  refine ⟨⟨?_, ?_, ?_⟩, ?_⟩ <;> decide

/-- A table with an integer and a string, in two states. -/
private def demo (n : Option Val) : Params Text Unit Ty Val :=
  ⟨[("mc.num_events".toList, ⟨.int, n, none, ∅, true⟩),
    ("file.event".toList, ⟨.string, none, none, ∅, false⟩)]⟩

private def demoFile : List Line :=
  [.nothing "# run 7".toList, .says "  file.event  out dir/a.root # where".toList "file.event".toList
    "out dir/a.root".toList, .says "mc.num_events 100".toList "mc.num_events".toList "100".toList]

/-- The hypotheses of the C38 theorems: a file with a comment, a padded line and a plain line. -/
example : (demo none).WF ∧ (∀ l ∈ demoFile, l.Ok) ∧
    (readStream (std some) (demo none) (fileText demoFile)).1 = .ok () := by
  refine ⟨by unfold Params.WF; decide +kernel, ?_, by with_unfolding_all rfl⟩
  intro l hl
  simp only [demoFile, List.mem_cons, List.not_mem_nil, or_false] at hl
  rcases hl with rfl | rfl | rfl
  · exact ⟨⟨[], "# run 7".toList, by simp [Blank], Or.inr ⟨_, rfl⟩, rfl⟩, by decide⟩
  · refine ⟨⟨"  ".toList, "  ".toList, " ".toList, "# where".toList, ?_, ?_, ?_, Or.inr ⟨_, rfl⟩, ?_, ?_,
      by decide, by decide⟩, by decide⟩
    · unfold Blank; decide
    · unfold Blank; decide
    · unfold Blank; decide
    · unfold Word; decide
    · unfold Body; refine ⟨?_, ?_, ?_⟩ <;> decide
  · refine ⟨⟨[], " ".toList, [], [], ?_, ?_, ?_, Or.inl rfl, ?_, ?_, by decide, by decide⟩, by decide⟩
    · unfold Blank; decide
    · unfold Blank; decide
    · unfold Blank; decide
    · unfold Word; decide
    · unfold Body; refine ⟨?_, ?_, ?_⟩ <;> decide

/-- The hypotheses of `c39_file_round_trip`. -/
example : (demo (some (.int 100))).WF ∧ (demo none).names = (demo (some (.int 100))).names ∧
    (∀ n ∈ (demo (some (.int 100))).names, Word n) ∧
    (∀ n p v, (demo (some (.int 100))).find n = some p → p.value = some v →
      RoundTrips (std some) p.type v) := by
  refine ⟨by unfold Params.WF; decide +kernel, by decide +kernel, ?_, ?_⟩
  · intro n hn
    simp only [demo, Params.names, List.map_cons, List.map_nil, List.mem_cons, List.not_mem_nil,
      or_false] at hn
    rcases hn with rfl | rfl <;> (unfold Word; decide)
  · intro n p v hp hv
    have := Params.mem_of_find hp
    simp only [demo, List.mem_cons, List.not_mem_nil, or_false, Prod.mk.injEq] at this
    rcases this with ⟨-, rfl⟩ | ⟨-, rfl⟩
    · cases hv; exact c39_int _ 100 (by decide)
    · cases hv

end Sidis.Props
