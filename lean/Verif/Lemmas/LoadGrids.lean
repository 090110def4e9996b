import Verif.Lemmas.Codec
import Verif.Lemmas.Command
import Verif.Spec.LoadGrids

/-! # Lemmas on reading numbers and lines for `Props.LoadGrids` -/

namespace Sidis.LoadGrids

open Sidis.ParamStream Sidis.Codec Sidis.Spec

theorem digits_iff {s : Text} : Digits s ↔ ∀ c ∈ s, isDigit c = true := by
  simp [Digits, isDigit]

theorem digitsNat_eq (s : Text) : digitsNat s = digitsVal s := by
  induction s with
  | nil => rfl
  | cons c s ih =>
    rw [digitsNat, ih, show c :: s = [c] ++ s from rfl, digitsVal_append]
    simp [digitsVal]

/-- The characters of the parts of a number. -/
def fracPart : Option Text → Text
  | none => []
  | some f => '.' :: f
@[inherit_doc fracPart] def expPart : Option (Char × Option Char × Text) → Text
  | none => []
  | some (m, s, d) => m :: s.toList ++ d
/-- The exponent. -/
def expVal : Option (Char × Option Char × Text) → ℤ
  | none => 0
  | some (_, s, d) => if s = some '-' then -(digitsVal d : ℤ) else digitsVal d

theorem text_eq (n : Numeral) :
    n.text = n.sign.toList ++ (n.int ++ (fracPart n.frac ++ expPart n.exp)) := by
  rcases n with ⟨s, i, f, e⟩
  cases f <;> rcases e with _ | ⟨m, s, d⟩ <;> simp [Numeral.text, fracPart, expPart]

theorem value_eq (n : Numeral) :
    n.value = if decide (n.sign = some '-') then
        -((digitsVal (n.int ++ n.frac.getD []) : ℚ) * (10 : ℚ) ^ (expVal n.exp - ((n.frac.getD []).length : ℤ)))
      else (digitsVal (n.int ++ n.frac.getD []) : ℚ) *
        (10 : ℚ) ^ (expVal n.exp - ((n.frac.getD []).length : ℤ)) := by
  have key : (digitsVal (n.int ++ n.frac.getD []) : ℚ) *
        (10 : ℚ) ^ (expVal n.exp - ((n.frac.getD []).length : ℤ)) =
      ((digitsNat n.int : ℚ) + fracValue n.frac) * scale n.exp := by
    rw [digitsVal_append, zpow_sub₀ (by norm_num)]
    have he : (10 : ℚ) ^ expVal n.exp = scale n.exp := by
      rcases n.exp with _ | ⟨m, s, d⟩
      · simp [expVal, scale]
      · simp only [expVal, scale, digitsNat_eq]
        split_ifs
        · rw [zpow_neg, zpow_natCast, one_div]
        · rw [zpow_natCast]
    rw [he]
    cases n.frac with
    | none => simp [digitsNat_eq, digitsVal, fracValue]
    | some f =>
      simp only [Option.getD_some, digitsNat_eq, zpow_natCast, fracValue]
      push_cast
      field_simp
  rw [key]
  unfold Numeral.value
  by_cases h : n.sign = some '-' <;> simp only [h, decide_true, decide_false, if_true, if_false,
    Bool.false_eq_true] <;> ring

/-! ### Forward: a written number is read -/

theorem readSign_of {sgn : Option Char} (hs : SignOk sgn) {b : Text}
    (hb : ∀ c ∈ b.head?, c ≠ '+' ∧ c ≠ '-') :
    readSign (sgn.toList ++ b) = (decide (sgn = some '-'), b) := by
  rcases hs with rfl | rfl | rfl
  · cases b with
    | nil => rfl
    | cons c b =>
      have := hb c (by simp)
      simp only [Option.toList, List.nil_append]
      unfold readSign
      split
      · rename_i h; cases h; exact absurd rfl this.2
      · rename_i h; cases h; exact absurd rfl this.1
      · rfl
  · rfl
  · rfl

theorem readFrac_of {fr : Option Text} (hd : ∀ f ∈ fr, Digits f) {tail : Text}
    (ht : ∀ c ∈ tail.head?, isDigit c = false ∧ c ≠ '.') :
    readFrac (fracPart fr ++ tail) = (fr.getD [], tail) := by
  cases fr with
  | none =>
    simp only [fracPart, List.nil_append, Option.getD_none]
    unfold readFrac
    split
    · have := ht '.' (by simp)
      exact absurd rfl this.2
    · rfl
  | some f =>
    have := span_digits (digits_iff.1 (hd f rfl)) (fun c hc => (ht c hc).1)
    simp [fracPart, readFrac, this.1, this.2]

theorem readExp_of {ex : Option (Char × Option Char × Text)}
    (h : ∀ m s d, ex = some (m, s, d) → (m = 'e' ∨ m = 'E') ∧ SignOk s ∧ Digits d ∧ d ≠ [])
    {tail : Text} (ht : Stop tail) : readExp (expPart ex ++ tail) = some (expVal ex, tail) := by
  rcases ex with _ | ⟨m, s, d⟩
  · simpa [expPart, expVal] using readExp_stop ht
  · obtain ⟨hm, hs, hd, hne⟩ := h m s d rfl
    have hd' := digits_iff.1 hd
    have hsp := span_digits hd' (fun c hc => (ht c hc).1)
    obtain ⟨c, r, hc, hdc⟩ := head_of_digits hne hd' tail
    have hf := isDigit_facts hdc
    have hsg : readSign (s.toList ++ (d ++ tail)) = (decide (s = some '-'), d ++ tail) :=
      readSign_of hs (by rw [hc]; simp [hf.2.2.1, hf.2.2.2.1])
    simp only [expPart, List.cons_append, List.append_assoc, readExp, if_pos hm, hsg, hsp.1, hsp.2, if_neg hne,
      expVal]
    by_cases h : s = some '-' <;> simp [h]

theorem stop_of {s : Text} (hs : s = [] ∨ ∃ c t, s = c :: t ∧ isSpace c = true) : Stop s := by
  rcases hs with rfl | ⟨c, t, rfl, h⟩
  · exact stop_nil
  · intro x hx
    simp only [List.head?_cons, Option.mem_def, Option.some.injEq] at hx
    subst hx
    simp only [isSpace, Bool.or_eq_true, beq_iff_eq] at h
    rcases h with ((((rfl | rfl) | rfl) | rfl) | rfl) | rfl <;> decide

/-- The head of what follows the digits before the point. -/
theorem head_expPart {ex : Option (Char × Option Char × Text)}
    (h : ∀ m s d, ex = some (m, s, d) → (m = 'e' ∨ m = 'E') ∧ SignOk s ∧ Digits d ∧ d ≠ [])
    {tail : Text} (ht : Stop tail) : ∀ c ∈ (expPart ex ++ tail).head?, isDigit c = false ∧ c ≠ '.' := by
  rcases ex with _ | ⟨m, s, d⟩
  · intro c hc
    have := ht c (by simpa [expPart] using hc)
    exact ⟨this.1, this.2.1⟩
  · intro c hc
    simp only [expPart, List.cons_append, List.head?_cons, Option.mem_def, Option.some.injEq] at hc
    subst hc
    rcases (h m s d rfl).1 with rfl | rfl <;> decide

theorem trimLeft_blank {w : Text} (hw : Blank w) (s : Text) : trimLeft (w ++ s) = trimLeft s := by
  unfold trimLeft
  exact List.dropWhile_append_of_pos hw

/-- A number followed by white space or nothing is read whole. -/
theorem read_numeral (rnd : ℚ → Option ℚ) {w : Text} {n : Numeral} {s : Text} (hw : Blank w) (hn : n.Ok)
    (hs : Stop s) {x : ℚ} (hx : rnd n.value = some x) :
    readDouble rnd (w ++ n.text ++ s) = (.fin x, some s) := by
  have hexp := head_expPart hn.exp hs
  have hfr : ∀ c ∈ (fracPart n.frac ++ (expPart n.exp ++ s)).head?, isDigit c = false := by
    cases hf : n.frac with
    | none => intro c hc; exact (hexp c (by simpa [fracPart] using hc)).1
    | some f => intro c hc; simp [fracPart] at hc; subst hc; decide
  -- the first character of the unsigned part
  have hhead : ∃ c r, n.int ++ (fracPart n.frac ++ (expPart n.exp ++ s)) = c :: r ∧
      (isDigit c = true ∨ c = '.') := by
    rcases hn.some_digit with h | ⟨f, hf, -⟩
    · obtain ⟨c, r, h1, h2⟩ := head_of_digits h (digits_iff.1 hn.int)
        (fracPart n.frac ++ (expPart n.exp ++ s))
      exact ⟨c, r, h1, .inl h2⟩
    · by_cases h : n.int = []
      · rw [h, hf]
        exact ⟨'.', _, rfl, .inr rfl⟩
      · obtain ⟨c, r, h1, h2⟩ := head_of_digits h (digits_iff.1 hn.int)
          (fracPart n.frac ++ (expPart n.exp ++ s))
        exact ⟨c, r, h1, .inl h2⟩
  obtain ⟨c, r, hc, hcd⟩ := hhead
  have hcp : isSpace c = false ∧ c ≠ '+' ∧ c ≠ '-' := by
    rcases hcd with h | rfl
    · have := isDigit_facts h
      exact ⟨this.1, this.2.2.2.1, this.2.2.1⟩
    · decide
  have e : w ++ n.text ++ s =
      w ++ (n.sign.toList ++ (n.int ++ (fracPart n.frac ++ (expPart n.exp ++ s)))) := by
    rw [text_eq]; simp
  have htrim : trimLeft (n.sign.toList ++ (n.int ++ (fracPart n.frac ++ (expPart n.exp ++ s)))) =
      n.sign.toList ++ (n.int ++ (fracPart n.frac ++ (expPart n.exp ++ s))) := by
    rcases hn.sign with h | h | h <;> rw [h]
    · simp only [Option.toList, List.nil_append]
      rw [hc, trimLeft_cons hcp.1]
    · exact trimLeft_cons (by decide) _
    · exact trimLeft_cons (by decide) _
  have hsg := readSign_of hn.sign (b := n.int ++ (fracPart n.frac ++ (expPart n.exp ++ s)))
    (by rw [hc]; simpa using hcp.2)
  have hsp := span_digits (digits_iff.1 hn.int) hfr
  have hrf := readFrac_of hn.frac hexp
  have hre := readExp_of hn.exp hs
  have hdig : ¬ (n.int = [] ∧ n.frac.getD [] = []) := by
    rintro ⟨h1, h2⟩
    rcases hn.some_digit with h | ⟨f, hf, h⟩
    · exact h h1
    · rw [hf] at h2; exact h h2
  rw [value_eq] at hx
  rw [e]
  unfold readDouble
  simp only [trimLeft_blank hw, htrim, hsg, hsp.1, hsp.2, hrf, hre, if_neg hdig]
  unfold convert
  rw [hx]

/-! ### Backward: what is read is a number -/

theorem of_readSign (t : Text) : ∃ sgn, SignOk sgn ∧ t = sgn.toList ++ (readSign t).2 ∧
    (readSign t).1 = decide (sgn = some '-') := by
  unfold readSign
  split
  · exact ⟨some '-', .inr (.inr rfl), rfl, rfl⟩
  · exact ⟨some '+', .inr (.inl rfl), rfl, rfl⟩
  · exact ⟨none, .inl rfl, rfl, rfl⟩

theorem takeWhile_digits (t : Text) : Digits (t.takeWhile isDigit) :=
  digits_iff.2 fun _ hc => by simpa using List.mem_takeWhile_imp hc

theorem of_readFrac (t : Text) : ∃ fr, (∀ f ∈ fr, Digits f) ∧ t = fracPart fr ++ (readFrac t).2 ∧
    (readFrac t).1 = fr.getD [] := by
  unfold readFrac
  split
  · rename_i t
    refine ⟨some (t.takeWhile isDigit), ?_, ?_, rfl⟩
    · intro f hf
      cases hf
      exact takeWhile_digits t
    · simp [fracPart]
  · exact ⟨none, by simp, rfl, rfl⟩

theorem of_readExp {t rest : Text} {e : ℤ} (h : readExp t = some (e, rest)) :
    ∃ ex, (∀ m s d, ex = some (m, s, d) → (m = 'e' ∨ m = 'E') ∧ SignOk s ∧ Digits d ∧ d ≠ []) ∧
      t = expPart ex ++ rest ∧ e = expVal ex := by
  unfold readExp at h
  split at h
  · rename_i c t
    split_ifs at h with hc
    · obtain ⟨sgn, h1, h2, h3⟩ := of_readSign t
      simp only at h
      split_ifs at h with hd hr
      · simp only [Option.some.injEq, Prod.mk.injEq] at h
        refine ⟨some (c, sgn, (readSign t).2.takeWhile isDigit), ?_, ?_, ?_⟩
        · rintro m s d ⟨⟩
          exact ⟨hc, h1, takeWhile_digits _, hd⟩
        · rw [← h.2]
          simp only [expPart, List.cons_append, List.append_assoc, List.takeWhile_append_dropWhile]
          rw [← h2]
        · rw [hr] at h3
          rw [← h.1, expVal, if_pos (by simpa using h3.symm)]
      · simp only [Option.some.injEq, Prod.mk.injEq] at h
        refine ⟨some (c, sgn, (readSign t).2.takeWhile isDigit), ?_, ?_, ?_⟩
        · rintro m s d ⟨⟩
          exact ⟨hc, h1, takeWhile_digits _, hd⟩
        · rw [← h.2]
          simp only [expPart, List.cons_append, List.append_assoc, List.takeWhile_append_dropWhile]
          rw [← h2]
        · have : (readSign t).1 = false := by simpa using hr
          rw [this] at h3
          rw [← h.1, expVal, if_neg (by simpa using h3.symm)]
    · simp only [Option.some.injEq, Prod.mk.injEq] at h
      exact ⟨none, by simp, by simp [expPart, h.2], by simp [expVal, h.1]⟩
  · simp only [Option.some.injEq, Prod.mk.injEq] at h
    exact ⟨none, by simp, by simp [expPart, h.2], by simp [expVal, h.1]⟩

theorem numeral_of_read {rnd : ℚ → Option ℚ} {s rest : Text} {d : Dbl}
    (h : readDouble rnd s = (d, some rest)) :
    ∃ (w : Text) (n : Numeral) (x : ℚ), s = w ++ n.text ++ rest ∧ Blank w ∧ n.Ok ∧ d = .fin x ∧ rnd n.value = some x := by
  obtain ⟨sgn, s1, s2, s3⟩ := of_readSign (trimLeft s)
  obtain ⟨fr, f1, f2, f3⟩ := of_readFrac ((readSign (trimLeft s)).2.dropWhile isDigit)
  unfold readDouble at h
  simp only at h
  split_ifs at h with hd
  · simp at h
  · split at h
    · simp at h
    · rename_i e rest' he
      obtain ⟨ex, e1, e2, e3⟩ := of_readExp he
      set ip := (readSign (trimLeft s)).2.takeWhile isDigit with hip
      let n : Numeral := ⟨sgn, ip, fr, ex⟩
      have hn : n.Ok := by
        refine ⟨s1, takeWhile_digits _, f1, ?_, e1⟩
        by_contra hc
        push Not at hc
        refine hd ⟨hc.1, ?_⟩
        rw [f3]
        cases hfr : fr with
        | none => rfl
        | some f => exact hc.2 f hfr
      have hv : (if (readSign (trimLeft s)).1 then
          -((digitsVal (ip ++ (readFrac ((readSign (trimLeft s)).2.dropWhile isDigit)).1) : ℚ) *
            (10 : ℚ) ^ (e - ((readFrac ((readSign (trimLeft s)).2.dropWhile isDigit)).1.length : ℤ)))
        else (digitsVal (ip ++ (readFrac ((readSign (trimLeft s)).2.dropWhile isDigit)).1) : ℚ) *
            (10 : ℚ) ^ (e - ((readFrac ((readSign (trimLeft s)).2.dropWhile isDigit)).1.length : ℤ))) =
          n.value := by
        rw [value_eq n, s3, f3, e3]
      unfold convert at h
      rw [hv] at h
      split at h
      · simp at h
      · rename_i x hx
        simp only [Prod.mk.injEq, Option.some.injEq] at h
        refine ⟨s.takeWhile isSpace, n, x, ?_, fun c hc => by simpa using List.mem_takeWhile_imp hc, hn,
          h.1.symm, hx⟩
        rw [text_eq]
        have : s = s.takeWhile isSpace ++ trimLeft s := (List.takeWhile_append_dropWhile).symm
        conv_lhs => rw [this, s2, ← List.takeWhile_append_dropWhile (p := isDigit)
          (l := (readSign (trimLeft s)).2), f2, e2, h.2]
        simp [n, ip]

/-! ### Lines -/

theorem getlines_terminated : ∀ {ls : List Text}, (∀ l ∈ ls, '\n' ∉ l) → ∀ s,
    lines (ls.flatMap (· ++ ['\n']) ++ s) = ls ++ lines s
  | [], _, s => rfl
  | l :: ls, h, s => by
    have ih := getlines_terminated (ls := ls) (fun x hx => h x (by simp [hx])) s
    simp only [List.flatMap_cons, List.append_assoc, List.cons_append, List.nil_append]
    rw [lines_append_newline (h l (by simp)), ih]

theorem getlines_of_file {t : Text} {ls : List Text} (h : FileOf t ls) : getlines t = ls := by
  obtain ⟨h1, rfl | ⟨init, last, rfl, hne, rfl⟩⟩ := h
  · have := getlines_terminated h1 []
    rw [List.append_nil] at this
    rw [getlines, this]
    simp [lines]
  · have := getlines_terminated (ls := init) (fun l hl => h1 l (by simp [hl])) last
    rw [getlines, this, lines_line (h1 last (by simp))]
    simp [hne]

theorem file_of_getlines (t : Text) : FileOf t (getlines t) := by
  have hno := lines_no_newline t
  have hcat := intercalate_lines t
  have key : ∀ (ls : List Text) (last : Text), ['\n'].intercalate (ls ++ [last]) =
      ls.flatMap (· ++ ['\n']) ++ last := by
    intro ls last
    induction ls with
    | nil => simp [List.intercalate]
    | cons l ls ih =>
      cases hls : ls ++ [last] with
      | nil => simp at hls
      | cons a as =>
        rw [hls] at ih
        simp only [List.cons_append, hls, List.flatMap_cons, List.append_assoc]
        rw [← ih]
        simp [List.intercalate]
  obtain ⟨init, last, hl⟩ : ∃ init last, lines t = init ++ [last] :=
    ⟨_, _, (List.dropLast_append_getLast (lines_ne_nil t)).symm⟩
  rw [hl] at hno hcat
  rw [key] at hcat
  unfold getlines
  rw [hl]
  by_cases h : last = []
  · subst h
    simp only [List.getLast?_append, List.getLast?_singleton, Option.some_or, if_true,
      List.dropLast_concat]
    exact ⟨fun l hl => hno l (by simp [hl]), .inl (by rw [← hcat]; simp)⟩
  · rw [if_neg (by simpa using h)]
    exact ⟨hno, .inr ⟨init, last, rfl, h, hcat.symm⟩⟩

end Sidis.LoadGrids
