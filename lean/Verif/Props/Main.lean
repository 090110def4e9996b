import Verif.Spec.Main

/-!
# C63: command line
-/

namespace Sidis.Props

open Sidis.ParamStream Sidis.Main Sidis.Main.Spec

theorem isLong_some (s : Text) : isLong s = some (match s with
    | '-' :: '-' :: c :: _ => decide (c ≠ '-')
    | ['-', '-'] => true
    | _ => false) := by
  match s with
  | [] => rfl
  | [a] =>
    by_cases h : a = '-'
    · subst h; rfl
    · simp [isLong, charAt, h]
  | [a, b] =>
    by_cases h : a = '-'
    · by_cases h' : b = '-'
      · subst h h'; rfl
      · simp [isLong, charAt, h, h']
    · simp [isLong, charAt, h]
  | a :: b :: c :: r =>
    by_cases h : a = '-'
    · by_cases h' : b = '-'
      · subst h h'
        simp [isLong, charAt]
      · simp [isLong, charAt, h, h']
    · simp [isLong, charAt, h]

/-- The command word after two leading dashes have been removed. -/
def word (s : Text) : Text :=
  if isLong s = some true then s.drop 2 else s

theorem word_eq (s : Text) (name : Text) (hn : name.head? ≠ some '-') (hn' : name ≠ []) :
    word s = name ↔ s = name ∨ s = '-' :: '-' :: name := by
  unfold word
  rw [isLong_some]
  match s with
  | [] => simp
  | [a] => simp
  | [a, b] =>
    by_cases h : a = '-'
    · by_cases h' : b = '-'
      · subst h h'
        simp only [if_true, List.drop_succ_cons, List.drop_zero]
        constructor
        · rintro rfl; exact absurd rfl hn'
        · rintro (rfl | h)
          · simp at hn
          · simpa using h
      · simp [h, h']
    · simp [h]
  | a :: b :: c :: r =>
    by_cases h : a = '-'
    · by_cases h' : b = '-'
      · subst h h'
        by_cases h'' : c = '-'
        · subst h''
          simp only [ne_eq, not_true_eq_false, decide_false, Option.some.injEq, Bool.false_eq_true,
            if_false, List.cons.injEq, true_and]
          constructor
          · exact .inl
          · rintro (h | rfl)
            · exact h
            · simp at hn
        · simp only [ne_eq, h'', not_false_eq_true, decide_true, if_true, List.drop_succ_cons,
            List.drop_zero, List.cons.injEq, true_and]
          constructor
          · exact .inr
          · rintro (rfl | h)
            · simp at hn
            · exact h
      · simp [h, h']
    · simp [h]

theorem word_short (s : Text) (c : Char) (hc : c ≠ '-') : word s = ['-', c] ↔ s = ['-', c] := by
  unfold word
  rw [isLong_some]
  match s with
  | [] => simp
  | [a] => simp
  | [a, b] =>
    by_cases h : a = '-'
    · by_cases h' : b = '-'
      · subst h h'
        simp [hc.symm]
      · simp [h, h']
    · simp [h]
  | a :: b :: d :: r =>
    by_cases h : a = '-'
    · by_cases h' : b = '-'
      · subst h h'
        by_cases h'' : d = '-'
        · subst h''; simp
        · simp [h'']
      · simp [h, h']
    · simp [h]

theorem spells_iff (name : String) (short : Option String) (s : Text)
    (hn : name.toList.head? ≠ some '-') (hn' : name.toList ≠ [])
    (hs : ∀ o, short = some o → ∃ c, c ≠ '-' ∧ o.toList = ['-', c]) :
    Spells name short s ↔ (word s = name.toList ∨ ∃ o, short = some o ∧ word s = o.toList) := by
  rw [word_eq s _ hn hn']
  unfold Spells
  have : (∃ o, short = some o ∧ s = o.toList) ↔ ∃ o, short = some o ∧ word s = o.toList := by
    constructor
    · rintro ⟨o, h1, h2⟩
      obtain ⟨c, hc, ho⟩ := hs o h1
      exact ⟨o, h1, by rw [ho, word_short s c hc, h2, ho]⟩
    · rintro ⟨o, h1, h2⟩
      obtain ⟨c, hc, ho⟩ := hs o h1
      rw [ho, word_short s c hc] at h2
      exact ⟨o, h1, by rw [ho, h2]⟩
  rw [this]
  tauto

/-- The choice between the help commands. -/
def helpChoice : List Text → Choice
  | [] => .run .help
  | t :: _ => if t = "params".toList then .run .helpParams else .run (.helpParam t)

theorem dispatch_word (argv : List Text) (prog s : Text) (rest : List Text)
    (h : argv = prog :: s :: rest) :
    dispatch argv =
      (if word s = "help".toList ∨ word s = "-?".toList then
        some (helpChoice rest)
      else if word s = "version".toList ∨ word s = "-v".toList then some (.run .version)
      else if word s = "inspect".toList ∨ word s = "-i".toList then oneFile "inspect" argv .inspect
      else if word s = "initialize".toList ∨ word s = "-i".toList then
        oneFile "initialize" argv .init
      else if word s = "generate".toList ∨ word s = "-g".toList then oneFile "generate" argv .generate
      else if word s = "merge-soft".toList then manyFiles "merge-soft" argv .mergeSoft
      else if word s = "merge-hard".toList then manyFiles "merge-hard" argv .mergeHard
      else some (.error (.unrecognized (word s)))) := by
  subst h
  obtain ⟨b, hb⟩ : ∃ b, isLong s = some b := ⟨_, isLong_some s⟩
  have hw : word s = if b then s.drop 2 else s := by
    unfold word
    rw [hb]
    cases b <;> rfl
  rw [hw]
  unfold dispatch
  rw [if_neg (by simp only [List.length_cons]; omega)]
  simp only [List.getElem?_cons_succ, List.getElem?_cons_zero, hb, Option.bind_eq_bind,
    Option.bind_some]
  cases rest with
  | nil =>
    simp only [List.length_cons, List.length_nil]
    rw [if_neg (show ¬ 3 ≤ 0 + 1 + 1 by omega)]
    rfl
  | cons t r =>
    simp only [List.length_cons, List.getElem?_cons_zero, Option.bind_some]
    rw [if_pos (show 3 ≤ r.length + 1 + 1 + 1 by omega)]
    simp only [helpChoice, apply_ite some]

/-- C63: `main` never reads behind the end of a string or of `argv`: every argument vector leads to
exactly one outcome. -/
theorem c63_total (argv : List Text) : ∃ c, dispatch argv = some c := by
  match argv with
  | [] => exact ⟨_, rfl⟩
  | [_] => exact ⟨_, rfl⟩
  | prog :: s :: rest =>
    rw [dispatch_word _ prog s rest rfl]
    have h1 : ∀ (n : String) (c : Text → Command),
        ∃ x, oneFile n (prog :: s :: rest) c = some x := by
      intro n c
      match rest with
      | [] => exact ⟨_, rfl⟩
      | [_] => exact ⟨_, rfl⟩
      | _ :: _ :: _ =>
        unfold oneFile
        rw [if_pos (by simp only [List.length_cons]; omega)]
        exact ⟨_, rfl⟩
    have h2 : ∀ (n : String) (c : Text → List Text → Command),
        ∃ x, manyFiles n (prog :: s :: rest) c = some x := by
      intro n c
      match rest with
      | [] => exact ⟨_, rfl⟩
      | [_] => exact ⟨_, rfl⟩
      | _ :: _ :: _ =>
        unfold manyFiles
        rw [if_neg (by simp only [List.length_cons]; omega)]
        exact ⟨_, rfl⟩
    split_ifs
    · exact ⟨_, rfl⟩
    · exact ⟨_, rfl⟩
    · exact h1 _ _
    · exact h1 _ _
    · exact h1 _ _
    · exact h2 _ _
    · exact h2 _ _
    · exact ⟨_, rfl⟩

theorem oneFile_run {n : String} {prog s : Text} {rest : List Text} {c : Text → Command}
    {x : Command} : oneFile n (prog :: s :: rest) c = some (.run x) ↔ ∃ f, rest = [f] ∧ x = c f := by
  match rest with
  | [] => simp [oneFile]
  | [f] => simp [oneFile, eq_comm]
  | _ :: _ :: _ => simp [oneFile]

theorem manyFiles_run {n : String} {prog s : Text} {rest : List Text}
    {c : Text → List Text → Command} {x : Command} :
    manyFiles n (prog :: s :: rest) c = some (.run x) ↔
      ∃ out f fs, rest = out :: f :: fs ∧ x = c out (f :: fs) := by
  match rest with
  | [] => simp [manyFiles]
  | [f] => simp [manyFiles]
  | out :: f :: fs =>
    unfold manyFiles
    rw [if_neg (by simp only [List.length_cons]; omega)]
    simp [eq_comm]

/-- C63: a command runs exactly for the command lines that are documented for it, spelled with or
without two leading dashes or as a short option. -/
theorem c63_selects (argv : List Text) (c : Command) :
    dispatch argv = some (.run c) ↔ Selects argv c := by
  match argv with
  | [] => constructor
          · intro h; cases h
          · intro h; cases h
  | [_] => constructor
           · intro h; cases h
           · intro h; cases h
  | prog :: s :: rest =>
    rw [dispatch_word _ prog s rest rfl]
    have k0 := spells_iff "help" (some "-?") s (by decide) (by decide)
      (by rintro o h; cases h; exact ⟨'?', by decide, rfl⟩)
    have k1 := spells_iff "version" (some "-v") s (by decide) (by decide)
      (by rintro o h; cases h; exact ⟨'v', by decide, rfl⟩)
    have k2 := spells_iff "inspect" (some "-i") s (by decide) (by decide)
      (by rintro o h; cases h; exact ⟨'i', by decide, rfl⟩)
    have k3 := spells_iff "initialize" none s (by decide) (by decide) (by simp)
    have k4 := spells_iff "generate" (some "-g") s (by decide) (by decide)
      (by rintro o h; cases h; exact ⟨'g', by decide, rfl⟩)
    have k5 := spells_iff "merge-soft" none s (by decide) (by decide) (by simp)
    have k6 := spells_iff "merge-hard" none s (by decide) (by decide) (by simp)
    simp only [Option.some.injEq, exists_eq_left', reduceCtorEq, false_and, exists_false,
      or_false] at k0 k1 k2 k3 k4 k5 k6
    have hlist : ∀ {a b : String}, a.toList ≠ b.toList → word s = a.toList → word s ≠ b.toList :=
      fun hab h h' => hab (h.symm.trans h')
    constructor
    · intro h
      split_ifs at h with c0 c1 c2 c3 c4 c5 c6
      · cases rest with
        | nil => cases h; exact .help (k0.2 c0)
        | cons t r =>
          simp only [helpChoice, Option.some.injEq] at h
          split_ifs at h with ht
          · cases h; subst ht; exact .helpParams (k0.2 c0)
          · cases h; exact .helpParam (k0.2 c0) ht
      · cases h; exact .version (k1.2 c1)
      · obtain ⟨f, rfl, rfl⟩ := oneFile_run.1 h; exact .inspect (k2.2 c2)
      · obtain ⟨f, rfl, rfl⟩ := oneFile_run.1 h
        rcases c3 with c3 | c3
        · exact .init (k3.2 c3)
        · exact absurd (.inr c3) c2
      · obtain ⟨f, rfl, rfl⟩ := oneFile_run.1 h; exact .generate (k4.2 c4)
      · obtain ⟨o, f, fs, rfl, rfl⟩ := manyFiles_run.1 h; exact .mergeSoft (k5.2 c5)
      · obtain ⟨o, f, fs, rfl, rfl⟩ := manyFiles_run.1 h; exact .mergeHard (k6.2 c6)
      · cases h
    · intro h
      cases h with
      | help hs => rw [if_pos (k0.1 hs)]; rfl
      | helpParams hs => rw [if_pos (k0.1 hs)]; simp only [helpChoice, if_true]
      | helpParam hs ht => rw [if_pos (k0.1 hs)]; simp only [helpChoice, if_neg ht]
      | version hs =>
        have := k1.1 hs
        rw [if_neg, if_pos this]
        rcases this with e | e <;> rw [e] <;> decide
      | inspect hs =>
        have := k2.1 hs
        rw [if_neg, if_neg, if_pos this, oneFile_run]
        · exact ⟨_, rfl, rfl⟩
        all_goals rcases this with e | e <;> rw [e] <;> decide
      | init hs =>
        have := k3.1 hs
        rw [if_neg, if_neg, if_neg, if_pos (.inl this), oneFile_run]
        · exact ⟨_, rfl, rfl⟩
        all_goals rw [this]; decide
      | generate hs =>
        have := k4.1 hs
        rw [if_neg, if_neg, if_neg, if_neg, if_pos this, oneFile_run]
        · exact ⟨_, rfl, rfl⟩
        all_goals rcases this with e | e <;> rw [e] <;> decide
      | mergeSoft hs =>
        have := k5.1 hs
        rw [if_neg, if_neg, if_neg, if_neg, if_neg, if_pos this, manyFiles_run]
        · exact ⟨_, _, _, rfl, rfl⟩
        all_goals rw [this]; decide
      | mergeHard hs =>
        have := k6.1 hs
        rw [if_neg, if_neg, if_neg, if_neg, if_neg, if_neg, if_pos this, manyFiles_run]
        · exact ⟨_, _, _, rfl, rfl⟩
        all_goals rw [this]; decide

/-- C63: no command line leads to two commands. -/
theorem c63_unique (argv : List Text) (c c' : Command) (h : Selects argv c) (h' : Selects argv c') :
    c = c' := by
  rw [← c63_selects] at h h'
  rw [h] at h'
  cases h'
  rfl

/-- C63: everything else is an argument error, except for a call without arguments. -/
theorem c63_errors (argv : List Text) :
    (dispatch argv = some .hint ↔ argv.length ≤ 1) ∧
    ((∃ e, dispatch argv = some (.error e)) ↔ 1 < argv.length ∧ ∀ c, ¬ Selects argv c) := by
  have hh : dispatch argv = some .hint ↔ argv.length ≤ 1 := by
    match argv with
    | [] => exact ⟨fun _ => by simp, fun _ => rfl⟩
    | [_] => exact ⟨fun _ => by simp, fun _ => rfl⟩
    | prog :: s :: rest =>
      rw [dispatch_word _ prog s rest rfl]
      have h1 : ∀ (n : String) (c : Text → Command),
          oneFile n (prog :: s :: rest) c ≠ some .hint := by
        intro n c
        match rest with
        | [] => simp [oneFile]
        | [_] => simp [oneFile]
        | _ :: _ :: _ => simp [oneFile]
      have h2 : ∀ (n : String) (c : Text → List Text → Command),
          manyFiles n (prog :: s :: rest) c ≠ some .hint := by
        intro n c
        match rest with
        | [] => simp [manyFiles]
        | [_] => simp [manyFiles]
        | _ :: _ :: _ =>
          unfold manyFiles
          rw [if_neg (by simp only [List.length_cons]; omega)]
          simp
      constructor
      · intro h
        exfalso
        revert h
        split_ifs
        · cases rest with
          | nil => simp [helpChoice]
          | cons t r => simp only [helpChoice]; split_ifs <;> simp
        · simp
        · exact h1 _ _
        · exact h1 _ _
        · exact h1 _ _
        · exact h2 _ _
        · exact h2 _ _
        · simp
      · intro h
        simp only [List.length_cons] at h
        omega
  refine ⟨hh, ?_⟩
  obtain ⟨x, hx⟩ := c63_total argv
  constructor
  · rintro ⟨e, he⟩
    refine ⟨?_, fun c hc => ?_⟩
    · by_contra hl
      rw [hh.2 (by omega)] at he
      cases he
    · rw [(c63_selects argv c).2 hc] at he
      cases he
  · rintro ⟨hl, hn⟩
    cases x with
    | hint => have := hh.1 hx; omega
    | run c => exact absurd ((c63_selects argv c).1 hx) (hn c)
    | error e => exact ⟨e, hx⟩

/-- C63: the short option `-i`, which the source gives to both commands, never reaches
`initialize`. -/
theorem c63_short_i (prog : Text) (rest : List Text) (f : Text) :
    dispatch (prog :: "-i".toList :: rest) ≠ some (.run (.init f)) := by
  rw [Ne, c63_selects]
  intro h
  cases h with
  | init hs =>
    rcases hs with h | h | ⟨o, h, -⟩
    · exact absurd h (by decide)
    · exact absurd h (by decide)
    · cases h

/-- C63: what the caller sees. If commands only return success and only throw exceptions with the
documented codes, the exit status is zero exactly when no argument was given or a command returned;
an argument error is 254; and different codes give different statuses. -/
theorem c63_status (cmd : Command → Result)
    (hr : ∀ c n, cmd c = .returns n → n = SUCCESS)
    (he : ∀ c n, cmd c = .exception n → -21 ≤ n ∧ n ≤ -1) (argv : List Text) :
    ∃ code, main cmd argv = some code ∧ -21 ≤ code ∧ code ≤ 0 ∧
      (exitStatus code = 0 ↔ argv.length ≤ 1 ∨ ∃ c, Selects argv c ∧ cmd c = .returns SUCCESS) ∧
      ((1 < argv.length ∧ ∀ c, ¬ Selects argv c) → exitStatus code = 254) ∧
      (∀ c n, Selects argv c → cmd c = .exception n → exitStatus code = 256 + n) := by
  obtain ⟨x, hx⟩ := c63_total argv
  have herr := c63_errors argv
  cases x with
  | hint =>
    have hl := herr.1.1 hx
    refine ⟨0, by simp [main, hx, SUCCESS], by norm_num, le_rfl, by simp [exitStatus, hl],
      fun h => by omega, fun c n hs => ?_⟩
    have := (c63_selects argv c).2 hs
    rw [hx] at this
    cases this
  | error e =>
    have hl := herr.2.1 ⟨e, hx⟩
    refine ⟨-2, by simp [main, hx, Result.code, ERROR_ARG_PARSE], by norm_num, by norm_num, ?_,
      fun _ => by decide, fun c n hs => absurd hs (hl.2 c)⟩
    constructor
    · intro h; exact absurd h (by decide)
    · rintro (h | ⟨c, hc, -⟩)
      · omega
      · exact absurd hc (hl.2 c)
  | run c =>
    have hs := (c63_selects argv c).1 hx
    have hl : 1 < argv.length := by
      by_contra h
      rw [herr.1.2 (by omega)] at hx
      cases hx
    have hu : ∀ c', Selects argv c' → c' = c := fun c' h => c63_unique argv c' c h hs
    refine ⟨(cmd c).code, by simp [main, hx], ?_⟩
    cases hc : cmd c with
    | returns n =>
      obtain rfl := hr c n hc
      refine ⟨by decide, by decide, ?_, fun h => absurd hs (h.2 c), ?_⟩
      · exact ⟨fun _ => .inr ⟨c, hs, hc⟩, fun _ => by decide⟩
      · rintro c' n h1 h2
        rw [hu c' h1, hc] at h2
        cases h2
    | exception n =>
      obtain ⟨h1, h2⟩ := he c n hc
      have hm : exitStatus n = 256 + n := by unfold exitStatus; omega
      refine ⟨h1, by simp only [Result.code]; omega, ?_, fun h => absurd hs (h.2 c), ?_⟩
      · simp only [Result.code, hm]
        constructor
        · intro h; omega
        · rintro (h | ⟨c', h3, h4⟩)
          · omega
          · rw [hu c' h3, hc] at h4
            cases h4
      · rintro c' n' h3 h4
        rw [hu c' h3, hc] at h4
        cases h4
        exact hm
    | stdException =>
      refine ⟨by decide, by decide, ?_, fun h => absurd hs (h.2 c), ?_⟩
      · constructor
        · intro h; exact absurd h (by decide)
        · rintro (h | ⟨c', h3, h4⟩)
          · omega
          · rw [hu c' h3, hc] at h4
            cases h4
      · rintro c' n h1 h2
        rw [hu c' h1, hc] at h2
        cases h2
    | unknown =>
      refine ⟨by decide, by decide, ?_, fun h => absurd hs (h.2 c), ?_⟩
      · constructor
        · intro h; exact absurd h (by decide)
        · rintro (h | ⟨c', h3, h4⟩)
          · omega
          · rw [hu c' h3, hc] at h4
            cases h4
      · rintro c' n h1 h2
        rw [hu c' h1, hc] at h2
        cases h2

/-- Non-vacuity: command lines of several kinds. -/
example (a b c : Text) :
    dispatch ["sidisgen".toList, "--help".toList] = some (.run .help) ∧
    dispatch ["sidisgen".toList, "-?".toList, "mc.seed".toList, a] =
      some (.run (.helpParam "mc.seed".toList)) ∧
    dispatch ["sidisgen".toList, "-i".toList, a] = some (.run (.inspect a)) ∧
    dispatch ["sidisgen".toList, "--initialize".toList, a] = some (.run (.init a)) ∧
    dispatch ["sidisgen".toList, "initialize".toList, a, b] = some (.error (.unexpected b)) ∧
    dispatch ["sidisgen".toList, "merge-soft".toList, a, b, c] = some (.run (.mergeSoft a [b, c])) ∧
    dispatch ["sidisgen".toList, "--".toList] = some (.error (.unrecognized [])) ∧
    dispatch ["sidisgen".toList, []] = some (.error (.unrecognized [])) ∧
    dispatch ["sidisgen".toList, "---help".toList] = some (.error (.unrecognized "---help".toList)) ∧
    dispatch ["sidisgen".toList, "--v".toList] = some (.error (.unrecognized "v".toList)) :=
  ⟨rfl, rfl, rfl, rfl, rfl, rfl, rfl, rfl, rfl, rfl⟩

end Sidis.Props
