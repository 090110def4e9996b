import Verif.Lemmas.SfMask

/-!
# C52, C53: filters of structure functions

`SfName`, `IsFilter`, `Passes` and `spacedWords` are in `Verif.Spec.SfMask`.
-/

namespace Sidis.Props

open Sidis.SfMask Sidis.Spec Sidis.Lemmas.SfMask

variable {A : Type}

/-- C52: a description made of filter words and a base set that exists gives a set whose functions are
those of the base where all filter words let them pass, and zero elsewhere. -/
theorem c52_filters (env : Env A) (target : Nucleus) (name : List Char)
    (filters : List (List Char)) (base : List Char) (sf : SfSet A)
    (hname : spacedWords name = filters ++ [base]) (hbase : allocBase env target base = .ok sf)
    (hfilters : ∀ w ∈ filters, IsFilter w) :
    ∃ sf', allocSf env target name = .ok sf' ∧ ∀ (n : SfName) (a : A),
      ((∀ w ∈ filters, Passes w n) → n.of sf' a = n.of sf a) ∧
      ((∃ w ∈ filters, ¬ Passes w n) → n.of sf' a = .fin 0) := by
  obtain ⟨m, h1, h2, h3⟩ := maskLoop_ok matchBasic Passes filters.reverse
    (List.replicate numSf true) (by simp [numSf])
    fun w hw => filterMask_known matchBasic (hfilters w (by simpa using hw))
  have hfull : ∀ n, keeps (List.replicate numSf true) n = true := fun n =>
    keeps_all (by simp [numSf]) (by decide) n
  have hk : ∀ n, keeps m n = true ↔ ∀ w ∈ filters, Passes w n := fun n => by
    rw [h3 n]; simp [hfull n]
  have hrun : allocSf env target name =
      if m.all id then .ok sf else .ok (maskSfSet m sf) := by
    unfold allocSf allocSfWith
    rw [readParts_eq _ _ le_rfl, hname]
    simp [hbase, Res.bind, h1]
  have hn : ∀ n, (∃ w ∈ filters, ¬ Passes w n) → keeps m n = false := by
    rintro n ⟨w, hw, hp⟩
    rw [← Bool.not_eq_true]
    exact fun h => hp ((hk n).mp h w hw)
  by_cases hall : m.all id = true
  · refine ⟨sf, by rw [hrun, if_pos hall], fun n a => ⟨fun _ => rfl, fun h => ?_⟩⟩
    have := keeps_all h2 hall n
    rw [hn n h] at this
    cases this
  · refine ⟨maskSfSet m sf, by rw [hrun, if_neg hall], fun n a => ⟨fun h => ?_, fun h => ?_⟩⟩
    · rw [of_maskSfSet, if_pos ((hk n).mpr h)]
    · rw [of_maskSfSet, hn n h]; rfl

/-- C52: nothing else is accepted: when `alloc_sf` returns a set, the description has a base set that
exists, and all other words are filter words. -/
theorem c52_accepted (env : Env A) (target : Nucleus) (name : List Char) (sf' : SfSet A)
    (h : allocSf env target name = .ok sf') :
    ∃ filters base sf, spacedWords name = filters ++ [base] ∧
      allocBase env target base = .ok sf ∧ ∀ w ∈ filters, IsFilter w := by
  unfold allocSf allocSfWith at h
  rw [readParts_eq _ _ le_rfl] at h
  cases hr : (spacedWords name).reverse with
  | nil => rw [hr] at h; cases h
  | cons base parts =>
    rw [hr] at h
    simp only at h
    cases hb : allocBase env target base with
    | ok sf =>
      refine ⟨parts.reverse, base, sf, by simpa using congrArg List.reverse hr, hb, ?_⟩
      intro w hw
      by_contra hno
      rw [hb] at h
      simp only [Res.bind] at h
      have hf : ∀ m, filterMask matchBasic w ≠ .ok m := by
        intro m
        rw [filterMask_other _ hno]
        cases hm : matchBasic w with
        | none => simp
        | some g =>
          have : g = [] := by
            unfold matchBasic at hm
            split at hm
            · split_ifs at hm
              simpa using hm.symm
            · cases hm
          subst this
          simp [stoul, Res.bind]
      have := maskLoop_fail matchBasic parts (List.replicate numSf true) w (by simpa using hw) hf
      cases hl : maskLoop matchBasic parts (List.replicate numSf true) with
      | ok m => exact this m hl
      | _ => rw [hl] at h; cases h
    | _ => rw [hb] at h; cases h

/-- C52: `leading` and `subleading` are complementary, and the six words of definite polarisation
divide the structure functions among them; the words with `p` and `x` are unions of these. -/
theorem c52_partition (n : SfName) :
    (Passes "leading".toList n ↔ ¬ Passes "subleading".toList n) ∧
    (∃! w, w ∈ ["uu".toList, "ul".toList, "ut".toList, "lu".toList, "ll".toList, "lt".toList] ∧
      Passes w n) ∧
    (∀ b ∈ ['u', 'l', 'x'],
      (Passes [b, 'p'] n ↔ Passes [b, 'l'] n ∨ Passes [b, 't'] n) ∧
      (Passes [b, 'x'] n ↔ Passes [b, 'u'] n ∨ Passes [b, 'l'] n ∨ Passes [b, 't'] n)) ∧
    (∀ t ∈ ['u', 'l', 't', 'p', 'x'], Passes ['x', t] n ↔ Passes ['u', t] n ∨ Passes ['l', t] n) ∧
    Passes "xx".toList n := by
  have two : ∀ b t, Passes [b, t] n ↔ letterFits b n.beam ∧ letterFits t n.target := by
    intro b t
    constructor
    · rintro (⟨h, -⟩ | ⟨h, -⟩ | ⟨b', t', h, h'⟩)
      · exact absurd (congrArg List.length h) (by simp)
      · exact absurd (congrArg List.length h) (by simp)
      · simp only [List.cons.injEq, and_true] at h
        obtain ⟨rfl, rfl⟩ := h
        exact h'
    · intro h; exact .inr (.inr ⟨b, t, rfl, h⟩)
  have lead : Passes "leading".toList n ↔ n.leading = true := by
    constructor
    · rintro (⟨-, h⟩ | ⟨h, -⟩ | ⟨b', t', h, -⟩)
      · exact h
      · exact absurd h (by decide)
      · exact absurd (congrArg List.length h) (by simp)
    · intro h; exact .inl ⟨rfl, h⟩
  have sub : Passes "subleading".toList n ↔ n.leading = false := by
    constructor
    · rintro (⟨h, -⟩ | ⟨-, h⟩ | ⟨b', t', h, -⟩)
      · exact absurd h (by decide)
      · exact h
      · exact absurd (congrArg List.length h) (by simp)
    · intro h; exact .inr (.inl ⟨rfl, h⟩)
  refine ⟨by rw [lead, sub]; simp, ?_, ?_, ?_, ?_⟩
  · refine ⟨[n.beam, n.target], ⟨?_, (two _ _).mpr ⟨.inl rfl, .inl rfl⟩⟩, ?_⟩
    · cases n <;> decide
    · rintro w ⟨hw, hp⟩
      simp only [List.mem_cons, List.not_mem_nil, or_false] at hw
      rcases hw with rfl | rfl | rfl | rfl | rfl | rfl <;>
        obtain ⟨h1, h2⟩ := (two _ _).mp hp <;> revert h1 h2 <;> cases n <;> decide
  · intro b _
    simp only [two, ← and_or_left]
    constructor
    · refine and_congr Iff.rfl ?_
      cases n <;> decide
    · refine and_congr Iff.rfl ?_
      cases n <;> decide
  · intro t _
    simp only [two, ← or_and_right]
    refine and_congr ?_ Iff.rfl
    cases n <;> decide
  · exact (two _ _).mpr ⟨.inr (.inl rfl), .inr (.inl rfl)⟩

/-- The order of the filter words, and their repetition, do not matter: `c52_filters` mentions only
the set of the words. -/
theorem c52_order (env : Env A) (target : Nucleus) (name name' : List Char)
    (filters filters' : List (List Char)) (base : List Char) (sf : SfSet A)
    (hname : spacedWords name = filters ++ [base])
    (hname' : spacedWords name' = filters' ++ [base]) (hbase : allocBase env target base = .ok sf)
    (hfilters : ∀ w ∈ filters, IsFilter w) (hsame : ∀ w, w ∈ filters ↔ w ∈ filters') :
    ∃ sf₁ sf₂, allocSf env target name = .ok sf₁ ∧ allocSf env target name' = .ok sf₂ ∧
      ∀ (n : SfName) (a : A), n.of sf₁ a = n.of sf₂ a := by
  obtain ⟨sf₁, h1, e1⟩ := c52_filters env target name filters base sf hname hbase hfilters
  obtain ⟨sf₂, h2, e2⟩ := c52_filters env target name' filters' base sf hname' hbase
    fun w hw => hfilters w ((hsame w).mpr hw)
  refine ⟨sf₁, sf₂, h1, h2, fun n a => ?_⟩
  by_cases h : ∀ w ∈ filters, Passes w n
  · rw [(e1 n a).1 h, (e2 n a).1 fun w hw => h w ((hsame w).mpr hw)]
  · push Not at h
    obtain ⟨w, hw, hp⟩ := h
    rw [(e1 n a).2 ⟨w, hw, hp⟩, (e2 n a).2 ⟨w, (hsame w).mp hw, hp⟩]

/-- An environment for the examples: the Prokudin functions are all 1. -/
private noncomputable def someEnv : Env Unit :=
  let f : Unit → Fl := fun _ => .fin 1
  let sf : SfSet Unit := ⟨f, f, f, f, f, f, f, f, f, f, f, f, f, f, f, f, f, f⟩
  ⟨sf, fun _ => sf, fun _ => false, fun _ => none⟩

example : spacedWords "leading  uu prokudin ".toList =
    ["leading".toList, "uu".toList] ++ ["prokudin".toList] := by decide +kernel
example : ∀ w ∈ ["leading".toList, "uu".toList], IsFilter w := by
  intro w hw
  simp only [List.mem_cons, List.not_mem_nil, or_false] at hw
  rcases hw with rfl | rfl
  · exact .inl rfl
  · exact .inr (.inr ⟨'u', by simp, 'u', by simp, rfl⟩)
example (target : Nucleus) : allocBase someEnv target "prokudin".toList = .ok someEnv.prokudin := rfl

/-- C52: a description without words is an error. -/
theorem c52_empty (env : Env A) (target : Nucleus) (name : List Char) (h : spacedWords name = []) :
    allocSf env target name = .parseError := by
  unfold allocSf allocSfWith
  rw [readParts_eq _ _ le_rfl, h]
  rfl

example : spacedWords "  ".toList = [] := by decide +kernel

/-- C53: the word `select` followed by a number should be a filter. It never is: `alloc_sf` reports
a parse error for every number, also those below 18, because the regular expression is read in the
basic grammar. -/
theorem c53_select_refuted (env : Env A) (target : Nucleus) (name : List Char)
    (filters : List (List Char)) (base : List Char) (sf : SfSet A) (digits : List Char)
    (hname : spacedWords name = filters ++ [base]) (hbase : allocBase env target base = .ok sf)
    (hsel : "select".toList ++ digits ∈ filters) (hne : digits ≠ [])
    (hd : ∀ c ∈ digits, c ∈ "0123456789".toList)
    (hfilters : ∀ w ∈ filters, w = "select".toList ++ digits ∨ IsFilter w) :
    allocSf env target name = .parseError := by
  have hlong : ∀ w : List Char, IsFilter w → w.length = 2 ∨ w = "leading".toList ∨
      w = "subleading".toList := by
    rintro w (rfl | rfl | ⟨b, -, t, -, rfl⟩)
    · exact .inr (.inl rfl)
    · exact .inr (.inr rfl)
    · exact .inl rfl
  have hno : ¬ IsFilter ("select".toList ++ digits) := by
    intro h
    rcases hlong _ h with h | h | h
    · simp at h
    · have := congrArg List.head? h
      exact absurd this (by simp)
    · have := congrArg (fun l : List Char => l.getD 1 ' ') h
      exact absurd this (by simp)
  have hmatch : matchBasic ("select".toList ++ digits) = none := by
    cases digits with
    | nil => exact absurd rfl hne
    | cons d ds =>
      have h0 : d ≠ '(' := by
        rintro rfl
        exact absurd (hd '(' (by simp)) (by decide)
      have e : "select".toList ++ d :: ds = 's' :: 'e' :: 'l' :: 'e' :: 'c' :: 't' :: d :: ds := rfl
      rw [e]
      unfold matchBasic
      split
      · rename_i h
        simp only [List.cons.injEq, true_and] at h
        exact absurd h.1 h0
      · rfl
  have hf : filterMask matchBasic ("select".toList ++ digits) = .parseError := by
    rw [filterMask_other _ hno, hmatch]
  unfold allocSf allocSfWith
  rw [readParts_eq _ _ le_rfl, hname]
  simp only [List.reverse_append, List.reverse_cons, List.reverse_nil, List.nil_append,
    List.cons_append, hbase, Res.bind]
  rw [maskLoop_parse matchBasic filters.reverse (List.replicate numSf true) _
    (by simpa using hsel) hf]
  intro v hv
  rcases hfilters v (by simpa using hv) with rfl | h
  · exact .inr hf
  · obtain ⟨m, h1, -⟩ := filterMask_known matchBasic h
    exact .inl ⟨m, h1⟩

example : spacedWords "select3 prokudin".toList =
    ["select".toList ++ "3".toList] ++ ["prokudin".toList] := by decide +kernel

/-- C53: with the regular expression read in the extended grammar, which is not what the code does,
`select` with a number below 18 would keep that function only, and a number above 18 would be
refused; but 18 itself would write behind the end of an array. -/
theorem c53_extended_partial (digits : List Char) (hne : digits ≠ [])
    (hd : ∀ c ∈ digits, c ∈ "0123456789".toList) :
    (digitsValue digits < 18 → ∃ m, filterMask matchExtended ("select".toList ++ digits) = .ok m ∧
      m.length = 18 ∧ ∀ (env : SfSet A) (n : SfName) (a : A), n.of (maskSfSet m env) a =
        if n.number = digitsValue digits then n.of env a else .fin 0) ∧
    (digitsValue digits = 18 → filterMask matchExtended ("select".toList ++ digits) = .ub) ∧
    (18 < digitsValue digits → digitsValue digits < 2 ^ 64 →
      filterMask matchExtended ("select".toList ++ digits) = .parseError) := by
  have hno : ¬ IsFilter ("select".toList ++ digits) := by
    rintro (h | h | ⟨b, -, t, -, h⟩)
    · have := congrArg List.head? h
      exact absurd this (by simp)
    · have := congrArg (fun l : List Char => l.getD 1 ' ') h
      exact absurd this (by simp)
    · have := congrArg List.length h
      simp at this
  have hmatch : matchExtended ("select".toList ++ digits) = some digits := by
    cases digits with
    | nil => exact absurd rfl hne
    | cons d ds =>
      have : (d :: ds).all isDigit = true :=
        List.all_eq_true.mpr fun c hc => by simpa [isDigit] using hd c hc
      have e : "select".toList ++ d :: ds = 's' :: 'e' :: 'l' :: 'e' :: 'c' :: 't' :: d :: ds := rfl
      rw [e, matchExtended, if_pos this]
  have hstoul : digitsValue digits < 2 ^ 64 → stoul digits = .ok (digitsValue digits) := by
    intro h
    rw [stoul, if_neg hne, if_pos h]
  have hrun : digitsValue digits < 2 ^ 64 → filterMask matchExtended ("select".toList ++ digits) =
      if digitsValue digits > numSf then .parseError
      else if digitsValue digits < numSf then
        .ok ((List.replicate numSf false).set (digitsValue digits) true)
      else .ub := by
    intro h
    rw [filterMask_other _ hno, hmatch]
    simp only [hstoul h, Res.bind]
  refine ⟨fun h => ?_, fun h => ?_, fun h h' => ?_⟩
  · refine ⟨_, by rw [hrun (by omega), if_neg (by simp [numSf]; omega), if_pos (show _ < numSf from h)], by
      simp [numSf], ?_⟩
    intro sf n a
    rw [of_maskSfSet]
    have hn : n.number < 18 := by cases n <;> decide
    have : keeps ((List.replicate numSf false).set (digitsValue digits) true) n =
        decide (n.number = digitsValue digits) := by
      unfold keeps
      rw [List.getD_eq_getElem?_getD, List.getElem?_set]
      by_cases e : digitsValue digits = n.number
      · rw [if_pos e, if_pos (by simp [numSf]; omega)]
        simp [e]
      · rw [if_neg e, List.getElem?_replicate, if_pos (by simp [numSf]; omega)]
        simp [Ne.symm e]
    rw [this]
    simp
  · rw [hrun (by omega), h]; rfl
  · rw [hrun h', if_pos (by simp [numSf]; omega)]

example : digitsValue "17".toList = 17 := by decide +kernel

end Sidis.Props
