import Verif.Lemmas.Format

/-!
# C40-C42: merging parameter sets and accepting generator files
-/

namespace Sidis.Props

open Sidis.ParamStream Sidis.Codec Sidis.Spec Sidis.Format

/-! ### C42 -/

/-- **C42.** A generator file is accepted exactly when the versions are compatible, every event type
asked for is enabled in the file, all parameters that shape the initial distribution of these types
are given the same values, and the identifiers named agree. -/
theorem c42_can_provide (foam gen : P) (hf : Std foam) (hg : Std gen) :
    checkCanProvideFoam foam gen = .ok () ↔
      (∃ a b c, actual foam "version" = some (.version a b) ∧
        actual gen "version" = some (.version a c) ∧ b ≤ c) ∧
      (∃ m, actual gen "phys.rc_method" = some (.rcMethod m)) ∧
      (∀ t, Enabled gen t → actual foam (switch t) = some (.bool true)) ∧
      (∀ t n, Enabled gen t → Determines n t → Tagged n .init → Agree foam gen n) ∧
      (∀ t, Enabled gen t → ∃ u, actual foam (uid t) = some (.long u) ∧
        (given gen (uid t) = none ∨ given gen (uid t) = some (.long u))) := by
  unfold checkCanProvideFoam
  simp only [std_check hf, std_check hg, lift, bind_ok, exists_const, true_and, lookVersion_ok,
    Except.ok.injEq]
  have hPhys : ∀ ts : List EventType, (∀ t, t ∈ ts ↔ Enabled gen t) →
      (((Params.filter foam (filterInitDist.and (typeFilter ts))).checkEquivalent equiv
        (Params.filter gen (filterInitDist.and (typeFilter ts))) = .ok ()) ↔
      (∀ t n, Enabled gen t → Determines n t → Tagged n .init → Agree foam gen n)) := by
    intro ts hts
    rw [equiv_filter hf hg]
    constructor
    · rintro h t n ht ⟨hd, q, hq, hqt⟩ ⟨q', hq', hqi⟩
      rw [Agree_eq]
      rw [hq] at hq'; cases hq'
      apply h n.toList q hq
      rw [initExpr_check]
      refine ⟨hqi, ?_, t, (hts t).2 ht, hqt⟩
      rcases hd with ⟨q', hq', h'⟩ | ⟨q', hq', h'⟩ | ⟨q', hq', h'⟩ <;>
        (rw [hq] at hq'; cases hq'; simp [h'])
    · intro h n s hs hc
      rw [initExpr_check] at hc
      obtain ⟨h1, h2, t, h3, h4⟩ := hc
      have key := h t (String.ofList n) ((hts t).1 h3)
      unfold Determines Tagged at key
      rw [Agree_eq, String.toList_ofList] at key
      apply key
      · refine ⟨?_, s, hs, h4⟩
        rcases h2 with h2 | h2 | h2
        · exact Or.inl ⟨s, hs, h2⟩
        · exact Or.inr (Or.inl ⟨s, hs, h2⟩)
        · exact Or.inr (Or.inr ⟨s, hs, h2⟩)
      · exact ⟨s, hs, h1⟩
  constructor
  · rintro ⟨v₁, hv₁, v₂, hv₂, h⟩
    split_ifs at h with hv
    simp only [bind_ok] at h
    obtain ⟨ts, hts, _, he, _, heq, huid⟩ := h
    have hmem := enabledTypes_spec hts
    refine ⟨⟨v₁.1, v₁.2, v₂.2, hv₁, hv.1 ▸ hv₂, hv.2⟩, ?_, ?_, ?_, ?_⟩
    · unfold enabledTypes at hts
      obtain ⟨rc, hrc, -⟩ := bind_ok.1 hts
      exact ⟨rc, lookRc_ok.1 hrc⟩
    · intro t ht
      rw [actual_eq, switch_eq]
      exact checkEnabled_ok.1 he t ((hmem t).2 ht)
    · exact (hPhys ts hmem).1 (lift_ok.1 heq)
    · intro t ht
      rw [actual_eq, given_eq, uid_eq]
      exact (checkUid_ok hg).1 huid t ((hmem t).2 ht)
  · rintro ⟨⟨a, b, c, h1, h2, h3⟩, hrc, he, hp, hu⟩
    obtain ⟨ts, hts⟩ := enabledTypes_total hg hrc
    have hmem := enabledTypes_spec hts
    refine ⟨(a, b), h1, (a, c), h2, ?_⟩
    rw [if_neg (by simpa using h3)]
    simp only [bind_ok]
    refine ⟨ts, hts, (), ?_, (), ?_, ?_⟩
    · rw [checkEnabled_ok]
      intro t ht
      have := he t ((hmem t).1 ht)
      rw [actual_eq, switch_eq] at this; exact this
    · exact lift_ok.2 ((hPhys ts hmem).2 hp)
    · rw [checkUid_ok hg]
      intro t ht
      have := hu t ((hmem t).1 ht)
      rw [actual_eq, given_eq, uid_eq] at this; exact this

/-! ### C40 -/

/-- **C40.** What a successful merge guarantees about its inputs: same major version; for every
event type enabled in both, the same physics, cut and distribution parameters and the same generator
identifier; disjoint seeds. -/
theorem c40_inputs_agree (p₁ p₂ r : P) (h₁ : Std p₁) (h₂ : Std p₂)
    (h : mergeParams p₁ p₂ = .ok r) :
    (∃ a b c, actual p₁ "version" = some (.version a b) ∧
      actual p₂ "version" = some (.version a c)) ∧
    (∀ t n, Enabled p₁ t → Enabled p₂ t → Determines n t → Agree p₁ p₂ n) ∧
    (∀ t, Enabled p₁ t → Enabled p₂ t → ∃ u, actual p₁ (uid t) = some (.long u) ∧
      actual p₂ (uid t) = some (.long u)) ∧
    (∀ a b, given p₁ "mc.seed" = some (.seedGen a) → given p₂ "mc.seed" = some (.seedGen b) →
      ∀ s ∈ a, s ∉ b) := by
  obtain ⟨ts₁, ts₂, shared, all, m, e1, e2, e3, e4, -, ev, eq, eu, es, -⟩ := mergeParams_ok h₁ h₂ h
  refine ⟨ev, ?_, ?_, ?_⟩
  · rintro t n ht₁ ht₂ ⟨hd, q, hq, hqt⟩
    rw [Agree_eq]
    apply (equiv_filter h₁ h₂ _).1 eq n.toList q hq
    rw [distExpr_check]
    refine ⟨?_, t, (e3 t).2 ⟨(e1 t).2 ht₁, (e2 t).2 ht₂⟩, hqt⟩
    rcases hd with ⟨q', hq', h'⟩ | ⟨q', hq', h'⟩ | ⟨q', hq', h'⟩ <;>
      (rw [hq] at hq'; cases hq'; simp [h'])
  · intro t ht₁ ht₂
    rw [actual_eq, actual_eq, uid_eq]
    exact checkSameUid_ok.1 eu t ((e3 t).2 ⟨(e1 t).2 ht₁, (e2 t).2 ht₂⟩)
  · intro a b ha hb
    exact checkSeeds_ok es ha hb

/-- **C40.** Exactly the parameters given in an input are given in the result, which is again a
legal set. -/
theorem c40_nothing_lost (p₁ p₂ r : P) (h₁ : Std p₁) (h₂ : Std p₂)
    (h : mergeParams p₁ p₂ = .ok r) :
    Std r ∧ ∀ n, given r n ≠ none ↔ given p₁ n ≠ none ∨ given p₂ n ≠ none := by
  obtain ⟨ts₁, ts₂, shared, all, m, -, -, -, -, -, -, -, -, -, -, hr, -, -, hg⟩ :=
    mergeParams_ok h₁ h₂ h
  exact ⟨hr, fun n => (hg n.toList).symm⟩

/-- **C40.** Parameters shaping the distribution, and generator identifiers, come unchanged from the
second set when it has events they apply to, otherwise from the first. -/
theorem c40_physics_kept (p₁ p₂ r : P) (h₁ : Std p₁) (h₂ : Std p₂)
    (h : mergeParams p₁ p₂ = .ok r) (t : EventType) (n : String)
    (hn : Determines n t ∨ n = uid t) :
    (Enabled p₂ t → given r n = given p₂ n) ∧
    (Enabled p₁ t → (∀ t', Enabled p₂ t' → ¬ Tagged n t'.tag) → given r n = given p₁ n) := by
  obtain ⟨ts₁, ts₂, shared, all, m, e1, e2, -, -, -, -, -, -, -, -, -, hv, -⟩ :=
    mergeParams_ok h₁ h₂ h
  have hs : ∃ s, stdFormat.find n.toList = some s ∧
      (.xs ∈ s.tags ∨ .cut ∈ s.tags ∨ .dist ∈ s.tags ∨ .uid ∈ s.tags ∨ .seed ∈ s.tags) ∧
      t.tag ∈ s.tags := by
    rcases hn with ⟨hd, q, hq, hqt⟩ | rfl
    · refine ⟨q, hq, ?_, hqt⟩
      rcases hd with ⟨q', hq', h'⟩ | ⟨q', hq', h'⟩ | ⟨q', hq', h'⟩ <;>
        (rw [hq] at hq'; cases hq'; simp [h'])
    · cases t
      · exact ⟨_, rfl, by decide, by decide⟩
      · exact ⟨_, rfl, by decide, by decide⟩
  obtain ⟨s, hs, hd, ht⟩ := hs
  rw [given_eq, given_eq, given_eq, hv _ s hs]
  constructor
  · intro h2
    rw [if_pos]
    rw [setExpr_check]
    exact ⟨hd, t, (e2 t).2 h2, ht⟩
  · intro h1 hno
    rw [if_neg, if_pos]
    · rw [setExpr_check]; exact ⟨hd, t, (e1 t).2 h1, ht⟩
    · rw [setExpr_check]
      rintro ⟨-, t', ht', htt⟩
      exact hno t' ((e2 t').1 ht') ⟨s, hs, htt⟩

/-- The value of a name that no later copy overwrites. -/
private theorem merged_value {p₁ p₂ r : P} (h₁ : Std p₁) (h₂ : Std p₂)
    (h : mergeParams p₁ p₂ = .ok r) {n : Text} {s : Params.Param Tag Ty Val}
    (hs : stdFormat.find n = some s)
    (hd : ¬ (.xs ∈ s.tags ∨ .cut ∈ s.tags ∨ .dist ∈ s.tags ∨ .uid ∈ s.tags ∨ .seed ∈ s.tags))
    (op : Op) (hop : ∀ all, (∀ t, t ∈ all ↔ Enabled p₁ t ∨ Enabled p₂ t) →
      (n, op) ∈ mergeList p₁ all) :
    gv r n = merged op p₁ p₂ n ∧ (gv p₁ n ≠ none ∨ gv p₂ n ≠ none →
      ∃ a b v, av p₁ n = some a ∧ av p₂ n = some b ∧ op a b = some v) := by
  obtain ⟨ts₁, ts₂, shared, all, m, e1, e2, -, e4, hnd, -, -, -, -, hm, -, hv, -⟩ :=
    mergeParams_ok h₁ h₂ h
  have hmem := hop all (by intro t; rw [e4, e1, e2])
  have hnd' := mergeList_nodup' h₁ hnd
  have := (mergeValues_ok std_stdFormat hnd' hm).2.2 n op hmem
  rw [hv n s hs, if_neg, if_neg]
  · exact this
  · rw [setExpr_check]; exact fun hc => hd hc.1
  · rw [setExpr_check]; exact fun hc => hd hc.1

private theorem av_nodefault {p : P} (h : Std p) {n : Text} {s : Params.Param Tag Ty Val}
    (hs : stdFormat.find n = some s) (hd : s.dflt = none) : av p n = gv p n := by
  obtain ⟨q, hq, -, -, h3⟩ := std_some h hs
  unfold av gv
  simp only [hq, Option.bind_some, ← h3, hd, Option.map_none, Option.or_none]

/-- With no default on either side, a merge is nothing or an operation on two given values. -/
private theorem merged_nodefault {p₁ p₂ r : P} (h₁ : Std p₁) (h₂ : Std p₂)
    {n : Text} {s : Params.Param Tag Ty Val} (hs : stdFormat.find n = some s) (hd : s.dflt = none)
    {op : Op} (hv : gv r n = merged op p₁ p₂ n ∧ (gv p₁ n ≠ none ∨ gv p₂ n ≠ none →
      ∃ a b v, av p₁ n = some a ∧ av p₂ n = some b ∧ op a b = some v)) :
    (gv p₁ n = none ∧ gv p₂ n = none ∧ gv r n = none) ∨
    ∃ a b v, gv p₁ n = some a ∧ gv p₂ n = some b ∧ op a b = some v ∧ gv r n = some v := by
  rw [av_nodefault h₁ hs hd, av_nodefault h₂ hs hd] at hv
  obtain ⟨h3, h4⟩ := hv
  by_cases hc : gv p₁ n = none ∧ gv p₂ n = none
  · left; refine ⟨hc.1, hc.2, ?_⟩; rw [h3, merged, if_pos hc]
  · right
    obtain ⟨a, b, v, ha, hb, hop⟩ := h4 (by tauto)
    refine ⟨a, b, v, ha, hb, hop, ?_⟩
    rw [h3, merged, if_neg hc, av_nodefault h₁ hs hd, av_nodefault h₂ hs hd, ha, hb]
    simp [hop]

private theorem mem_fixed {p₁ : P} (h₁ : Std p₁) {x : Text × Op}
    (hx : x ∈ [("version".toList, opVersion), ("strict".toList, opAnd),
   ("file.event".toList, opFile), ("file.gen".toList, opFile),
   ("file.write_momenta".toList, opAnd), ("file.write_photon".toList, opAnd),
   ("file.write_sf_set".toList, opAnd), ("file.write_mc_coords".toList, opAnd)] ++
   [("mc.seed".toList, opSeeds), ("mc.num_events".toList, opCount)]) (all : List EventType) :
    x ∈ mergeList p₁ all := by
  rw [mergeList_std h₁]
  rcases List.mem_append.1 hx with hx | hx
  · exact List.mem_append_left _ (List.mem_append_left _ hx)
  · exact List.mem_append_right _ hx

/-- **C40.** Event counts add (as unsigned 64 bit numbers, so exactly when the sum is
representable); either both sets give a count or neither does. -/
theorem c40_num_events (p₁ p₂ r : P) (h₁ : Std p₁) (h₂ : Std p₂)
    (h : mergeParams p₁ p₂ = .ok r) :
    (given p₁ "mc.num_events" = none ∧ given p₂ "mc.num_events" = none ∧
      given r "mc.num_events" = none) ∨
    ∃ a b, given p₁ "mc.num_events" = some (.long a) ∧ given p₂ "mc.num_events" = some (.long b) ∧
      ∃ c, given r "mc.num_events" = some (.long c) ∧ (IntTy.int64.Has (a + b) → c = a + b) := by
  have hs : ∃ s, stdFormat.find "mc.num_events".toList = some s ∧ s.dflt = none ∧ s.type = .long ∧
      ¬ (.xs ∈ s.tags ∨ .cut ∈ s.tags ∨ .dist ∈ s.tags ∨ .uid ∈ s.tags ∨ .seed ∈ s.tags) :=
    ⟨_, rfl, rfl, rfl, by decide⟩
  obtain ⟨s, hs, hd, hty, ht⟩ := hs
  have hv := merged_value h₁ h₂ h hs ht opCount
    (fun all _ => mem_fixed h₁ (by simp) all)
  rcases merged_nodefault h₁ h₂ hs hd hv with h' | ⟨a, b, v, ha, hb, hop, hr⟩
  · exact Or.inl h'
  · right
    cases a <;> cases b <;> simp only [opCount, Option.some.injEq, reduceCtorEq] at hop
    rename_i a b
    subst hop
    refine ⟨a, b, ha, hb, _, hr, ?_⟩
    intro hh
    unfold IntTy.Has IntTy.int64 at hh
    simp only at hh
    rw [Int.bmod_eq_of_le] <;> omega

/-- **C40.** File names: the common name, or `<unknown>` when they differ; either both sets give one
or neither does. -/
theorem c40_files (p₁ p₂ r : P) (h₁ : Std p₁) (h₂ : Std p₂)
    (h : mergeParams p₁ p₂ = .ok r) (n : String) (hn : n = "file.event" ∨ n = "file.gen") :
    (given p₁ n = none ∧ given p₂ n = none ∧ given r n = none) ∨
    ∃ a b, given p₁ n = some (.string a) ∧ given p₂ n = some (.string b) ∧
      given r n = some (.string (if a = b then a else "<unknown>".toList)) := by
  have hs : ∃ s, stdFormat.find n.toList = some s ∧ s.dflt = none ∧
      ¬ (.xs ∈ s.tags ∨ .cut ∈ s.tags ∨ .dist ∈ s.tags ∨ .uid ∈ s.tags ∨ .seed ∈ s.tags) := by
    rcases hn with rfl | rfl <;> exact ⟨_, rfl, rfl, by decide⟩
  obtain ⟨s, hs, hd, ht⟩ := hs
  have hv := merged_value h₁ h₂ h hs ht opFile
    (fun all _ => mem_fixed h₁ (by rcases hn with rfl | rfl <;> simp) all)
  rcases merged_nodefault h₁ h₂ hs hd hv with h' | ⟨a, b, v, ha, hb, hop, hr⟩
  · exact Or.inl h'
  · right
    cases a <;> cases b <;> simp only [opFile, Option.some.injEq, reduceCtorEq] at hop
    rename_i a b
    subst hop
    exact ⟨a, b, ha, hb, hr⟩

/-- What `get` returns for a merged flag with a default on which the operation is idempotent. -/
private theorem merged_flag {p₁ p₂ r : P} (h₁ : Std p₁) (h₂ : Std p₂) (hr : Std r)
    {n : Text} {s : Params.Param Tag Ty Val} (hs : stdFormat.find n = some s)
    (hd : ∃ a b, s.dflt = some (a, .bool b)) (hty : s.type = .bool)
    {op : Op} {f : Bool → Bool → Bool} (hf : ∀ a b, op (.bool a) (.bool b) = some (.bool (f a b)))
    (hid : ∀ a, f a a = a)
    (hv : gv r n = merged op p₁ p₂ n) :
    ∃ a b, av p₁ n = some (.bool a) ∧ av p₂ n = some (.bool b) ∧ av r n = some (.bool (f a b)) := by
  obtain ⟨i, d, hd⟩ := hd
  have key : ∀ p : P, Std p → (∃ b, av p n = some (.bool b)) ∧
      (gv p n = none → av p n = some (.bool d)) := by
    intro p hp
    obtain ⟨v, hv, ht⟩ := av_default hp hs ⟨i, _, hd, by rw [hty]; rfl⟩
    rw [hty] at ht
    refine ⟨?_, ?_⟩
    · cases v <;> simp [Val.ty] at ht; exact ⟨_, hv⟩
    · intro hn
      obtain ⟨q, hq, -, -, h3⟩ := std_some hp hs
      unfold gv at hn; unfold av
      simp only [hq, Option.bind_some] at hn ⊢
      simp [hn, ← h3, hd]
  obtain ⟨⟨a, ha⟩, ha'⟩ := key p₁ h₁
  obtain ⟨⟨b, hb⟩, hb'⟩ := key p₂ h₂
  refine ⟨a, b, ha, hb, ?_⟩
  by_cases hc : gv p₁ n = none ∧ gv p₂ n = none
  · have hrn : gv r n = none := by rw [hv, merged, if_pos hc]
    rw [(key r hr).2 hrn]
    have h1 := ha' hc.1
    have h2 := hb' hc.2
    rw [ha] at h1; rw [hb] at h2
    cases h1; cases h2
    rw [hid]
  · apply gv_av
    rw [hv, merged, if_neg hc, ha, hb]
    simp [hf]

/-- **C40.** Strictness and the write flags are the conjunction. -/
theorem c40_flags (p₁ p₂ r : P) (h₁ : Std p₁) (h₂ : Std p₂)
    (h : mergeParams p₁ p₂ = .ok r) (n : String)
    (hn : n ∈ ["strict", "file.write_momenta", "file.write_photon", "file.write_sf_set",
      "file.write_mc_coords"]) :
    ∃ a b, actual p₁ n = some (.bool a) ∧ actual p₂ n = some (.bool b) ∧
      actual r n = some (.bool (a && b)) := by
  have hs : ∃ s, stdFormat.find n.toList = some s ∧ (∃ a b, s.dflt = some (a, .bool b)) ∧
      s.type = .bool ∧
      ¬ (.xs ∈ s.tags ∨ .cut ∈ s.tags ∨ .dist ∈ s.tags ∨ .uid ∈ s.tags ∨ .seed ∈ s.tags) := by
    simp only [List.mem_cons, List.not_mem_nil, or_false] at hn
    rcases hn with rfl | rfl | rfl | rfl | rfl <;>
      exact ⟨_, rfl, ⟨_, _, rfl⟩, rfl, by decide⟩
  obtain ⟨s, hs, hd, hty, ht⟩ := hs
  have hv := merged_value h₁ h₂ h hs ht opAnd (fun all _ => mem_fixed h₁ (by
    simp only [List.mem_cons, List.not_mem_nil, or_false] at hn
    rcases hn with rfl | rfl | rfl | rfl | rfl <;> simp) all)
  exact merged_flag h₁ h₂ (c40_nothing_lost p₁ p₂ r h₁ h₂ h).1 hs hd hty (fun _ _ => rfl)
    (fun a => by cases a <;> rfl) hv.1

/-- **C40.** The version of the result is the newer of the two. -/
theorem c40_version (p₁ p₂ r : P) (h₁ : Std p₁) (h₂ : Std p₂) (h : mergeParams p₁ p₂ = .ok r) :
    ∃ a b c, actual p₁ "version" = some (.version a b) ∧ actual p₂ "version" = some (.version a c) ∧
      actual r "version" = some (.version a (max b c)) := by
  have hs : ∃ s, stdFormat.find "version".toList = some s ∧
      (∃ i, s.dflt = some (i, .version 5 0)) ∧
      ¬ (.xs ∈ s.tags ∨ .cut ∈ s.tags ∨ .dist ∈ s.tags ∨ .uid ∈ s.tags ∨ .seed ∈ s.tags) :=
    ⟨_, rfl, ⟨_, rfl⟩, by decide⟩
  obtain ⟨s, hs, ⟨i, hd⟩, ht⟩ := hs
  have hv := merged_value h₁ h₂ h hs ht opVersion (fun all _ => mem_fixed h₁ (by simp) all)
  obtain ⟨⟨a, b, c, ha, hb⟩, -⟩ := c40_inputs_agree p₁ p₂ r h₁ h₂ h
  refine ⟨a, b, c, ha, hb, ?_⟩
  have hr := (c40_nothing_lost p₁ p₂ r h₁ h₂ h).1
  have key : ∀ p : P, Std p → gv p "version".toList = none → av p "version".toList = some (.version 5 0) := by
    intro p hp hn
    obtain ⟨q, hq, -, -, h3⟩ := std_some hp hs
    unfold gv at hn; unfold av
    simp only [hq, Option.bind_some] at hn ⊢
    simp [hn, ← h3, hd]
  rw [actual_eq] at ha hb ⊢
  by_cases hc : gv p₁ "version".toList = none ∧ gv p₂ "version".toList = none
  · have hrn : gv r "version".toList = none := by rw [hv.1, merged, if_pos hc]
    rw [key r hr hrn]
    have e1 := key p₁ h₁ hc.1
    have e2 := key p₂ h₂ hc.2
    rw [ha] at e1; rw [hb] at e2
    cases e1; cases e2; rfl
  · apply gv_av
    rw [hv.1, merged, if_neg hc, ha, hb]
    simp only [Option.bind_some, opVersion, if_true]
    split_ifs with hlt
    · rw [max_eq_left hlt.le]
    · rw [max_eq_right (not_lt.1 hlt)]

private theorem merged_switch {p₁ p₂ r : P} (h₁ : Std p₁) (h₂ : Std p₂)
    (h : mergeParams p₁ p₂ = .ok r) (t : EventType) (ht : Enabled p₁ t ∨ Enabled p₂ t) :
    ∃ a b, av p₁ (nameEnable t) = some (.bool a) ∧ av p₂ (nameEnable t) = some (.bool b) ∧
      av r (nameEnable t) = some (.bool (a || b)) := by
  have hs : ∃ s, stdFormat.find (nameEnable t) = some s ∧ (∃ a b, s.dflt = some (a, .bool b)) ∧
      s.type = .bool ∧
      ¬ (.xs ∈ s.tags ∨ .cut ∈ s.tags ∨ .dist ∈ s.tags ∨ .uid ∈ s.tags ∨ .seed ∈ s.tags) := by
    cases t <;> exact ⟨_, rfl, ⟨_, _, rfl⟩, rfl, by decide⟩
  obtain ⟨s, hs, hd, hty, htg⟩ := hs
  have hv := merged_value h₁ h₂ h hs htg opOr (fun all hall => by
    rw [mergeList_std h₁]
    simp only [List.mem_append, List.mem_map]
    left; right; exact ⟨t, (hall t).2 ht, rfl⟩)
  exact merged_flag h₁ h₂ (c40_nothing_lost p₁ p₂ r h₁ h₂ h).1 hs hd hty (fun _ _ => rfl)
    (fun a => by cases a <;> rfl) hv.1

/-- **C40.** The switch of an event type that is enabled in either set is the disjunction. -/
theorem c40_switch (p₁ p₂ r : P) (h₁ : Std p₁) (h₂ : Std p₂)
    (h : mergeParams p₁ p₂ = .ok r) (t : EventType) (ht : Enabled p₁ t ∨ Enabled p₂ t) :
    ∃ a b, actual p₁ (switch t) = some (.bool a) ∧ actual p₂ (switch t) = some (.bool b) ∧
      actual r (switch t) = some (.bool (a || b)) := by
  simp only [actual_eq, switch_eq]
  exact merged_switch h₁ h₂ h t ht

private theorem rc_value {p₁ p₂ r : P} (h₁ : Std p₁) (h₂ : Std p₂)
    (h : mergeParams p₁ p₂ = .ok r) :
    (∀ t, Enabled p₂ t → given r "phys.rc_method" = given p₂ "phys.rc_method") ∧
    ((∀ t, ¬ Enabled p₂ t) → ∀ t, Enabled p₁ t →
      given r "phys.rc_method" = given p₁ "phys.rc_method") := by
  have hph : ∀ t : EventType, Determines "phys.rc_method" t := by
    intro t
    refine ⟨Or.inl ⟨_, rfl, by decide⟩, _, rfl, ?_⟩
    cases t <;> decide
  constructor
  · intro t ht
    exact (c40_physics_kept p₁ p₂ r h₁ h₂ h t _ (Or.inl (hph t))).1 ht
  · intro hno t ht
    exact (c40_physics_kept p₁ p₂ r h₁ h₂ h t _ (Or.inl (hph t))).2 ht (fun t' ht' => absurd ht' (hno t'))

private theorem rc_actual {p : P} (h : Std p) : actual p "phys.rc_method" = given p "phys.rc_method" :=
  av_nodefault h (n := "phys.rc_method".toList) rfl rfl

/-- **C40.** Event types: an event type enabled in the second set stays enabled; one enabled in the
first stays enabled when the two sets use the same method for radiative corrections; and nothing
else becomes enabled. -/
theorem c40_enabled (p₁ p₂ r : P) (h₁ : Std p₁) (h₂ : Std p₂) (h : mergeParams p₁ p₂ = .ok r)
    (t : EventType) :
    (Enabled p₂ t → Enabled r t) ∧
    (given p₁ "phys.rc_method" = given p₂ "phys.rc_method" → Enabled p₁ t → Enabled r t) ∧
    (Enabled r t → Enabled p₁ t ∨ Enabled p₂ t) := by
  have hr := (c40_nothing_lost p₁ p₂ r h₁ h₂ h).1
  obtain ⟨hrc2, hrc1⟩ := rc_value h₁ h₂ h
  have hsw : ∀ t, Enabled p₁ t ∨ Enabled p₂ t → actual r (switch t) = some (.bool true) := by
    intro t ht
    obtain ⟨a, b, ha, hb, hab⟩ := merged_switch h₁ h₂ h t ht
    rw [actual_eq, switch_eq, hab]
    rcases ht with ht | ht
    · have := ((enabled_iff p₁ t).1 ht).1
      rw [ha] at this; cases this; rfl
    · have := ((enabled_iff p₂ t).1 ht).1
      rw [hb] at this; cases this; simp
  refine ⟨?_, ?_, ?_⟩
  · intro ht
    refine ⟨hsw t (Or.inr ht), ?_⟩
    rw [rc_actual hr, hrc2 t ht, ← rc_actual h₂]
    exact ht.2
  · intro heq ht
    refine ⟨hsw t (Or.inl ht), ?_⟩
    by_cases hno : ∀ t, ¬ Enabled p₂ t
    · rw [rc_actual hr, hrc1 hno t ht, ← rc_actual h₁]; exact ht.2
    · push Not at hno
      obtain ⟨t', ht'⟩ := hno
      rw [rc_actual hr, hrc2 t' ht', ← heq, ← rc_actual h₁]; exact ht.2
  · intro ht
    by_contra hcon
    push Not at hcon
    obtain ⟨-, hg⟩ := c40_nothing_lost p₁ p₂ r h₁ h₂ h
    -- the switch of `t` is not among the merged parameters, so it is not given in the result
    have hs : ∃ s, stdFormat.find (nameEnable t) = some s ∧ s.value = none ∧
        ¬ (.xs ∈ s.tags ∨ .cut ∈ s.tags ∨ .dist ∈ s.tags ∨ .uid ∈ s.tags ∨ .seed ∈ s.tags) := by
      cases t <;> exact ⟨_, rfl, rfl, by decide⟩
    obtain ⟨s, hs, hval, htg⟩ := hs
    have hrn : gv r (nameEnable t) = none :=
      mergeParams_unset h₁ h₂ h hs hval (fun hc => absurd hc htg) (fun all hall =>
        switch_not_merged h₁ (fun hc => ((hall t).1 hc).elim hcon.1 hcon.2))
    have hboth : gv p₁ (nameEnable t) = none ∧ gv p₂ (nameEnable t) = none := by
      have hg' := hg (switch t)
      simp only [given_eq, switch_eq, hrn, ne_eq, not_true_eq_false, false_iff, not_or,
        not_not] at hg'
      exact hg'
    -- so both inputs have the switch on by default
    have hE : ∀ p : P, Std p → gv p (nameEnable t) = none →
        given r "phys.rc_method" = given p "phys.rc_method" → Enabled p t := by
      intro p hp hn hrc
      rw [enabled_iff]
      refine ⟨av_switch_default hp hn, ?_⟩
      have h2 := ht.2
      rw [rc_actual hr, hrc, ← rc_actual hp] at h2
      exact h2
    by_cases hno : ∀ t, ¬ Enabled p₂ t
    · by_cases hno1 : ∀ t, ¬ Enabled p₁ t
      · -- nothing enabled: the method is not even given in the result
        have hsr : ∃ s, stdFormat.find "phys.rc_method".toList = some s ∧ s.value = none :=
          ⟨_, rfl, rfl⟩
        obtain ⟨s', hs', hval'⟩ := hsr
        have := mergeParams_unset h₁ h₂ h hs' hval' (fun _ u => ⟨hno1 u, hno u⟩)
          (fun all _ => rc_not_merged h₁ all)
        obtain ⟨mm, hmm, -⟩ := ht.2
        rw [rc_actual hr, given_eq, this] at hmm
        cases hmm
      · push Not at hno1
        obtain ⟨u, hu⟩ := hno1
        exact hcon.1 (hE p₁ h₁ hboth.1 (hrc1 hno u hu))
    · push Not at hno
      obtain ⟨u, hu⟩ := hno
      exact hcon.2 (hE p₂ h₂ hboth.2 (hrc2 u hu))

/-! ### concrete sets -/

/-- The standard table with some parameters provided, in the given order. -/
def provide (l : List (String × Val)) : P :=
  l.foldl (fun p x => (Params.set Val.ty p x.1.toList (some x.2)).2) stdFormat

theorem std_provide (l : List (String × Val)) : Std (provide l) := by
  have key : ∀ p : P, Std p →
      Std (l.foldl (fun p x => (Params.set Val.ty p x.1.toList (some x.2)).2) p) := by
    induction l with
    | nil => exact fun p hp => hp
    | cons x l ih => exact fun p hp => ih _ (std_set hp _ _)
  exact key _ std_stdFormat

/-- Did it succeed? -/
def isOk {ε α : Type} : Except ε α → Bool
  | .ok _ => true
  | .error _ => false

/-- Did it succeed with a result that passes a test? -/
def okAnd {ε α : Type} (x : Except ε α) (f : α → Bool) : Bool :=
  match x with
  | .ok a => f a
  | .error _ => false

theorem okAnd_iff {ε α : Type} {x : Except ε α} {f : α → Bool} :
    okAnd x f = true ↔ ∃ a, x = .ok a ∧ f a = true := by
  cases x <;> simp [okAnd]

/-- The parameter that could not be merged. -/
def notMerged {α : Type} : Except MErr α → Option Text
  | .error (.failedToMerge n) => some n
  | _ => none

theorem isOk_iff {ε α : Type} {x : Except ε α} : isOk x = true ↔ ∃ a, x = .ok a := by
  cases x <;> simp [isOk]

/-- A run of non-radiative and radiative events with one seed. -/
def sampleRun (seed count : ℤ) : P :=
  provide [("mc.seed", .seedGen [seed]), ("mc.num_events", .long count),
    ("mc.nrad.init.uid", .long 7), ("mc.rad.init.uid", .long 8),
    ("setup.beam_energy", .double (.fin 10)), ("cut.y", .bound (.fin (1/10)) (.fin (9/10))),
    ("phys.rc_method", .rcMethod .approx), ("strict", .bool false)]

-- hypotheses of C40: two different runs that can be merged
example : (∃ r, mergeParams (sampleRun 1 1000) (sampleRun 2 500) = .ok r) ∧
    Enabled (sampleRun 1 1000) .rad ∧ Enabled (sampleRun 2 500) .rad :=
  ⟨isOk_iff.1 (by decide +kernel), ⟨by decide +kernel, .approx, by decide +kernel, by decide⟩,
    ⟨by decide +kernel, .approx, by decide +kernel, by decide⟩⟩

-- and one that cannot: equal seeds
example : isOk (mergeParams (sampleRun 1 1000) (sampleRun 1 500)) = false := by decide +kernel

-- C42: a generator file that is accepted, and one refused for its cut
example : checkCanProvideFoam
    (provide [("mc.nrad.init.uid", .long 7), ("mc.rad.init.uid", .long 8),
      ("cut.y", .bound (.fin (1/10)) (.fin (9/10))), ("phys.rc_method", .rcMethod .exact)])
    (provide [("mc.nrad.init.uid", .long 7), ("cut.y", .bound (.fin (1/10)) (.fin (9/10))),
      ("phys.rc_method", .rcMethod .exact)]) = .ok () := by
  obtain ⟨a, h⟩ := isOk_iff.1 (show isOk (checkCanProvideFoam
    (provide [("mc.nrad.init.uid", .long 7), ("mc.rad.init.uid", .long 8),
      ("cut.y", .bound (.fin (1/10)) (.fin (9/10))), ("phys.rc_method", .rcMethod .exact)])
    (provide [("mc.nrad.init.uid", .long 7), ("cut.y", .bound (.fin (1/10)) (.fin (9/10))),
      ("phys.rc_method", .rcMethod .exact)])) = true by decide +kernel)
  exact h

example : isOk (checkCanProvideFoam
    (provide [("mc.nrad.init.uid", .long 7), ("mc.rad.init.uid", .long 8),
      ("cut.y", .bound (.fin (1/10)) (.fin (9/10))), ("phys.rc_method", .rcMethod .exact)])
    (provide [("mc.nrad.init.uid", .long 7), ("cut.y", .bound (.fin (2/10)) (.fin (9/10))),
      ("phys.rc_method", .rcMethod .exact)])) = false := by decide +kernel

/-- **C40, not guaranteed.** Sets with no event type in common are merged whatever their physics:
here two beam energies, and the result is left with that of the second. -/
theorem c40_unshared_physics_refuted : ∃ p₁ p₂ r : P, Std p₁ ∧ Std p₂ ∧
    mergeParams p₁ p₂ = .ok r ∧
    given p₁ "setup.beam_energy" = some (.double (.fin 10)) ∧
    given p₂ "setup.beam_energy" = some (.double (.fin 27)) ∧
    given r "setup.beam_energy" = some (.double (.fin 27)) ∧
    Enabled r .nrad ∧ Enabled r .rad := by
  obtain ⟨r, h⟩ := isOk_iff.1 (show isOk (mergeParams
    (provide [("mc.rad.enable", .bool false), ("phys.rc_method", .rcMethod .exact),
      ("setup.beam_energy", .double (.fin 10))])
    (provide [("mc.nrad.enable", .bool false), ("phys.rc_method", .rcMethod .exact),
      ("setup.beam_energy", .double (.fin 27))])) = true by decide +kernel)
  have e1 : Enabled (provide [("mc.rad.enable", .bool false), ("phys.rc_method", .rcMethod .exact),
      ("setup.beam_energy", .double (.fin 10))]) .nrad :=
    ⟨by decide +kernel, .exact, by decide +kernel, by decide⟩
  have e2 : Enabled (provide [("mc.nrad.enable", .bool false), ("phys.rc_method", .rcMethod .exact),
      ("setup.beam_energy", .double (.fin 27))]) .rad :=
    ⟨by decide +kernel, .exact, by decide +kernel, by decide⟩
  refine ⟨_, _, r, std_provide _, std_provide _, h, by decide +kernel, by decide +kernel, ?_, ?_, ?_⟩
  · rw [(c40_physics_kept _ _ r (std_provide _) (std_provide _) h .rad "setup.beam_energy"
      (Or.inl ⟨Or.inl ⟨_, rfl, by decide⟩, _, rfl, by decide⟩)).1 e2]
    decide +kernel
  · exact (c40_enabled _ _ r (std_provide _) (std_provide _) h .nrad).2.1 (by decide +kernel) e1
  · exact (c40_enabled _ _ r (std_provide _) (std_provide _) h .rad).1 e2

/-- **C40, not guaranteed.** Event types of the first set can be lost: a file of radiative events
merged with one made without radiative corrections is described as having no radiative events. -/
theorem c40_type_lost_refuted : ∃ p₁ p₂ r : P, Std p₁ ∧ Std p₂ ∧ mergeParams p₁ p₂ = .ok r ∧
    Enabled p₁ .rad ∧ ¬ Enabled r .rad := by
  obtain ⟨r, h⟩ := isOk_iff.1 (show isOk (mergeParams
    (provide [("mc.nrad.enable", .bool false), ("phys.rc_method", .rcMethod .exact)])
    (provide [("phys.rc_method", .rcMethod .none)])) = true by decide +kernel)
  have e2 : Enabled (provide [("phys.rc_method", .rcMethod .none)]) .nrad :=
    ⟨by decide +kernel, .none, by decide +kernel, by decide⟩
  refine ⟨_, _, r, std_provide _, std_provide _, h,
    ⟨by decide +kernel, .exact, by decide +kernel, by decide⟩, ?_⟩
  rintro ⟨-, m, hm, hne⟩
  have hr := (c40_nothing_lost _ _ r (std_provide _) (std_provide _) h).1
  rw [rc_actual hr, (rc_value (std_provide _) (std_provide _) h).1 .nrad e2] at hm
  have : given (provide [("phys.rc_method", .rcMethod .none)]) "phys.rc_method" =
    some (.rcMethod .none) := by decide +kernel
  rw [this] at hm
  cases hm
  exact hne rfl rfl

/-- **C40, not guaranteed.** Two files of the same run configuration cannot be merged if the
configuration says explicitly that radiative events are off. -/
theorem c40_disabled_type_refuted :
    notMerged (mergeParams
      (provide [("mc.seed", .seedGen [1]), ("mc.nrad.init.uid", .long 7),
        ("mc.rad.enable", .bool false), ("phys.rc_method", .rcMethod .exact)])
      (provide [("mc.seed", .seedGen [2]), ("mc.nrad.init.uid", .long 7),
        ("mc.rad.enable", .bool false), ("phys.rc_method", .rcMethod .exact)])) =
    some "mc.rad.enable".toList := by
  decide +kernel

/-! ### C41 -/

/-- **C41, what the code does.** The merged set carries the seeds of the second set only. -/
theorem c41_seeds (p₁ p₂ r : P) (h₁ : Std p₁) (h₂ : Std p₂) (h : mergeParams p₁ p₂ = .ok r)
    (t : EventType) (ht : Enabled p₂ t) : given r "mc.seed" = given p₂ "mc.seed" := by
  obtain ⟨ts₁, ts₂, shared, all, m, -, e2, -, -, -, -, -, -, -, -, -, hv, -⟩ :=
    mergeParams_ok h₁ h₂ h
  have hs : ∃ s, stdFormat.find "mc.seed".toList = some s ∧ .seed ∈ s.tags ∧ t.tag ∈ s.tags := by
    cases t <;> exact ⟨_, rfl, by decide, by decide⟩
  obtain ⟨s, hs, hd, hts⟩ := hs
  rw [given_eq, given_eq, hv _ s hs, if_pos]
  rw [setExpr_check]
  exact ⟨by simp [hd], t, (e2 t).2 ht, hts⟩

/-- **C41, what the code does.** However many files are merged, the seeds of the result are those of
the first file alone. -/
theorem c41_files (p r : P) (ps : List P) (hp : Std p) (hps : ∀ q ∈ ps, Std q) (t : EventType)
    (ht : Enabled p t) (h : mergeFiles p ps = .ok r) :
    Std r ∧ Enabled r t ∧ given r "mc.seed" = given p "mc.seed" := by
  induction ps generalizing p with
  | nil => cases h; exact ⟨hp, ht, rfl⟩
  | cons q ps ih =>
    obtain ⟨o, ho, h⟩ := bind_ok.1 h
    have hq := hps q (by simp)
    have hno := (c40_nothing_lost q p o hq hp ho).1
    obtain ⟨a, b, c⟩ := ih o hno (fun x hx => hps x (by simp [hx]))
      ((c40_enabled q p o hq hp ho t).1 ht) h
    exact ⟨a, b, c.trans (c41_seeds q p o hq hp ho t ht)⟩

/-- **C41, not guaranteed.** Three files, the last two made with the same seed (so containing the
same events), are merged without complaint, and the result counts the events twice. -/
theorem c41_refuted : ∃ r, mergeFiles (sampleRun 1 100) [sampleRun 2 100, sampleRun 2 100] = .ok r ∧
    given r "mc.seed" = some (.seedGen [1]) ∧ given r "mc.num_events" = some (.long 300) := by
  have h : okAnd (mergeFiles (sampleRun 1 100) [sampleRun 2 100, sampleRun 2 100]) (fun r =>
      decide (given r "mc.seed" = some (.seedGen [1])) &&
      decide (given r "mc.num_events" = some (.long 300))) = true := by decide +kernel
  obtain ⟨r, h, hr⟩ := okAnd_iff.1 h
  simp only [Bool.and_eq_true, decide_eq_true_eq] at hr
  exact ⟨r, h, hr.1, hr.2⟩

end Sidis.Props
