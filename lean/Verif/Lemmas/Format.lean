import Verif.Spec.Format
import Verif.Props.Params

namespace Sidis.Format

open Sidis.ParamStream Sidis.Codec Sidis.Spec

theorem bind_ok {ε α β : Type} {x : Except ε α} {f : α → Except ε β} {b : β} :
    (x >>= f) = .ok b ↔ ∃ a, x = .ok a ∧ f a = .ok b := by
  cases x with
  | error e => simp [bind, Except.bind]
  | ok a => simp [bind, Except.bind]

theorem lift_ok {α : Type} {x : Except (Params.Err Text) α} {a : α} :
    lift x = .ok a ↔ x = .ok a := by
  cases x <;> simp [lift]

/-- Provided value. -/
def gv (p : P) (n : Text) : Option Val := (p.find n).bind (·.value)
/-- Value returned by `get`. -/
def av (p : P) (n : Text) : Option Val :=
  (p.find n).bind fun q => q.value.or (q.dflt.map Prod.snd)

theorem given_eq (p : P) (n : String) : given p n = gv p n.toList := rfl
theorem actual_eq (p : P) (n : String) : actual p n = av p n.toList := rfl

theorem std_wf : stdFormat.WF := by unfold Params.WF; decide +kernel

theorem std_names {p : P} (h : Std p) : p.names = stdFormat.names := by
  unfold Params.names
  rw [← h.1, List.map_map]; rfl

theorem std_wf' {p : P} (h : Std p) : p.WF := by
  have := std_names h
  unfold Params.names at this
  unfold Params.WF; rw [this]; exact std_wf

theorem std_find {p : P} (h : Std p) (n : Text) :
    stdFormat.find n = (p.find n).map fun q => { q with value := none, used := false } := by
  unfold Params.find
  rw [← h.1]
  exact Params.lookup_map_val p.entries (fun q => { q with value := none, used := false }) n

theorem std_fmt {p : P} (h : Std p) {n : Text} {q : Params.Param Tag Ty Val}
    (hq : p.find n = some q) :
    ∃ s, stdFormat.find n = some s ∧ s.type = q.type ∧ s.tags = q.tags ∧ s.dflt = q.dflt := by
  exact ⟨{ q with value := none, used := false }, by rw [std_find h, hq]; rfl, rfl, rfl, rfl⟩

theorem std_some {p : P} (h : Std p) {n : Text} {s : Params.Param Tag Ty Val}
    (hs : stdFormat.find n = some s) :
    ∃ q, p.find n = some q ∧ s.type = q.type ∧ s.tags = q.tags ∧ s.dflt = q.dflt := by
  rw [std_find h] at hs
  cases hp : p.find n with
  | none => simp [hp] at hs
  | some q =>
    simp only [hp, Option.map_some, Option.some.injEq] at hs
    subst hs; exact ⟨q, rfl, rfl, rfl, rfl⟩

theorem std_typed {p : P} (h : Std p) {n : Text} {q : Params.Param Tag Ty Val}
    (hq : p.find n = some q) {v : Val} (hv : q.value = some v) : v.ty = q.type :=
  h.2 (n, q) (Params.mem_of_find hq) v hv

theorem std_check {p : P} (h : Std p) : p.checkFormat stdFormat = .ok () := by
  unfold Params.checkFormat
  rw [Params.forM_ok_iff]
  intro e he
  obtain ⟨s, h1, h2, h3, h4⟩ := std_fmt h (Params.find_of_mem (std_wf' h) he)
  unfold Params.checkFormatEntry
  simp [h1, h2, h3, h4]

/-! #### sets reached by the program satisfy `Std` -/

theorem std_stdFormat : Std stdFormat := by
  constructor
  · show stdEntries.map forget = stdEntries
    conv_rhs => rw [← List.map_id stdEntries]
    apply List.map_congr_left
    have : ∀ e ∈ stdEntries, e.2.value = none ∧ e.2.used = false := by decide +kernel
    intro e he
    obtain ⟨h1, h2⟩ := this e he
    obtain ⟨n, t, v, d, tg, u⟩ := e
    simp only at h1 h2
    subst h1 h2
    rfl
  · have : ∀ e ∈ stdEntries, e.2.value = none := by decide +kernel
    intro e he v hv
    rw [this e he] at hv; cases hv

theorem std_update {p : P} (h : Std p) {n : Text} {q : Params.Param Tag Ty Val}
    (hq : p.find n = some q) (v : Option Val) (u : Bool) (hv : ∀ w ∈ v, w.ty = q.type) :
    Std (p.update n { q with used := u, value := v }) := by
  constructor
  · rw [← h.1]
    simp only [Params.update, List.map_map]
    apply List.map_congr_left
    intro e he
    simp only [Function.comp]
    split_ifs with hc
    · have := Params.find_of_mem (std_wf' h) he
      rw [hc, hq] at this
      cases this
      rfl
    · rfl
  · intro e he w hw
    simp only [Params.update, List.mem_map] at he
    obtain ⟨e', he', rfl⟩ := he
    split_ifs at hw ⊢ with hc
    · exact hv w hw
    · exact h.2 e' he' w hw

theorem std_set {p : P} (h : Std p) (n : Text) (v : Option Val) : Std (Params.set Val.ty p n v).2 := by
  unfold Params.set
  cases hq : p.find n with
  | none => exact h
  | some q =>
    simp only
    split_ifs with hc
    · exact h
    · apply std_update h hq
      intro w hw
      by_contra hne
      exact hc ⟨w, hw, fun e => hne e.symm⟩

theorem std_get {p : P} (h : Std p) (n : Text) : Std (Params.get p n).2 := by
  unfold Params.get
  cases hq : p.find n with
  | none => exact h
  | some q =>
    simp only
    split
    · exact h
    · exact h
    · rename_i _ v hv
      have := std_update h hq (some v) true (by
        intro w hw; simp at hw; subst hw; exact std_typed h hq hv)
      convert this using 2
      simp [hv]

theorem std_setFrom {p o : P} (h : Std p) (ho : ∀ n q v, o.find n = some q → q.value = some v →
    v.ty = q.type) (n : Text) : Std (p.setFrom o n).2 := by
  unfold Params.setFrom
  cases hq : p.find n with
  | none => exact h
  | some q =>
    simp only
    cases hq' : o.find n with
    | none => exact h
    | some q' =>
      simp only
      split_ifs with h1 h2 h3
      · exact h
      · exact h
      · exact h
      · apply std_update h hq
        intro w hw
        rw [ho n q' w hq' hw]; push Not at h1; exact h1.symm

/-! #### lookups -/

theorem look_ok {p : P} {n : Text} {v : Val} : look p n = .ok v ↔ av p n = some v := by
  unfold look Params.getSoft av
  cases hq : p.find n with
  | none => simp [lift]
  | some q =>
    simp only [Option.bind_some]
    cases hv : q.value with
    | none =>
      cases hd : q.dflt with
      | none => simp [lift]
      | some d => simp [lift]
    | some w => simp [lift]

theorem lookBool_ok {p : P} {n : Text} {b : Bool} :
    lookBool p n = .ok b ↔ av p n = some (.bool b) := by
  unfold lookBool
  rw [bind_ok]
  simp only [look_ok]
  constructor
  · rintro ⟨v, h1, h2⟩
    split at h2
    · cases h2; exact h1
    · cases h2
  · intro h; exact ⟨_, h, rfl⟩

theorem lookLong_ok {p : P} {n : Text} {b : ℤ} :
    lookLong p n = .ok b ↔ av p n = some (.long b) := by
  unfold lookLong
  rw [bind_ok]
  simp only [look_ok]
  constructor
  · rintro ⟨v, h1, h2⟩
    split at h2
    · cases h2; exact h1
    · cases h2
  · intro h; exact ⟨_, h, rfl⟩

theorem lookVersion_ok {p : P} {n : Text} {b : ℤ × ℤ} :
    lookVersion p n = .ok b ↔ av p n = some (.version b.1 b.2) := by
  unfold lookVersion
  rw [bind_ok]
  simp only [look_ok]
  constructor
  · rintro ⟨v, h1, h2⟩
    split at h2
    · cases h2; exact h1
    · cases h2
  · intro h; exact ⟨_, h, rfl⟩

theorem lookSeeds_ok {p : P} {n : Text} {b : List ℤ} :
    lookSeeds p n = .ok b ↔ av p n = some (.seedGen b) := by
  unfold lookSeeds
  rw [bind_ok]
  simp only [look_ok]
  constructor
  · rintro ⟨v, h1, h2⟩
    split at h2
    · cases h2; exact h1
    · cases h2
  · intro h; exact ⟨_, h, rfl⟩

theorem lookRc_ok {p : P} {n : Text} {b : RcMethod} :
    lookRc p n = .ok b ↔ av p n = some (.rcMethod b) := by
  unfold lookRc
  rw [bind_ok]
  simp only [look_ok]
  constructor
  · rintro ⟨v, h1, h2⟩
    split at h2
    · cases h2; exact h1
    · cases h2
  · intro h; exact ⟨_, h, rfl⟩

theorem isSet_ok {p : P} {n : Text} {b : Bool} :
    p.isSet n = .ok b ↔ (∃ q, p.find n = some q) ∧ b = (gv p n).isSome := by
  unfold Params.isSet gv
  cases hq : p.find n with
  | none => simp
  | some q => simp [eq_comm]

theorem isSetWhen_ok {c : Bool} {p : P} {n : Text} {b : Bool} (h : isSetWhen c p n = .ok b) :
    b = (c && (gv p n).isSome) := by
  unfold isSetWhen at h
  cases c
  · simp at h; simp [h]
  · simp only [if_true, lift_ok, isSet_ok] at h; simp [h.2]

/-! #### enabled event types -/

theorem switch_eq (t : EventType) : (switch t).toList = nameEnable t := by cases t <;> rfl
theorem uid_eq (t : EventType) : (uid t).toList = nameUid t := by cases t <;> rfl

theorem enabled_iff (p : P) (t : EventType) : Enabled p t ↔
    av p (nameEnable t) = some (.bool true) ∧
      ∃ m, av p "phys.rc_method".toList = some (.rcMethod m) ∧ (t = .rad → m ≠ .none) := by
  unfold Enabled; rw [actual_eq, actual_eq, switch_eq]

theorem enabledTypes_spec {p : P} {ts : List EventType} (h : enabledTypes p = .ok ts) :
    (∀ t, t ∈ ts ↔ Enabled p t) := by
  unfold enabledTypes at h
  obtain ⟨rc, hrc, h⟩ := bind_ok.1 h
  rw [lookRc_ok] at hrc
  intro t
  rw [enabled_iff, hrc]
  by_cases hc : rc = .none
  · subst hc
    simp only [if_true] at h
    obtain ⟨b, hb, h⟩ := bind_ok.1 h
    rw [lookBool_ok] at hb
    cases h
    cases t
    · rw [hb]; cases b <;> simp
    · cases b <;> simp
  · rw [if_neg hc] at h
    obtain ⟨b₁, hb₁, h⟩ := bind_ok.1 h
    obtain ⟨b₂, hb₂, h⟩ := bind_ok.1 h
    rw [lookBool_ok] at hb₁ hb₂
    cases h
    cases t
    · rw [hb₁]; cases b₁ <;> cases b₂ <;> simp
    · rw [hb₂]; cases b₁ <;> cases b₂ <;> simp [hc]

theorem av_default {p : P} (h : Std p) {n : Text} {s : Params.Param Tag Ty Val}
    (hs : stdFormat.find n = some s) (hd : ∃ a w, s.dflt = some (a, w) ∧ w.ty = s.type) :
    ∃ v, av p n = some v ∧ v.ty = s.type := by
  obtain ⟨q, hq, h1, h2, h3⟩ := std_some h hs
  obtain ⟨a, w, hw, ht⟩ := hd
  unfold av
  simp only [hq, Option.bind_some]
  cases hv : q.value with
  | none => exact ⟨w, by simp [← h3, hw], ht⟩
  | some v => exact ⟨v, by simp, by rw [h1]; exact std_typed h hq hv⟩

theorem av_bool {p : P} (h : Std p) (t : EventType) : ∃ b, av p (nameEnable t) = some (.bool b) := by
  have hs : ∃ s, stdFormat.find (nameEnable t) = some s ∧ s.type = .bool ∧
      ∃ a, s.dflt = some (a, .bool true) := by
    cases t
    · exact ⟨_, rfl, rfl, _, rfl⟩
    · exact ⟨_, rfl, rfl, _, rfl⟩
  obtain ⟨s, hs, ht, a, ha⟩ := hs
  obtain ⟨v, hv, hty⟩ := av_default h hs ⟨a, _, ha, by rw [ht]; rfl⟩
  rw [ht] at hty
  cases v <;> simp [Val.ty] at hty
  exact ⟨_, hv⟩

theorem av_version {p : P} (h : Std p) : ∃ a b, av p "version".toList = some (.version a b) := by
  have hs : ∃ s, stdFormat.find "version".toList = some s ∧ s.type = .version ∧
      ∃ a, s.dflt = some (a, .version 5 0) := ⟨_, rfl, rfl, _, rfl⟩
  obtain ⟨s, hs, ht, a, ha⟩ := hs
  obtain ⟨v, hv, hty⟩ := av_default h hs ⟨a, _, ha, by rw [ht]; rfl⟩
  rw [ht] at hty
  cases v <;> simp [Val.ty] at hty
  exact ⟨_, _, hv⟩

theorem enabledTypes_total {p : P} (h : Std p)
    (hrc : ∃ m, av p "phys.rc_method".toList = some (.rcMethod m)) :
    ∃ ts, enabledTypes p = .ok ts := by
  obtain ⟨m, hm⟩ := hrc
  obtain ⟨b₁, hb₁⟩ := av_bool h .nrad
  obtain ⟨b₂, hb₂⟩ := av_bool h .rad
  unfold enabledTypes
  rw [lookRc_ok.2 hm]
  simp only [bind, Except.bind, lookBool_ok.2 hb₁, lookBool_ok.2 hb₂]
  split_ifs <;> exact ⟨_, rfl⟩

/-! #### filters -/

/-- The filter of event types as an expression. -/
def typeExpr (ts : List EventType) : FExpr Tag :=
  ts.foldl (fun f t => .or f (.tag t.tag)) .reject

theorem typeExpr_build (ts : List EventType) : (typeExpr ts).build = typeFilter ts := by
  unfold typeExpr typeFilter
  have : ∀ (f : FExpr Tag) (g : Filter Tag), f.build = g →
      (ts.foldl (fun f t => FExpr.or f (.tag t.tag)) f).build =
        ts.foldl (fun f t => f.or (.tag t.tag)) g := by
    induction ts with
    | nil => intro f g h; exact h
    | cons t ts ih => intro f g h; apply ih; simp [FExpr.build, h]
  exact this _ _ rfl

theorem typeExpr_holds (ts : List EventType) (tags : Finset Tag) :
    (typeExpr ts).Holds tags ↔ ∃ t ∈ ts, t.tag ∈ tags := by
  unfold typeExpr
  have : ∀ f : FExpr Tag, (ts.foldl (fun f t => FExpr.or f (.tag t.tag)) f).Holds tags ↔
      f.Holds tags ∨ ∃ t ∈ ts, t.tag ∈ tags := by
    induction ts with
    | nil => intro f; simp
    | cons t ts ih =>
      intro f
      simp only [List.foldl_cons]
      rw [ih]
      simp only [FExpr.Holds, List.mem_cons, exists_eq_or_imp]
      tauto
  rw [this]; simp [FExpr.Holds]

theorem distExpr_check (ts : List EventType) (tags : Finset Tag) :
    (filterDist.and (typeFilter ts)).check tags = true ↔
      (.xs ∈ tags ∨ .cut ∈ tags ∨ .dist ∈ tags) ∧ ∃ t ∈ ts, t.tag ∈ tags := by
  have := Props.c34_filter_semantics (Tag := Tag)
    (.and (.or (.or (.tag .xs) (.tag .cut)) (.tag .dist)) (typeExpr ts)) tags
  simp only [FExpr.build, typeExpr_build, FExpr.Holds, typeExpr_holds] at this
  unfold filterDist
  rw [this]; simp only [or_assoc, and_assoc]

theorem initExpr_check (ts : List EventType) (tags : Finset Tag) :
    (filterInitDist.and (typeFilter ts)).check tags = true ↔
      .init ∈ tags ∧ (.xs ∈ tags ∨ .cut ∈ tags ∨ .dist ∈ tags) ∧ ∃ t ∈ ts, t.tag ∈ tags := by
  have := Props.c34_filter_semantics (Tag := Tag)
    (.and (.and (.tag .init) (.or (.or (.tag .xs) (.tag .cut)) (.tag .dist))) (typeExpr ts)) tags
  simp only [FExpr.build, typeExpr_build, FExpr.Holds, typeExpr_holds] at this
  unfold filterInitDist
  rw [this]; simp only [or_assoc, and_assoc]

theorem setExpr_check (ts : List EventType) (tags : Finset Tag) :
    (filterSet.and (typeFilter ts)).check tags = true ↔
      (.xs ∈ tags ∨ .cut ∈ tags ∨ .dist ∈ tags ∨ .uid ∈ tags ∨ .seed ∈ tags) ∧
        ∃ t ∈ ts, t.tag ∈ tags := by
  have := Props.c34_filter_semantics (Tag := Tag)
    (.and (.or (.or (.or (.or (.tag .xs) (.tag .cut)) (.tag .dist)) (.tag .uid)) (.tag .seed))
      (typeExpr ts)) tags
  simp only [FExpr.build, typeExpr_build, FExpr.Holds, typeExpr_holds] at this
  unfold filterSet filterDist
  rw [this]; simp only [or_assoc, and_assoc]

theorem find_filter {p : P} (hp : p.WF) (f : Filter Tag) (n : Text) (q : Params.Param Tag Ty Val) :
    (p.filter f).find n = some q ↔ p.find n = some q ∧ f.check q.tags = true := by
  have hwf : (p.filter f).WF := by
    have h := hp
    unfold Params.WF at h ⊢
    exact (List.filter_sublist.map Prod.fst).nodup h
  constructor
  · intro h
    have := Params.mem_of_find h
    simp only [Params.filter, List.mem_filter] at this
    exact ⟨Params.find_of_mem hp this.1, this.2⟩
  · rintro ⟨h1, h2⟩
    have : (n, q) ∈ (p.filter f).entries := by
      simp only [Params.filter, List.mem_filter]
      exact ⟨Params.mem_of_find h1, h2⟩
    exact Params.find_of_mem hwf this

theorem wf_filter {p : P} (hp : p.WF) (f : Filter Tag) : (p.filter f).WF := by
  have h := hp
  unfold Params.WF at h ⊢
  exact (List.filter_sublist.map Prod.fst).nodup h

/-- `Agree` on texts. -/
def agree : Option Val → Option Val → Prop
  | none, none => True
  | some a, some b => equiv a.ty a b = true
  | _, _ => False

theorem Agree_eq (p₁ p₂ : P) (n : String) :
    Agree p₁ p₂ n ↔ agree (gv p₁ n.toList) (gv p₂ n.toList) := by
  unfold Agree agree
  rw [given_eq, given_eq]
  cases gv p₁ n.toList <;> cases gv p₂ n.toList <;> rfl

theorem equiv_filter {p₁ p₂ : P} (h₁ : Std p₁) (h₂ : Std p₂) (f : Filter Tag) :
    (p₁.filter f).checkEquivalent equiv (p₂.filter f) = .ok () ↔
      ∀ n s, stdFormat.find n = some s → f.check s.tags = true → agree (gv p₁ n) (gv p₂ n) := by
  have hsv : ∀ t a b, SameValue equiv t a b ↔ agree a b := by
    intro t a b; cases a <;> cases b <;> rfl
  rw [Props.c37_check_equivalent _ _ _ (wf_filter (std_wf' h₁) f)]
  constructor
  · intro h n s hs hf
    obtain ⟨q₁, hq₁, -, ht, -⟩ := std_some h₁ hs
    obtain ⟨o, ho, -, hv⟩ := h n q₁ ((find_filter (std_wf' h₁) f n q₁).2 ⟨hq₁, ht ▸ hf⟩)
    have ho' := ((find_filter (std_wf' h₂) f n o).1 ho).1
    rw [hsv] at hv
    unfold gv
    simpa [hq₁, ho'] using hv
  · intro h n q hq
    obtain ⟨hq, hc⟩ := (find_filter (std_wf' h₁) f n q).1 hq
    obtain ⟨s, hs, e1, e2, e3⟩ := std_fmt h₁ hq
    obtain ⟨o, ho, g1, g2, g3⟩ := std_some h₂ hs
    refine ⟨o, (find_filter (std_wf' h₂) f n o).2 ⟨ho, ?_⟩, ⟨?_, ?_, ?_⟩, ?_⟩
    · rw [← g2, e2]; exact hc
    · rw [← g1, e1]
    · rw [← g2, e2]
    · rw [← g3, e3]
    · have := h n s hs (by rw [e2]; exact hc)
      unfold gv at this
      rw [hsv]
      simpa [hq, ho] using this

/-! #### loops over event types -/

theorem checkEnabled_ok {p : P} {ts : List EventType} :
    checkEnabled p ts = .ok () ↔ ∀ t ∈ ts, av p (nameEnable t) = some (.bool true) := by
  induction ts with
  | nil => simp [checkEnabled]
  | cons t ts ih =>
    simp only [checkEnabled, bind_ok, lookBool_ok, List.mem_cons, forall_eq_or_imp]
    constructor
    · rintro ⟨b, hb, h⟩
      cases b
      · simp at h
      · exact ⟨hb, ih.1 (by simpa using h)⟩
    · rintro ⟨h1, h2⟩
      exact ⟨true, h1, by simpa using ih.2 h2⟩

theorem checkUid_ok {foam gen : P} (hg : Std gen) {ts : List EventType} :
    checkUid foam gen ts = .ok () ↔ ∀ t ∈ ts, ∃ u, av foam (nameUid t) = some (.long u) ∧
      (gv gen (nameUid t) = none ∨ gv gen (nameUid t) = some (.long u)) := by
  induction ts with
  | nil => simp [checkUid]
  | cons t ts ih =>
    have hs : ∃ s, stdFormat.find (nameUid t) = some s ∧ s.type = .long ∧ s.dflt = none := by
      cases t <;> exact ⟨_, rfl, rfl, rfl⟩
    obtain ⟨s, hs, hty, hd⟩ := hs
    obtain ⟨q, hq, e1, e2, e3⟩ := std_some hg hs
    have hav : av gen (nameUid t) = gv gen (nameUid t) := by
      unfold av gv; simp only [hq, Option.bind_some, ← e3, hd, Option.map_none, Option.or_none]
    simp only [checkUid, bind_ok, lookLong_ok, lift_ok, isSet_ok, List.mem_cons, forall_eq_or_imp,
      hav]
    constructor
    · rintro ⟨u, hu, b, ⟨-, hb⟩, h⟩
      subst hb
      cases hv : gv gen (nameUid t) with
      | none =>
        simp only [hv, Option.isSome_none, Bool.false_eq_true, if_false] at h
        exact ⟨⟨u, hu, Or.inl rfl⟩, ih.1 h⟩
      | some v =>
        simp only [hv, Option.isSome_some, if_true, bind_ok, lookLong_ok, hav] at h
        obtain ⟨w, hw, h⟩ := h
        split_ifs at h with hc
        have hc := not_not.1 hc
        subst hc
        exact ⟨⟨u, hu, Or.inr hw⟩, ih.1 h⟩
    · rintro ⟨⟨u, hu, h1⟩, h2⟩
      refine ⟨u, hu, _, ⟨⟨q, hq⟩, rfl⟩, ?_⟩
      rcases h1 with h1 | h1
      · simp only [h1, Option.isSome_none, Bool.false_eq_true, if_false]; exact ih.2 h2
      · simp only [h1, Option.isSome_some, if_true, bind_ok, lookLong_ok, hav]
        exact ⟨u, rfl, by simpa using ih.2 h2⟩

theorem checkSameUid_ok {p₁ p₂ : P} {ts : List EventType} :
    checkSameUid p₁ p₂ ts = .ok () ↔ ∀ t ∈ ts, ∃ u, av p₁ (nameUid t) = some (.long u) ∧
      av p₂ (nameUid t) = some (.long u) := by
  induction ts with
  | nil => simp [checkSameUid]
  | cons t ts ih =>
    simp only [checkSameUid, bind_ok, lookLong_ok, List.mem_cons, forall_eq_or_imp]
    constructor
    · rintro ⟨u, hu, w, hw, h⟩
      split_ifs at h with hc
      have hc := not_not.1 hc
      subst hc
      exact ⟨⟨u, hu, hw⟩, ih.1 h⟩
    · rintro ⟨⟨u, h1, h1'⟩, h2⟩
      exact ⟨u, h1, u, h1', by simpa using ih.2 h2⟩

theorem gv_av {p : P} {n : Text} {v : Val} (h : gv p n = some v) : av p n = some v := by
  unfold gv at h; unfold av
  cases hq : p.find n with
  | none => simp [hq] at h
  | some q => simp only [hq, Option.bind_some] at h ⊢; simp [h]

theorem checkSeeds_ok {p₁ p₂ : P} (h : checkSeeds p₁ p₂ = .ok ()) {a b : List ℤ}
    (ha : gv p₁ "mc.seed".toList = some (.seedGen a)) (hb : gv p₂ "mc.seed".toList = some (.seedGen b)) :
    ∀ s ∈ a, s ∉ b := by
  unfold checkSeeds at h
  simp only [bind_ok, lift_ok, isSet_ok] at h
  obtain ⟨s₁, ⟨-, h1⟩, s₂, h2, h⟩ := h
  simp only [ha, Option.isSome_some] at h1
  replace h2 := isSetWhen_ok h2
  simp only [h1, hb, Option.isSome_some, Bool.and_self] at h2
  subst h1
  subst h2
  simp only [Bool.and_self, if_true, bind_ok, lookSeeds_ok, gv_av ha, gv_av hb] at h
  obtain ⟨a', ha', b', hb', h⟩ := h
  cases ha'; cases hb'
  split_ifs at h with hc
  intro s hs hs'
  exact hc ⟨s, hs, hs'⟩

/-! #### the merges -/

/-- What a merge puts in the result: nothing when neither is given, else the operation on what
`get` returns. -/
def merged (op : Op) (p₁ p₂ : P) (n : Text) : Option Val :=
  if gv p₁ n = none ∧ gv p₂ n = none then none
  else (av p₁ n).bind fun a => (av p₂ n).bind fun b => op a b

theorem set_ok {p p' : P} {n : Text} {v : Option Val} {b : Bool} {m : Text}
    (h : Params.set Val.ty p n v = (.ok b, p')) :
    gv p' m = if m = n then v else gv p m := by
  unfold Params.set at h
  cases hq : p.find n with
  | none => simp [hq] at h
  | some q =>
    simp only [hq] at h
    split_ifs at h with hc
    · simp at h
    simp only [Prod.mk.injEq] at h
    rw [← h.2]
    unfold gv
    rw [Params.find_update]
    split_ifs with hm
    · simp [hq]
    · rfl

theorem mergeValue_ok {p₁ p₂ out out' : P} {n : Text} {op : Op} (ho : Std out)
    (h : mergeValue p₁ p₂ n op out = .ok out') :
    Std out' ∧ (∀ m, gv out' m = if m = n then merged op p₁ p₂ n else gv out m) ∧
      (gv p₁ n ≠ none ∨ gv p₂ n ≠ none → ∃ a b v, av p₁ n = some a ∧ av p₂ n = some b ∧
        op a b = some v) := by
  unfold mergeValue at h
  obtain ⟨s₁, h1, h⟩ := bind_ok.1 h
  obtain ⟨s₂, h2, h⟩ := bind_ok.1 h
  rw [lift_ok, isSet_ok] at h1
  obtain ⟨-, h1⟩ := h1
  have hs : (!s₁ && !s₂) = true ↔ gv p₁ n = none ∧ gv p₂ n = none := by
    have h2 := isSetWhen_ok h2
    rw [h2, h1]
    cases gv p₁ n <;> cases gv p₂ n <;> simp
  by_cases hc : (!s₁ && !s₂) = true
  · rw [if_pos hc] at h
    rw [hs] at hc
    cases he : Params.set Val.ty out n none with
    | mk r o =>
      rw [he] at h
      cases r with
      | error e => simp at h
      | ok b =>
        simp only [Except.ok.injEq] at h
        subst h
        refine ⟨?_, ?_, ?_⟩
        · have := std_set ho n none; rw [he] at this; exact this
        · intro m; rw [set_ok he]; unfold merged; rw [if_pos hc]
        · rintro (h | h)
          · exact absurd hc.1 h
          · exact absurd hc.2 h
  · rw [if_neg hc] at h
    rw [hs] at hc
    obtain ⟨a, ha, h⟩ := bind_ok.1 h
    obtain ⟨b, hb, h⟩ := bind_ok.1 h
    rw [look_ok] at ha hb
    cases hop : op a b with
    | none => simp [hop] at h
    | some v =>
      simp only [hop] at h
      cases he : Params.set Val.ty out n (some v) with
      | mk r o =>
        rw [he] at h
        cases r with
        | error e => simp at h
        | ok b' =>
          simp only [Except.ok.injEq] at h
          subst h
          refine ⟨?_, ?_, ?_⟩
          · have := std_set ho n (some v); rw [he] at this; exact this
          · intro m; rw [set_ok he]; unfold merged; rw [if_neg hc]; simp [ha, hb, hop]
          · intro _; exact ⟨a, b, v, ha, hb, hop⟩

theorem mergeValues_ok {p₁ p₂ : P} {l : List (Text × Op)} {out out' : P} (ho : Std out)
    (hnd : (l.map Prod.fst).Nodup) (h : mergeValues p₁ p₂ l out = .ok out') :
    Std out' ∧ (∀ m, m ∉ l.map Prod.fst → gv out' m = gv out m) ∧
      (∀ n op, (n, op) ∈ l → gv out' n = merged op p₁ p₂ n ∧
        (gv p₁ n ≠ none ∨ gv p₂ n ≠ none → ∃ a b v, av p₁ n = some a ∧ av p₂ n = some b ∧
        op a b = some v)) := by
  induction l generalizing out with
  | nil => cases h; exact ⟨ho, fun _ _ => rfl, by simp⟩
  | cons e l ih =>
    obtain ⟨n, op⟩ := e
    simp only [mergeValues] at h
    obtain ⟨o₁, h1, h⟩ := bind_ok.1 h
    obtain ⟨hs, hv, hd⟩ := mergeValue_ok ho h1
    simp only [List.map_cons, List.nodup_cons] at hnd
    obtain ⟨i1, i2, i3⟩ := ih hs hnd.2 h
    refine ⟨i1, ?_, ?_⟩
    · intro m hm
      simp only [List.map_cons, List.mem_cons, not_or] at hm
      rw [i2 m hm.2, hv, if_neg hm.1]
    · intro n' op' hmem
      rw [List.mem_cons] at hmem
      rcases hmem with he | hmem
      · cases he
        refine ⟨?_, hd⟩
        rw [i2 n hnd.1, hv, if_pos rfl]
      · exact i3 n' op' hmem

/-! #### copying -/

theorem setFromNames_ok {o : P} (hto : ∀ n q v, o.find n = some q → q.value = some v → v.ty = q.type)
    {ns : List Text} {p p' : P} {b b' : Bool} (hp : Std p)
    (h : p.setFromNames o ns b = (.ok b', p')) :
    Std p' ∧ ∀ m, gv p' m = if m ∈ ns then gv o m else gv p m := by
  induction ns generalizing p b with
  | nil => simp only [Params.setFromNames, Prod.mk.injEq] at h; rw [← h.2]; exact ⟨hp, by simp⟩
  | cons n ns ih =>
    simp only [Params.setFromNames] at h
    cases he : p.setFrom o n with
    | mk r p₁ =>
      rw [he] at h
      cases r with
      | error e => simp at h
      | ok c =>
        simp only at h
        have hs : Std p₁ := by have := std_setFrom hp hto n; rw [he] at this; exact this
        obtain ⟨i1, i2⟩ := ih hs h
        refine ⟨i1, ?_⟩
        intro m
        rw [i2]
        have hv : gv p₁ m = if m = n then gv o m else gv p m := by
          unfold Params.setFrom at he
          cases hq : p.find n with
          | none => simp [hq] at he
          | some q =>
            cases hq' : o.find n with
            | none => simp [hq, hq'] at he
            | some q' =>
              simp only [hq, hq'] at he
              split_ifs at he
              · simp at he
              · simp at he
              · simp at he
              simp only [Prod.mk.injEq] at he
              rw [← he.2]
              unfold gv
              rw [Params.find_update]
              split_ifs with hm
              · subst hm; simp [hq, hq']
              · rfl
        rw [hv]
        by_cases h1 : m ∈ ns <;> by_cases h2 : m = n <;> simp [h1, h2]

/-- Copying a filtered set. -/
theorem setFromAll_ok {p o p' : P} {b : Bool} (hp : Std p) (ho : Std o) (f : Filter Tag)
    (h : p.setFromAll (o.filter f) = (.ok b, p')) :
    Std p' ∧ ∀ m s, stdFormat.find m = some s →
      gv p' m = if f.check s.tags = true then gv o m else gv p m := by
  have hto : ∀ n q v, (o.filter f).find n = some q → q.value = some v → v.ty = q.type := by
    intro n q v hq hv
    exact std_typed ho ((find_filter (std_wf' ho) f n q).1 hq).1 hv
  obtain ⟨h1, h2⟩ := setFromNames_ok hto hp h
  refine ⟨h1, ?_⟩
  intro m s hs
  rw [h2]
  obtain ⟨q, hq, -, ht, -⟩ := std_some ho hs
  by_cases hf : f.check s.tags = true
  · have hfq : (o.filter f).find m = some q := (find_filter (std_wf' ho) f m q).2 ⟨hq, ht ▸ hf⟩
    rw [if_pos (Params.find_isSome_iff.1 ⟨q, hfq⟩), if_pos hf]
    unfold gv; rw [hfq, hq]
  · rw [if_neg hf, if_neg]
    intro hm
    obtain ⟨q', hq'⟩ := Params.find_isSome_iff.2 hm
    obtain ⟨h3, h4⟩ := (find_filter (std_wf' ho) f m q').1 hq'
    rw [hq] at h3; cases h3
    rw [ht] at hf; exact hf h4

theorem checkMerged_ok {p r : P} {ns : List Text} (h : checkMerged p r ns = .ok ()) :
    ∀ n ∈ ns, gv p n ≠ none → gv r n ≠ none := by
  induction ns with
  | nil => simp
  | cons n ns ih =>
    simp only [checkMerged, bind_ok, lift_ok, isSet_ok] at h
    obtain ⟨a, ⟨-, ha⟩, b, hb, h⟩ := h
    split_ifs at h with hc
    intro m hm
    rw [List.mem_cons] at hm
    rcases hm with rfl | hm
    · intro hp
      have hb := isSetWhen_ok hb
      rw [hb, ha] at hc
      cases h1 : gv p m <;> cases h2 : gv r m <;> simp_all
    · exact ih h m hm

theorem checkClean_ok {p₁ p₂ r : P} {ns : List Text} (h : checkClean p₁ p₂ r ns = .ok ()) :
    ∀ n ∈ ns, gv r n ≠ none → gv p₁ n ≠ none ∨ gv p₂ n ≠ none := by
  induction ns with
  | nil => simp
  | cons n ns ih =>
    simp only [checkClean, bind_ok, lift_ok, isSet_ok] at h
    obtain ⟨c, ⟨-, hc⟩, a, ha, b, hb, h⟩ := h
    split_ifs at h with hcc
    intro m hm
    rw [List.mem_cons] at hm
    rcases hm with rfl | hm
    · intro hp
      have ha := isSetWhen_ok ha
      have hb := isSetWhen_ok hb
      rw [hb, ha, hc] at hcc
      cases h1 : gv r m <;> cases h2 : gv p₁ m <;> cases h3 : gv p₂ m <;> simp_all
    · exact ih h m hm

theorem filter_names {p : P} (h : Std p) (f : Filter Tag) :
    (p.filter f).names = (stdFormat.filter f).names := by
  unfold Params.names Params.filter
  rw [← h.1]
  induction p.entries with
  | nil => rfl
  | cons e l ih =>
    have : (forget e).2.tags = e.2.tags := rfl
    simp only [List.map_cons, List.filter_cons, this]
    split_ifs
    · simp only [List.map_cons, ih]; rfl
    · exact ih

theorem file_names : (stdFormat.filter (Filter.tag .file)).names =
    ["file.event".toList, "file.gen".toList] := by decide +kernel

/-- The merged names for each list of event types. -/
theorem mergeList_std {p : P} (h : Std p) (all : List EventType) :
    mergeList p all =
  [("version".toList, opVersion), ("strict".toList, opAnd),
   ("file.event".toList, opFile), ("file.gen".toList, opFile),
   ("file.write_momenta".toList, opAnd), ("file.write_photon".toList, opAnd),
   ("file.write_sf_set".toList, opAnd), ("file.write_mc_coords".toList, opAnd)] ++
  all.map (fun t => (nameEnable t, opOr)) ++
  [("mc.seed".toList, opSeeds), ("mc.num_events".toList, opCount)] := by
  unfold mergeList
  rw [filter_names h, file_names]
  rfl

theorem mergeList_nodup {p : P} (h : Std p) {all : List EventType} (f : EventType → Bool)
    (hal : ([EventType.nrad, EventType.rad].filter f) = all) :
    ((mergeList p all).map Prod.fst).Nodup := by
  rw [mergeList_std h, ← hal]
  cases h1 : f .nrad <;> cases h2 : f .rad <;> simp only [List.filter, h1, h2] <;> decide +kernel

theorem mergeList_nodup' {p : P} (h : Std p) {all : List EventType} (hnd : all.Nodup) :
    ((mergeList p all).map Prod.fst).Nodup := by
  rw [mergeList_std h]
  have hcases : all = [] ∨ all = [.nrad] ∨ all = [.rad] ∨ all = [.nrad, .rad] ∨
      all = [.rad, .nrad] := by
    match all, hnd with
    | [], _ => simp
    | [t], _ => cases t <;> simp
    | [t, u], h => cases t <;> cases u <;> simp_all
    | t :: u :: w :: l, h => cases t <;> cases u <;> cases w <;> simp at h
  rcases hcases with rfl | rfl | rfl | rfl | rfl <;> decide +kernel

/-- Everything `merge_params` does, step by step. -/
theorem mergeParams_ok {p₁ p₂ r : P} (h₁ : Std p₁) (h₂ : Std p₂) (h : mergeParams p₁ p₂ = .ok r) :
    ∃ ts₁ ts₂ shared all m,
      (∀ t, t ∈ ts₁ ↔ Enabled p₁ t) ∧ (∀ t, t ∈ ts₂ ↔ Enabled p₂ t) ∧
      (∀ t, t ∈ shared ↔ t ∈ ts₁ ∧ t ∈ ts₂) ∧ (∀ t, t ∈ all ↔ t ∈ ts₁ ∨ t ∈ ts₂) ∧
      all.Nodup ∧
      (∃ a b c, av p₁ "version".toList = some (.version a b) ∧
        av p₂ "version".toList = some (.version a c)) ∧
      (p₁.filter (filterDist.and (typeFilter shared))).checkEquivalent equiv
        (p₂.filter (filterDist.and (typeFilter shared))) = .ok () ∧
      checkSameUid p₁ p₂ shared = .ok () ∧ checkSeeds p₁ p₂ = .ok () ∧
      mergeValues p₁ p₂ (mergeList p₁ all) stdFormat = .ok m ∧ Std r ∧
      (∀ n s, stdFormat.find n = some s → gv r n =
        if (filterSet.and (typeFilter ts₂)).check s.tags = true then gv p₂ n
        else if (filterSet.and (typeFilter ts₁)).check s.tags = true then gv p₁ n
        else gv m n) ∧ Std m ∧
      (∀ n, gv p₁ n ≠ none ∨ gv p₂ n ≠ none ↔ gv r n ≠ none) := by
  unfold mergeParams at h
  simp only [bind_ok] at h
  obtain ⟨_, -, _, -, v₁, hv₁, v₂, hv₂, h⟩ := h
  rw [lookVersion_ok] at hv₁ hv₂
  split_ifs at h with hver
  push Not at hver
  simp only [bind_ok] at h
  obtain ⟨ts₁, ht₁, ts₂, ht₂, _, heq, _, huid, _, hseed, m, hm, h⟩ := h
  generalize hsh : ([EventType.nrad, EventType.rad].filter fun t => decide (t ∈ ts₁ ∧ t ∈ ts₂)) = shared at *
  generalize hal : ([EventType.nrad, EventType.rad].filter fun t => decide (t ∈ ts₁ ∨ t ∈ ts₂)) = all at *
  have hall : ∀ t : EventType, t ∈ [EventType.nrad, EventType.rad] := by intro t; cases t <;> simp
  have hnd : all.Nodup := by
    rw [← hal]; exact List.Nodup.filter _ (by decide)
  have hmstd : Std m := by
    have hl : ((mergeList p₁ all).map Prod.fst).Nodup := mergeList_nodup h₁ _ hal
    exact (mergeValues_ok std_stdFormat hl hm).1
  cases hs1 : Params.setFromAll m (p₁.filter (filterSet.and (typeFilter ts₁))) with
  | mk e1 r₁ =>
  rw [hs1] at h
  cases e1 with
  | error e => simp at h
  | ok b1 =>
  simp only at h
  cases hs2 : Params.setFromAll r₁ (p₂.filter (filterSet.and (typeFilter ts₂))) with
  | mk e2 r₂ =>
  rw [hs2] at h
  cases e2 with
  | error e => simp at h
  | ok b2 =>
  simp only [bind_ok] at h
  obtain ⟨_, hc1, _, hc2, _, hc3, hr⟩ := h
  cases hr
  obtain ⟨hr1, hg1⟩ := setFromAll_ok hmstd h₁ _ hs1
  obtain ⟨hr2, hg2⟩ := setFromAll_ok hr1 h₂ _ hs2
  refine ⟨ts₁, ts₂, shared, all, m, enabledTypes_spec ht₁, enabledTypes_spec ht₂, ?_, ?_, hnd,
    ⟨v₁.1, v₁.2, v₂.2, hv₁, by rw [hver]; exact hv₂⟩, lift_ok.1 heq, huid, hseed, hm, hr2, ?_, hmstd, ?_⟩
  · intro t; rw [← hsh]; simp [hall t]
  · intro t; rw [← hal]; simp [hall t]
  · intro n s hs
    rw [hg2 n s hs, hg1 n s hs]
  · intro n
    constructor
    · rintro (hn | hn)
      · refine checkMerged_ok hc1 n ?_ hn
        apply Params.find_isSome_iff.1
        unfold gv at hn
        cases hf : p₁.find n with
        | none => simp [hf] at hn
        | some q => exact ⟨q, rfl⟩
      · refine checkMerged_ok hc2 n ?_ hn
        apply Params.find_isSome_iff.1
        unfold gv at hn
        cases hf : p₂.find n with
        | none => simp [hf] at hn
        | some q => exact ⟨q, rfl⟩
    · intro hn
      refine checkClean_ok hc3 n ?_ hn
      apply Params.find_isSome_iff.1
      unfold gv at hn
      cases hf : r.find n with
      | none => simp [hf] at hn
      | some q => exact ⟨q, rfl⟩

/-- A name that is neither merged nor copied is not given in the result. -/
theorem mergeParams_unset {p₁ p₂ r : P} (h₁ : Std p₁) (h₂ : Std p₂)
    (h : mergeParams p₁ p₂ = .ok r) {n : Text} {s : Params.Param Tag Ty Val}
    (hs : stdFormat.find n = some s) (hval : s.value = none)
    (hd : (.xs ∈ s.tags ∨ .cut ∈ s.tags ∨ .dist ∈ s.tags ∨ .uid ∈ s.tags ∨ .seed ∈ s.tags) →
      ∀ t, ¬ Enabled p₁ t ∧ ¬ Enabled p₂ t)
    (hnot : ∀ all : List EventType, (∀ t, t ∈ all ↔ Enabled p₁ t ∨ Enabled p₂ t) →
      n ∉ (mergeList p₁ all).map Prod.fst) :
    gv r n = none := by
  obtain ⟨ts₁, ts₂, shared, all, m, e1, e2, -, e4, hnd, -, -, -, -, hm, -, hv, -⟩ :=
    mergeParams_ok h₁ h₂ h
  rw [hv n s hs, if_neg, if_neg]
  · rw [(mergeValues_ok std_stdFormat (mergeList_nodup' h₁ hnd) hm).2.1 _
      (hnot all (by intro t; rw [e4, e1, e2]))]
    unfold gv; rw [hs]; exact hval
  · rw [setExpr_check]; rintro ⟨hc, u, hu, -⟩; exact (hd hc u).1 ((e1 u).1 hu)
  · rw [setExpr_check]; rintro ⟨hc, u, hu, -⟩; exact (hd hc u).2 ((e2 u).1 hu)

/-- A parameter whose switch is on by default. -/
theorem av_switch_default {p : P} (hp : Std p) {t : EventType} (hn : gv p (nameEnable t) = none) :
    av p (nameEnable t) = some (.bool true) := by
  have hs : ∃ s, stdFormat.find (nameEnable t) = some s ∧ (∃ a, s.dflt = some (a, .bool true)) := by
    cases t <;> exact ⟨_, rfl, ⟨_, rfl⟩⟩
  obtain ⟨s, hs, i, hd⟩ := hs
  obtain ⟨q, hq, -, -, h3⟩ := std_some hp hs
  unfold gv at hn; unfold av
  simp only [hq, Option.bind_some] at hn ⊢
  simp [hn, ← h3, hd]

theorem switch_not_merged {p₁ : P} (h₁ : Std p₁) {all : List EventType} {t : EventType}
    (hta : t ∉ all) : nameEnable t ∉ (mergeList p₁ all).map Prod.fst := by
  rw [mergeList_std h₁]
  simp only [List.map_append, List.mem_append, not_or]
  refine ⟨⟨?_, ?_⟩, ?_⟩
  · cases t <;> decide
  · simp only [List.map_map, List.mem_map, not_exists, not_and, Function.comp]
    intro u hu hc
    have : u = t := by cases u <;> cases t <;> first | rfl | (exact absurd hc (by decide))
    exact hta (this ▸ hu)
  · cases t <;> decide

theorem rc_not_merged {p₁ : P} (h₁ : Std p₁) (all : List EventType) :
    "phys.rc_method".toList ∉ (mergeList p₁ all).map Prod.fst := by
  rw [mergeList_std h₁]
  simp only [List.map_append, List.mem_append, not_or]
  refine ⟨⟨by decide, ?_⟩, by decide⟩
  simp only [List.map_map, List.mem_map, not_exists, not_and, Function.comp]
  intro u _ hc
  cases u <;> exact absurd hc (by decide)

end Sidis.Format
