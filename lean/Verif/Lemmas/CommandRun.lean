import Verif.Lemmas.Command
import Verif.Props.Dist

namespace Sidis.Command

open Sidis.ParamStream Sidis.Codec Sidis.Format Sidis.Spec Sidis.Main

/-! ### Marks -/

theorem find_get (p : P) (n m : Text) : ∃ u : Params.Param Tag Ty Val → Bool,
    (Params.get p n).2.find m = (p.find m).map fun q => { q with used := u q } := by
  unfold Params.get
  cases hq : p.find n with
  | none => exact ⟨fun q => q.used, by simp⟩
  | some q =>
    simp only
    split
    · exact ⟨fun q => q.used, by simp⟩
    · exact ⟨fun q => q.used, by simp⟩
    · simp only [Params.find_update]
      by_cases h : m = n
      · subst h
        exact ⟨fun _ => true, by rw [if_pos rfl, hq]; simp⟩
      · exact ⟨fun q => q.used, by rw [if_neg h]; simp⟩

theorem gv_get (p : P) (n m : Text) : gv (Params.get p n).2 m = gv p m := by
  obtain ⟨u, h⟩ := find_get p n m
  unfold gv
  rw [h]
  cases p.find m <;> rfl

theorem av_get (p : P) (n m : Text) : av (Params.get p n).2 m = av p m := by
  obtain ⟨u, h⟩ := find_get p n m
  unfold av
  rw [h]
  cases p.find m <;> rfl

theorem mark_spec {p : P} (hp : Std p) (ns : List String) :
    Std (mark ns p) ∧ (∀ m, gv (mark ns p) m = gv p m) ∧ ∀ m, av (mark ns p) m = av p m := by
  unfold mark
  induction ns generalizing p with
  | nil => exact ⟨hp, fun _ => rfl, fun _ => rfl⟩
  | cons n ns ih =>
    obtain ⟨h1, h2, h3⟩ := ih (std_get hp n.toList)
    exact ⟨h1, fun m => (h2 m).trans (gv_get p _ m), fun m => (h3 m).trans (av_get p _ m)⟩

/-! ### Setting parameters -/

theorem set_spec {p : P} (hp : Std p) {n : Text} {v : Val} {s : Params.Param Tag Ty Val}
    (hs : stdFormat.find n = some s) (ht : s.type = v.ty) :
    ∃ b p', Params.set Val.ty p n (some v) = (.ok b, p') ∧ Std p' ∧
      (∀ m, gv p' m = if m = n then some v else gv p m) ∧
      (∀ m, m ≠ n → av p' m = av p m) := by
  have hstd := std_set hp n (some v)
  obtain ⟨q, hq, h1, -, -⟩ := std_some hp hs
  unfold Params.set at hstd ⊢
  rw [hq] at hstd ⊢
  simp only at hstd ⊢
  rw [if_neg (by
    rintro ⟨w, hw, hc⟩
    cases hw
    exact hc (h1.symm.trans ht))] at hstd ⊢
  refine ⟨_, _, rfl, hstd, fun m => ?_, fun m hm => ?_⟩
  · unfold gv
    rw [Params.find_update]
    split_ifs with h
    · rw [hq]; rfl
    · rfl
  · unfold av
    rw [Params.find_update, if_neg hm]

theorem uid_row (t : EventType) : ∃ s, stdFormat.find (nameUid t) = some s ∧ s.type = .long ∧
    s.dflt = none := by
  cases t
  · exact ⟨_, rfl, rfl, rfl⟩
  · exact ⟨_, rfl, rfl, rfl⟩

/-- The parameters after the identifiers have been set. -/
def withUids (uid : EventType → ℤ) (ts : List EventType) (p : P) : P :=
  ts.foldl (fun p t => (Params.set Val.ty p (nameUid t) (some (.long (uid t)))).2) p

theorem nameUid_inj {t t' : EventType} (h : nameUid t = nameUid t') : t = t' := by
  cases t <;> cases t' <;> first | rfl | exact absurd h (by decide)

theorem withUids_spec {p : P} (hp : Std p) (uid : EventType → ℤ) (ts : List EventType) :
    Std (withUids uid ts p) ∧
    (∀ t ∈ ts, gv (withUids uid ts p) (nameUid t) = some (.long (uid t))) ∧
    (∀ m, (∀ t ∈ ts, m ≠ nameUid t) →
      gv (withUids uid ts p) m = gv p m ∧ av (withUids uid ts p) m = av p m) := by
  induction ts generalizing p with
  | nil => exact ⟨hp, by simp, fun _ _ => ⟨rfl, rfl⟩⟩
  | cons t ts ih =>
    obtain ⟨s, hs, ht, -⟩ := uid_row t
    obtain ⟨b, p', h1, h2, h3, h4⟩ := set_spec hp (v := .long (uid t)) hs ht
    have e : withUids uid (t :: ts) p = withUids uid ts p' := by
      unfold withUids
      rw [List.foldl_cons, h1]
    obtain ⟨g1, g2, g3⟩ := ih h2
    rw [e]
    refine ⟨g1, fun t' ht' => ?_, fun m hm => ?_⟩
    · by_cases hmem : t' ∈ ts
      · exact g2 t' hmem
      · rcases List.mem_cons.1 ht' with rfl | h
        · rw [(g3 _ (fun x hx hc => hmem (by rw [nameUid_inj hc]; exact hx))).1, h3, if_pos rfl]
        · exact absurd h hmem
    · obtain ⟨k1, k2⟩ := g3 m fun x hx => hm x (List.mem_cons_of_mem _ hx)
      have hne := hm t List.mem_cons_self
      exact ⟨by rw [k1, h3, if_neg hne], by rw [k2, h4 m hne]⟩

/-! ### Building and reading distributions -/

section
open Sidis.Dist Sidis.Dist.Spec Sidis.Props

variable {A B : Type}

/-- Building and serialising never has undefined behaviour; it gives the bytes of the distribution
that was built, if they fit. -/
theorem buildBlob_spec (X : InitEnv A B) (t : EventType) :
    ∃ r, buildBlob X t = some r ∧
      ((∀ bytes, r = .ok bytes ↔ ∃ b, X.build t = .none b ∧ bytes = saved X.lib (dim t) b ∧
        bytes.length ≤ maxInt ∧ ∀ room, X.stream t = some room → bytes.length ≤ room)) ∧
      (∀ c, r = .error c → c = ERROR_BUILDING_FOAM ∨ c = ERROR_WRITING_FOAM) := by
  unfold buildBlob
  have h1 : Gen.make X.lib t ⟨0, []⟩ =
      some (⟨t, true, some ⟨.uniform, true, some ⟨0, .uniform, X.lib.empty⟩⟩⟩, ⟨1, [.ctor 0]⟩) := rfl
  rw [h1]
  simp only [Option.bind_eq_bind, Option.bind_some]
  cases hb : X.build t with
  | ctor =>
    refine ⟨.error ERROR_BUILDING_FOAM, rfl, fun bytes => ?_, fun c hc => ?_⟩
    · simp
    · cases hc; exact .inl rfl
  | build =>
    refine ⟨.error ERROR_BUILDING_FOAM, rfl, fun bytes => ?_, fun c hc => ?_⟩
    · simp
    · cases hc; exact .inl rfl
  | none b =>
    have h2 : ∃ o e w, Gen.build X.lib ⟨t, true, some ⟨.uniform, true, some ⟨0, .uniform, X.lib.empty⟩⟩⟩
        .bubble (.none b) (X.moves t) ⟨1, [.ctor 0]⟩ = some (⟨t, true, some o⟩, false, w) ∧
        o.valid = true ∧ o.type = .bubble ∧ o.engine = some e ∧ e.type = .bubble ∧ e.val = b := by
      obtain ⟨o', e', w', g1, g2, g3, g4, g5, g6⟩ := relocate_spec X.lib (X.moves t)
        ⟨.bubble, true, some ⟨1, .bubble, b⟩⟩ _ rfl rfl rfl
        ⟨2, [.ctor 0, .dtor 0, .ctor 1, .use 1]⟩
      refine ⟨o', e', w', ?_, g2, g3, g4, g5, g6⟩
      unfold Gen.build
      show (match Obj.relocate X.lib (X.moves t) _ _ with | none => none | some (o, w) => _) = _
      erw [g1]
    obtain ⟨o, e, w, h2, hv, ht, he, hte, hval⟩ := h2
    rw [h2]
    simp only [Option.bind_some, Bool.false_eq_true, if_false]
    have hu : o.Usable := ⟨hv, e, he, hte.trans ht.symm⟩
    have hl : o.live = some e := by
      unfold Obj.live
      rw [he]
      simp [Option.filter, hte, ht]
    have h3 : Gen.prime ⟨t, true, some o⟩ w = some (some (.bubble e.val), w.put (.use e.id)) := by
      unfold Gen.prime Obj.prime
      simp only [ht, hl]
    rw [h3]
    simp only [Option.bind_some]
    obtain ⟨os, w', g1, g2, g3⟩ := c49_write X.lib (dim t) o hu ⟨[], false, X.stream t⟩ (w.put (.use e.id))
    have h4 : Gen.write X.lib ⟨t, true, some o⟩ ⟨[], false, X.stream t⟩ (w.put (.use e.id)) =
        some (os, w') := g1
    rw [h4]
    simp only [Option.bind_some]
    have h5 : ∃ w'', Gen.destroy ⟨t, true, some o⟩ w' = some w'' := by
      unfold Gen.destroy Obj.destroy
      simp only [hv, if_true, hl]
      exact ⟨_, rfl⟩
    obtain ⟨w'', h5⟩ := h5
    rw [h5]
    simp only [Option.bind_some]
    split_ifs with hc
    · refine ⟨_, rfl, fun bytes => ?_, fun c hc => ?_⟩
      · simp only [reduceCtorEq, false_iff]
        rintro ⟨b', hb', rfl, hlen, hroom⟩
        cases hb'
        have hf : os.fail = false := g2.2 ⟨rfl, e, he, hte, fun r hr => by rw [hval]; exact hroom r hr⟩
        obtain ⟨e', he', hd⟩ := g3 hf
        rw [he] at he'
        cases he'
        rw [hf, hd, hval] at hc
        simp only [Bool.false_eq_true, false_or, List.nil_append] at hc
        omega
      · cases hc; exact .inr rfl
    · refine ⟨_, rfl, fun bytes => ?_, fun c hc => nomatch hc⟩
      push Not at hc
      have hf : os.fail = false := by simpa using hc.1
      obtain ⟨e', he', hd⟩ := g3 hf
      rw [he] at he'
      cases he'
      rw [hval, List.nil_append] at hd
      simp only [Except.ok.injEq, BuildFault.none.injEq]
      constructor
      · rintro rfl
        refine ⟨b, rfl, hd, by omega, fun room hr => ?_⟩
        obtain ⟨-, e', he', -, h⟩ := g2.1 hf
        rw [he] at he'
        cases he'
        rw [hd, ← hval]
        exact h room hr
      · rintro ⟨b', rfl, rfl, -⟩
        exact hd

/-- What reading a distribution means. -/
theorem loadBlob_spec (Y : GenEnv A B) (f : RootFile) (p : P) (t : EventType) :
    loadBlob Y f p t ≠ .error .ub ∧
    (∀ g, loadBlob Y f p t = .ok g → ∃ bytes, f.blobs.lookup t = some bytes ∧
      (∃ u, densityOk t p = .ok u) ∧ DrawsFrom g (Y.lib.read Y.lib.empty (bytes.drop 12)).1) ∧
    ((∃ b, f.blobs.lookup t = some (saved Y.lib (dim t) b)) → (∃ u, densityOk t p = .ok u) →
      RoundTrip Y.lib → Y.fault t = .none → (∃ d, Density.double p (rejName t) = .ok d) →
      ∃ g, loadBlob Y f p t = .ok g) := by
  have h1 : Gen.make Y.lib t ⟨0, []⟩ =
      some (⟨t, true, some ⟨.uniform, true, some ⟨0, .uniform, Y.lib.empty⟩⟩⟩, ⟨1, [.ctor 0]⟩) := rfl
  unfold loadBlob
  cases hb : f.blobs.lookup t with
  | none => exact ⟨by simp [throws], by simp, by simp⟩
  | some bytes =>
    simp only
    cases hd : densityOk t p with
    | error e => exact ⟨by simp [throws], by simp, by simp⟩
    | ok u =>
      simp only [h1]
      obtain ⟨r, g1, g2, g3, g4⟩ := c49_read Y.lib (dim t) ⟨.uniform, true, some ⟨0, .uniform, Y.lib.empty⟩⟩
        ⟨rfl, _, rfl, rfl⟩ ⟨bytes, false⟩ (Y.fault t) (Y.kept t) ⟨1, [.ctor 0]⟩
      have h2 : Gen.read Y.lib ⟨t, true, some ⟨.uniform, true, some ⟨0, .uniform, Y.lib.empty⟩⟩⟩
          ⟨bytes, false⟩ (Y.fault t) (Y.kept t) ⟨1, [.ctor 0]⟩ =
          some (⟨t, true, some r.obj⟩, r.is, r.threw, r.world) := by
        unfold Gen.read
        simp only
        rw [g1]
        rfl
      simp only [h2]
      split_ifs with hc
      · refine ⟨by simp [throws], by simp, ?_⟩
        rintro ⟨b, hb'⟩ - hL hf -
        simp only [Option.some.injEq] at hb'
        subst hb'
        obtain ⟨k1, k2⟩ := header_of 2 (dim t) (by norm_num) (by cases t <;> norm_num [dim]) (Y.lib.write b)
        have := g2.2 ⟨k1, hf, by
          have e : (saved Y.lib (dim t) b).drop 12 = Y.lib.write b := k2
          simp only [e]
          have := hL b Y.lib.empty []
          rw [List.append_nil] at this
          rw [this]⟩
        rw [this.1, this.2] at hc
        simp at hc
      · push Not at hc
        cases hr : Density.double p (rejName t) with
        | error e => exact ⟨by simp [throws], by simp, by simp⟩
        | ok d =>
          refine ⟨by simp, ?_, fun _ _ _ _ _ => ⟨_, rfl⟩⟩
          intro g hg
          simp only [Except.ok.injEq] at hg
          subst hg
          refine ⟨bytes, rfl, ⟨u, trivial⟩, ?_⟩
          obtain ⟨⟨q1, e, q2, q3⟩, q4, ⟨e', q5, q6⟩, -⟩ := g4 ⟨by simpa using hc.2, by simpa using hc.1⟩
          rw [q2] at q5
          cases q5
          intro w
          unfold Gen.draw Obj.draw
          have hl : r.obj.live = some e := by
            unfold Obj.live
            rw [q2]
            simp [Option.filter, q3]
          simp only [q4, hl, q6]
          exact ⟨_, rfl⟩

end

/-! ### The order of changes -/

/-- Writing distributions. -/
def blobOps (bs : List (EventType × List UInt8)) : List Op := bs.map fun b => .blob b.1 b.2
/-- Writing parameters. -/
def paramOps (d : Dir) : List Op := d.map fun e => .param e.1 e.2

theorem writeEntries_spec (refuse : Op → Bool) (name : Text) (next : Run) (hn : next.name = name)
    (d : Dir) : (writeEntries refuse name next d).name = name ∧
    ((writeEntries refuse name next d = ⟨name, paramOps d ++ next.ops, next.stop⟩ ∧
      ∀ o ∈ paramOps d, refuse o = false) ∨
    (∃ k, k < d.length ∧ writeEntries refuse name next d =
      ⟨name, paramOps (d.take k), throws ERROR_WRITING_PARAMS⟩)) := by
  induction d with
  | nil => exact ⟨hn, .inl ⟨by cases next; subst hn; rfl, by simp [paramOps]⟩⟩
  | cons e d ih =>
    obtain ⟨n, o⟩ := e
    unfold writeEntries
    split_ifs with hr
    · exact ⟨rfl, .inr ⟨0, by simp, rfl⟩⟩
    · obtain ⟨h1, h2⟩ := ih
      refine ⟨h1, ?_⟩
      rcases h2 with ⟨h2, h3⟩ | ⟨k, hk, h2⟩
      · rw [h2]
        refine .inl ⟨rfl, ?_⟩
        intro o' ho'
        simp only [paramOps, List.map_cons, List.mem_cons] at ho'
        rcases ho' with rfl | ho'
        · simpa using hr
        · exact h3 o' ho'
      · rw [h2]
        exact .inr ⟨k + 1, by simpa using hk, rfl⟩

theorem writeRoot_spec (refuse : Op → Bool) (name : Text) (p : P) (next : Run)
    (hn : next.name = name) : (writeRoot refuse name p next).name = name ∧
    (writeRoot refuse name p next = ⟨name, .mkdir :: paramOps (rootEntries p) ++ next.ops, next.stop⟩ ∨
    writeRoot refuse name p next = ⟨name, [], throws ERROR_WRITING_PARAMS⟩ ∨
    ∃ k, k < (rootEntries p).length ∧ writeRoot refuse name p next =
      ⟨name, .mkdir :: paramOps ((rootEntries p).take k), throws ERROR_WRITING_PARAMS⟩) := by
  unfold writeRoot
  split_ifs with hr
  · exact ⟨rfl, .inr (.inl rfl)⟩
  · obtain ⟨h1, h2⟩ := writeEntries_spec refuse name next hn (rootEntries p)
    refine ⟨h1, ?_⟩
    rcases h2 with ⟨h2, -⟩ | ⟨k, hk, h2⟩
    · rw [h2]; exact .inl rfl
    · rw [h2]; exact .inr (.inr ⟨k, hk, rfl⟩)

theorem writeRoot_ok {refuse : Op → Bool} {name : Text} {p : P} {next : Run}
    (hn : next.name = name) (hr : refuse .mkdir = false)
    (hd : ∀ e ∈ rootEntries p, refuse (.param e.1 e.2) = false) :
    writeRoot refuse name p next = ⟨name, .mkdir :: paramOps (rootEntries p) ++ next.ops, next.stop⟩ := by
  unfold writeRoot
  rw [if_neg (by simp [hr])]
  generalize rootEntries p = d at hd
  have : writeEntries refuse name next d = ⟨name, paramOps d ++ next.ops, next.stop⟩ := by
    induction d with
    | nil => cases next; subst hn; rfl
    | cons e d ih =>
      obtain ⟨n, o⟩ := e
      unfold writeEntries
      rw [if_neg (by simp [hd (n, o) List.mem_cons_self]), ih fun e he => hd e (List.mem_cons_of_mem _ he)]
      rfl
  rw [this]
  rfl

/-- `return SUCCESS` as the end of a command. -/
def success : Stop := .result (.returns SUCCESS)

section
variable {A B : Type}

theorem buildAll_spec (X : InitEnv A B) (name : Text) {p : P} (hp : Std p) (ts : List EventType) :
    (buildAll X name p ts).name = name ∧
    ∃ bs, bs.map Prod.fst <+: ts ∧ (∀ b ∈ bs, buildBlob X b.1 = some (.ok b.2)) ∧
    (((buildAll X name p ts).ops = blobOps bs ∧
      ∃ c ∈ [ERROR_BUILDING_FOAM, ERROR_WRITING_FOAM, ERROR_WRITING_PARAMS],
        (buildAll X name p ts).stop = throws c) ∨
    (bs.map Prod.fst = ts ∧ ∃ k, (buildAll X name p ts).ops =
      blobOps bs ++ .mkdir :: paramOps ((rootEntries (withUids X.uid ts p)).take k) ∧
      ((rootEntries (withUids X.uid ts p)).length ≤ k ∧ (buildAll X name p ts).stop = success ∨
       k < (rootEntries (withUids X.uid ts p)).length ∧
        (buildAll X name p ts).stop = throws ERROR_WRITING_PARAMS))) := by
  induction ts generalizing p with
  | nil =>
    obtain ⟨h1, h2⟩ := writeRoot_spec X.refuse name p (finished name) rfl
    refine ⟨h1, [], by simp, by simp, ?_⟩
    show ((writeRoot X.refuse name p (finished name)).ops = _ ∧ _) ∨ _ 
    unfold buildAll
    rcases h2 with h2 | h2 | ⟨k, hk, h2⟩
    · rw [h2]
      refine .inr ⟨rfl, (rootEntries p).length, ?_, .inl ⟨le_rfl, rfl⟩⟩
      simp [finished, blobOps, withUids]
    · rw [h2]
      exact .inl ⟨rfl, _, by simp, rfl⟩
    · rw [h2]
      exact .inr ⟨rfl, k, rfl, .inr ⟨hk, rfl⟩⟩
  | cons t ts ih =>
    obtain ⟨s, hs, ht, -⟩ := uid_row t
    obtain ⟨b, p', h1, h2, -, -⟩ := set_spec hp (v := .long (X.uid t)) hs ht
    have e : withUids X.uid (t :: ts) p = withUids X.uid ts p' := by
      unfold withUids
      rw [List.foldl_cons, h1]
    unfold buildAll
    rw [h1, e]
    simp only
    obtain ⟨r, hr, -, hc⟩ := buildBlob_spec X t
    rw [hr]
    cases r with
    | error c =>
      refine ⟨rfl, [], by simp, by simp, .inl ⟨rfl, c, ?_, rfl⟩⟩
      rcases hc c rfl with rfl | rfl <;> simp
    | ok bytes =>
      simp only
      split_ifs with hf
      · exact ⟨rfl, [], by simp, by simp, .inl ⟨rfl, _, by simp, rfl⟩⟩
      · obtain ⟨g1, bs, g2, g3, g4⟩ := ih h2
        refine ⟨g1, (t, bytes) :: bs, ?_, ?_, ?_⟩
        · rw [List.map_cons, List.prefix_cons_inj]; exact g2
        · intro x hx
          rcases List.mem_cons.1 hx with rfl | hx
          · exact hr
          · exact g3 x hx
        · rcases g4 with ⟨g4, g5⟩ | ⟨g4, k, g5, g6⟩
          · exact .inl ⟨by simp only [Run.after, g4]; rfl, g5⟩
          · exact .inr ⟨by rw [List.map_cons, g4], k, by simp only [Run.after, g5]; rfl, g6⟩

/-- What `initialize` can do. -/
theorem initCommand_cases (X : InitEnv A B) :
    (∃ s, initCommand X = .abort s ∧ s ≠ success) ∨
    ∃ p name, loadParams X.rnd X.text = .ok p ∧ (∃ sf, loadSf X.sf p = .ok sf) ∧
      lookString p "file.gen".toList = .ok name ∧ X.taken name = false ∧
      ((∃ s, initChecks p = .error s ∧ initCommand X = ⟨name, [.create], s⟩) ∨
       ∃ ts p', initChecks p = .ok (ts, p') ∧
        initCommand X = (buildAll X name p' ts).after .create) := by
  unfold initCommand
  have habort : ∀ c, throws c = success → False := by
    intro c h
    simp [throws, success] at h
  cases h1 : loadParams X.rnd X.text with
  | error s =>
    refine .inl ⟨s, rfl, ?_⟩
    unfold loadParams at h1
    rintro rfl
    split at h1
    · simp only [Except.error.injEq] at h1; exact habort _ h1
    · split at h1
      · simp only [Except.error.injEq] at h1; exact habort _ h1
      · simp at h1
  | ok p =>
    simp only
    cases h2 : loadSf X.sf p with
    | error s =>
      refine .inl ⟨s, rfl, ?_⟩
      rintro rfl
      unfold loadSf at h2
      cases hl : lookString p "phys.sf_set".toList with
      | error e => rw [hl] at h2; simp [std, bind, Except.bind, success] at h2
      | ok nm =>
        rw [hl] at h2
        simp only [std, bind, Except.bind] at h2
        cases ht : sfTarget p nm with
        | error e =>
          rw [ht] at h2
          simp only [Except.error.injEq] at h2
          subst h2
          unfold sfTarget at ht
          split_ifs at ht
          split at ht <;> simp [success] at ht
        | ok tg =>
          rw [ht] at h2
          simp only at h2
          split at h2 <;> simp [throws, success] at h2
    | ok sf =>
      simp only
      cases h3 : lookString p "file.gen".toList with
      | error e => exact .inl ⟨_, rfl, by simp [success]⟩
      | ok name =>
        simp only
        cases h4 : X.taken name with
        | true => exact .inl ⟨_, rfl, habort _⟩
        | false =>
          refine .inr ⟨p, name, rfl, ⟨sf, h2⟩, h3, h4, ?_⟩
          simp only [Bool.false_eq_true, if_false]
          cases h5 : initChecks p with
          | error s => exact .inl ⟨s, rfl, rfl⟩
          | ok r => exact .inr ⟨r.1, r.2, rfl, rfl⟩

end

/-! ### Files after some changes -/

theorem fileOf_append (a b : List Op) : fileOf (a ++ b) = b.foldl Op.apply (fileOf a) := by
  unfold fileOf; rw [List.foldl_append]

theorem foldl_blobs (bs : List (EventType × List UInt8)) (f : RootFile) :
    (blobOps bs).foldl Op.apply (some f) = some { f with blobs := f.blobs ++ bs } := by
  induction bs generalizing f with
  | nil => simp [blobOps]
  | cons b bs ih =>
    show (blobOps bs).foldl Op.apply (some { f with blobs := f.blobs ++ [b] }) = _
    rw [ih]
    simp

theorem foldl_params (d : Dir) (f : RootFile) (d0 : Dir) (h : f.params = some d0) :
    (paramOps d).foldl Op.apply (some f) = some { f with params := some (d0 ++ d) } := by
  induction d generalizing f d0 with
  | nil => simp [paramOps, h]; cases f; simp_all
  | cons e d ih =>
    show (paramOps d).foldl Op.apply (some { f with params := f.params.map (· ++ [(e.1, e.2)]) }) = _
    rw [ih _ (d0 ++ [e]) (by simp [h])]
    simp

theorem fileOf_blobs (bs : List (EventType × List UInt8)) :
    fileOf (.create :: blobOps bs) = some ⟨bs, none⟩ := by
  show (blobOps bs).foldl Op.apply (some ⟨[], none⟩) = _
  rw [foldl_blobs]
  simp

theorem fileOf_all (bs : List (EventType × List UInt8)) (d : Dir) :
    fileOf (.create :: (blobOps bs ++ .mkdir :: paramOps d)) = some ⟨bs, some d⟩ := by
  have h := fileOf_append (.create :: blobOps bs) (.mkdir :: paramOps d)
  rw [List.cons_append] at h
  rw [h, fileOf_blobs]
  show (paramOps d).foldl Op.apply (some ⟨bs, some []⟩) = _
  rw [foldl_params d _ [] rfl]
  simp

/-- A file that has a directory of parameters after an interruption has all the distributions, and
the parameters up to some point. -/
theorem fileOf_take {bs : List (EventType × List UInt8)} {rest : List Op} {k : ℕ} {f : RootFile}
    {d : Dir} (hf : fileOf ((.create :: (blobOps bs ++ rest)).take k) = some f)
    (hr : rest = [] ∨ ∃ d', rest = .mkdir :: paramOps d') (hd : f.params = some d) :
    f.blobs = bs ∧ ∃ d' j, rest = .mkdir :: paramOps d' ∧ d = d'.take j := by
  cases k with
  | zero => simp [fileOf] at hf
  | succ k =>
    rw [List.take_succ_cons, List.take_append] at hf
    have e1 : (blobOps bs).take k = blobOps (bs.take k) := by simp [blobOps]
    rw [e1] at hf
    have none_case : fileOf (.create :: blobOps (bs.take k)) = some f → False := by
      intro h
      rw [fileOf_blobs] at h
      simp only [Option.some.injEq] at h
      subst h
      simp at hd
    rcases hr with rfl | ⟨d', rfl⟩
    · rw [List.take_nil, List.append_nil] at hf
      exact (none_case hf).elim
    · by_cases hk : k ≤ bs.length
      · have : k - (blobOps bs).length = 0 := by simp [blobOps, hk]
        rw [this, List.take_zero, List.append_nil] at hf
        exact (none_case hf).elim
      · obtain ⟨j, hj⟩ : ∃ j, k - (blobOps bs).length = j + 1 :=
          ⟨k - bs.length - 1, by simp only [blobOps, List.length_map]; omega⟩
        rw [hj, List.take_succ_cons, List.take_of_length_le (by omega)] at hf
        have e2 : (paramOps d').take j = paramOps (d'.take j) := by simp [paramOps]
        rw [e2, fileOf_all] at hf
        simp only [Option.some.injEq] at hf
        subst hf
        simp only [Option.some.injEq] at hd
        exact ⟨rfl, d', j, rfl, hd.symm⟩

end Sidis.Command
