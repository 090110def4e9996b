import Verif.Lemmas.CommandLoad

/-!
# Properties of ROOT parameter directories and of the commands `initialize` and `generate`
-/

namespace Sidis.Props

open Sidis.ParamStream Sidis.Codec Sidis.Format Sidis.Spec Sidis.Main Sidis.Command
open Sidis.Dist (dim)
open Sidis.Dist.Spec (DrawsFrom)

/-! ## C74 parameters in ROOT files -/

/-- A value is read back from its ROOT object exactly when it is storable. -/
theorem c74_value (v : Val) : fromRoot v.ty (toRoot v) = some (some v) ↔ Storable v :=
  fromRoot_toRoot v

/-- Parameters that are all storable are read back as they were written, with nothing marked as
used. -/
theorem c74_roundtrip {p : P} (hp : Std p) (hs : AllStorable p) :
    ∃ p', readRoot (some (rootEntries p)) stdFormat = some p' ∧ Std p' ∧ SameGiven p p' ∧
      ∀ e ∈ p'.entries, e.2.used = false := by
  have h := readRoot_take hp (rootEntries p).length fun n v _ hv => hs (String.ofList n) v (by
    rw [given_eq, String.toList_ofList]; exact hv)
  rw [List.take_length] at h
  refine ⟨_, h, std_cutTo hp _, fun n => ?_, ?_⟩
  · rw [given_eq, given_eq, gv_cutTo]
    split_ifs with hk
    · rfl
    · by_contra hc
      exact hk (firstK_all (std_wf' hp) _ (fun e => hc e.symm) le_rfl)
  · intro e he
    simp only [cutTo, List.mem_map] at he
    obtain ⟨e', -, rfl⟩ := he
    rfl

/-- Parameters read from a text file without NUL characters are storable. -/
theorem c74_text {rnd : ℚ → Option ℚ} {s : Text} {p : P} (h : loadParams rnd (some s) = .ok p)
    (h0 : '\x00' ∉ s) : Std p ∧ AllStorable p := by
  obtain ⟨h1, -, h2⟩ := loadParams_ok h
  exact ⟨h1, fun n v hv => (h2 (by simpa using h0) n.toList v hv).1⟩

/-- What is read back in general: one interval whose ends are not in order makes the whole file
unreadable, everything else is read back, with text cut off at NUL characters. -/
theorem c74_exact {p : P} (hp : Std p) :
    ((∃ n v, given p n = some v ∧ restored v = none) →
      readRoot (some (rootEntries p)) stdFormat = none) ∧
    ((∀ n v, given p n = some v → restored v ≠ none) →
      ∃ p', readRoot (some (rootEntries p)) stdFormat = some p' ∧
        ∀ n, given p' n = (given p n).bind restored) := by
  have hl := rootEntries_lookup (std_wf' hp)
  have hty : ∀ e ∈ stdFormat.entries, ∀ v, gv p e.1 = some v → v.ty = e.2.type := by
    intro e he v hv
    unfold gv at hv
    cases hq : p.find e.1 with
    | none => rw [hq] at hv; cases hv
    | some q =>
      rw [hq, Option.bind_some] at hv
      obtain ⟨s, hs, h1, -⟩ := std_fmt hp hq
      have := Params.find_of_mem std_wf he
      rw [this] at hs
      cases hs
      rw [std_typed hp hq hv, h1]
  constructor
  · rintro ⟨n, v, hv, hr⟩
    unfold readRoot
    simp only
    obtain ⟨q, hq⟩ : ∃ q, p.find n.toList = some q := by
      cases hq : p.find n.toList with
      | none => unfold given at hv; rw [hq] at hv; cases hv
      | some q => exact ⟨q, rfl⟩
    obtain ⟨s, hs, -⟩ := std_fmt hp hq
    have hm := Params.mem_of_find hs
    rw [readDir_none hm (o := toRoot v)]
    · rfl
    · rw [hl]
      show (given p n).map toRoot = _
      rw [hv]; rfl
    · rw [← hty _ hm v hv, fromRoot_restored, hr]; rfl
  · intro h
    have := readDir_some (d := rootEntries p) (F := fun n => (gv p n).bind restored)
      (l := stdFormat.entries) (by
        intro e he
        rw [hl]
        cases hv : gv p e.1 with
        | none => exact .inl ⟨rfl, rfl⟩
        | some v =>
          have hne := h (String.ofList e.1) v (by rw [given_eq, String.toList_ofList]; exact hv)
          obtain ⟨w, hw⟩ := Option.ne_none_iff_exists'.1 hne
          refine .inr ⟨_, w, rfl, ?_, hw⟩
          rw [← hty e he v hv, fromRoot_restored, hw]; rfl)
    unfold readRoot
    simp only
    rw [this]
    refine ⟨_, rfl, fun n => ?_⟩
    refine (congrArg (·.bind (·.value)) (find_map (fun n => (gv p n).bind restored)
      stdFormat.entries n.toList)).trans ?_
    unfold given gv
    have h2 := std_find hp n.toList
    have e : (⟨stdFormat.entries⟩ : P).find n.toList = stdFormat.find n.toList := rfl
    simp only [e]
    cases hq : stdFormat.find n.toList with
    | none =>
      rw [hq] at h2
      have : p.find n.toList = none := by
        cases h3 : p.find n.toList with
        | none => rfl
        | some q => rw [h3] at h2; cases h2
      rw [this]; rfl
    | some s => rfl

/-! ## C75 an interrupted `initialize` cannot mislead `generate` -/

section
variable {A A' B : Type}

/-- What a generator file contains, from which parameters can be read, after `initialize` was
interrupted. -/
theorem foam_file (X : InitEnv A B) (hnul : ∀ s ∈ X.text, '\x00' ∉ s) (k : ℕ) {f : RootFile} {d : Dir}
    (hf : fileOf ((initCommand X).ops.take k) = some f) (hd : f.params = some d) :
    ∃ p ts p', loadParams X.rnd X.text = .ok p ∧ enabledTypes p = .ok ts ∧ Std p ∧ Std p' ∧
      (∀ m, gv p' m = gv p m) ∧
      (∀ t bytes, f.blobs.lookup t = some bytes → buildBlob X t = some (.ok bytes)) ∧
      (∀ t ∈ ts, f.blobs.lookup t ≠ none) ∧
      ∃ j, readRoot (some d) stdFormat = some (cutTo (firstK (withUids X.uid ts p') j)
        (withUids X.uid ts p')) := by
  have hk : (initCommand X).ops.take k ≠ [] := by
    intro e; rw [e] at hf; cases hf
  rcases initCommand_cases X with ⟨s, hs, -⟩ | ⟨p, name, h1, -, h2, -, h3⟩
  · rw [hs] at hk; exact absurd (by simp [Run.abort]) hk
  · obtain ⟨hstd, -, hst⟩ := loadParams_ok h1
    have hst := hst hnul
    rcases h3 with ⟨s, -, h3⟩ | ⟨ts, p', h3, h4⟩
    · rw [h3] at hf
      cases k with
      | zero => cases hf
      | succ k =>
        simp only [List.take_succ_cons, List.take_nil] at hf
        cases hf
        cases hd
    · obtain ⟨k1, -, -, k2, k3, -⟩ := initChecks_ok hstd h3
      obtain ⟨-, bs, h5, h6, h7⟩ := buildAll_spec X name k2 ts
      have hops : (initCommand X).ops = .create :: (buildAll X name p' ts).ops := by rw [h4]; rfl
      rw [hops] at hf
      have hex : ∃ rest, (buildAll X name p' ts).ops = blobOps bs ++ rest ∧
          (rest = [] ∨ bs.map Prod.fst = ts ∧ ∃ k, rest =
            .mkdir :: paramOps ((rootEntries (withUids X.uid ts p')).take k)) := by
        rcases h7 with ⟨h7, -⟩ | ⟨h7, k', h8, -⟩
        · exact ⟨[], by simp [h7], .inl rfl⟩
        · exact ⟨_, h8, .inr ⟨h7, k', rfl⟩⟩
      obtain ⟨rest, hrest, hcase⟩ := hex
      rw [hrest] at hf
      obtain ⟨e1, d', j, e2, rfl⟩ := fileOf_take hf (by
        rcases hcase with h | ⟨-, k', h⟩
        · exact .inl h
        · exact .inr ⟨_, h⟩) hd
      rcases hcase with h | ⟨hts, k', h⟩
      · rw [h] at e2; cases e2
      · rw [h] at e2
        simp only [List.cons.injEq, true_and] at e2
        have e3 : (rootEntries (withUids X.uid ts p')).take k' = d' := by
          refine (List.map_injective_iff.2 ?_) e2
          rintro ⟨a, b⟩ ⟨a', b'⟩ h
          cases h; rfl
        obtain ⟨w1, w2, w3⟩ := withUids_spec k2 X.uid ts
        refine ⟨p, ts, p', h1, k1, hstd, k2, k3, ?_, ?_, min j k', ?_⟩
        · intro t bytes hl
          rw [e1] at hl
          exact h6 (t, bytes) (by
            obtain ⟨l1, l2, hl, -⟩ := List.lookup_eq_some_iff.1 hl
            rw [hl]; simp)
        · intro t ht
          rw [e1]
          rw [← hts] at ht
          intro hc
          obtain ⟨b, hb, rfl⟩ := List.mem_map.1 ht
          have := List.lookup_eq_none_iff.1 hc b hb
          simp at this
        · rw [← e3, List.take_take]
          refine readRoot_take w1 _ fun n v _ hv => ?_
          by_cases hn : ∃ t ∈ ts, n = nameUid t
          · obtain ⟨t, ht, rfl⟩ := hn
            rw [w2 t ht] at hv
            cases hv
            trivial
          · push Not at hn
            rw [(w3 n hn).1, k3] at hv
            exact (hst n v hv).1

/-- A generator loaded from the file an interrupted `initialize` left behind is the one it built, with
its identifier, from parameters that agree on everything that determines the events. -/
theorem c75_crash_consistent (X : InitEnv A B) (Y : GenEnv A' B) (fs : FS) (k : ℕ) (l : Loaded B)
    (hnul : ∀ s ∈ X.text, '\x00' ∉ s)
    (h : load Y ((initCommand X).files k fs) = .ok l)
    (hname : actual l.params "file.gen" = some (.string (initCommand X).name))
    (hnew : fs (initCommand X).name = none) :
    ∃ p, loadParams X.rnd X.text = .ok p ∧ ∀ t, Enabled l.params t →
      Enabled p t ∧ given l.params (uid t) = some (.long (X.uid t)) ∧
      (∀ n, Determines n t → Tagged n .init → Spec.Agree p l.params n) ∧
      ∃ b g, X.build t = .none b ∧ (t, g) ∈ l.gens ∧
        (Y.lib = X.lib → RoundTrip X.lib → DrawsFrom g b) := by
  obtain ⟨pg, tg, name, f, d, pg', g1, -, g3, g4, g5, g6, g7, g8, g9, g10, g11⟩ := load_ok h
  obtain ⟨sg, -, -⟩ := loadParams_ok g1
  obtain ⟨sg', sd, so, -⟩ := takeSeed_ok sg g9
  have spg : SameInputs pg pg' := fun m h1 _ => so m h1
  have sf := readRoot_std g8
  obtain ⟨l1, l2, l3, l4⟩ := loadAll_ok sg' sf g11
  simp only at l1 l2 l3 l4
  have hsame : SameInputs pg' l.params := fun m _ hm => by
    rw [l2, if_neg (by rintro ⟨t, -, h⟩; exact hm t h)]
  -- the file
  have hfoam : ∃ p ts p', loadParams X.rnd X.text = .ok p ∧ enabledTypes p = .ok ts ∧ Std p ∧ Std p' ∧
      (∀ m, gv p' m = gv p m) ∧
      (∀ t bytes, f.blobs.lookup t = some bytes → buildBlob X t = some (.ok bytes)) ∧
      ∃ j, l.foam = cutTo (firstK (withUids X.uid ts p') j) (withUids X.uid ts p') := by
    have hn : name = (initCommand X).name := by
      have e1 := hsame "file.gen".toList (by decide) (by intro t; cases t <;> decide)
      have e2 := spg "file.gen".toList (by decide) (by intro t; cases t <;> decide)
      rw [actual_eq, av_of_gv l1 sg (e1.trans e2), lookString_ok.1 g5] at hname
      cases hname; rfl
    rw [hn] at g6
    unfold Run.files at g6
    split_ifs at g6 with hc
    · obtain ⟨p, ts, p', q1, q2, q3, q4, q5, q6, -, j, q7⟩ := foam_file X hnul k g6 g7
      rw [g8] at q7
      exact ⟨p, ts, p', q1, q2, q3, q4, q5, q6, j, Option.some.inj q7⟩
    · rw [hnew] at g6; cases g6
  obtain ⟨p, ts, p', q1, q2, q3, q4, q5, q6, j, q7⟩ := hfoam
  obtain ⟨w1, w2, w3⟩ := withUids_spec q4 X.uid ts
  set W := withUids X.uid ts p' with hW
  obtain ⟨-, -, c3, c4, c5⟩ := (c42_can_provide l.foam pg' sf sg').1 g10
  refine ⟨p, q1, fun t ht => ?_⟩
  have ht' : Enabled pg' t := (enabled_congr sg' l1 hsame t).2 ht
  have htg : t ∈ tg := (enabledTypes_spec g3 t).2 ((enabled_congr sg sg' spg t).2 ht')
  obtain ⟨g, hg⟩ : ∃ g, (t, g) ∈ l.gens := by
    rw [← l3] at htg
    obtain ⟨⟨t', g⟩, hm, rfl⟩ := List.mem_map.1 htg
    exact ⟨g, hm⟩
  obtain ⟨q, hq1, hq2, hq3⟩ := l4 t g hg
  obtain ⟨bytes, hb1, ⟨u, hb2⟩, hb3⟩ := (loadBlob_spec Y f q t).2.1 g hq3
  obtain ⟨i, hi⟩ := density_inputs hb2
  -- the polarisation of the target is there, so everything is
  obtain ⟨s, hs, hsd, hsi, hsx, hsn, hsr⟩ := pol_row
  have hpol : gv pg' lastName ≠ none := by
    rw [← hq2 lastName (by intro t; cases t <;> decide), gv_of_av hq1 hs hsd hi.targetPol]
    simp
  have det : ∀ {n : String} {s : Params.Param Tag Ty Val}, stdFormat.find n.toList = some s →
      Tag.xs ∈ s.tags → Tag.nrad ∈ s.tags → Tag.rad ∈ s.tags → Determines n t := by
    intro n s h1 h2 h3 h4
    exact ⟨.inl ⟨s, h1, h2⟩, s, h1, by cases t; exacts [h3, h4]⟩
  have hS : firstK W j lastName = true := by
    have ha := c4 t "setup.target_pol" ht' (det hs hsx hsn hsr) ⟨s, hs, hsi⟩
    by_contra hc
    have hnone : given l.foam "setup.target_pol" = none := by
      show gv l.foam lastName = none
      rw [q7, gv_cutTo, if_neg hc]
    unfold Spec.Agree at ha
    rw [hnone] at ha
    cases hv : given pg' "setup.target_pol" with
    | none => exact hpol hv
    | some v => rw [hv] at ha; exact ha
  have hall : ∀ {n : Text} {s : Params.Param Tag Ty Val}, stdFormat.find n = some s →
      Tag.init ∈ s.tags → gv l.foam n = gv W n := by
    intro n s h1 h2
    rw [q7, gv_cutTo]
    split_ifs with hc
    · rfl
    · by_contra hne
      exact hc (firstK_down (std_wf' w1) hS (init_le_last _ (Params.mem_of_find h1) h2)
        fun e => hne e.symm)
  have hWp : ∀ {n : Text}, (∀ t, n ≠ nameUid t) → gv W n = gv p n := fun hn => by
    rw [(w3 _ fun t _ => hn t).1, q5]
  -- the type was enabled
  have hen : Enabled p t := by
    rw [enabled_iff]
    constructor
    · obtain ⟨s', h1, h2⟩ := enable_row t
      rw [← av_of_gv sf q3 ((hall h1 h2).trans (hWp (by intro t'; cases t <;> cases t' <;> decide)))]
      have := c3 t ht'
      rw [actual_eq, switch_eq] at this
      exact this
    · obtain ⟨m, hm1, hm2⟩ := ((enabled_iff _ _).1 ht').2
      obtain ⟨s', h1, h2, h3, h4, h5, h6⟩ := rc_row
      have hm := gv_of_av sg' h1 h2 hm1
      have ha := c4 t "phys.rc_method" ht' (det h1 h4 h5 h6) ⟨s', h1, h3⟩
      have e : gv l.foam "phys.rc_method".toList = gv p "phys.rc_method".toList :=
        (hall h1 h3).trans (hWp (by intro t; cases t <;> decide))
      refine ⟨m, ?_, hm2⟩
      unfold Spec.Agree at ha
      rw [given_eq, given_eq, hm, e] at ha
      cases hv : gv p "phys.rc_method".toList with
      | none => rw [hv] at ha; exact ha.elim
      | some a =>
        rw [hv] at ha
        simp only at ha
        rw [av_of_gv q3 sg' (hv.trans ((congrArg some (equiv_rc ha)).trans hm.symm))]
        exact hm1
  have hts : t ∈ ts := (enabledTypes_spec q2 t).2 hen
  refine ⟨hen, ?_, ?_, ?_⟩
  · rw [given_eq, uid_eq, l2, if_pos ⟨t, htg, rfl⟩]
    obtain ⟨s', h1, h2, -⟩ := uid_init t
    rw [hall h1 h2, w2 t hts]
  · rintro n hd ⟨s', h1, h2⟩
    have := c4 t n ht' hd ⟨s', h1, h2⟩
    obtain ⟨d1, d2⟩ := determines_ne hd
    rw [Agree_eq] at this ⊢
    rw [hsame _ d1 d2, ← hWp d2, ← hall h1 h2]
    exact this
  · obtain ⟨r, hr1, hr2, -⟩ := buildBlob_spec X t
    have := q6 t bytes hb1
    rw [hr1] at this
    cases this
    obtain ⟨b, hb4, hb5, -⟩ := (hr2 bytes).1 rfl
    refine ⟨b, g, hb4, hg, fun hlib hrt => ?_⟩
    have e := (header_of 2 (dim t) (by norm_num) (by cases t <;> norm_num [dim]) (X.lib.write b)).2
    rw [hlib, hb5] at hb3
    unfold saved at hb3
    rw [e] at hb3
    have := hrt b X.lib.empty []
    rw [List.append_nil] at this
    rw [this] at hb3
    exact hb3

/-! ## C76 `generate` accepts what `initialize` made from the same file -/

theorem files_done (X : InitEnv A B) (fs : FS) {name : Text} {bs : List (EventType × List UInt8)} {d : Dir}
    (h : initCommand X = ⟨name, .create :: (blobOps bs ++ .mkdir :: paramOps d), success⟩) :
    (initCommand X).files (initCommand X).ops.length fs name = some ⟨bs, some d⟩ := by
  unfold Run.files
  rw [List.take_length, h, if_pos ⟨rfl, by simp⟩, fileOf_all]

theorem c76_same_file (X : InitEnv A B) (Y : GenEnv A B) (fs : FS) {p : P}
    (htext : Y.text = X.text) (hrnd : Y.rnd = X.rnd) (hsf : Y.sf = X.sf) (hlib : Y.lib = X.lib)
    (hrt : RoundTrip X.lib) (hfault : ∀ t, Y.fault t = .none) (hnul : ∀ s ∈ X.text, '\x00' ∉ s)
    (hok : Succeeded (initCommand X).stop) (hp : loadParams X.rnd X.text = .ok p)
    (hseed : given p "mc.seed" = none ∨ ∃ s, given p "mc.seed" = some (.seedGen [s]))
    (huid : ∀ t, given p (uid t) = none) :
    ∃ l, load Y ((initCommand X).files (initCommand X).ops.length fs) = .ok l ∧
      (∀ t, Enabled p t ↔ ∃ g, (t, g) ∈ l.gens) ∧
      ∀ t g, (t, g) ∈ l.gens → given l.params (uid t) = some (.long (X.uid t)) ∧
        ∃ b, X.build t = .none b ∧ DrawsFrom g b := by
  obtain ⟨p0, name, ts, p', bs, h1, h2, h3, -, h5, h6, h7, h8⟩ := init_success hok
  rw [hp] at h1
  cases h1
  obtain ⟨sp, -, hst⟩ := loadParams_ok hp
  have hst := hst hnul
  obtain ⟨e1, e2, e3, e4, e5, -⟩ := initChecks_ok sp h5
  obtain ⟨w1, w2, w3⟩ := withUids_spec e4 X.uid ts
  set W := withUids X.uid ts p' with hW
  have hWp : ∀ {n : Text}, (∀ t, n ≠ nameUid t) → gv W n = gv p n := fun hn => by
    rw [(w3 _ fun t _ => hn t).1, e5]
  have hf := files_done X fs h8
  -- reading the parameters back
  have hread : ∃ foam, readRoot (some (rootEntries W)) stdFormat = some foam ∧ Std foam ∧
      ∀ n, gv foam n = gv W n := by
    obtain ⟨foam, f1, f2, f3, -⟩ := c74_roundtrip w1 (by
      intro n v hv
      by_cases hn : ∃ t ∈ ts, n.toList = nameUid t
      · obtain ⟨t, ht, e⟩ := hn
        rw [given_eq, e, w2 t ht] at hv
        cases hv
        trivial
      · push Not at hn
        rw [given_eq, (w3 _ hn).1, e5] at hv
        exact (hst _ v hv).1)
    refine ⟨foam, f1, f2, fun n => ?_⟩
    have := f3 (String.ofList n)
    rw [given_eq, given_eq, String.toList_ofList] at this
    exact this
  obtain ⟨foam, f1, f2, f3⟩ := hread
  -- the seed
  obtain ⟨pg, s, hs⟩ := takeSeed_total sp Y.seed hseed
  obtain ⟨sg, -, so, -⟩ := takeSeed_ok sp hs
  have spg : SameInputs p pg := fun m h1 _ => so m h1
  have huid' : ∀ t, gv pg (nameUid t) = none := fun t => by
    have := huid t
    rw [given_eq, uid_eq] at this
    rw [so _ (by cases t <;> decide), this]
  have hfg : ∀ {n : Text}, n ≠ "mc.seed".toList → (∀ t, n ≠ nameUid t) → gv foam n = gv pg n :=
    fun h1 h2 => by rw [f3, hWp h2, so _ h1]
  have hen : ∀ t, Enabled pg t ↔ t ∈ ts := fun t => by
    rw [← enabled_congr sp sg spg, enabledTypes_spec e1]
  -- compatibility
  have hcan : checkCanProvideFoam foam pg = .ok () := by
    rw [c42_can_provide foam pg f2 sg]
    refine ⟨?_, ?_, ?_, ?_, ?_⟩
    · obtain ⟨a, b, hab⟩ := av_version f2
      refine ⟨a, b, b, hab, ?_, le_rfl⟩
      rw [actual_eq, ← av_of_gv f2 sg (hfg (by decide) (by intro t; cases t <;> decide))]
      exact hab
    · obtain ⟨t, ht⟩ := List.exists_mem_of_ne_nil ts e2
      obtain ⟨m, hm, -⟩ := ((hen t).2 ht).2
      exact ⟨m, hm⟩
    · intro t ht
      rw [actual_eq, switch_eq, av_of_gv f2 sg (hfg (by cases t <;> decide)
        (by intro t'; cases t <;> cases t' <;> decide)), ← switch_eq, ← actual_eq]
      exact ht.1
    · intro t n _ hd _
      obtain ⟨d1, d2⟩ := determines_ne hd
      unfold Spec.Agree
      rw [given_eq, given_eq, hfg d1 d2]
      cases hv : gv pg n.toList with
      | none => trivial
      | some v =>
        rw [so _ d1] at hv
        exact (hst _ v hv).2
    · intro t ht
      refine ⟨X.uid t, ?_, .inl (by rw [given_eq, uid_eq, huid'])⟩
      have h1 : gv foam (nameUid t) = some (.long (X.uid t)) := by rw [f3, w2 t ((hen t).1 ht)]
      obtain ⟨q, hq, -⟩ := std_some f2 (uid_row t).choose_spec.1
      rw [actual_eq, uid_eq]
      unfold gv at h1
      unfold av
      rw [hq] at h1 ⊢
      simp only [Option.bind_some] at h1 ⊢
      rw [h1]; rfl
  -- distributions
  have hblob : ∀ t ∈ ts, ∃ b, X.build t = .none b ∧ bs.lookup t = some (saved X.lib (dim t) b) := by
    intro t ht
    rw [← h6] at ht
    cases hl : bs.lookup t with
    | none =>
      obtain ⟨b, hb, rfl⟩ := List.mem_map.1 ht
      exact absurd (List.lookup_eq_none_iff.1 hl b hb) (by simp)
    | some bytes =>
      have hm : (t, bytes) ∈ bs := by
        obtain ⟨l1, l2, hl, -⟩ := List.lookup_eq_some_iff.1 hl
        rw [hl]; simp
      obtain ⟨r, hr1, hr2, -⟩ := buildBlob_spec X t
      have := h7 _ hm
      simp only at this
      rw [hr1] at this
      cases this
      obtain ⟨b, hb4, hb5, -⟩ := (hr2 bytes).1 rfl
      exact ⟨b, hb4, by rw [hb5]⟩
  have hall : ∃ r, loadAll Y ⟨bs, some (rootEntries W)⟩ foam pg ts = .ok r := by
    refine loadAll_total sg f2 fun t ht q hq hs => ?_
    obtain ⟨b, -, hb⟩ := hblob t ht
    refine (loadBlob_spec Y _ q t).2.2 ⟨b, by rw [hlib]; exact hb⟩ ?_ (by rw [hlib]; exact hrt)
      (hfault t) ?_
    · exact density_congr sp hq (fun m h1 h2 => (hs m h2).trans (so m h1)) (e3 t ht)
    · have hrow : ∃ s, stdFormat.find (rejName t).toList = some s ∧ s.type = .double ∧
          ∃ a w, s.dflt = some (a, w) ∧ w.ty = s.type := by
        cases t
        · exact ⟨_, rfl, rfl, _, _, rfl, rfl⟩
        · exact ⟨_, rfl, rfl, _, _, rfl, rfl⟩
      obtain ⟨s, hs1, hs2, hs3⟩ := hrow
      obtain ⟨v, hv, hty⟩ := av_default hq hs1 hs3
      rw [hs2] at hty
      cases v <;> simp [Val.ty] at hty
      exact ⟨_, Density.double_ok.2 ⟨_, hv, rfl⟩⟩
  obtain ⟨r, hr⟩ := hall
  have hload := load_total (Y := Y) (fs := (initCommand X).files (initCommand X).ops.length fs)
    (by rw [hrnd, htext]; exact hp) (by rw [hsf]; exact h2) e1 e2 h3 hf f1 hs hcan hr
  refine ⟨_, hload, ?_, ?_⟩
  · intro t
    rw [← enabledTypes_spec e1]
    obtain ⟨-, -, l3, -⟩ := loadAll_ok sg f2 hr
    rw [← l3]
    simp
  · intro t g hg
    obtain ⟨l1, l2, l3, l4⟩ := loadAll_ok sg f2 hr
    have ht : t ∈ ts := by rw [← l3]; exact List.mem_map_of_mem hg
    obtain ⟨q, hq1, hq2, hq3⟩ := l4 t g hg
    obtain ⟨bytes, hb1, -, hb3⟩ := (loadBlob_spec Y _ q t).2.1 g hq3
    obtain ⟨b, hb4, hb5⟩ := hblob t ht
    refine ⟨?_, b, hb4, ?_⟩
    · show gv r.1 (uid t).toList = _
      rw [uid_eq, l2, if_pos ⟨t, ht, rfl⟩, f3, w2 t ht]
    · simp only [hb5, Option.some.injEq] at hb1
      subst hb1
      have e := (header_of 2 (dim t) (by norm_num) (by cases t <;> norm_num [dim]) (X.lib.write b)).2
      rw [hlib] at hb3
      unfold saved at hb3
      rw [e] at hb3
      have := hrt b X.lib.empty []
      rw [List.append_nil] at this
      rw [this] at hb3
      exact hb3

/-! ## C77 files that exist are not touched -/

theorem init_name (X : InitEnv A B) : (initCommand X).ops = [] ∨
    ∃ p, loadParams X.rnd X.text = .ok p ∧ X.taken (initCommand X).name = false ∧
      actual p "file.gen" = some (.string (initCommand X).name) := by
  rcases initCommand_cases X with ⟨s, hs, -⟩ | ⟨p, name, h1, -, h2, h3, h4⟩
  · left; rw [hs]; rfl
  · right
    have hn : (initCommand X).name = name := by
      rcases h4 with ⟨s, -, h⟩ | ⟨ts, p', h, h'⟩
      · rw [h]
      · obtain ⟨hstd, -, -⟩ := loadParams_ok h1
        obtain ⟨-, -, -, k2, -⟩ := initChecks_ok hstd h
        rw [h']
        exact (buildAll_spec X name k2 ts).1
    exact ⟨p, h1, by rw [hn]; exact h3, by rw [hn]; exact lookString_ok.1 h2⟩

/-- What `generate` does. -/
theorem gen_cases (Y : GenEnv A B) (fs : FS) :
    (∃ s, genCommand Y fs = .abort s ∧ (Failed s ∨
      s = .ub ∧ ∃ p, loadParams Y.rnd Y.text = .ok p ∧ loadSf Y.sf p = .error .ub)) ∨
    ∃ l name, load Y fs = .ok l ∧ actual l.params "file.event" = some (.string name) ∧
      Y.taken name = false ∧ (genCommand Y fs).name = name ∧
      ((∃ s, genChecks l.params = .error s ∧ genCommand Y fs = ⟨name, [.create], s⟩) ∨
       ∃ p, genChecks l.params = .ok p ∧ genCommand Y fs =
        (writeRoot Y.refuse name p (genCommand.afterParams Y name)).after .create) := by
  have hname : ∀ name, (genCommand.afterParams Y name).name = name := by
    intro name
    unfold genCommand.afterParams
    split
    · rfl
    · split_ifs
      · rfl
      · unfold Run.after
        split <;> rfl
  unfold genCommand
  cases h1 : load Y fs with
  | error s => exact .inl ⟨s, rfl, load_err h1⟩
  | ok l =>
    simp only
    cases h2 : lookString l.params "file.event".toList with
    | error e => exact .inl ⟨_, rfl, .inl failed_std⟩
    | ok name =>
      simp only
      split_ifs with h3
      · exact .inl ⟨_, rfl, .inl (failed_throws (by decide) (by decide))⟩
      · refine .inr ⟨l, name, rfl, lookString_ok.1 h2, by simpa using h3, ?_⟩
        cases h4 : genChecks l.params with
        | error s => exact ⟨rfl, .inl ⟨s, rfl, rfl⟩⟩
        | ok p => exact ⟨(writeRoot_spec _ _ _ _ (hname name)).1, .inr ⟨p, rfl, rfl⟩⟩

/-- Whether it ends normally, fails or is interrupted, `initialize` leaves every file that exists as
it is, and creates no other file than the one named by `file.gen`. -/
theorem c77_initialize (X : InitEnv A B) (fs : FS) (k : ℕ) (hfs : ∀ n, fs n ≠ none → X.taken n = true)
    (n : Text) : (∀ f, fs n = some f → (initCommand X).files k fs n = some f) ∧
      ((initCommand X).files k fs n ≠ fs n →
        ∃ p, loadParams X.rnd X.text = .ok p ∧ actual p "file.gen" = some (.string n)) := by
  unfold Run.files
  by_cases hc : n = (initCommand X).name ∧ (initCommand X).ops.take k ≠ []
  · rcases init_name X with h | ⟨p, h1, h2, h3⟩
    · exact absurd (by rw [h]; simp) hc.2
    · rw [if_pos hc]
      refine ⟨fun f hf => ?_, fun _ => ⟨p, h1, by rw [hc.1]; exact h3⟩⟩
      have := hfs n (by rw [hf]; simp)
      rw [hc.1, h2] at this
      cases this
  · rw [if_neg hc]
    exact ⟨fun f hf => hf, fun h => absurd rfl h⟩

/-- Likewise for `generate` and `file.event`. -/
theorem c77_generate (Y : GenEnv A B) (fs : FS) (k : ℕ) (hfs : ∀ n, fs n ≠ none → Y.taken n = true)
    (n : Text) : (∀ f, fs n = some f → (genCommand Y fs).files k fs n = some f) ∧
      ((genCommand Y fs).files k fs n ≠ fs n →
        ∃ l, load Y fs = .ok l ∧ actual l.params "file.event" = some (.string n)) := by
  unfold Run.files
  by_cases hc : n = (genCommand Y fs).name ∧ (genCommand Y fs).ops.take k ≠ []
  · rcases gen_cases Y fs with ⟨s, hs, -⟩ | ⟨l, name, h1, h2, h3, h4, -⟩
    · exact absurd (by rw [hs]; simp [Run.abort]) hc.2
    · rw [if_pos hc]
      refine ⟨fun f hf => ?_, fun _ => ⟨l, h1, by rw [hc.1, h4]; exact h2⟩⟩
      have := hfs n (by rw [hf]; simp)
      rw [hc.1, h4, h3] at this
      cases this
  · rw [if_neg hc]
    exact ⟨fun f hf => hf, fun h => absurd rfl h⟩

/-- A failed command is not without trace: whenever the parameters are found to be invalid, the file
has been created already, and the command fails again with another error when it is repeated with the
parameters corrected. -/
theorem c77_failed_leaves_file_refuted (X X' : InitEnv A B) (fs : FS) {p p' : P} {name : Text} {s : Stop}
    (h1 : loadParams X.rnd X.text = .ok p) (h2 : ∃ sf, loadSf X.sf p = .ok sf)
    (h3 : actual p "file.gen" = some (.string name)) (h4 : X.taken name = false)
    (h5 : initChecks p = .error s) (h1' : loadParams X'.rnd X'.text = .ok p')
    (h2' : ∃ sf, loadSf X'.sf p' = .ok sf) (h3' : actual p' "file.gen" = some (.string name))
    (hfs : ∀ n, (initCommand X).files 1 fs n ≠ none → X'.taken n = true) :
    Failed (initCommand X).stop ∧ (initCommand X).files 1 fs name = some ⟨[], none⟩ ∧
      initCommand X' = .abort (throws ERROR_FILE_NOT_CREATED) := by
  obtain ⟨sf, h2⟩ := h2
  obtain ⟨sf', h2'⟩ := h2'
  have e3 := lookString_ok.2 h3
  have e3' := lookString_ok.2 h3'
  have h : initCommand X = ⟨name, [.create], s⟩ := by
    unfold initCommand
    simp only [h1, h2, e3, h4, Bool.false_eq_true, if_false, h5]
  have hf : (initCommand X).files 1 fs name = some ⟨[], none⟩ := by
    unfold Run.files
    rw [h, if_pos ⟨rfl, by simp⟩]
    rfl
  refine ⟨by rw [h]; exact initChecks_err h5, hf, ?_⟩
  have ht := hfs name (by rw [hf]; simp)
  unfold initCommand
  simp only [h1', h2', e3', ht, if_true]

/-- Errors that are found before, in the parameter file itself or the structure functions, leave
nothing behind. -/
theorem c77_early_failure_partial (X : InitEnv A B) (fs : FS) (k : ℕ)
    (h : ∀ p, loadParams X.rnd X.text = .ok p → ∀ sf, loadSf X.sf p ≠ .ok sf) :
    (initCommand X).files k fs = fs := by
  have : (initCommand X).ops = [] := by
    rcases initCommand_cases X with ⟨s, hs, -⟩ | ⟨p, name, h1, ⟨sf, h2⟩, -⟩
    · rw [hs]; rfl
    · exact absurd h2 (h p h1 sf)
  funext n
  unfold Run.files
  rw [this, if_neg (by simp)]

/-! ## C78 results are complete or errors are reported -/

/-- `initialize` succeeds or reports a failure.  Undefined behaviour can only come from loading the
structure functions. -/
theorem c78_initialize_result (X : InitEnv A B) :
    Succeeded (initCommand X).stop ∨ Failed (initCommand X).stop ∨
      (initCommand X).stop = .ub ∧ ∃ p, loadParams X.rnd X.text = .ok p ∧ loadSf X.sf p = .error .ub := by
  have hw : ∀ name p ts, Std p → (buildAll X name p ts).stop = success ∨ Failed (buildAll X name p ts).stop := by
    intro name p ts hp
    obtain ⟨-, bs, -, -, h⟩ := buildAll_spec X name hp ts
    rcases h with ⟨-, c, hc, h⟩ | ⟨-, k, -, ⟨-, h⟩ | ⟨-, h⟩⟩
    · right
      rw [h]
      simp only [List.mem_cons, List.not_mem_nil, or_false] at hc
      rcases hc with rfl | rfl | rfl <;> exact failed_throws (by decide) (by decide)
    · exact .inl h
    · right; rw [h]; exact failed_throws (by decide) (by decide)
  unfold initCommand
  cases h1 : loadParams X.rnd X.text with
  | error s => exact .inr (.inl (loadParams_err h1))
  | ok p =>
    simp only
    obtain ⟨hp, -, -⟩ := loadParams_ok h1
    cases h2 : loadSf X.sf p with
    | error s =>
      rcases loadSf_err h2 with h | rfl
      · exact .inr (.inl h)
      · exact .inr (.inr ⟨rfl, p, rfl, h2⟩)
    | ok sf =>
      simp only
      cases h3 : lookString p "file.gen".toList with
      | error e => exact .inr (.inl failed_std)
      | ok name =>
        simp only
        split_ifs with h4
        · exact .inr (.inl (failed_throws (by decide) (by decide)))
        · cases h5 : initChecks p with
          | error s => exact .inr (.inl (initChecks_err h5))
          | ok r =>
            obtain ⟨ts, p'⟩ := r
            obtain ⟨-, -, -, k2, -⟩ := initChecks_ok hp h5
            rcases hw name p' ts k2 with h | h
            · exact .inl h
            · exact .inr (.inl h)

/-- When `initialize` succeeds, the generator file has the distribution that was built for each type
of events that is enabled, all the parameters and the identifiers. -/
theorem c78_initialize_complete (X : InitEnv A B) (fs : FS) (h : Succeeded (initCommand X).stop)
    (hnul : ∀ s ∈ X.text, '\x00' ∉ s) :
    ∃ p f foam, loadParams X.rnd X.text = .ok p ∧
      (initCommand X).files (initCommand X).ops.length fs (initCommand X).name = some f ∧
      (∃ t, Enabled p t) ∧
      (∀ t, Enabled p t → ∃ b, X.build t = .none b ∧ f.blobs.lookup t = some (saved X.lib (dim t) b)) ∧
      (∀ t, ¬ Enabled p t → f.blobs.lookup t = none) ∧
      readRoot f.params stdFormat = some foam ∧
      (∀ n, (∀ t, Enabled p t → n ≠ uid t) → given foam n = given p n) ∧
      (∀ t, Enabled p t → given foam (uid t) = some (.long (X.uid t))) := by
  obtain ⟨p, name, ts, p', bs, h1, h2, h3, -, h5, h6, h7, h8⟩ := init_success h
  obtain ⟨sp, -, hst⟩ := loadParams_ok h1
  have hst := hst hnul
  obtain ⟨e1, e2, e3, e4, e5, -⟩ := initChecks_ok sp h5
  obtain ⟨w1, w2, w3⟩ := withUids_spec e4 X.uid ts
  have hf := files_done X fs h8
  have hts := enabledTypes_spec e1
  obtain ⟨foam, f1, f2, f3, -⟩ := c74_roundtrip w1 (by
    intro n v hv
    by_cases hn : ∃ t ∈ ts, n.toList = nameUid t
    · obtain ⟨t, ht, e⟩ := hn
      rw [given_eq, e, w2 t ht] at hv
      cases hv
      trivial
    · push Not at hn
      rw [given_eq, (w3 _ hn).1, e5] at hv
      exact (hst _ v hv).1)
  refine ⟨p, _, foam, h1, by rw [h8] at hf ⊢; exact hf, ?_, ?_, ?_, f1, ?_, ?_⟩
  · obtain ⟨t, ht⟩ := List.exists_mem_of_ne_nil ts e2
    exact ⟨t, (hts t).1 ht⟩
  · intro t ht
    have ht := (hts t).2 ht
    rw [← h6] at ht
    cases hl : bs.lookup t with
    | none =>
      obtain ⟨b, hb, rfl⟩ := List.mem_map.1 ht
      exact absurd (List.lookup_eq_none_iff.1 hl b hb) (by simp)
    | some bytes =>
      have hm : (t, bytes) ∈ bs := by
        obtain ⟨l1, l2, hl, -⟩ := List.lookup_eq_some_iff.1 hl
        rw [hl]; simp
      obtain ⟨r, hr1, hr2, -⟩ := buildBlob_spec X t
      have := h7 _ hm
      simp only at this
      rw [hr1] at this
      cases this
      obtain ⟨b, hb4, hb5, -⟩ := (hr2 bytes).1 rfl
      exact ⟨b, hb4, by simp only [hl, hb5]⟩
  · intro t ht
    simp only
    rw [List.lookup_eq_none_iff]
    intro b hb
    have : b.1 ∈ ts := by rw [← h6]; exact List.mem_map_of_mem hb
    have hne : t ≠ b.1 := fun e => ht ((hts t).1 (by rw [e]; exact this))
    simpa using hne
  · intro n hn
    rw [f3, given_eq, given_eq, (w3 _ fun t ht e => hn t ((hts t).1 ht) (by
      rw [← uid_eq] at e; exact String.toList_injective e)).1, e5]
  · intro t ht
    rw [f3, given_eq, uid_eq, w2 t ((hts t).2 ht)]

/-- Every change that is made to the file was accepted: a refused change is never counted as made, and
by the theorem before success needs all of them. -/
theorem c78_initialize_accepted (X : InitEnv A B) :
    ∀ o ∈ (initCommand X).ops, o ≠ .create → X.refuse o = false := init_accepted X

theorem load_std {Y : GenEnv A B} {fs : FS} {l : Loaded B} (h : load Y fs = .ok l) :
    ∃ p, loadParams Y.rnd Y.text = .ok p ∧ Std p ∧ Std l.params ∧ Std l.foam ∧
      gv l.params "mc.seed".toList = some (.seedGen [l.seed]) ∧
      (gv p "mc.seed".toList = none → l.seed = Y.seed) ∧
      (∀ s, gv p "mc.seed".toList = some (.seedGen [s]) → l.seed = s) ∧
      (∀ t, Enabled p t ↔ ∃ g, (t, g) ∈ l.gens) ∧
      (∀ t, Enabled p t → gv l.params (nameUid t) = gv l.foam (nameUid t) ∧
        ∃ u, gv l.foam (nameUid t) = some (.long u)) ∧
      (∀ m, m ≠ "mc.seed".toList → (∀ t, Enabled p t → m ≠ nameUid t) → gv l.params m = gv p m) := by
  obtain ⟨p, ts, name, f, d, p', g1, -, g3, -, -, -, -, g8, g9, g10, g11⟩ := load_ok h
  obtain ⟨sp, -, -⟩ := loadParams_ok g1
  obtain ⟨sp', sd, so, s0⟩ := takeSeed_ok sp g9
  have sf := readRoot_std g8
  obtain ⟨l1, l2, l3, -⟩ := loadAll_ok sp' sf g11
  simp only at l1 l2 l3
  have hts := enabledTypes_spec g3
  obtain ⟨-, -, -, -, c5⟩ := (c42_can_provide l.foam p' sf sp').1 g10
  have hen := fun t => enabled_congr sp sp' (fun m h1 _ => so m h1) t
  refine ⟨p, g1, sp, l1, sf, ?_, s0, ?_, ?_, ?_, ?_⟩
  · rw [l2, if_neg, sd]
    rintro ⟨t, -, h⟩
    revert h; cases t <;> decide
  · intro s hs
    unfold takeSeed at g9
    have : p.isSet "mc.seed".toList = .ok true := by
      obtain ⟨row, hrow, -⟩ := seed_row
      obtain ⟨q, hq, -⟩ := std_some sp hrow
      exact isSet_ok.2 ⟨⟨q, hq⟩, by rw [hs]; rfl⟩
    rw [this] at g9
    obtain ⟨set, h1, h⟩ := bind_ok.1 g9
    cases h1
    obtain ⟨p1, h2, h⟩ := bind_ok.1 h
    cases h2
    obtain ⟨x, h3, h⟩ := bind_ok.1 h
    split at h
    · cases h
      rw [sd] at hs
      cases hs; rfl
    · cases h
  · intro t
    rw [← hts, ← l3]
    simp
  · intro t ht
    refine ⟨by rw [l2, if_pos ⟨t, (hts t).2 ht, rfl⟩], ?_⟩
    obtain ⟨u, hu, -⟩ := c5 t ((hen t).1 ht)
    obtain ⟨s, hs, -, hd⟩ := uid_init t
    rw [actual_eq, uid_eq] at hu
    exact ⟨u, gv_of_av sf hs hd hu⟩
  · intro m h1 h2
    rw [l2, if_neg, so m h1]
    rintro ⟨t, ht, e⟩
    exact h2 t ((hts t).1 ht) e

/-- `generate` succeeds or reports a failure, if making events and statistics do. -/
theorem c78_generate_result (Y : GenEnv A B) (fs : FS)
    (he : ∀ s, Y.events = some s → Failed s) (hs : ∀ s, Y.stats = some s → Failed s) :
    Succeeded (genCommand Y fs).stop ∨ Failed (genCommand Y fs).stop ∨
      (genCommand Y fs).stop = .ub ∧ ∃ p, loadParams Y.rnd Y.text = .ok p ∧ loadSf Y.sf p = .error .ub := by
  rcases gen_cases Y fs with ⟨s, h, h' | h'⟩ | ⟨l, name, h1, -, -, -, h⟩
  · exact .inr (.inl (by rw [h]; exact h'))
  · exact .inr (.inr (by rw [h]; exact h'))
  · obtain ⟨p, -, -, sp, -⟩ := load_std h1
    rcases h with ⟨s, h, h'⟩ | ⟨p', h, h'⟩
    · exact .inr (.inl (by rw [h']; exact (genChecks_spec sp).2 s h))
    · have ha : (genCommand.afterParams Y name).name = name ∧
          (Succeeded (genCommand.afterParams Y name).stop ∨ Failed (genCommand.afterParams Y name).stop) := by
        unfold genCommand.afterParams
        cases hev : Y.events with
        | some s => exact ⟨rfl, .inr (he s hev)⟩
        | none =>
          simp only
          split_ifs
          · exact ⟨rfl, .inr (failed_throws (by decide) (by decide))⟩
          · cases hst : Y.stats with
            | some s => exact ⟨rfl, .inr (hs s hst)⟩
            | none => exact ⟨rfl, .inl rfl⟩
      have hstop : (genCommand Y fs).stop =
          (writeRoot Y.refuse name p' (genCommand.afterParams Y name)).stop := by rw [h']; rfl
      rw [hstop]
      rcases (writeRoot_spec Y.refuse name p' _ ha.1).2 with h | h | ⟨k, -, h⟩
      · rw [h]
        rcases ha.2 with h | h
        · exact .inl h
        · exact .inr (.inl h)
      · rw [h]; exact .inr (.inl (failed_throws (by decide) (by decide)))
      · rw [h]; exact .inr (.inl (failed_throws (by decide) (by decide)))

/-- The order in which `generate` fills the event file when it succeeds: all the parameters first, then
the events, then the statistics. -/
theorem c78_generate_complete (Y : GenEnv A B) (fs : FS) (h : Succeeded (genCommand Y fs).stop)
    (he : ∀ s, Y.events = some s → Failed s) (hs : ∀ s, Y.stats = some s → Failed s) :
    ∃ l p, load Y fs = .ok l ∧ actual l.params "file.event" = some (.string (genCommand Y fs).name) ∧
      Std p ∧ SameGiven l.params p ∧ Y.events = none ∧ Y.stats = none ∧
      (genCommand Y fs).ops = .create :: .mkdir :: (paramOps (rootEntries p) ++ [.events, .stats]) ∧
      ∀ o ∈ (genCommand Y fs).ops, o ≠ .create → o ≠ .stats → Y.refuse o = false := by
  have habs : ∀ {s}, Failed s → Succeeded s → False := fun h1 h2 => (failed_ne h1).1 h2
  rcases gen_cases Y fs with ⟨s, h1, h' | h'⟩ | ⟨l, name, h1, h2, -, h3, h4⟩
  · rw [h1] at h; exact (habs h' h).elim
  · rw [h1] at h
    obtain ⟨rfl, -⟩ := h'
    cases h
  · obtain ⟨p, -, -, sp, -⟩ := load_std h1
    rcases h4 with ⟨s, h4, h5⟩ | ⟨p', h4, h5⟩
    · rw [h5] at h; exact (habs ((genChecks_spec sp).2 s h4) h).elim
    · obtain ⟨sp', hg⟩ := (genChecks_spec sp).1 p' h4
      have ha : (genCommand.afterParams Y name).name = name ∧
          (Failed (genCommand.afterParams Y name).stop ∨ Y.events = none ∧ Y.stats = none ∧
            Y.refuse .events = false ∧ (genCommand.afterParams Y name).ops = [.events, .stats]) := by
        unfold genCommand.afterParams
        cases hev : Y.events with
        | some s => exact ⟨rfl, .inl (he s hev)⟩
        | none =>
          simp only
          split_ifs with hr
          · exact ⟨rfl, .inl (failed_throws (by decide) (by decide))⟩
          · cases hst : Y.stats with
            | some s => exact ⟨rfl, .inl (hs s hst)⟩
            | none => exact ⟨rfl, .inr ⟨trivial, rfl, by simpa using hr, rfl⟩⟩
      have hstop : (genCommand Y fs).stop =
          (writeRoot Y.refuse name p' (genCommand.afterParams Y name)).stop := by rw [h5]; rfl
      have hops : (genCommand Y fs).ops =
          .create :: (writeRoot Y.refuse name p' (genCommand.afterParams Y name)).ops := by rw [h5]; rfl
      rw [hstop] at h
      rcases (writeRoot_spec Y.refuse name p' _ ha.1).2 with h6 | h6 | ⟨k, -, h6⟩
      · rcases ha.2 with h7 | ⟨h7, h8, h9, h10⟩
        · rw [h6] at h; exact (habs h7 h).elim
        · refine ⟨l, p', h1, by rw [h3]; exact h2, sp', fun n => hg n.toList, h7, h8, ?_, ?_⟩
          · rw [hops, h6, h10]; rfl
          · intro o ho h11 h12
            rw [hops] at ho
            rcases List.mem_cons.1 ho with rfl | ho
            · exact absurd rfl h11
            · rcases writeRoot_accepted _ _ _ _ o ho with h13 | h13
              · exact h13
              · rw [h10] at h13
                simp only [List.mem_cons, List.not_mem_nil, or_false] at h13
                rcases h13 with rfl | rfl
                · exact h9
                · exact absurd rfl h12
      · rw [h6] at h; exact (habs (failed_throws (by decide) (by decide)) h).elim
      · rw [h6] at h; exact (habs (failed_throws (by decide) (by decide)) h).elim

/-! ## C79 the event file tells how it was made -/

theorem fileOf_gen (d : Dir) :
    fileOf (.create :: .mkdir :: (paramOps d ++ [.events, .stats])) = some ⟨[], some d⟩ := by
  show (paramOps d ++ [Op.events, Op.stats]).foldl Op.apply (some ⟨[], some []⟩) = _
  rw [List.foldl_append, foldl_params d _ [] rfl]
  rfl

/-- After a successful `generate` the parameters can be read back from the event file: the seed that
was used, the identifiers of the generators that were used, and everything that was in the parameter
file. -/
theorem c79_record (Y : GenEnv A B) (fs : FS) (h : Succeeded (genCommand Y fs).stop)
    (he : ∀ s, Y.events = some s → Failed s) (hs : ∀ s, Y.stats = some s → Failed s)
    (hnul : ∀ s ∈ Y.text, '\x00' ∉ s) :
    ∃ l p f pe, load Y fs = .ok l ∧ loadParams Y.rnd Y.text = .ok p ∧
      (genCommand Y fs).files (genCommand Y fs).ops.length fs (genCommand Y fs).name = some f ∧
      readRoot f.params stdFormat = some pe ∧
      given pe "mc.seed" = some (.seedGen [l.seed]) ∧
      (given p "mc.seed" = none → l.seed = Y.seed) ∧
      (∀ s, given p "mc.seed" = some (.seedGen [s]) → l.seed = s) ∧
      (∀ t, (∃ g, (t, g) ∈ l.gens) → given pe (uid t) = given l.foam (uid t) ∧
        ∃ u, given pe (uid t) = some (.long u)) ∧
      (∀ n, n ≠ "mc.seed" → (∀ t, (∃ g, (t, g) ∈ l.gens) → n ≠ uid t) → given pe n = given p n) := by
  obtain ⟨l, p', h1, h2, sp', hsame, h3, h4, h5, -⟩ := c78_generate_complete Y fs h he hs
  obtain ⟨p, k1, k2, k3, k4, k5, k6, k6', k7, k8, k9⟩ := load_std h1
  obtain ⟨-, -, hst⟩ := loadParams_ok k1
  have hst := hst hnul
  have hstor : AllStorable p' := by
    intro n v hv
    rw [hsame n, given_eq] at hv
    by_cases e1 : n.toList = "mc.seed".toList
    · rw [e1, k5] at hv
      cases hv
      exact List.pairwise_singleton _ _
    · by_cases e2 : ∃ t, Enabled p t ∧ n.toList = nameUid t
      · obtain ⟨t, ht, e2⟩ := e2
        obtain ⟨k10, u, k11⟩ := k8 t ht
        rw [e2, k10, k11] at hv
        cases hv
        trivial
      · push Not at e2
        rw [k9 _ e1 e2] at hv
        exact (hst _ v hv).1
  obtain ⟨pe, r1, -, r3, -⟩ := c74_roundtrip sp' hstor
  refine ⟨l, p, ⟨[], some (rootEntries p')⟩, pe, h1, k1, ?_, r1, ?_, k6, k6', ?_, ?_⟩
  · unfold Run.files
    rw [List.take_length, if_pos ⟨rfl, by rw [h5]; simp⟩, h5, fileOf_gen]
  · rw [r3, hsame, given_eq, k5]
  · intro t ht
    obtain ⟨k10, u, k11⟩ := k8 t ((k7 t).2 ht)
    rw [r3, hsame, given_eq, given_eq, uid_eq, k10]
    exact ⟨rfl, u, k11⟩
  · intro n hn1 hn2
    rw [r3, hsame, given_eq, given_eq, k9]
    · exact fun e => hn1 (String.toList_injective e)
    · intro t ht e
      rw [← uid_eq] at e
      exact hn2 t ((k7 t).1 ht) (String.toList_injective e)

end

end Sidis.Props
