import Verif.Lemmas.MergeSoft
import Verif.Props.Command
import Verif.Props.Integ

/-! # C88 and C89: the commands `merge-soft`, `merge-hard` and `inspect` -/

namespace Sidis.Props

open Sidis.ParamStream Sidis.Codec Sidis.Format Sidis.Spec Sidis.Main Sidis.Command Sidis.Gen

variable {E S : Type} [StatsLib S]

/-! ## C88 -/

/-- **C88.** At every moment of `merge-soft`, and after a crash at any moment: no file changes except the
output, and no file that existed before changes at all. -/
theorem c88_inputs (taken : Text → Bool) (refuse : MergeOp → Bool) (fs : EFS E) (out : Text)
    (names : List Text) (ht : ∀ n, fs n ≠ none → taken n = true) (k : ℕ) (n : Text)
    (hn : n ≠ out ∨ fs n ≠ none) :
    (mergeSoft S taken refuse fs out names).files out k fs n = fs n := by
  unfold MergeRun.files
  rw [if_neg]
  rintro ⟨rfl, hk⟩
  have hf := hn.resolve_left (by simp)
  rcases mergeSoft_cases (S := S) taken refuse fs n names with ⟨h, -⟩ | ⟨p, a, -, -, h, -⟩
  · rw [h] at hk; simp at hk
  · rw [ht n hf] at h; cases h

/-- **C88.** The command succeeds, or fails with a documented code, or the statistics in one of its
inputs are such that reading them is undefined behaviour (C44). -/
theorem c88_result (taken : Text → Bool) (refuse : MergeOp → Bool) (fs : EFS E) (out : Text)
    (names : List Text) :
    let r := mergeSoft S taken refuse fs out names
    Succeeded r.stop ∨ Failed r.stop ∨
      r.stop = .ub ∧ ∃ n ∈ names, ∃ f, fs n = some f ∧ Integs.read (S := S) f.stats = .ub := by
  intro r
  rcases mergeSoft_cases (S := S) taken refuse fs out names with ⟨-, h⟩ | ⟨p, a, -, -, -, h | ⟨h, -⟩⟩
  · exact .inr h
  · exact .inl (congrArg MergeRun.stop h)
  · exact .inr (.inl h)

/-- **C88.** Unlike `initialize` and `generate` (C77), `merge-soft` leaves no file behind when it fails,
unless it was a write to the new file that failed. -/
theorem c88_clean (taken : Text → Bool) (fs : EFS E) (out : Text) (names : List Text)
    (h : ¬ Succeeded (mergeSoft S taken (fun _ => false) fs out names).stop) (k : ℕ) :
    (mergeSoft S taken (fun _ => false) fs out names).files out k fs = fs := by
  rcases mergeSoft_cases (S := S) taken (fun _ => false) fs out names with
    ⟨h', -⟩ | ⟨p, a, -, -, -, h' | ⟨-, o, ho⟩⟩
  · funext n
    simp [MergeRun.files, h']
  · exact absurd (congrArg MergeRun.stop h') h
  · cases ho

theorem sees_chain {fs fs' : EFS E} {out : Text} {f : EventFile E} {names : List Text}
    {parts : List (List E)} (ho : fs' out = some f) (hf : f.events = .chain names)
    (hsame : ∀ n ∈ names, fs' n = fs n) (hp : List.Forall₂ (HasTree fs) names parts) :
    Sees fs' out parts.flatten := by
  refine .inr ⟨f, names, parts, ho, hf, ?_, rfl⟩
  clear hf
  induction hp with
  | nil => exact .nil
  | cons h _ ih =>
    refine .cons ?_ (ih fun n hn => hsame n (by simp [hn]))
    obtain ⟨g, h1, h2⟩ := h
    exact ⟨g, by rw [hsame _ (by simp), h1], h2⟩

/-- **C88.** When the command succeeds, every input had parameters and statistics, the parameters could
be merged one after the other (C40), and the output holds: the merged parameters, the merged statistics
(C43), and all events of all inputs in the order of the inputs. -/
theorem c88_complete (taken : Text → Bool) (refuse : MergeOp → Bool) (fs : EFS E) (out : Text)
    (n₀ : Text) (ns : List Text) (ht : ∀ n, fs n ≠ none → taken n = true)
    (h : Succeeded (mergeSoft S taken refuse fs out (n₀ :: ns)).stop) :
    let run := mergeSoft S taken refuse fs out (n₀ :: ns)
    let fs' := run.files out run.ops.length fs
    ∃ p ps r as f, List.Forall₂ (HasParams fs) (n₀ :: ns) (p :: ps) ∧
      List.Forall₂ (HasStats (S := S) fs) (n₀ :: ns) as ∧
      Format.mergeFiles p ps = .ok r ∧
      fs out = none ∧ fs' out = some f ∧
      (AllStorable p → (∀ q ∈ ps, AllStorable q) → ∃ r', HasParams fs' out r' ∧ SameGiven r r') ∧
      f.stats = Integs.write (IntegratorArray.mergeFiles as) ∧
      ∀ parts, List.Forall₂ (HasTree fs) (n₀ :: ns) parts → Sees fs' out parts.flatten := by
  intro run fs'
  rcases mergeSoft_cases (S := S) taken refuse fs out (n₀ :: ns) with
    ⟨-, h' | ⟨h', -⟩⟩ | ⟨r, a, hr, ha, hout, h' | ⟨h', -⟩⟩
  · obtain ⟨r, hr, h'⟩ := h'
    rw [Succeeded, hr] at h
    rcases h' with ⟨c, rfl, -⟩ | rfl <;> cases h
  · rw [Succeeded, h'] at h; cases h
  · obtain ⟨p, ps, hps, hm⟩ := gatherParams_none hr
    obtain ⟨as, has, rfl⟩ := gatherStats_none ha
    have hnone : fs out = none := by
      by_contra hc
      rw [ht out hc] at hout
      cases hout
    have hfile : fs' out = some ⟨some (rootEntries r), Integs.write (IntegratorArray.mergeFiles as),
        .chain (n₀ :: ns)⟩ := by
      change MergeRun.files out run run.ops.length fs out = _
      have hrun : run = ⟨mergeOps S r (IntegratorArray.mergeFiles as) (n₀ :: ns), .result (.returns SUCCESS)⟩ := h'
      rw [MergeRun.files, if_pos, List.take_length, hrun, mergeOps_file]
      refine ⟨rfl, ?_⟩
      rw [List.take_length, hrun]
      simp [mergeOps]
    have hstd : ∀ {n : Text} {q : P}, HasParams fs n q → Std q := by
      rintro n q ⟨f, -, hq⟩
      exact readRoot_std hq
    have hpS : Std p := by cases hps with | cons h _ => exact hstd h
    have hqS : ∀ q ∈ ps, Std q := by
      have key : ∀ {l : List Text} {qs : List P}, List.Forall₂ (HasParams fs) l qs → ∀ q ∈ qs, Std q := by
        intro l qs hl
        induction hl with
        | nil => simp
        | cons h _ ih =>
          intro q hq
          rcases List.mem_cons.1 hq with rfl | hq
          · exact hstd h
          · exact ih q hq
      exact fun q hq => key hps q (by simp [hq])
    refine ⟨p, ps, r, as, _, hps, has, hm, hnone, hfile, ?_, rfl, ?_⟩
    · intro sp sps
      obtain ⟨hrS, hrs⟩ := mergeFiles_storable hpS sp (fun q hq => ⟨hqS q hq, sps q hq⟩) hm
      obtain ⟨r', h1, -, h2, -⟩ := c74_roundtrip hrS hrs
      exact ⟨r', ⟨_, hfile, h1⟩, h2⟩
    · intro parts hparts
      refine sees_chain hfile rfl ?_ hparts
      intro n hn
      refine c88_inputs taken refuse fs out (n₀ :: ns) ht _ n (.inr ?_)
      have : ∀ {l : List Text} {qs : List P}, List.Forall₂ (HasParams fs) l qs → ∀ n ∈ l, fs n ≠ none := by
        intro l qs hl
        induction hl with
        | nil => simp
        | cons h _ ih =>
          intro m hm
          rcases List.mem_cons.1 hm with rfl | hm
          · obtain ⟨f, h, -⟩ := h
            simp [h]
          · exact ih m hm
      exact this hps n hn
  · obtain ⟨r, hr, h'⟩ := h'
    rw [Succeeded, hr] at h
    rcases h' with ⟨c, rfl, -⟩ | rfl <;> cases h

theorem mergeFiles_count {p r : P} {ps : List P} {c : ℕ} {cs : List ℕ} (hp : Std p)
    (hps : ∀ q ∈ ps, Std q) (hc : given p "mc.num_events" = some (.long c))
    (hcs : List.Forall₂ (fun q (c : ℕ) => given q "mc.num_events" = some (.long c)) ps cs)
    (hsum : ((c :: cs).sum : ℤ) < 2 ^ 63) (h : Format.mergeFiles p ps = .ok r) :
    given r "mc.num_events" = some (.long ((c :: cs).sum : ℕ)) := by
  induction ps generalizing p c cs with
  | nil =>
    cases hcs
    simp only [Format.mergeFiles, Except.ok.injEq] at h
    subst h
    simpa using hc
  | cons q ps ih =>
    cases hcs with
    | cons hd hcs =>
      rename_i d ds
      obtain ⟨o, ho, h⟩ := bind_ok.1 h
      have hq := hps q (by simp)
      simp only [List.sum_cons, Nat.cast_add] at hsum
      have hoS := (c40_nothing_lost q p o hq hp ho).1
      have : given o "mc.num_events" = some (.long ((d + c : ℕ))) := by
        rcases c40_num_events q p o hq hp ho with ⟨h1, -⟩ | ⟨a, b, ha, hb, e, he, hab⟩
        · rw [hd] at h1; cases h1
        · rw [hd] at ha
          rw [hc] at hb
          cases ha
          cases hb
          rw [he, hab]
          · simp
          · have : (0 : ℤ) ≤ (ds.sum : ℕ) := by positivity
            have h2 : (0 : ℤ) ≤ d + c := by positivity
            simp only [IntTy.Has, IntTy.int64]
            push_cast at *
            omega
      have h' := ih hoS (fun x hx => hps x (by simp [hx])) this hcs (by
        simp only [List.sum_cons, Nat.cast_add]; push_cast at *; omega) h
      rw [h']
      simp only [List.sum_cons, Option.some.injEq, Val.long.injEq, Nat.cast_inj]
      omega

/-- **C88.** The number of events recorded in the merged parameters is the number of events one sees in
the output, if that was so for each of the inputs. -/
theorem c88_count (taken : Text → Bool) (refuse : MergeOp → Bool) (fs : EFS E) (out : Text)
    (n₀ : Text) (ns : List Text) (ht : ∀ n, fs n ≠ none → taken n = true)
    (h : Succeeded (mergeSoft S taken refuse fs out (n₀ :: ns)).stop)
    (hs : ∀ n ∈ n₀ :: ns, ∀ p, HasParams fs n p → AllStorable p)
    (parts : List (List E)) (hp : List.Forall₂ (fun n rows => HasTree fs n rows ∧
      ∀ p, HasParams fs n p → given p "mc.num_events" = some (.long rows.length)) (n₀ :: ns) parts)
    (hsize : parts.flatten.length < 2 ^ 63) :
    let run := mergeSoft S taken refuse fs out (n₀ :: ns)
    let fs' := run.files out run.ops.length fs
    Sees fs' out parts.flatten ∧ ∃ r, HasParams fs' out r ∧
      given r "mc.num_events" = some (.long parts.flatten.length) := by
  intro run fs'
  obtain ⟨p, ps, r, as, f, hps, -, hm, -, -, hr, -, hsee⟩ := c88_complete taken refuse fs out n₀ ns ht h
  refine ⟨hsee parts (hp.imp fun _ _ h => h.1), ?_⟩
  have hmem : ∀ {l : List Text} {qs : List P}, List.Forall₂ (HasParams fs) l qs →
      ∀ q ∈ qs, ∃ n ∈ l, HasParams fs n q := by
    intro l qs hl
    induction hl with
    | nil => simp
    | cons h _ ih =>
      rename_i m q l qs _
      intro x hx
      rcases List.mem_cons.1 hx with rfl | hx
      · exact ⟨m, by simp, h⟩
      · obtain ⟨n, h1, h2⟩ := ih x hx
        exact ⟨n, by simp [h1], h2⟩
  have hst : ∀ q ∈ p :: ps, AllStorable q := by
    intro q hq
    obtain ⟨n, h1, h2⟩ := hmem hps q hq
    exact hs n h1 q h2
  have hStd : ∀ q ∈ p :: ps, Std q := by
    intro q hq
    obtain ⟨n, -, f, -, h2⟩ := hmem hps q hq
    exact readRoot_std h2
  obtain ⟨r', h1, h2⟩ := hr (hst p (by simp)) fun q hq => hst q (by simp [hq])
  refine ⟨r', h1, ?_⟩
  rw [h2]
  have hcs : ∀ {l : List Text} {qs : List P} {parts : List (List E)},
      List.Forall₂ (HasParams fs) l qs →
      List.Forall₂ (fun n rows => HasTree fs n rows ∧
        ∀ p, HasParams fs n p → given p "mc.num_events" = some (.long rows.length)) l parts →
      List.Forall₂ (fun q (c : ℕ) => given q "mc.num_events" = some (.long c)) qs
        (parts.map List.length) := by
    intro l qs parts hl
    induction hl generalizing parts with
    | nil => intro h; cases h; exact .nil
    | cons h _ ih =>
      intro h'
      cases h' with
      | cons h1 h2 => exact .cons (h1.2 _ h) (ih h2)
  have hc := hcs hps hp
  cases parts with
  | nil => cases hp
  | cons rows parts =>
    cases hc with
    | cons hc hcs =>
      have hlen : (rows :: parts).flatten.length = (rows.length :: parts.map List.length).sum := by
        simp [List.length_flatten]
      rw [hlen] at hsize ⊢
      exact mergeFiles_count (hStd p (by simp)) (fun q hq => hStd q (by simp [hq])) hc hcs
        (by exact_mod_cast hsize) hm

/-! A concrete case, which also shows that the same events can be merged twice. -/

/-- Statistics of a run. -/
noncomputable def sampleStats : IntegratorArray Lemmas.Moments :=
  ⟨![.mk' (.fin 2) 7 ⟨![.fin 1, .fin 2, .fin 3, .fin 4], .fin 5, 9⟩, .default]⟩

theorem read_sampleStats : Integs.read (Integs.write sampleStats) = .val sampleStats := by
  refine c44_round_trip _ ?_ ?_ ?_ ?_ <;> intro k <;> simp only [numEventTypes] at k <;>
    fin_cases k
  all_goals simp [sampleStats, Integrator.mk', Integrator.default, StatsLib.count, StatsLib.empty,
    StatsLib.ofMoments, StatsLib.ratio, StatsLib.max1]

/-- Two event files, `a.root` with two events and `b.root` with three. -/
noncomputable def sampleFiles : EFS ℕ := fun n =>
  if n = "a.root".toList then
    some ⟨some (rootEntries (sampleRun 1 2)), Integs.write sampleStats, .tree [10, 11]⟩
  else if n = "b.root".toList then
    some ⟨some (rootEntries (sampleRun 2 3)), Integs.write sampleStats, .tree [20, 21, 22]⟩
  else none

/-- The names of existing files are taken. -/
def sampleTaken : Text → Bool := fun n => n == "a.root".toList || n == "b.root".toList

theorem sampleTaken_ok : ∀ n, sampleFiles n ≠ none → sampleTaken n = true := by
  intro n
  unfold sampleFiles sampleTaken
  split_ifs with h1 h2 <;> simp [h1] <;> simp [h2]

theorem sampleFiles_a : sampleFiles "a.root".toList =
    some ⟨some (rootEntries (sampleRun 1 2)), Integs.write sampleStats, .tree [10, 11]⟩ := by
  simp [sampleFiles]

theorem sampleFiles_b : sampleFiles "b.root".toList =
    some ⟨some (rootEntries (sampleRun 2 3)), Integs.write sampleStats, .tree [20, 21, 22]⟩ := by
  simp [sampleFiles]

theorem merge_ok {fs : EFS E} {taken : Text → Bool} {out : Text} {names : List Text} {p : P}
    {a : IntegratorArray S} (hp : gatherParams fs names none = .ok p)
    (ha : gatherStats fs names none = .ok a) (ht : taken out = false) :
    Succeeded (mergeSoft S taken (fun _ => false) fs out names).stop := by
  rcases mergeSoft_cases (S := S) taken (fun _ => false) fs out names with
    ⟨h', -⟩ | ⟨p', a', -, -, -, h' | ⟨-, o, ho⟩⟩
  · exfalso
    unfold mergeSoft at h'
    simp only [hp, ha, ht, Bool.false_eq_true, if_false, MergeRun.after] at h'
    cases h'
  · exact congrArg MergeRun.stop h'
  · cases ho

/-- Are the parameters of these files accepted?  (for computing) -/
def accepts (runs : List P) : Bool :=
  match runs.mapM fun p => readRoot (some (rootEntries p)) stdFormat with
  | some (p :: ps) => match Format.mergeFiles p ps with
    | .ok _ => true
    | .error _ => false
  | _ => false

theorem sampleMerge (l : List Text) (hl : l = ["a.root".toList, "b.root".toList] ∨
    l = ["a.root".toList, "b.root".toList, "b.root".toList]) :
    Succeeded (mergeSoft Lemmas.Moments sampleTaken (fun _ => false) sampleFiles "out.root".toList l).stop := by
  have e1 : ∃ p, readRoot (some (rootEntries (sampleRun 1 2))) stdFormat = some p ∧
      ∃ q, readRoot (some (rootEntries (sampleRun 2 3))) stdFormat = some q ∧
      ∃ r, mergeParams q p = .ok r ∧ ∃ r', mergeParams q r = .ok r' := by
    have h : accepts [sampleRun 1 2, sampleRun 2 3, sampleRun 2 3] = true := by decide +kernel
    unfold accepts at h
    cases h1 : readRoot (some (rootEntries (sampleRun 1 2))) stdFormat with
    | none => simp [h1] at h
    | some p =>
      cases h2 : readRoot (some (rootEntries (sampleRun 2 3))) stdFormat with
      | none => simp [h1, h2] at h
      | some q =>
        refine ⟨p, rfl, q, rfl, ?_⟩
        simp only [List.mapM_cons, h1, h2, List.mapM_nil, Option.pure_def, Option.bind_eq_bind,
          Option.bind_some] at h
        cases h3 : Format.mergeFiles p [q, q] with
        | error e => simp [h3] at h
        | ok r =>
          obtain ⟨o, ho, h3⟩ := bind_ok.1 h3
          obtain ⟨o', ho', h3⟩ := bind_ok.1 h3
          exact ⟨o, ho, o', ho'⟩
  obtain ⟨p, hp, q, hq, r, hr, r', hr'⟩ := e1
  have ht : sampleTaken "out.root".toList = false := by decide
  rcases hl with rfl | rfl
  · refine merge_ok (p := r) (a := sampleStats.add sampleStats) ?_ ?_ ht
    · simp only [gatherParams, sampleFiles_a, sampleFiles_b, hp, hq, hr]
    · simp only [gatherStats, sampleFiles_a, sampleFiles_b, read_sampleStats]
  · refine merge_ok (p := r') (a := (sampleStats.add sampleStats).add sampleStats) ?_ ?_ ht
    · simp only [gatherParams, sampleFiles_a, sampleFiles_b, hp, hq, hr, hr']
    · simp only [gatherStats, sampleFiles_a, sampleFiles_b, read_sampleStats]

-- hypotheses of C88: two files that can be merged
example : Succeeded (mergeSoft Lemmas.Moments sampleTaken (fun _ => false) sampleFiles "out.root".toList
      ["a.root".toList, "b.root".toList]).stop ∧
    List.Forall₂ (HasTree sampleFiles) ["a.root".toList, "b.root".toList] [[10, 11], [20, 21, 22]] :=
  ⟨sampleMerge _ (.inl rfl), .cons ⟨_, sampleFiles_a, rfl⟩ (.cons ⟨_, sampleFiles_b, rfl⟩ .nil)⟩

-- a failure: an input that does not exist
example : ¬ Succeeded (mergeSoft Lemmas.Moments sampleTaken (fun _ => false) sampleFiles "out.root".toList
    ["c.root".toList]).stop := by
  have h : sampleFiles "c.root".toList = none := by simp [sampleFiles]
  have e : mergeSoft Lemmas.Moments sampleTaken (fun _ => false) sampleFiles "out.root".toList
      ["c.root".toList] = ⟨[], throws ERROR_FILE_NOT_FOUND⟩ := by
    rw [mergeSoft, gatherParams, h]
  rw [e]
  intro hc
  cases hc

/-- **C88, refuted: merged files contain no event twice.** If the repeated file is not the first one,
naming a file twice is accepted, and its events appear twice in the output (the seeds of all but the
first file are forgotten, C41). -/
theorem c88_duplicates_refuted : ∃ fs : EFS ℕ, ∃ taken : Text → Bool, ∃ out a b : Text,
    (∀ n, fs n ≠ none → taken n = true) ∧
    let run := mergeSoft Lemmas.Moments taken (fun _ => false) fs out [a, b, b]
    Succeeded run.stop ∧ HasTree fs a [10, 11] ∧ HasTree fs b [20, 21, 22] ∧
    Sees (run.files out run.ops.length fs) out [10, 11, 20, 21, 22, 20, 21, 22] := by
  refine ⟨sampleFiles, sampleTaken, "out.root".toList, "a.root".toList, "b.root".toList, sampleTaken_ok,
    sampleMerge _ (.inr rfl), ⟨_, sampleFiles_a, rfl⟩, ⟨_, sampleFiles_b, rfl⟩, ?_⟩
  obtain ⟨p, ps, r, as, f, -, -, -, -, -, -, -, h⟩ := c88_complete sampleTaken (fun _ => false) sampleFiles
    "out.root".toList _ _ sampleTaken_ok (sampleMerge _ (.inr rfl))
  exact h [[10, 11], [20, 21, 22], [20, 21, 22]]
    (.cons ⟨_, sampleFiles_a, rfl⟩ (.cons ⟨_, sampleFiles_b, rfl⟩ (.cons ⟨_, sampleFiles_b, rfl⟩ .nil)))

/-- **C88.** `merge-hard` fails with its own code and touches no file. -/
theorem c88_hard (fs : EFS E) (out : Text) (k : ℕ) :
    mergeHard.stop = throws ERROR_UNIMPLEMENTED ∧ Failed mergeHard.stop ∧ mergeHard.files out k fs = fs := by
  refine ⟨rfl, failed_throws (by decide) (by decide), ?_⟩
  funext n
  simp [MergeRun.files, mergeHard]

/-! ## C89 -/

theorem entries_values {p : P} (hp : Std p) : p.entries.map (fun e => (e.1, e.2.value)) =
    stdFormat.entries.map fun e => (e.1, gv p e.1) := by
  have h1 : stdFormat.entries.map (fun e => (e.1, gv p e.1)) =
      p.entries.map fun e => (e.1, gv p e.1) := by
    rw [← hp.1, List.map_map]
    rfl
  rw [h1]
  refine List.map_congr_left fun e he => ?_
  rw [gv, Params.find_of_mem (std_wf' hp) he, Option.bind_some]

theorem writeStream_values (c : ParamStream.Codec Ty Val) (p : P) : writeStream c p =
    (p.entries.map fun e => (e.1, e.2.value)).foldr (fun e acc =>
      match e.2 with
      | none => acc
      | some v =>
        match c.write v, acc with
        | some t, some rest => some (e.1 ++ [' '] ++ t ++ ['\n'] ++ rest)
        | _, _ => none) (some []) := by
  rw [List.foldr_map, writeStream]
  congr 1
  funext e acc
  dsimp only
  rcases e.2.value with _ | v
  · rfl
  · dsimp only
    rcases c.write v with _ | t
    · rfl
    · rcases acc with _ | rest <;> rfl

theorem writeStream_same (c : ParamStream.Codec Ty Val) {p p' : P} (hp : Std p) (hp' : Std p')
    (h : SameGiven p p') : writeStream c p' = writeStream c p := by
  rw [writeStream_values, writeStream_values, entries_values hp, entries_values hp']
  congr 2
  funext e
  have := h (String.ofList e.1)
  rw [given_eq, given_eq, String.toList_ofList] at this
  rw [this]

/-- **C89.** `inspect` shows the parameters stored in a file exactly as they would have been printed
before they were stored, whether or not the file has statistics. -/
theorem c89_params (c : ParamStream.Codec Ty Val) (fs : EFS E) (name : Text) {f : EventFile E} {p : P}
    {text : Text} (hf : fs name = some f) (hp : Std p) (hs : AllStorable p)
    (hd : f.params = some (rootEntries p)) (ht : writeStream c p = some text)
    (hu : Integs.read (S := S) f.stats ≠ .ub) :
    ∃ sh, inspect S c fs name = .ok sh ∧ sh.params = text ∧
      (sh.stats = none ↔ Integs.read (S := S) f.stats = .errorReadingStats) := by
  obtain ⟨p', h1, h2, h3, -⟩ := c74_roundtrip hp hs
  have h4 := (writeStream_same c hp h2 h3).trans ht
  unfold inspect
  simp only [hf, hd, h1, h4]
  split
  · rename_i h; exact ⟨_, rfl, rfl, by simp [h]⟩
  · rename_i h; exact absurd h hu
  · rename_i h; exact ⟨_, rfl, rfl, by simp [h]⟩

/-- **C89.** Statistics written by the program are never reported as missing. -/
theorem c89_found (a : IntegratorArray S) : Integs.read (S := S) (Integs.write a) ≠ .errorReadingStats := by
  rw [ne_eq, c44_rejects, not_not, c44_layout]
  simp

/-- **C89.** `inspect` shows the statistics of exactly those event types for which there were any events,
and the total exactly if there is more than one such type. -/
theorem c89_stats (c : ParamStream.Codec Ty Val) (fs : EFS E) (name : Text) {a : IntegratorArray S}
    (ha : HasStats fs name a) {sh : Shown S} (h : inspect S c fs name = .ok sh) :
    ∃ l tot, sh.stats = some (l, tot) ∧
      (∀ t i, (t, i) ∈ l ↔ i = a.map t.idx ∧ i.count ≠ 0) ∧ (l.map Prod.fst).Nodup ∧
      ((∀ t : Gen.EventType, (a.map t.idx).count ≠ 0) → tot = some a.total) ∧
      ((∃ t : Gen.EventType, (a.map t.idx).count = 0) → tot = none) := by
  obtain ⟨f, hf, ha⟩ := ha
  unfold inspect at h
  simp only [hf] at h
  split at h
  · cases h
  split at h
  · cases h
  simp only [ha] at h
  cases h
  refine ⟨_, _, rfl, ?_, ?_, ?_, ?_⟩
  · intro t i
    simp only [List.mem_filterMap, List.mem_cons, List.not_mem_nil, or_false]
    constructor
    · rintro ⟨t', -, h⟩
      split_ifs at h with hc
      cases h
      exact ⟨rfl, hc⟩
    · rintro ⟨rfl, hc⟩
      exact ⟨t, by cases t <;> simp, by rw [if_pos hc]⟩
  · by_cases h1 : (a.map Gen.EventType.nrad.idx).count ≠ 0 <;>
      by_cases h2 : (a.map Gen.EventType.rad.idx).count ≠ 0 <;> simp [List.filterMap_cons, h1, h2]
  · intro h
    simp [List.filterMap_cons, h .nrad, h .rad]
  · rintro ⟨t, ht⟩
    by_cases h1 : (a.map Gen.EventType.nrad.idx).count = 0 <;>
      by_cases h2 : (a.map Gen.EventType.rad.idx).count = 0 <;> cases t <;>
      simp_all [List.filterMap_cons]

/-- **C89.** It succeeds, or fails with an error, or the statistics in the file are such that reading
them is undefined behaviour; a missing file and unreadable parameters have their own codes. -/
theorem c89_result (c : ParamStream.Codec Ty Val) (fs : EFS E) (name : Text) :
    (∃ sh, inspect S c fs name = .ok sh) ∨ (∃ s, inspect S c fs name = .error s ∧ Failed s) ∨
      inspect S c fs name = .error .ub ∧ ∃ f, fs name = some f ∧ Integs.read (S := S) f.stats = .ub := by
  unfold inspect
  split
  · exact .inr (.inl ⟨_, rfl, failed_throws (by decide) (by decide)⟩)
  rename_i f hf
  split
  · exact .inr (.inl ⟨_, rfl, failed_throws (by decide) (by decide)⟩)
  split
  · exact .inr (.inl ⟨_, rfl, _, rfl, .inr rfl⟩)
  split
  · exact .inl ⟨_, rfl⟩
  · rename_i h; exact .inr (.inr ⟨rfl, f, hf, h⟩)
  · exact .inl ⟨_, rfl⟩

/-- **C89.** A missing file and unreadable parameters have their own codes. -/
theorem c89_codes (c : ParamStream.Codec Ty Val) (fs : EFS E) (name : Text) :
    (fs name = none → inspect S c fs name = .error (throws ERROR_FILE_NOT_FOUND)) ∧
    (∀ f, fs name = some f → readRoot f.params stdFormat = none →
      inspect S c fs name = .error (throws ERROR_READING_PARAMS)) := by
  constructor
  · intro h; simp only [inspect, h]
  · intro f h h'; simp only [inspect, h, h']

-- hypotheses of C89: the file `a.root`, which has events of one type only
example : HasStats (S := Lemmas.Moments) sampleFiles "a.root".toList sampleStats ∧
    (sampleStats.map Gen.EventType.nrad.idx).count = 9 ∧ (sampleStats.map Gen.EventType.rad.idx).count = 0 :=
  ⟨⟨_, sampleFiles_a, read_sampleStats⟩, rfl, rfl⟩

end Sidis.Props
