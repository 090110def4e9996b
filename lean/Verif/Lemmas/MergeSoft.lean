import Verif.Spec.MergeSoft
import Verif.Lemmas.CommandLoad
import Verif.Props.Format

/-! # Lemmas about the commands on event files -/

namespace Sidis.Props

open Sidis.ParamStream Sidis.Codec Sidis.Format Sidis.Spec Sidis.Main Sidis.Command Sidis.Gen

variable {E S : Type} [StatsLib S] {fs : EFS E}

theorem gatherParams_some {ns : List Text} {out r : P} (h : gatherParams fs ns (some out) = .ok r) :
    ∃ ps, List.Forall₂ (HasParams fs) ns ps ∧ Format.mergeFiles out ps = .ok r := by
  induction ns generalizing out with
  | nil =>
    simp only [gatherParams] at h
    exact ⟨[], .nil, by simpa [Format.mergeFiles] using h⟩
  | cons n ns ih =>
    unfold gatherParams at h
    split at h
    · cases h
    split at h
    · cases h
    rename_i f hf _ p hp
    simp only at h
    split at h
    · cases h
    rename_i o ho
    obtain ⟨ps, h1, h2⟩ := ih h
    exact ⟨p :: ps, .cons ⟨f, hf, hp⟩ h1, bind_ok.2 ⟨o, ho, h2⟩⟩

theorem gatherParams_none {n : Text} {ns : List Text} {r : P} (h : gatherParams fs (n :: ns) none = .ok r) :
    ∃ p ps, List.Forall₂ (HasParams fs) (n :: ns) (p :: ps) ∧ Format.mergeFiles p ps = .ok r := by
  unfold gatherParams at h
  split at h
  · cases h
  split at h
  · cases h
  rename_i f hf _ p hp
  obtain ⟨ps, h1, h2⟩ := gatherParams_some h
  exact ⟨p, ps, .cons ⟨f, hf, hp⟩ h1, h2⟩

theorem gatherParams_err {ns : List Text} {acc : Option P} {s : Stop}
    (h : gatherParams fs ns acc = .error s) : Failed s := by
  induction ns generalizing acc with
  | nil => cases acc <;> simp [gatherParams, gatherStats] at h
  | cons n ns ih =>
    unfold gatherParams at h
    split at h
    · cases h; exact failed_throws (by decide) (by decide)
    split at h
    · cases h; exact failed_throws (by decide) (by decide)
    split at h
    · exact ih h
    split at h
    · cases h; exact failed_throws (by decide) (by decide)
    · exact ih h

theorem gatherStats_some {ns : List Text} {b r : IntegratorArray S}
    (h : gatherStats fs ns (some b) = .ok r) :
    ∃ as, List.Forall₂ (HasStats fs) ns as ∧ r = as.foldl IntegratorArray.add b := by
  induction ns generalizing b with
  | nil =>
    simp only [gatherStats] at h
    cases h
    exact ⟨[], .nil, rfl⟩
  | cons n ns ih =>
    unfold gatherStats at h
    split at h
    · cases h
    rename_i f hf
    split at h
    · cases h
    · cases h
    rename_i a ha
    obtain ⟨as, h1, h2⟩ := ih h
    exact ⟨a :: as, .cons ⟨f, hf, ha⟩ h1, h2⟩

theorem gatherStats_none {n : Text} {ns : List Text} {r : IntegratorArray S}
    (h : gatherStats fs (n :: ns) none = .ok r) :
    ∃ as, List.Forall₂ (HasStats fs) (n :: ns) as ∧ r = IntegratorArray.mergeFiles as := by
  unfold gatherStats at h
  split at h
  · cases h
  rename_i f hf
  split at h
  · cases h
  · cases h
  rename_i a ha
  obtain ⟨as, h1, h2⟩ := gatherStats_some h
  exact ⟨a :: as, .cons ⟨f, hf, ha⟩ h1, h2⟩

theorem gatherStats_err {ns : List Text} {acc : Option (IntegratorArray S)} {s : Stop}
    (h : gatherStats fs ns acc = .error s) :
    Failed s ∨ s = .ub ∧ ∃ n ∈ ns, ∃ f, fs n = some f ∧ Integs.read (S := S) f.stats = .ub := by
  induction ns generalizing acc with
  | nil => cases acc <;> simp [gatherParams, gatherStats] at h
  | cons n ns ih =>
    have ih' : ∀ {acc}, gatherStats fs ns acc = .error s → Failed s ∨ s = .ub ∧ ∃ m ∈ n :: ns, ∃ f,
        fs m = some f ∧ Integs.read (S := S) f.stats = .ub := fun {acc} h => (ih (acc := acc) h).imp id
      fun ⟨h1, m, hm, h2⟩ => ⟨h1, m, List.mem_cons_of_mem n hm, h2⟩
    unfold gatherStats at h
    split at h
    · cases h; exact .inl (failed_throws (by decide) (by decide))
    rename_i f hf
    split at h
    · cases h; exact .inl (failed_throws (by decide) (by decide))
    · cases h; exact .inr ⟨rfl, n, by simp, f, hf, by assumption⟩
    split at h
    · exact ih' h
    · exact ih' h

/-- What becomes of writing a list of objects. -/
theorem writeOps_cases (refuse : MergeOp → Bool) (code : ℤ) (next : MergeRun) (os : List MergeOp) :
    ((∀ o ∈ os, refuse o = false) ∧ (writeOps refuse code next os) = ⟨os ++ next.ops, next.stop⟩) ∨
    ((∃ o ∈ os, refuse o = true) ∧ (writeOps refuse code next os).stop = throws code) := by
  induction os with
  | nil => exact .inl ⟨by simp, rfl⟩
  | cons o os ih =>
    unfold writeOps
    split_ifs with h
    · exact .inr ⟨⟨o, by simp, h⟩, rfl⟩
    · rcases ih with ⟨h1, h2⟩ | ⟨⟨o', h1, h2⟩, h3⟩
      · refine .inl ⟨fun x hx => ?_, by rw [h2]; rfl⟩
        rcases List.mem_cons.1 hx with rfl | hx
        · simpa using h
        · exact h1 x hx
      · exact .inr ⟨⟨o', List.mem_cons_of_mem _ h1, h2⟩, h3⟩

/-- All changes of a run that succeeds. -/
noncomputable def mergeOps (S : Type) [StatsLib S] (p : P) (a : IntegratorArray S) (names : List Text) : List MergeOp :=
  .create :: (.mkdir :: (rootEntries p).map fun e => MergeOp.param e.1 e.2) ++
    ((.mkStats :: statsOps (Integs.write a)) ++ [.chain names])

theorem mergeSoft_cases (taken : Text → Bool) (refuse : MergeOp → Bool) (fs : EFS E) (out : Text)
    (names : List Text) :
    let r := mergeSoft S taken refuse fs out names
    (r.ops = [] ∧ (Failed r.stop ∨ r.stop = .ub ∧ ∃ n ∈ names, ∃ f, fs n = some f ∧
      Integs.read (S := S) f.stats = .ub)) ∨
    ∃ p a, gatherParams fs names none = .ok p ∧ gatherStats (S := S) fs names none = .ok a ∧
      taken out = false ∧
      (r = ⟨mergeOps S p a names, .result (.returns SUCCESS)⟩ ∨
        Failed r.stop ∧ ∃ o, refuse o = true) := by
  intro r
  change _ ∨ _
  rcases hp : gatherParams fs names none with s | p
  · left
    have : r = ⟨[], s⟩ := by simp only [r, mergeSoft, hp]
    rw [this]
    exact ⟨rfl, .inl (gatherParams_err hp)⟩
  rcases ha : gatherStats (S := S) fs names none with s | a
  · left
    have : r = ⟨[], s⟩ := by simp only [r, mergeSoft, hp, ha]
    rw [this]
    exact ⟨rfl, gatherStats_err ha⟩
  by_cases ht : taken out = true
  · left
    have : r = ⟨[], throws ERROR_FILE_NOT_CREATED⟩ := by simp only [r, mergeSoft, hp, ha, ht, if_true]
    rw [this]
    exact ⟨rfl, .inl (failed_throws (by decide) (by decide))⟩
  right
  refine ⟨p, a, rfl, rfl, by simpa using ht, ?_⟩
  simp only [r, mergeSoft, hp, ha, ht, Bool.false_eq_true, if_false]
  rcases writeOps_cases refuse ERROR_WRITING_EVENTS ⟨[], .result (.returns SUCCESS)⟩ [.chain names] with
    ⟨h1, e1⟩ | ⟨⟨o, -, h1⟩, e1⟩
  all_goals
    rcases writeOps_cases refuse ERROR_WRITING_STATS
      (writeOps refuse ERROR_WRITING_EVENTS ⟨[], .result (.returns SUCCESS)⟩ [.chain names])
      (.mkStats :: statsOps (Integs.write a)) with ⟨h2, e2⟩ | ⟨⟨o2, -, h2⟩, e2⟩
  all_goals
    rcases writeOps_cases refuse ERROR_WRITING_PARAMS (writeOps refuse ERROR_WRITING_STATS
      (writeOps refuse ERROR_WRITING_EVENTS ⟨[], .result (.returns SUCCESS)⟩ [.chain names])
      (.mkStats :: statsOps (Integs.write a)))
      (.mkdir :: (rootEntries p).map fun e => .param e.1 e.2) with ⟨h3, e3⟩ | ⟨⟨o3, -, h3⟩, e3⟩
  · left
    rw [e3, e2, e1]
    simp [MergeRun.after, mergeOps]
  · right
    exact ⟨by rw [MergeRun.after, e3]; exact failed_throws (by decide) (by decide), o3, h3⟩
  · right
    exact ⟨by rw [MergeRun.after, e3, e2]; exact failed_throws (by decide) (by decide), o2, h2⟩
  · right
    exact ⟨by rw [MergeRun.after, e3]; exact failed_throws (by decide) (by decide), o3, h3⟩
  · right
    exact ⟨by rw [MergeRun.after, e3, e2, e1]; exact failed_throws (by decide) (by decide), o, h1⟩
  · right
    exact ⟨by rw [MergeRun.after, e3]; exact failed_throws (by decide) (by decide), o, h1⟩
  · right
    exact ⟨by rw [MergeRun.after, e3, e2]; exact failed_throws (by decide) (by decide), o, h1⟩
  · right
    exact ⟨by rw [MergeRun.after, e3]; exact failed_throws (by decide) (by decide), o, h1⟩

theorem foldl_params (d : Dir) (f : EventFile E) (d₀ : Dir) (hf : f.params = some d₀) :
    (d.map fun e => MergeOp.param e.1 e.2).foldl MergeOp.apply (some f)
      = some { f with params := some (d₀ ++ d) } := by
  induction d generalizing f d₀ with
  | nil => simp [← hf]
  | cons e d ih =>
    simp only [List.map_cons, List.foldl_cons, MergeOp.apply, Option.map_some]
    rw [ih _ (d₀ ++ [e]) (by simp [hf])]
    simp

/-- The file after all changes. -/
theorem mergeOps_file (p : P) (a : IntegratorArray S) (names : List Text) :
    (mergeOps S p a names).foldl MergeOp.apply (none : Option (EventFile E))
      = some ⟨some (rootEntries p), Integs.write a, .chain names⟩ := by
  unfold mergeOps
  rw [List.foldl_append, List.foldl_cons, List.foldl_cons]
  simp only [MergeOp.apply, Option.map_some]
  rw [foldl_params _ _ [] rfl]
  simp [statsOps, MergeOp.apply, StatsDir.put, Integs.write]

/-! ### Values of merged parameters survive in a ROOT file -/

instance (v : Val) : Decidable (Storable v) := by
  cases v <;> unfold Storable <;> infer_instance

/-- The defaults of the cuts are intervals of NaNs; all other defaults survive. -/
theorem dflt_storable : ∀ e ∈ stdEntries, ∀ d ∈ e.2.dflt, Storable d.2 ∨ d.2 = .bound .nan .nan := by
  decide +kernel

theorem av_storable {p : P} (hp : Std p) (hs : AllStorable p) {n : Text} {v : Val} (h : av p n = some v) :
    Storable v ∨ v = .bound .nan .nan := by
  unfold av at h
  cases hq : p.find n with
  | none => rw [hq] at h; cases h
  | some q =>
    rw [hq, Option.bind_some] at h
    cases hv : q.value with
    | some w =>
      rw [hv] at h
      obtain rfl : w = v := by simpa using h
      exact Or.inl <| hs (String.ofList n) w (by
        rw [given_eq, String.toList_ofList, gv, hq, Option.bind_some, hv])
    | none =>
      rw [hv, Option.none_or, Option.map_eq_some_iff] at h
      obtain ⟨d, hd, rfl⟩ := h
      obtain ⟨s, hs, -, -, h3⟩ := std_fmt hp hq
      exact dflt_storable _ (Params.mem_of_find hs) d (by simp [h3, hd])

theorem foldl_sorted (b : List ℤ) {a : List ℤ} (ha : a.Pairwise (· ≤ ·)) :
    (b.foldl (fun l s => l.orderedInsert (· ≤ ·) s) a).Pairwise (· ≤ ·) := by
  induction b generalizing a with
  | nil => exact ha
  | cons x b ih => exact ih (List.Pairwise.orderedInsert x a ha)

theorem op_storable {p : P} (hp : Std p) {all : List Format.EventType} {n : Text} {op : Format.Op}
    (h : (n, op) ∈ mergeList p all) {a b v : Val} (hv : op a b = some v)
    (ha : Storable a ∨ a = .bound .nan .nan) : Storable v := by
  rw [mergeList_std hp] at h
  simp only [List.mem_append, List.mem_cons, Prod.mk.injEq, List.mem_map, List.not_mem_nil, or_false] at h
  have key : op = opVersion ∨ op = opAnd ∨ op = opFile ∨ op = opOr ∨ op = opSeeds ∨ op = opCount := by
    rcases h with (h | ⟨t, -, -, rfl⟩) | h
    · rcases h with h | h | h | h | h | h | h | h <;> simp [h.2]
    · simp
    · rcases h with h | h <;> simp [h.2]
  rcases key with rfl | rfl | rfl | rfl | rfl | rfl <;> cases a <;> cases b <;>
    simp only [opVersion, opAnd, opFile, opOr, opSeeds, opCount, Option.some.injEq, reduceCtorEq] at hv <;>
    subst hv
  · split_ifs <;> trivial
  · trivial
  · split_ifs
    · exact ha.resolve_right (by simp)
    · change '\x00' ∉ "<unknown>".toList
      decide
  · trivial
  · exact foldl_sorted _ (ha.resolve_right (by simp))
  · trivial

theorem merge_storable {p₁ p₂ r : P} (h₁ : Std p₁) (h₂ : Std p₂) (s₁ : AllStorable p₁)
    (s₂ : AllStorable p₂) (h : mergeParams p₁ p₂ = .ok r) : Std r ∧ AllStorable r := by
  obtain ⟨ts₁, ts₂, shared, all, m, -, -, -, -, hnd, -, -, -, -, hm, hr, hv, -⟩ := mergeParams_ok h₁ h₂ h
  refine ⟨hr, fun n v hn => ?_⟩
  rw [given_eq] at hn
  have hf : ∃ s, stdFormat.find n.toList = some s := by
    unfold gv at hn
    cases hq : r.find n.toList with
    | none => rw [hq] at hn; cases hn
    | some q => exact ⟨_, (std_fmt hr hq).choose_spec.1⟩
  obtain ⟨s, hs⟩ := hf
  rw [hv _ s hs] at hn
  split_ifs at hn
  · exact s₂ n v hn
  · exact s₁ n v hn
  · obtain ⟨-, h2, h3⟩ := mergeValues_ok std_stdFormat (mergeList_nodup' h₁ hnd) hm
    by_cases hmem : n.toList ∈ (mergeList p₁ all).map Prod.fst
    · obtain ⟨⟨n', op⟩, he, e⟩ := List.mem_map.1 hmem
      dsimp only at e
      subst e
      rw [(h3 _ op he).1, merged] at hn
      split_ifs at hn
      obtain ⟨a, ha, hn⟩ := Option.bind_eq_some_iff.1 hn
      obtain ⟨b, hb, hn⟩ := Option.bind_eq_some_iff.1 hn
      exact op_storable h₁ he hn (av_storable h₁ s₁ ha)
    · rw [h2 _ hmem] at hn
      have : gv stdFormat n.toList = none := by
        rw [gv, hs, Option.bind_some]
        exact (by decide +kernel : ∀ e ∈ stdEntries, e.2.value = none) _ (Params.mem_of_find hs)
      rw [this] at hn
      cases hn

theorem mergeFiles_storable {p r : P} {ps : List P} (hp : Std p) (sp : AllStorable p)
    (hps : ∀ q ∈ ps, Std q ∧ AllStorable q) (h : Format.mergeFiles p ps = .ok r) :
    Std r ∧ AllStorable r := by
  induction ps generalizing p with
  | nil => simp only [Format.mergeFiles, Except.ok.injEq] at h; subst h; exact ⟨hp, sp⟩
  | cons q ps ih =>
    obtain ⟨o, ho, h⟩ := bind_ok.1 h
    obtain ⟨h1, h2⟩ := hps q (by simp)
    obtain ⟨h3, h4⟩ := merge_storable h1 hp h2 sp ho
    exact ih h3 h4 (fun x hx => hps x (by simp [hx])) h

end Sidis.Props
