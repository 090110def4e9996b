import Verif.Props.CommandSample

/-!
# Non-vacuity of C74 to C79
-/

namespace Sidis.Props
open Sidis.ParamStream Sidis.Codec Sidis.Format Sidis.Spec Sidis.Main Sidis.Command

theorem sample_gen_load : ∃ gens, load sampleGen ((initCommand sampleInit).files
    (initCommand sampleInit).ops.length fun _ => none) = .ok ⟨sampleFinal, sampleRead, 12345, gens⟩ := by
  have h0 : given sampleParams "mc.seed" = none ∧ given sampleParams (uid .nrad) = none ∧
    given sampleParams (uid .rad) = none := by decide +kernel
  obtain ⟨l, h, -⟩ := c76_same_file sampleInit sampleGen (fun _ => none) (p := sampleParams) rfl rfl rfl rfl
    (fun _ _ _ => rfl) (fun _ => rfl) (by
      rintro s ⟨rfl⟩
      exact sample_nul) sample_succeeds sample_load (.inl h0.1) (by
      intro t; cases t
      · exact h0.2.1
      · exact h0.2.2)
  obtain ⟨p, ts, name, f, d, p', g1, -, g3, -, g5, g6, g7, g8, g9, -, g11⟩ := load_ok h
  obtain ⟨bs, hbs⟩ := sample_file
  rw [show loadParams sampleGen.rnd sampleGen.text = .ok sampleParams from sample_load] at g1
  cases g1
  rw [sample_types] at g3
  cases g3
  rw [sample_name] at g5
  cases g5
  rw [hbs] at g6
  cases g6
  simp only [Option.some.injEq] at g7
  subst g7
  rw [sample_read] at g8
  rw [show takeSeed sampleGen.seed sampleParams = _ from sample_seed] at g9
  obtain ⟨params, foam, seed, gens⟩ := l
  simp only [Option.some.injEq, Except.ok.injEq, Prod.mk.injEq] at g8 g9
  obtain ⟨rfl, rfl⟩ := g9
  subst g8
  have := loadAll_fst g11
  simp only at this
  exact ⟨gens, by rw [h, this, sample_final]⟩

set_option maxHeartbeats 1000000 in
theorem sample_gen_checks : ∃ p, genChecks sampleFinal = .ok p := by
  have h1 : complete .gen (mark (readsGen sampleFinal [.nrad, .rad] false false) sampleFinal) = .ok () :=
    isVal_eq (by decide +kernel)
  have h2 : enabledTypes sampleFinal = .ok [.nrad, .rad] := isVal_eq (by decide +kernel)
  have h3 : lookLong sampleFinal "mc.num_events".toList = .ok 10 := isVal_eq (by decide +kernel)
  have h4 : lookBool sampleFinal "file.write_momenta".toList = .ok false := isVal_eq (by decide +kernel)
  have h5 : lookBool sampleFinal "file.write_sf_set".toList = .ok false := isVal_eq (by decide +kernel)
  have h6 : lookBool sampleFinal "file.write_mc_coords".toList = .ok false := isVal_eq (by decide +kernel)
  have h7 : sampleIn.Of sampleFinal := by constructor <;> decide +kernel
  obtain ⟨ps, hps⟩ := Density.make_isSome.2 sampleIn_mass
  unfold genChecks
  rw [Density.nucleus_ok.2 h7.target, Density.lepton_ok.2 h7.beam, Density.hadron_ok.2 h7.hadron,
    Density.vec3_ok.2 ⟨_, _, _, h7.targetPol, rfl⟩, Density.double_ok.2 ⟨_, h7.energy, rfl⟩,
    Density.double_ok.2 ⟨_, h7.Mth, rfl⟩]
  simp only [genChecks.fromStd, bind, Except.bind, hps, h2, h3, h4, h5, h6, Command.std, askIf]
  rw [if_neg (by decide)]
  simp only [Bool.false_eq_true, if_false, h1]
  exact ⟨_, rfl⟩

/-- `generate` succeeds with the file `initialize` made. -/
theorem sample_gen_succeeds : Succeeded (genCommand sampleGen ((initCommand sampleInit).files
    (initCommand sampleInit).ops.length fun _ => none)).stop := by
  obtain ⟨gens, h1⟩ := sample_gen_load
  obtain ⟨p, h2⟩ := sample_gen_checks
  have h3 : lookString sampleFinal "file.event".toList = .ok "events.root".toList := isVal_eq (by decide +kernel)
  unfold genCommand
  rw [h1]
  have h4 : sampleGen.taken "events.root".toList = false := by decide +kernel
  simp only [h3, h2, h4]
  have h5 : (genCommand.afterParams sampleGen "events.root".toList).name = "events.root".toList := rfl
  show (writeRoot _ _ _ _).stop = _
  unfold writeRoot
  rw [if_neg (by decide)]
  show (writeEntries _ _ _ _).stop = _
  generalize rootEntries p = d
  induction d with
  | nil => rfl
  | cons e d ih =>
    unfold writeEntries
    rw [if_neg (by simp [sampleGen])]
    exact ih

/-- Non-vacuity of C74: the parameters of the sample can all be stored; text with a NUL character and an
interval without an order cannot. -/
example : Std sampleParams ∧ AllStorable sampleParams ∧ ¬ Storable (.string "a\x00b".toList) ∧
    restored (.string "a\x00b".toList) = some (.string "a".toList) ∧ restored (.bound .nan .nan) = none :=
  ⟨sampleParams_std, (c74_text sample_load sample_nul).2, by simp [Storable], by decide +kernel, by decide +kernel⟩

/-- Non-vacuity of the first half of `c74_exact`. -/
example : Std (provide [("cut.x", .bound .nan .nan)]) ∧
    given (provide [("cut.x", .bound .nan .nan)]) "cut.x" = some (.bound .nan .nan) :=
  ⟨std_provide _, by decide +kernel⟩

theorem sample_run_name : (initCommand sampleInit).name = "foam.root".toList := by
  rw [sample_init]
  show (buildAll sampleInit "foam.root".toList (mark sampleReads sampleParams) [.nrad, .rad]).name = _
  decide +kernel

theorem sampleFinal_enabled (t : EventType) : Enabled sampleFinal t := by
  cases t
  · exact ⟨by decide +kernel, .approx, by decide +kernel, by decide⟩
  · exact ⟨by decide +kernel, .approx, by decide +kernel, by decide⟩

theorem sampleFinal_file : actual sampleFinal "file.gen" = some (.string (initCommand sampleInit).name) := by
  rw [sample_run_name]
  decide +kernel

/-- Non-vacuity of C75: a generator is loaded from the file of a complete run. -/
example : ∃ k l, load sampleGen ((initCommand sampleInit).files k fun _ => none) = .ok l ∧
    actual l.params "file.gen" = some (.string (initCommand sampleInit).name) ∧
    (∀ s ∈ sampleInit.text, '\x00' ∉ s) ∧ Enabled l.params .nrad ∧ Enabled l.params .rad := by
  obtain ⟨gens, h⟩ := sample_gen_load
  refine ⟨_, _, h, sampleFinal_file, ?_, sampleFinal_enabled _, sampleFinal_enabled _⟩
  rintro s ⟨rfl⟩
  exact sample_nul

/-- The program of C75 at work: the generators of the sample are those that were built. -/
example : ∃ l g, load sampleGen ((initCommand sampleInit).files (initCommand sampleInit).ops.length
    fun _ => none) = .ok l ∧ (EventType.rad, g) ∈ l.gens ∧ Dist.Spec.DrawsFrom g 43 := by
  obtain ⟨gens, h⟩ := sample_gen_load
  obtain ⟨p, -, hp⟩ := c75_crash_consistent sampleInit sampleGen (fun _ => none) _ _ (by
    rintro s ⟨rfl⟩
    exact sample_nul) h sampleFinal_file rfl
  obtain ⟨-, -, -, b, g, hb, hg, hd⟩ := hp .rad (sampleFinal_enabled _)
  cases hb
  exact ⟨_, g, h, hg, hd rfl fun _ _ _ => rfl⟩

/-- Non-vacuity of `c76_same_file`: `sampleInit` and `sampleGen` are such runs. -/
example : sampleGen.text = sampleInit.text ∧ RoundTrip sampleInit.lib ∧
    Succeeded (initCommand sampleInit).stop ∧ loadParams sampleInit.rnd sampleInit.text = .ok sampleParams ∧
    given sampleParams "mc.seed" = none ∧ given sampleParams (uid .nrad) = none ∧
    given sampleParams (uid .rad) = none :=
  ⟨rfl, fun _ _ _ => rfl, sample_succeeds, sample_load, by decide +kernel, by decide +kernel,
    by decide +kernel⟩

/-- Non-vacuity of `c77_initialize` and `c77_generate`: the file that exists cannot be created again, and
there is a new one in the end. -/
example : (∀ n, (initCommand sampleInit).files (initCommand sampleInit).ops.length (fun _ => none) n ≠ none →
      sampleGen.taken n = true) ∧
    (initCommand sampleInit).files (initCommand sampleInit).ops.length (fun _ => none)
      "foam.root".toList ≠ none := by
  obtain ⟨bs, h⟩ := sample_file
  refine ⟨fun n hn => ?_, by rw [h]; simp⟩
  unfold Run.files at hn
  split_ifs at hn with hc
  · rw [hc.1, sample_run_name]; decide
  · exact absurd rfl hn

/-- A parameter file that disables all events. -/
def badText : Text := ("file.gen foam.root\nphys.sf_set prokudin\nphys.rc_method none\n" ++
  "mc.nrad.enable off\n").toList

def badParams : P :=
  provide [("file.gen", .string "foam.root".toList), ("phys.sf_set", .string "prokudin".toList),
    ("phys.rc_method", .rcMethod .none), ("mc.nrad.enable", .bool false)]

theorem bad_load : loadParams some (some badText) = .ok badParams := isVal_eq (by decide +kernel)

attribute [irreducible] badText badParams

/-- Non-vacuity of `c77_failed_leaves_file_refuted`: the file with all events disabled, corrected after
the error. -/
example : Failed (initCommand { sampleInit with text := some badText }).stop ∧
    initCommand { sampleInit with taken := fun n => n = "foam.root".toList } =
      .abort (throws ERROR_FILE_NOT_CREATED) := by
  have h2 : ∃ sf, loadSf sampleSf badParams = .ok sf := by
    have h : lookString badParams "phys.sf_set".toList = .ok "prokudin".toList :=
      isVal_eq (by decide +kernel)
    unfold loadSf
    rw [h]
    exact ⟨_, rfl⟩
  have h3 : enabledTypes badParams = .ok [] := isVal_eq (by decide +kernel)
  have h4 : initChecks badParams = .error (throws ERROR_NO_EVENT_TYPES_ENABLED) := by
    unfold initChecks
    rw [h3]
    rfl
  have h5 : actual badParams "file.gen" = some (.string "foam.root".toList) := by decide +kernel
  have h6 := c77_failed_leaves_file_refuted { sampleInit with text := some badText }
    { sampleInit with taken := fun n => n = "foam.root".toList } (fun _ => none) bad_load h2 h5 rfl h4
    sample_load sample_sf (lookString_ok.1 sample_name) (by
      intro n hn
      unfold Run.files at hn
      split_ifs at hn with hc
      · rw [hc.1]
        have : (initCommand { sampleInit with text := some badText }).name = "foam.root".toList := by
          obtain ⟨sf, h2⟩ := h2
          unfold initCommand
          simp only [show loadParams sampleInit.rnd (some badText) = .ok badParams from bad_load,
            show loadSf sampleInit.sf badParams = .ok sf from h2, lookString_ok.2 h5, h4]
          rfl
        rw [this]
        decide
      · exact absurd rfl hn)
  exact ⟨h6.1, h6.2.2⟩

/-- Non-vacuity of `c77_early_failure_partial`: a file that cannot be opened. -/
example : ∀ p, loadParams { sampleInit with text := none }.rnd { sampleInit with text := none }.text = .ok p →
    ∀ sf, loadSf sampleInit.sf p ≠ .ok sf := by
  intro p h
  cases h

/-- Non-vacuity of C78 and C79: both commands succeed; the event file has the seed that was drawn. -/
example : Succeeded (initCommand sampleInit).stop ∧
    ∃ fs f pe, Succeeded (genCommand sampleGen fs).stop ∧
      (genCommand sampleGen fs).files (genCommand sampleGen fs).ops.length fs (genCommand sampleGen fs).name =
        some f ∧
      readRoot f.params stdFormat = some pe ∧ given pe "mc.seed" = some (.seedGen [12345]) := by
  obtain ⟨l, p, f, pe, h1, -, h3, h4, h5, -⟩ := c79_record sampleGen _ sample_gen_succeeds
    (by rintro s ⟨⟩) (by rintro s ⟨⟩) (by rintro s ⟨rfl⟩; exact sample_nul)
  obtain ⟨gens, h⟩ := sample_gen_load
  rw [h] at h1
  cases h1
  exact ⟨sample_succeeds, _, f, pe, sample_gen_succeeds, h3, h4, h5⟩

end Sidis.Props
