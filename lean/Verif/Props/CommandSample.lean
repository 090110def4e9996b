import Verif.Props.Command
import Verif.Props.Density
import Verif.Props.Dist

/-!
# A concrete run of `initialize` and `generate`, which meets the hypotheses of C74 to C79
-/

namespace Sidis.Props
open Sidis.ParamStream Sidis.Codec Sidis.Format Sidis.Spec Sidis.Main Sidis.Command


/-- A parameter file with everything that is required. -/
def sampleText : Text := ("file.gen foam.root\nfile.event events.root\nmc.num_events 10\nphys.sf_set prokudin\n" ++
  "phys.rc_method approx\nphys.mass_threshold 1.07\nsetup.beam e\nsetup.beam_energy 10\nsetup.target p\n" ++
  "setup.hadron pi+\nsetup.beam_pol 0\nsetup.target_pol 0 0 0\n").toList

/-- What it says. -/
def sampleParams : P :=
  provide [("file.gen", .string "foam.root".toList), ("file.event", .string "events.root".toList),
    ("mc.num_events", .long 10), ("phys.sf_set", .string "prokudin".toList),
    ("phys.rc_method", .rcMethod .approx), ("phys.mass_threshold", .double (.fin (107 / 100))),
    ("setup.beam", .lepton .e), ("setup.beam_energy", .double (.fin 10)), ("setup.target", .nucleus .p),
    ("setup.hadron", .hadron .piP), ("setup.beam_pol", .double (.fin 0)),
    ("setup.target_pol", .vec3 (.fin 0) (.fin 0) (.fin 0))]

deriving instance DecidableEq for Params.Param
deriving instance DecidableEq for Sidis.Params

/-- The result of a computation, as something that can be decided. -/
def isVal {ε α : Type} [DecidableEq α] (e : Except ε α) (a : α) : Bool :=
  match e with
  | .ok b => b = a
  | .error _ => false

theorem isVal_eq {ε α : Type} [DecidableEq α] {e : Except ε α} {a : α} (h : isVal e a = true) :
    e = .ok a := by
  cases e with
  | error e => cases h
  | ok b => rw [of_decide_eq_true h]

theorem sample_load : loadParams some (some sampleText) = .ok sampleParams := by
  have h1 : (readStream (Codec.std some) stdFormat sampleText).1 = .ok () :=
    isVal_eq (by decide +kernel)
  have h2 : (readStream (Codec.std some) stdFormat sampleText).2 = sampleParams := by decide +kernel
  unfold loadParams
  simp only
  rw [← h2]
  generalize readStream (Codec.std some) stdFormat sampleText = r at *
  obtain ⟨a, b⟩ := r
  simp only at h1
  subst h1
  rfl

theorem sample_nul : '\x00' ∉ sampleText := by decide +kernel

attribute [irreducible] sampleParams sampleText

def sampleIn : Inputs :=
  ⟨.approx, .fin (1 / 100), .p, .e, .piP, .fin (107 / 100), .fin 10, .fin 0, (.fin 0, .fin 0, .fin 0)⟩

theorem sampleParams_std : Std sampleParams := by unfold sampleParams; exact std_provide _

theorem sampleIn_mass : sampleIn.MassOk :=
  ⟨107 / 100, rfl, by norm_num [sampleIn, Nucleus.mass, CMath.ofReal],
    by norm_num [sampleIn, Nucleus.mass, Hadron.mass, CMath.ofReal]⟩

set_option maxHeartbeats 1000000 in
theorem sampleParams_of : sampleIn.Of sampleParams := by constructor <;> decide +kernel

theorem sampleParams_density (t : EventType) : ∃ u, densityOk t sampleParams = .ok u := by
  have h0 : ∀ n ∈ ["cut.k_0_bar", "cut.tau", "cut.phi_k", "cut.R", "cut.lab.mom_k", "cut.lab.theta_k"],
      given sampleParams n = none := by decide +kernel
  have h1 : actual sampleParams "cut.k_0_bar" = some (.bound (.fin 0) .pinf) := by decide +kernel
  simp only [List.forall_mem_cons] at h0
  cases t with
  | nrad =>
    refine densityOk_nrad.2 ((c47_nrad_ctor sampleParams_std sampleParams_of).2
      ⟨sampleIn_mass, fun _ => ⟨?_, ?_⟩⟩)
    · simp only [List.forall_mem_cons]; exact h0.2
    · intro lo hi h; rw [h0.1] at h; cases h
  | rad =>
    refine densityOk_rad.2 ((c47_rad_ctor sampleParams_std sampleParams_of).2
      ⟨sampleIn_mass, by decide, ?_⟩)
    intro lo hi h
    rw [h1] at h
    cases h
    exact ⟨trivial, trivial⟩

/-- The structure functions are of no importance here. -/
noncomputable def sampleSf : SfMask.Env Unit :=
  let f : Unit → Fl := fun _ => .fin 1
  let sf : SfMask.SfSet Unit := ⟨f, f, f, f, f, f, f, f, f, f, f, f, f, f, f, f, f, f⟩
  ⟨sf, fun _ => sf, fun _ => false, fun _ => none⟩

def sampleUid : EventType → ℤ
  | .nrad => 17
  | .rad => -5

noncomputable def sampleInit : InitEnv Unit UInt8 where
  rnd := some
  text := some sampleText
  sf := sampleSf
  taken := fun _ => false
  lib := byteLib
  uid := sampleUid
  build := fun | .nrad => .none 42 | .rad => .none 43
  moves := fun | .nrad => 0 | .rad => 2
  stream := fun _ => none
  refuse := fun _ => false

noncomputable def sampleGen : GenEnv Unit UInt8 where
  rnd := some
  text := some sampleText
  sf := sampleSf
  taken := fun n => n = "foam.root".toList
  lib := byteLib
  seed := 12345
  fault := fun _ => .none
  kept := fun _ => true
  refuse := fun _ => false
  events := none
  stats := none

theorem sample_sf : ∃ sf, loadSf sampleSf sampleParams = .ok sf := by
  have h : lookString sampleParams "phys.sf_set".toList = .ok "prokudin".toList :=
    isVal_eq (by decide +kernel)
  unfold loadSf
  rw [h]
  exact ⟨_, rfl⟩

/-- The parameters `initialize` reads. -/
def sampleReads : List String := readsSf sampleParams ++ ["file.gen"] ++ readsTypes sampleParams ++
  [EventType.nrad, .rad].flatMap fun t => readsDensity t ++ readsDist t

theorem sample_types : enabledTypes sampleParams = .ok [.nrad, .rad] := isVal_eq (by decide +kernel)

theorem sample_checks : initChecks sampleParams = .ok ([.nrad, .rad], mark sampleReads sampleParams) := by
  have h2 : checkBuilders sampleParams [.nrad, .rad] = .ok () := checkBuilders_ok.2 fun t _ =>
    ⟨sampleParams_density t, by
      have : ∀ t ∈ [EventType.nrad, .rad],
          (∃ d, actual sampleParams (Density.initName t "target_eff") = some (.double d)) ∧
          (∃ d, actual sampleParams (Density.initName t "scale_exp") = some (.double d)) ∧
          ∃ d, actual sampleParams (Density.initName t "max_cells") = some (.int d) := by
        intro t ht
        simp only [List.mem_cons, List.not_mem_nil, or_false] at ht
        rcases ht with rfl | rfl
        · exact ⟨⟨.fin (95 / 100), by decide +kernel⟩, ⟨.fin (50 / 100), by decide +kernel⟩, 262144, by decide +kernel⟩
        · exact ⟨⟨.fin (50 / 100), by decide +kernel⟩, ⟨.fin (18 / 100), by decide +kernel⟩, 262144, by decide +kernel⟩
      obtain ⟨⟨a, ha⟩, ⟨b, hb⟩, c, hc⟩ := this t (by cases t <;> simp)
      unfold Density.DistParams.make
      rw [Density.double_ok.2 ⟨_, ha, rfl⟩, Density.double_ok.2 ⟨_, hb, rfl⟩, Density.int_ok.2 hc]
      exact ⟨_, rfl⟩⟩
  have h3 : complete .init (mark sampleReads sampleParams) = .ok () := isVal_eq (by decide +kernel)
  unfold initChecks
  unfold sampleReads at h3 ⊢
  simp only [sample_types, Command.std, bind, Except.bind, h2, h3]
  rw [if_neg (by decide)]

theorem sample_name : lookString sampleParams "file.gen".toList = .ok "foam.root".toList :=
  lookString_ok.2 (by decide +kernel)

theorem sample_init : initCommand sampleInit =
    (buildAll sampleInit "foam.root".toList (mark sampleReads sampleParams) [.nrad, .rad]).after .create := by
  obtain ⟨sf, hsf⟩ := sample_sf
  unfold initCommand
  rw [show loadParams sampleInit.rnd sampleInit.text = .ok sampleParams from sample_load]
  simp only [show loadSf sampleInit.sf sampleParams = .ok sf from hsf, sample_name, sample_checks]
  rfl

theorem sample_succeeds : Succeeded (initCommand sampleInit).stop := by
  rw [sample_init]
  show (buildAll sampleInit "foam.root".toList (mark sampleReads sampleParams) [.nrad, .rad]).stop = _
  decide +kernel


/-- The parameters in the generator file. -/
def sampleFoam : P := withUids sampleUid [.nrad, .rad] (mark sampleReads sampleParams)

theorem sample_file : ∃ bs, (initCommand sampleInit).files (initCommand sampleInit).ops.length
    (fun _ => none) "foam.root".toList = some ⟨bs, some (rootEntries sampleFoam)⟩ := by
  obtain ⟨p, name, ts, p', bs, h1, -, h3, -, h5, -, -, h8⟩ := init_success sample_succeeds
  rw [show loadParams sampleInit.rnd sampleInit.text = .ok sampleParams from sample_load] at h1
  cases h1
  rw [sample_name] at h3
  cases h3
  rw [sample_checks] at h5
  cases h5
  exact ⟨bs, files_done sampleInit _ h8⟩

/-- `sampleFoam` as it is read by `generate`. -/
def sampleRead : P := (readRoot (some (rootEntries sampleFoam)) stdFormat).getD stdFormat

theorem sample_read : readRoot (some (rootEntries sampleFoam)) stdFormat = some sampleRead := by
  have h : (readRoot (some (rootEntries sampleFoam)) stdFormat).isSome = true := by decide +kernel
  unfold sampleRead
  cases h1 : readRoot (some (rootEntries sampleFoam)) stdFormat with
  | none => rw [h1] at h; cases h
  | some q => rfl

/-- The parameters with the seed, then with the identifiers. -/
def sampleSeeded : P := (Params.set Val.ty sampleParams "mc.seed".toList (some (.seedGen [12345]))).2

/-- The values that are provided in the end. -/
def sampleFinal : P :=
  provide [("file.gen", .string "foam.root".toList), ("file.event", .string "events.root".toList),
    ("mc.num_events", .long 10), ("phys.sf_set", .string "prokudin".toList),
    ("phys.rc_method", .rcMethod .approx), ("phys.mass_threshold", .double (.fin (107 / 100))),
    ("setup.beam", .lepton .e), ("setup.beam_energy", .double (.fin 10)), ("setup.target", .nucleus .p),
    ("setup.hadron", .hadron .piP), ("setup.beam_pol", .double (.fin 0)),
    ("setup.target_pol", .vec3 (.fin 0) (.fin 0) (.fin 0)), ("mc.seed", .seedGen [12345]),
    ("mc.nrad.init.uid", .long 17), ("mc.rad.init.uid", .long (-5))]

theorem sample_final : [EventType.nrad, .rad].foldl (fun p t => (Params.setFromAll p
    (sampleRead.filter (((Filter.tag t.tag).and (.tag .init)).and (.tag .uid)))).2) sampleSeeded =
    sampleFinal := by decide +kernel

theorem sample_seed : takeSeed 12345 sampleParams = .ok (sampleSeeded, 12345) := isVal_eq (by decide +kernel)

attribute [irreducible] sampleFoam sampleRead sampleSeeded sampleFinal

theorem loadAll_fst {A B : Type} {Y : GenEnv A B} {f : RootFile} {foam p : P} {ts : List EventType}
    {r : P × List (EventType × Dist.Gen B)} (h : loadAll Y f foam p ts = .ok r) :
    r.1 = ts.foldl (fun p t => (Params.setFromAll p
      (foam.filter (((Filter.tag t.tag).and (.tag .init)).and (.tag .uid)))).2) p := by
  induction ts generalizing p r with
  | nil => cases h; rfl
  | cons t ts ih =>
    unfold loadAll at h
    rw [List.foldl_cons]
    generalize Params.setFromAll p _ = x at *
    obtain ⟨a, q⟩ := x
    cases a with
    | error e => cases h
    | ok u =>
      simp only at h
      obtain ⟨g, -, h⟩ := bind_ok.1 h
      obtain ⟨r', h', h⟩ := bind_ok.1 h
      cases h
      exact (ih h' :)

end Sidis.Props
