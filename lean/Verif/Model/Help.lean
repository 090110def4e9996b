import Verif.Model.Terminal
import Verif.Model.Format

/-!
# Model of the help commands (app/sidisgen/main.cpp 378-426, params_format.cpp 45-349)

Texts are lists of bytes, as the widths of tables are counted in bytes; a byte is represented by the
character with its code.  The end of a line (`std::endl`) is the end of an element of the list of lines.
-/

namespace Sidis.Help

open Sidis.ParamStream Sidis.Terminal

/-- The list of the characters of a literal. -/
macro "txt" s:str : term => do
  let cs := s.getString.toList.map fun c => Lean.Syntax.mkCharLit c
  `([$(cs.toArray),*])

/-- The texts of a parameter (params.hpp 217-219). -/
structure Doc where
  usage : Text
  brief : Text
  doc : Text
  deriving DecidableEq

/-- The texts in the calls of `add_param` building `PARAMS_STD_FORMAT` (params_format.cpp 45-349), in
program order; the numbers are the lines they begin at. -/
def stdDocs : List (Text × Doc) := [
  -- 50
  (txt "version", ⟨txt "<major>.<minor>",
    txt "version of parameter file",
    txt "Forward compatibility within a major version (e.x. 1.4 -> 1.5), but not between major versions."⟩),
  -- 56
  (txt "strict", ⟨txt "<on/off>",
    txt "strictness level of parameter file",
    txt "If on, unused parameters are an error; otherwise, they are a warning. Default 'on'."⟩),
  -- 62
  (txt "file.event", ⟨txt "<file>",
    txt "ROOT file for generated events",
    txt "Path to ROOT file to be created to hold generated events. Will give error instead of overwriting an existing file."⟩),
  -- 68
  (txt "file.gen", ⟨txt "<file>",
    txt "ROOT file for generator",
    txt "Path to ROOT file to save the generator to after initialization. Will give error instead of overwriting an existing file."⟩),
  -- 74
  (txt "file.write_momenta", ⟨txt "<on/off>",
    txt "write particle momenta to file",
    txt "Should particle momenta be written to output ROOT file? Default 'off'."⟩),
  -- 80
  (txt "file.write_photon", ⟨txt "<on/off>",
    txt "write radiated photon momentum to file",
    txt "Should radiative momentum be written to output ROOT file? Default 'on'."⟩),
  -- 86
  (txt "file.write_sf_set", ⟨txt "<on/off>",
    txt "write model structure functions to file",
    txt "Should the model structure functions evaluated for each event be written to output ROOT file? Default 'off'."⟩),
  -- 92
  (txt "file.write_mc_coords", ⟨txt "<on/off>",
    txt "write internal MC coordinates to file",
    txt "Should the internal Monte-Carlo coordinates be written to output ROOT file? Default 'off'."⟩),
  -- 98
  (txt "mc.nrad.enable", ⟨txt "<on/off>",
    txt "generate non-radiative events",
    txt "Should non-radiative events be generated? Non-radiative events are those for which no real photon is radiated (including events with photon energies below the soft threshold). Default 'on'."⟩),
  -- 105
  (txt "mc.nrad.gen.rej_scale", ⟨txt "<real>",
    txt "rejection sampling for non-radiative events",
    txt "The rescaling factor used for non-radiative event weights during rejection sampling. Larger values make generation slower, but improve efficiency. Suggested between 0 and 2. Default '0'."⟩),
  -- 112
  (txt "mc.nrad.init.uid", ⟨txt "<uid>",
    txt "UID of the non-radiative generator",
    txt "Internally used UID of the generator produced during non-radiative initialization. Should not be set manually."⟩),
  -- 118
  (txt "mc.nrad.init.max_cells", ⟨txt "<int>",
    txt "max number of cells in non-radiative FOAM",
    txt "Maximum number of cells that will be created during construction of the non-radiative FOAM. Default '262144'."⟩),
  -- 124
  (txt "mc.nrad.init.target_eff", ⟨txt "<real in [0,1]>",
    txt "efficiency for non-radiative FOAM initialization",
    txt "Efficiency which the non-radiative FOAM will be constructed to achieve. Larger values may cause the initialization process to take much longer. Default value '0.95'."⟩),
  -- 131
  (txt "mc.nrad.init.scale_exp", ⟨txt "<real>",
    txt "scaling exponent for non-radiative FOAM initialization",
    txt "Estimate of the scaling exponent relating non-radiative FOAM efficiency to number of cells. Accurate value allows for faster construction of FOAM. Suggested between 0 and 2. Default '0.50'."⟩),
  -- 138
  (txt "mc.rad.enable", ⟨txt "<on/off>",
    txt "generate radiative events",
    txt "Should radiative events be generated? Radiative events are those for which a real photon is radiated with energy above the soft threshold. Default 'on'."⟩),
  -- 145
  (txt "mc.rad.gen.rej_scale", ⟨txt "<real>",
    txt "rejection sampling for radiative events",
    txt "The rescaling factor used for radiative event weights during rejection sampling. Larger values make generation slower, but improve efficiency. Suggested between 0 and 2. Default '0'."⟩),
  -- 152
  (txt "mc.rad.init.uid", ⟨txt "<uid>",
    txt "UID of the radiative generator",
    txt "Internally used UID of the generator produced during radiative initialization. Should not be set manually."⟩),
  -- 158
  (txt "mc.rad.init.max_cells", ⟨txt "<int>",
    txt "max number of cells in radiative FOAM",
    txt "Maximum number of cells that will be created during construction of the radiative FOAM. Default '262144'."⟩),
  -- 164
  (txt "mc.rad.init.target_eff", ⟨txt "<real in [0,1]>",
    txt "efficiency for radiative FOAM initialization",
    txt "Efficiency which the radiative FOAM will be constructed to achieve. Larger values may cause the initialization process to take much longer. Default value '0.50'."⟩),
  -- 171
  (txt "mc.rad.init.scale_exp", ⟨txt "<real>",
    txt "scaling exponent for radiative FOAM initialization",
    txt "Estimate of the scaling exponent relating radiative FOAM efficiency to number of cells. Accurate value allows for faster construction of FOAM. Suggested between 0 and 2. Default '0.18'."⟩),
  -- 178
  (txt "mc.num_events", ⟨txt "<int>",
    txt "number of events to generate",
    txt "Total number of events that should be generated. Events are randomly chosen to be a mixture of 'non-radiative' and 'radiative' events."⟩),
  -- 184
  (txt "mc.seed", ⟨txt "<int>, any",
    txt "seed for generated events",
    txt "The seed that will be used for generating events. If 'any', seed is chosen randomly. Default 'any'."⟩),
  -- 190
  (txt "setup.beam_energy", ⟨txt "<real (GeV)>",
    txt "lepton beam energy in the target rest frame",
    txt "Energy (in GeV) of the lepton beam in the target rest frame."⟩),
  -- 195
  (txt "setup.beam", ⟨txt "e, mu, tau",
    txt "lepton beam particle id",
    txt "Identifier for the type of particle in the lepton beam."⟩),
  -- 200
  (txt "setup.target", ⟨txt "p, n, d",
    txt "target nucleus particle id",
    txt "Identifier for the type of the target nucleus."⟩),
  -- 205
  (txt "setup.hadron", ⟨txt "pi0, pi+, pi-, K0, K+, K-",
    txt "detected hadron particle id",
    txt "Identifier for the type of the detected hadron."⟩),
  -- 210
  (txt "setup.beam_pol", ⟨txt "<real in [-1,1]>",
    txt "longitudinal polarization of beam",
    txt "Longitudinal polarization of the lepton beam."⟩),
  -- 215
  (txt "setup.target_pol", ⟨txt "<vector in unit sphere>",
    txt "polarization of target nucleus",
    txt "Polarization of the target nucleus in the target rest frame."⟩),
  -- 220
  (txt "phys.sf_set", ⟨txt "prokudin, <ROOT dict.>",
    txt "structure function parameterization",
    txt "Parameterization to use for structure functions. For energies around 10 GeV, try 'prokudin'. Provide custom parameterization by specifying a ROOT dictionary in shared library (*.so) form."⟩),
  -- 227
  (txt "phys.rc_method", ⟨txt "none, approx, exact",
    txt "radiative corrections method",
    txt "Method to use for radiative corrections. Methods are: 'none' for Born cross-section only; 'approx' for an efficient approach that is very accurate provided the soft threshold is small enough; 'exact' for the complete NLO radiative corrections. Suggested 'approx'."⟩),
  -- 235
  (txt "phys.mass_threshold", ⟨txt "<real (GeV)>",
    txt "mass threshold for SIDIS process",
    txt "Kinematic threshold mass (in GeV) of undetected particles for the SIDIS process. For example, for pion production on proton, the threshold is the mass of proton + mass of pion."⟩),
  -- 242
  (txt "phys.soft_threshold", ⟨txt "<real (GeV)>",
    txt "radiated photon soft threshold",
    txt "Radiated photon energy (in GeV) dividing non-radiative events from radiative events. Specified in reference frame `p + q - p_h = 0`. Should generally be chosen as small as possible. If too small, radiative cross-section becomes invalid. If too large, RC method 'approx' is no longer accurate. Default '0.01'."⟩),
  -- 251
  (txt "cut.k_0_bar", ⟨txt "<min (GeV)> <max (GeV)>",
    txt "bound on photon energy",
    txt "Defined in frame `p + q - p_h = 0`, same as 'phys.soft_threshold'. This cut is a pre-requisite for all other cuts on the radiated photon."⟩),
  -- 258
  (txt "cut.x", ⟨txt "<min> <max>",
    txt "bound on x",
    txt ""⟩),
  -- 262
  (txt "cut.y", ⟨txt "<min> <max>",
    txt "bound on y",
    txt ""⟩),
  -- 266
  (txt "cut.z", ⟨txt "<min> <max>",
    txt "bound on z",
    txt ""⟩),
  -- 270
  (txt "cut.ph_t_sq", ⟨txt "<min (GeV^2)> <max (GeV^2)>",
    txt "bound on p_ht^2",
    txt ""⟩),
  -- 274
  (txt "cut.phi_h", ⟨txt "<min (deg.)> <max (deg.)>",
    txt "bound on \u00cf\u0086_h",
    txt ""⟩),
  -- 278
  (txt "cut.phi", ⟨txt "<min (deg.)> <max (deg.)>",
    txt "bound on \u00cf\u0086",
    txt ""⟩),
  -- 282
  (txt "cut.Q_sq", ⟨txt "<min (GeV^2)> <max (GeV^2)>",
    txt "bound on Q^2",
    txt ""⟩),
  -- 286
  (txt "cut.W_sq", ⟨txt "<min (GeV^2)> <max (GeV^2)>",
    txt "bound on W^2",
    txt ""⟩),
  -- 290
  (txt "cut.mx_sq", ⟨txt "<min (GeV^2)> <max (GeV^2)>",
    txt "bound on m_x^2 (also known as W'^2)",
    txt ""⟩),
  -- 294
  (txt "cut.t", ⟨txt "<min (GeV^2)> <max (GeV^2)>",
    txt "bound on t",
    txt ""⟩),
  -- 298
  (txt "cut.r", ⟨txt "<min> <max>",
    txt "bound on r",
    txt ""⟩),
  -- 302
  (txt "cut.qt_to_Q", ⟨txt "<min> <max>",
    txt "bound on qt/Q",
    txt ""⟩),
  -- 306
  (txt "cut.tau", ⟨txt "<min> <max>",
    txt "bound on \u00cf\u0084",
    txt ""⟩),
  -- 310
  (txt "cut.phi_k", ⟨txt "<min> <max>",
    txt "bound on \u00cf\u0086_k",
    txt ""⟩),
  -- 314
  (txt "cut.R", ⟨txt "<min (GeV^2)> <max (GeV^2)>",
    txt "bound on R",
    txt ""⟩),
  -- 318
  (txt "cut.lab.mom_q", ⟨txt "<min (GeV)> <max (GeV)>",
    txt "bound on q momentum in lab frame",
    txt ""⟩),
  -- 322
  (txt "cut.lab.mom_k2", ⟨txt "<min (GeV)> <max (GeV)>",
    txt "bound on k_2 momentum in lab frame",
    txt ""⟩),
  -- 326
  (txt "cut.lab.mom_h", ⟨txt "<min (GeV)> <max (GeV)>",
    txt "bound on p_h momentum in lab frame",
    txt ""⟩),
  -- 330
  (txt "cut.lab.mom_k", ⟨txt "<min (GeV)> <max (GeV)>",
    txt "bound on k momentum in lab frame",
    txt ""⟩),
  -- 334
  (txt "cut.lab.theta_q", ⟨txt "<min (deg.)> <max (deg.)>",
    txt "bound on q polar angle in lab frame",
    txt ""⟩),
  -- 338
  (txt "cut.lab.theta_k2", ⟨txt "<min (deg.)> <max (deg.)>",
    txt "bound on k_2 polar angle in lab frame",
    txt ""⟩),
  -- 342
  (txt "cut.lab.theta_h", ⟨txt "<min (deg.)> <max (deg.)>",
    txt "bound on p_h polar angle in lab frame",
    txt ""⟩),
  -- 346
  (txt "cut.lab.theta_k", ⟨txt "<min (deg.)> <max (deg.)>",
    txt "bound on k polar angle in lab frame",
    txt ""⟩)]

/-- `Params::usage`, `brief` and `doc` (params.hpp 243-251): `none` when `std::map::at` throws. -/
def docAt (name : Text) : Option Doc := assoc stdDocs name

/-- The order of `std::string`. -/
def before : Text → Text → Bool
  | [], [] => false
  | [], _ :: _ => true
  | _ :: _, [] => false
  | a :: s, b :: t => if a.toNat < b.toNat then true else if b.toNat < a.toNat then false else before s t

/-- `std::set<std::string>::insert`. -/
def insertName (n : Text) : List Text → List Text
  | [] => [n]
  | m :: ms => if before n m then n :: m :: ms else if before m n then m :: insertName n ms else m :: ms

/-- `Params::names` (params.cpp 170-176) of `PARAMS_STD_FORMAT`. -/
def names : List Text := (Format.stdEntries.map Prod.fst).foldl (fun ns n => insertName n ns) []

/-- What is written to the terminal. -/
inductive Out where
  /-- these lines -/
  | lines (l : List Text)
  /-- `std::map::at` throws -/
  | throws
  /-- still writing -/
  | running
  deriving DecidableEq

/-- Some lines followed by a table; the result of `write_table` is ignored. -/
def withTable (header : List Text) : TableRes → Out
  | .refused => .lines header
  | .lines l => .lines (header ++ l)
  | .running => .running

/-- `command_help` (main.cpp 378-393). -/
def commandHelp : List Text := [
  txt "Usage:",
  txt "  Prepare FOAM for Monte-Carlo generation",
  txt "    sidisgen initialize <parameter file>",
  txt "  Generate events",
  txt "    sidisgen generate <parameter file>",
  txt "  List parameters used to produce file",
  txt "    sidisgen inspect <output file>",
  txt "  Merge multiple event files into one",
  txt "    sidisgen merge-soft <output file> <input files>",
  txt "    sidisgen merge-hard <output file> <input files>",
  txt "  Show parameter file format information",
  txt "    sidisgen help params"]

/-- `command_help_params` (main.cpp 395-409). -/
def commandHelpParams (fuel : ℕ) : Out :=
  match names.mapM fun n => (docAt n).map fun d => [n, d.usage] with
  | none => .throws
  | some entries => withTable
    [txt "Parameter file format summary.",
      txt "For more details, try `sidisgen help <param name>`.", []]
    (writeTable fuel entries.flatten [24, 42] 4)

/-- `command_help_param` (main.cpp 411-426). -/
def commandHelpParam (fuel : ℕ) (name : Text) : Out :=
  if name ∈ names then
    match docAt name with
    | none => .throws
    | some d => withTable []
      (writeTable fuel
        [txt "Summary", d.brief, txt "Key", name, txt "Value", d.usage, txt "Info", d.doc]
        [7, 59] 4)
  else .lines commandHelp

end Sidis.Help
