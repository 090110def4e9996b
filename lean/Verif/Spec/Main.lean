import Verif.Model.Main

/-!
# Vocabulary for C63: the documented command lines
-/

namespace Sidis.Main.Spec

open Sidis.ParamStream

/-- The ways to spell a command: its name, its name with two dashes, a short option. -/
def Spells (name : String) (short : Option String) (s : Text) : Prop :=
  s = name.toList ∨ s = '-' :: '-' :: name.toList ∨ ∃ o, short = some o ∧ s = o.toList

/-- The command lines (`prog` is the name of the program). -/
inductive Selects : List Text → Command → Prop
  | help {prog s} : Spells "help" (some "-?") s → Selects [prog, s] .help
  | helpParams {prog s rest} : Spells "help" (some "-?") s →
      Selects (prog :: s :: "params".toList :: rest) .helpParams
  | helpParam {prog s t rest} : Spells "help" (some "-?") s → t ≠ "params".toList →
      Selects (prog :: s :: t :: rest) (.helpParam t)
  | version {prog s rest} : Spells "version" (some "-v") s → Selects (prog :: s :: rest) .version
  | inspect {prog s f} : Spells "inspect" (some "-i") s → Selects [prog, s, f] (.inspect f)
  | init {prog s f} : Spells "initialize" none s → Selects [prog, s, f] (.init f)
  | generate {prog s f} : Spells "generate" (some "-g") s → Selects [prog, s, f] (.generate f)
  | mergeSoft {prog s out f fs} : Spells "merge-soft" none s →
      Selects (prog :: s :: out :: f :: fs) (.mergeSoft out (f :: fs))
  | mergeHard {prog s out f fs} : Spells "merge-hard" none s →
      Selects (prog :: s :: out :: f :: fs) (.mergeHard out (f :: fs))

end Sidis.Main.Spec
