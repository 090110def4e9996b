import Verif.Model.MergeSoft
import Verif.Spec.Command

/-! # Event files: vocabulary for C88 and C89 -/

namespace Sidis.Spec

open Sidis.ParamStream Sidis.Codec Sidis.Format Sidis.Command Sidis.Gen

variable {E S : Type} [StatsLib S]

/-- The parameters in the file `n`. -/
def HasParams (fs : EFS E) (n : Text) (p : P) : Prop :=
  ∃ f, fs n = some f ∧ readRoot f.params stdFormat = some p

/-- The statistics in the file `n`. -/
def HasStats (fs : EFS E) (n : Text) (a : IntegratorArray S) : Prop :=
  ∃ f, fs n = some f ∧ Integs.read f.stats = .val a

/-- The file `n` has a tree with these events. -/
def HasTree (fs : EFS E) (n : Text) (rows : List E) : Prop :=
  ∃ f, fs n = some f ∧ f.events = .tree rows

/-- The events one sees in the file `n`: those of its tree, or those of the trees of the files in its
chain, one after the other. -/
def Sees (fs : EFS E) (n : Text) (rows : List E) : Prop :=
  HasTree fs n rows ∨ ∃ f files parts, fs n = some f ∧ f.events = .chain files ∧
    List.Forall₂ (HasTree fs) files parts ∧ rows = parts.flatten

end Sidis.Spec
