import Verif.Spec.SfMask
import Verif.Model.LibSet

/-! # Which structure functions a description stands for -/

namespace Sidis.Spec

open Sidis.SfMask Sidis.LibSet

/-- The last word of a description, which names the set of structure functions. -/
def baseWord (name : List Char) : Option (List Char) := (spacedWords name).getLast?

/-- The description names a shared library whose class makes an object. -/
def NamesLibrary (env : LibSet.Env) (name : List Char) (o : Obj) : Prop :=
  ∃ base, baseWord name = some base ∧ base ≠ "prokudin".toList ∧ base ≠ "test".toList ∧
    env.load (base ++ ".so".toList) = true ∧ env.new base = some o

/-- The description has no filter: it is a single word. -/
def Unfiltered (name : List Char) : Prop := (spacedWords name).length = 1

/-- The structure functions that belong to an object of a library, by the documentation of the classes
that make structure functions from distributions (structure_function.hpp 140-148, 183-189, 225-231,
267-274): those with closed forms for Gaussian distributions, those with the Wandzura-Wilczek
approximation for distributions in this approximation. -/
noncomputable def intended (cub : Cubature2) : Obj → Option TargetSf
  | .sfSet s => some s
  | .tmdSet s => some (tmdSf cub s)
  | .gaussianTmdSet s => some (gaussianTmdSf s)
  | .wwTmdSet s => some (wwTmdSf cub s)
  | .gaussianWwTmdSet s => some (gaussianWwTmdSf s)
  | .other => none

/-- The object gives the Gaussian distributions `g`. -/
def GivesGaussian (o : Obj) (g : GaussianTmdSet) : Prop :=
  o = .gaussianTmdSet g ∨ ∃ s, o = .gaussianWwTmdSet s ∧ g = s.toGaussian

end Sidis.Spec
