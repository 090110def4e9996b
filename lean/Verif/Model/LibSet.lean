import Verif.Model.SfMask
import Verif.Model.Tmd

/-!
# Model of the choice of structure functions by `alloc_sf`, with the classes of the libraries

`Model.SfMask` keeps only the functions of the set that `alloc_sf` makes. Here the set also has its
target, and the class found in a shared library has its place in the class hierarchy, by which
`alloc_sf` chooses how to make structure functions.
-/

namespace Sidis.LibSet

open Sidis.SfMask (SfSet Res maskLoop matchBasic maskSfSet readParts numSf)

/-- The arguments of a structure function: hadron, `x`, `z`, `Q_sq`, `ph_t_sq`. -/
abbrev Arg := Hadron × ℝ × ℝ × ℝ × ℝ

/-- `SfSet` (include/sidis/structure_function.hpp 45-85) with its member `target`. -/
structure TargetSf where
  target : Nucleus
  sf : SfSet Arg

/-- The numbers computed from distributions as structure functions. -/
def ofVals (v : Arg → SfVals) : SfSet Arg where
  F_UUL a := .fin (v a).F_UUL
  F_UUT a := .fin (v a).F_UUT
  F_UU_cos_phih a := .fin (v a).F_UU_cos_phih
  F_UU_cos_2phih a := .fin (v a).F_UU_cos_2phih
  F_UL_sin_phih a := .fin (v a).F_UL_sin_phih
  F_UL_sin_2phih a := .fin (v a).F_UL_sin_2phih
  F_UTL_sin_phih_m_phis a := .fin (v a).F_UTL_sin_phih_m_phis
  F_UTT_sin_phih_m_phis a := .fin (v a).F_UTT_sin_phih_m_phis
  F_UT_sin_2phih_m_phis a := .fin (v a).F_UT_sin_2phih_m_phis
  F_UT_sin_3phih_m_phis a := .fin (v a).F_UT_sin_3phih_m_phis
  F_UT_sin_phis a := .fin (v a).F_UT_sin_phis
  F_UT_sin_phih_p_phis a := .fin (v a).F_UT_sin_phih_p_phis
  F_LU_sin_phih a := .fin (v a).F_LU_sin_phih
  F_LL a := .fin (v a).F_LL
  F_LL_cos_phih a := .fin (v a).F_LL_cos_phih
  F_LT_cos_phih_m_phis a := .fin (v a).F_LT_cos_phih_m_phis
  F_LT_cos_2phih_m_phis a := .fin (v a).F_LT_cos_2phih_m_phis
  F_LT_cos_phis a := .fin (v a).F_LT_cos_phis

/-- `TmdSfSet(tmd_set)` (structure_function.hpp 149-155). -/
noncomputable def tmdSf (cub : Cubature2) (s : TmdSet) : TargetSf :=
  ⟨s.target, ofVals fun a => s.sf cub a.1 a.2.1 a.2.2.1 a.2.2.2.1 a.2.2.2.2⟩

/-- `GaussianTmdSfSet(tmd_set)` (structure_function.hpp 190-196). -/
noncomputable def gaussianTmdSf (s : GaussianTmdSet) : TargetSf :=
  ⟨s.target, ofVals fun a => s.sf a.1 a.2.1 a.2.2.1 a.2.2.2.1 a.2.2.2.2⟩

/-- `WwTmdSfSet(tmd_set)` (structure_function.hpp 232-238). -/
noncomputable def wwTmdSf (cub : Cubature2) (s : WwTmdSet) : TargetSf :=
  ⟨s.target, ofVals fun a => s.sf cub a.1 a.2.1 a.2.2.1 a.2.2.2.1 a.2.2.2.2⟩

/-- `GaussianWwTmdSfSet(tmd_set)` (structure_function.hpp 275-281). -/
noncomputable def gaussianWwTmdSf (s : GaussianWwTmdSet) : TargetSf :=
  ⟨s.target, ofVals fun a => s.sf a.1 a.2.1 a.2.2.1 a.2.2.2.1 a.2.2.2.2⟩

/-- The abstract classes of the library that a class in a shared library may derive from. -/
inductive LibClass where
  | sfSet | tmdSet | gaussianTmdSet | wwTmdSet | gaussianWwTmdSet
  deriving DecidableEq

/-- The base class of each of them: `class SfSet` (structure_function.hpp 45), `class TmdSet`
(tmd.hpp 26), `class GaussianTmdSet : public TmdSet` (tmd.hpp 94), `class WwTmdSet : public TmdSet`
(tmd.hpp 291), `class GaussianWwTmdSet : public GaussianTmdSet` (tmd.hpp 372). -/
def LibClass.base : LibClass → Option LibClass
  | .sfSet => none
  | .tmdSet => none
  | .gaussianTmdSet => some .tmdSet
  | .wwTmdSet => some .tmdSet
  | .gaussianWwTmdSet => some .gaussianTmdSet

/-- An object made by `sf_class->New()`: of a class that derives from `SfSet`, `TmdSet`,
`GaussianTmdSet`, `WwTmdSet` or `GaussianWwTmdSet` (the last library class on its way up), or from none
of them. Simplification: the class derives from one of them only. -/
inductive Obj where
  | sfSet (s : TargetSf)
  | tmdSet (s : TmdSet)
  | gaussianTmdSet (s : GaussianTmdSet)
  | wwTmdSet (s : WwTmdSet)
  | gaussianWwTmdSet (s : GaussianWwTmdSet)
  | other

/-- The library class that the class of an object derives from. -/
def Obj.lib : Obj → Option LibClass
  | .sfSet _ => some .sfSet
  | .tmdSet _ => some .tmdSet
  | .gaussianTmdSet _ => some .gaussianTmdSet
  | .wwTmdSet _ => some .wwTmdSet
  | .gaussianWwTmdSet _ => some .gaussianWwTmdSet
  | .other => none

/-- Walk up the base classes, `n` steps at most. -/
def derives : ℕ → Option LibClass → LibClass → Bool
  | _, none, _ => false
  | 0, some c, d => c = d
  | n + 1, some c, d => c = d || derives n c.base d

/-- ROOT's `TClass::InheritsFrom(name)`: the class itself or one of its bases has the name. -/
def Obj.inheritsFrom (o : Obj) (d : LibClass) : Bool := derives 3 o.lib d

/-- `static_cast<sf::SfSet*>` of the object. -/
def Obj.asSfSet : Obj → Res TargetSf
  | .sfSet s => .ok s
  | _ => .ub

/-- `static_cast<sf::TmdSet*>` of the object; its virtual functions are those of the class it has. -/
noncomputable def Obj.asTmdSet : Obj → Res TmdSet
  | .tmdSet s => .ok s
  | .gaussianTmdSet s => .ok s.toTmdSet
  | .wwTmdSet s => .ok s.toTmdSet
  | .gaussianWwTmdSet s => .ok s.toGaussian.toTmdSet
  | _ => .ub

/-- `static_cast<sf::GaussianTmdSet*>` of the object. -/
noncomputable def Obj.asGaussianTmdSet : Obj → Res GaussianTmdSet
  | .gaussianTmdSet s => .ok s
  | .gaussianWwTmdSet s => .ok s.toGaussian
  | _ => .ub

/-- `static_cast<sf::WwTmdSet*>` of the object. -/
def Obj.asWwTmdSet : Obj → Res WwTmdSet
  | .wwTmdSet s => .ok s
  | _ => .ub

/-- `static_cast<sf::GaussianWwTmdSet*>` of the object. -/
def Obj.asGaussianWwTmdSet : Obj → Res GaussianWwTmdSet
  | .gaussianWwTmdSet s => .ok s
  | _ => .ub

/-- Surroundings of `alloc_sf`. -/
structure Env where
  /-- the functions of `ProkudinSfSet` -/
  prokudin : SfSet Arg
  /-- `gSystem->Load(file) == 0` -/
  load : List Char → Bool
  /-- `TClass::GetClass(name)` and the object that its `New()` makes, `none` for a null pointer -/
  new : List Char → Option Obj
  /-- the cubature that `convolve` uses -/
  cub : Cubature2

/-- `TestSfSet` (include/sidis/sf_set/test.hpp 13-83): every function is 1. -/
def testSf : SfSet Arg :=
  let f : Arg → Fl := fun _ => .fin 1
  ⟨f, f, f, f, f, f, f, f, f, f, f, f, f, f, f, f, f, f⟩

/-- The structure functions made from an object of a library (main.cpp 269-317). -/
noncomputable def fromObj (env : Env) (o : Obj) : Res TargetSf :=
  if o.inheritsFrom .sfSet then o.asSfSet
  else if o.inheritsFrom .tmdSet then o.asTmdSet.bind fun s => .ok (tmdSf env.cub s)
  else if o.inheritsFrom .gaussianTmdSet then
    o.asGaussianTmdSet.bind fun s => .ok (gaussianTmdSf s)
  else if o.inheritsFrom .wwTmdSet then o.asWwTmdSet.bind fun s => .ok (wwTmdSf env.cub s)
  else if o.inheritsFrom .gaussianWwTmdSet then
    o.asGaussianWwTmdSet.bind fun s => .ok (gaussianWwTmdSf s)
  else .notFound

/-- The base structure function (main.cpp 243-318); the target of `ProkudinSfSet` is a proton
(src/sf_set/prokudin.cpp 503). -/
noncomputable def allocBase (env : Env) (target : Nucleus) (base : List Char) : Res TargetSf :=
  if base = "prokudin".toList then .ok ⟨.p, env.prokudin⟩
  else if base = "test".toList then .ok ⟨target, testSf⟩
  else if !env.load (base ++ ".so".toList) then .fileNotFound
  else
    match env.new base with
    | none => .ub
    | some o => fromObj env o

/-- `MaskSfSet(mask, sf)` (include/sidis/sf_set/mask.hpp 109-114). -/
def maskTargetSf (mask : List Bool) (s : TargetSf) : TargetSf := ⟨s.target, maskSfSet mask s.sf⟩

/-- `alloc_sf` (main.cpp 218-376) for the parameters `setup.target` and `phys.sf_set`. -/
noncomputable def alloc (env : Env) (target : Nucleus) (name : List Char) : Res TargetSf :=
  match (readParts name.length name).reverse with
  | [] => .parseError
  | base :: parts =>
    (allocBase env target base).bind fun s =>
      (maskLoop matchBasic parts (List.replicate numSf true)).bind fun mask =>
        if mask.all id then .ok s else .ok (maskTargetSf mask s)

end Sidis.LibSet
