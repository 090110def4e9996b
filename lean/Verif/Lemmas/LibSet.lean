import Verif.Spec.LibSet
import Verif.Lemmas.SfMask

/-! # Lemmas about the choice of structure functions -/

namespace Sidis.Lemmas.LibSet

open Sidis.SfMask Sidis.LibSet Sidis.Spec Sidis.Lemmas.SfMask

/-- What is found in a library, in the terms of `Model.SfMask`. -/
noncomputable def eraseObj (cub : Cubature2) : Obj → SfMask.Class Arg
  | .sfSet s => .sfSet s.sf
  | .tmdSet s => .tmd (tmdSf cub s).sf
  | .gaussianTmdSet s => .tmd (tmdSf cub s.toTmdSet).sf
  | .wwTmdSet s => .tmd (tmdSf cub s.toTmdSet).sf
  | .gaussianWwTmdSet s => .tmd (tmdSf cub s.toGaussian.toTmdSet).sf
  | .other => .other

/-- The surroundings in the terms of `Model.SfMask`. -/
noncomputable def erase (env : LibSet.Env) : SfMask.Env Arg where
  prokudin := env.prokudin
  test _ := testSf
  load := env.load
  getClass name := (env.new name).map (eraseObj env.cub)

/-- The set without its target. -/
def functions (r : Res TargetSf) : Res (SfSet Arg) := r.bind fun s => .ok s.sf

/-- Every object of a library that derives from `TmdSet` is taken as a `TmdSet`. -/
theorem fromObj_eq (env : LibSet.Env) (o : Obj) : fromObj env o =
    match o with
    | .sfSet s => .ok s
    | .tmdSet s => .ok (tmdSf env.cub s)
    | .gaussianTmdSet s => .ok (tmdSf env.cub s.toTmdSet)
    | .wwTmdSet s => .ok (tmdSf env.cub s.toTmdSet)
    | .gaussianWwTmdSet s => .ok (tmdSf env.cub s.toGaussian.toTmdSet)
    | .other => .notFound := by
  cases o <;>
    simp [fromObj, Obj.inheritsFrom, Obj.lib, derives, LibClass.base, Obj.asSfSet, Obj.asTmdSet,
      Res.bind]

theorem base_erase (env : LibSet.Env) (target : Nucleus) (base : List Char) :
    functions (LibSet.allocBase env target base) = SfMask.allocBase (erase env) target base := by
  unfold LibSet.allocBase SfMask.allocBase
  by_cases h1 : base = "prokudin".toList
  · rw [if_pos h1, if_pos h1]; rfl
  by_cases h2 : base = "test".toList
  · rw [if_neg h1, if_neg h1, if_pos h2, if_pos h2]; rfl
  rw [if_neg h1, if_neg h1, if_neg h2, if_neg h2]
  change _ = if (!env.load (base ++ ".so".toList)) = true then _ else _
  by_cases h3 : (!env.load (base ++ ".so".toList)) = true
  · rw [if_pos h3, if_pos h3]; rfl
  rw [if_neg h3, if_neg h3]
  simp only [erase]
  cases env.new base with
  | none => rfl
  | some o => cases o <;> simp [fromObj_eq, functions, Res.bind, eraseObj]

/-- The two models of `alloc_sf` agree. -/
theorem alloc_erase (env : LibSet.Env) (target : Nucleus) (name : List Char) :
    functions (alloc env target name) = allocSf (erase env) target name := by
  unfold alloc allocSf allocSfWith
  cases (readParts name.length name).reverse with
  | nil => rfl
  | cons base parts =>
    simp only [← base_erase]
    cases LibSet.allocBase env target base <;> simp only [Res.bind, functions]
    cases maskLoop matchBasic parts (List.replicate numSf true) <;> simp only [Res.bind]
    split_ifs <;> rfl

/-- The set made for a description is the base set, with some functions masked. -/
theorem alloc_base {env : LibSet.Env} {target : Nucleus} {name : List Char} {s : TargetSf}
    (h : alloc env target name = .ok s) :
    ∃ base b, baseWord name = some base ∧ LibSet.allocBase env target base = .ok b ∧
      s.target = b.target := by
  unfold alloc at h
  rw [readParts_eq _ _ le_rfl] at h
  cases hr : (spacedWords name).reverse with
  | nil => rw [hr] at h; cases h
  | cons base parts =>
    rw [hr] at h
    have hb : baseWord name = some base := by
      rw [baseWord, List.getLast?_eq_head?_reverse, hr]; rfl
    cases h1 : LibSet.allocBase env target base <;> simp only [h1, Res.bind] at h <;> try cases h
    rename_i b
    refine ⟨base, b, hb, h1, ?_⟩
    cases h2 : maskLoop matchBasic parts (List.replicate numSf true) <;>
      simp only [h2, Res.bind] at h <;> try cases h
    split_ifs at h <;> cases h <;> rfl

/-- Without filters the base set is taken as it is. -/
theorem alloc_unfiltered (env : LibSet.Env) (target : Nucleus) {name base : List Char}
    (h : Unfiltered name) (hb : baseWord name = some base) :
    alloc env target name = LibSet.allocBase env target base := by
  unfold alloc
  rw [readParts_eq _ _ le_rfl]
  obtain ⟨w, hw⟩ := List.length_eq_one_iff.mp h
  rw [baseWord, hw] at hb
  cases hb
  rw [hw]
  simp only [List.reverse_cons, List.reverse_nil, List.nil_append, maskLoop]
  cases h : LibSet.allocBase env target w <;> simp [numSf, Res.bind, h]

theorem base_library {env : LibSet.Env} {target : Nucleus} {base : List Char} {o : Obj}
    (h1 : base ≠ "prokudin".toList) (h2 : base ≠ "test".toList)
    (h3 : env.load (base ++ ".so".toList) = true) (h4 : env.new base = some o) :
    LibSet.allocBase env target base = fromObj env o := by
  rw [LibSet.allocBase, if_neg h1, if_neg h2, h3, h4]; rfl

end Sidis.Lemmas.LibSet
