import Verif.Model.TakeOut
import Verif.Props.OpenCuts

/-! # The output arguments of `cut::take` (C129) -/

namespace Sidis.Spec

/-- What a caller relies on for a function with two optional outputs: neither the result nor an output depends on
which other output is asked for, and a null pointer stays one. -/
def Optional {K : Type} (f : Option K → Option Fl → Cut.Out K) : Prop :=
  ∀ o j o' j', (f o j).ok = (f o' j').ok ∧ (f o j).kin = (f o j').kin ∧ (f o j).jac = (f o' j).jac ∧
    ((f o j).kin.isSome ↔ o.isSome) ∧ ((f o j).jac.isSome ↔ j.isSome)

/-- When the function returns true, the outputs that are asked for hold `kin` and `jac`, whatever they held before. -/
def Delivers {K : Type} (f : Option K → Option Fl → Cut.Out K) (kin : K) (jac : Fl) : Prop :=
  ∀ o j, (f o j).ok = true → (∀ v, (f o j).kin = some v → v = kin) ∧ ∀ v, (f o j).jac = some v → v = jac

end Sidis.Spec

namespace Sidis.Props

open Spec Cut

variable (ps : Particles Fl) (S : Fl) (cut : Cut) (cut_rad : CutRad) (kin : Kinematics Fl)

/-- C129: the outputs of `take` are optional, in all its variants. -/
theorem c129_optional (p6 : Fin 6 → Fl) (p3 : Fin 3 → Fl) (p9 : Fin 9 → Fl) :
    Optional (takePointOut ps S p6) ∧ Optional (takeOut ps S p6) ∧ Optional (takeCutOut cut ps S p6) ∧
      Optional (takePhotonOut kin p3) ∧ Optional (takePhotonKinOut kin p3) ∧
      Optional (takePhotonCutOut cut_rad kin p3) ∧ Optional (takeRadPointOut ps S p9) ∧
      Optional (takeRadOut ps S p9) ∧ Optional (takeRadCutOut cut cut_rad ps S p9) := by
  refine ⟨?_, ?_, ?_, ?_, ?_, ?_, ?_, ?_, ?_⟩ <;> intro o j o' j' <;>
    simp only [takePointOut, takeOut, takeCutOut, takePhotonOut, takePhotonKinOut, takePhotonCutOut, takeRadPointOut,
      takeRadOut, takeRadCutOut, put] <;>
    (try split_ifs) <;> simp_all

/-- C129: an accepted point is delivered with the jacobian of all its coordinates. -/
theorem c129_delivers (p6 : Fin 6 → Fl) (p3 : Fin 3 → Fl) (p9 : Fin 9 → Fl) :
    Delivers (takePointOut ps S p6) (takePoint ps S p6).kin (takePoint ps S p6).jac ∧
    Delivers (takeOut ps S p6) (.make ps S (takePoint ps S p6).kin) (takePoint ps S p6).jac ∧
    Delivers (takeCutOut cut ps S p6) (takeCut cut ps S p6).kin (takeCut cut ps S p6).jac ∧
    Delivers (takePhotonOut kin p3) (takePhoton kin p3).kin (takePhoton kin p3).jac ∧
    Delivers (takePhotonKinOut kin p3) (takePhotonKin kin p3).kin (takePhotonKin kin p3).jac ∧
    Delivers (takePhotonCutOut cut_rad kin p3) (takePhotonCut cut_rad kin p3).kin (takePhotonCut cut_rad kin p3).jac ∧
    (let k := (take ps S (head6 p9)).kin
     let jac := (take ps S (head6 p9)).jac
     Delivers (takeRadPointOut ps S p9) (takePhoton k (tail3 p9)).kin ((takePhoton k (tail3 p9)).jac * jac) ∧
     Delivers (takeRadOut ps S p9) (takePhotonKin k (tail3 p9)).kin ((takePhotonKin k (tail3 p9)).jac * jac)) ∧
    (let k := (takeCut cut ps S (head6 p9)).kin
     let jac := (takeCut cut ps S (head6 p9)).jac
     Delivers (takeRadCutOut cut cut_rad ps S p9) (takePhotonCut cut_rad k (tail3 p9)).kin
       ((takePhotonCut cut_rad k (tail3 p9)).jac * jac)) := by
  dsimp only
  refine ⟨?_, ?_, ?_, ?_, ?_, ?_, ⟨?_, ?_⟩, ?_⟩ <;> intro o j <;>
    simp only [takePointOut, takeOut, takeCutOut, takePhotonOut, takePhotonKinOut, takePhotonCutOut, takeRadPointOut,
      takeRadOut, takeRadCutOut, takePhotonKin, put] <;>
    (try split_ifs) <;> cases o <;> cases j <;> simp_all

/-- C129: a point is accepted with cuts exactly if its first coordinates and its photon are. -/
theorem c129_accepts (p : Fin 9 → Fl) (o : Option (KinematicsRad Fl)) (j : Option Fl) :
    (takeRadCutOut cut cut_rad ps S p o j).ok = true ↔
      validCut cut (takeCut cut ps S (head6 p)).kin = true ∧
      validCutRad cut_rad (takePhotonCut cut_rad (takeCut cut ps S (head6 p)).kin (tail3 p)).kin = true := by
  have e1 : (takeCut cut ps S (head6 p)).ok = validCut cut (takeCut cut ps S (head6 p)).kin := rfl
  have e2 : ∀ k q, (takePhotonCut cut_rad k q).ok = validCutRad cut_rad (takePhotonCut cut_rad k q).kin :=
    fun _ _ => rfl
  rw [← e1, ← e2]
  simp only [takeRadCutOut, takePhotonCutOut]
  split_ifs <;> simp_all

/-- C129: with one set of cuts a point is accepted exactly if it satisfies them. -/
theorem c129_accepts_one (p6 : Fin 6 → Fl) (p3 : Fin 3 → Fl) (o6 : Option (Kinematics Fl))
    (o3 : Option (KinematicsRad Fl)) (j : Option Fl) :
    ((takeCutOut cut ps S p6 o6 j).ok = true ↔ validCut cut (takeCut cut ps S p6).kin = true) ∧
    ((takePhotonCutOut cut_rad kin p3 o3 j).ok = true ↔
      validCutRad cut_rad (takePhotonCut cut_rad kin p3).kin = true) :=
  ⟨Iff.rfl, Iff.rfl⟩

/-- C129: without cuts every point is accepted, also one that is not a number. -/
theorem c129_uncut (p6 : Fin 6 → Fl) (p3 : Fin 3 → Fl) (p9 : Fin 9 → Fl) :
    (∀ o j, (takePointOut ps S p6 o j).ok = true) ∧ (∀ o j, (takeOut ps S p6 o j).ok = true) ∧
    (∀ o j, (takePhotonOut kin p3 o j).ok = true) ∧ (∀ o j, (takePhotonKinOut kin p3 o j).ok = true) ∧
    (∀ o j, (takeRadPointOut ps S p9 o j).ok = true) ∧ ∀ o j, (takeRadOut ps S p9 o j).ok = true := by
  have h1 : ∀ p, (takePoint ps S p).ok = true := fun _ => rfl
  have h2 : ∀ p, (take ps S p).ok = true := fun _ => rfl
  have h3 : ∀ k p, (takePhoton k p).ok = true := fun _ _ => rfl
  refine ⟨?_, ?_, ?_, ?_, ?_, ?_⟩ <;> intro o j <;>
    simp [takePointOut, takeOut, takePhotonOut, takePhotonKinOut, takeRadPointOut, takeRadOut, h1, h2, h3]

/-- C129: that a rejected point leaves the outputs alone holds if it is rejected for its first six of nine
coordinates. -/
theorem c129_untouched_partial (p : Fin 9 → Fl) (o : Option (KinematicsRad Fl)) (j : Option Fl)
    (h : (takeCut cut ps S (head6 p)).ok = false) :
    takeRadCutOut cut cut_rad ps S p o j = ⟨false, o, j⟩ := by
  simp [takeRadCutOut, h]

/-- C129, false as one would expect it: a point rejected for its photon overwrites both outputs, and the jacobian
lacks the factor of the first six coordinates.  Whatever the other cuts, some cut on the photon's momentum does
this at every point whose first six coordinates are accepted. -/
theorem c129_untouched_refuted (p : Fin 9 → Fl) (h : (takeCut cut ps S (head6 p)).ok = true) :
    ∃ b : Bound, ∀ o j, takeRadCutOut cut { cut_rad with lab_mom_k := b } ps S p (some o) (some j) =
      ⟨false, some (takePhotonCut cut_rad (takeCut cut ps S (head6 p)).kin (tail3 p)).kin,
        some (takePhotonCut cut_rad (takeCut cut ps S (head6 p)).kin (tail3 p)).jac⟩ := by
  set k := (takeCut cut ps S (head6 p)).kin with hk
  have hb : ∀ v : Fl, ∃ b : Bound, b.valid ∧ ¬ b.contains v := by
    intro v
    by_cases hv : v ≤ .fin 0
    · refine ⟨⟨.fin 1, .fin 2⟩, by simp [Bound.valid], fun hc => ?_⟩
      obtain ⟨hc, -⟩ := hc
      cases v <;> simp at hv hc
      linarith
    · exact ⟨⟨.fin (-1), .fin 0⟩, by simp [Bound.valid], fun hc => hv hc.2⟩
  obtain ⟨b, h1, h2⟩ := hb (takePhotonCut cut_rad k (tail3 p)).kin.k_0
  refine ⟨b, fun o j => ?_⟩
  have e : (takePhotonCut { cut_rad with lab_mom_k := b } k (tail3 p)).kin
      = (takePhotonCut cut_rad k (tail3 p)).kin := rfl
  have e' : (takePhotonCut { cut_rad with lab_mom_k := b } k (tail3 p)).jac
      = (takePhotonCut cut_rad k (tail3 p)).jac := rfl
  have hok : (takePhotonCut { cut_rad with lab_mom_k := b } k (tail3 p)).ok = false := by
    change validCutRad { cut_rad with lab_mom_k := b } (takePhotonCut cut_rad k (tail3 p)).kin = false
    unfold validCutRad
    split_ifs with g1 g2 g3 g4 g5 g6 g7 <;> first | rfl | exact absurd ⟨h1, h2⟩ g6
  simp [takeRadCutOut, takePhotonCutOut, h, ← hk, hok, e, e', put]

/-- A point whose first six coordinates are accepted. -/
example : ∃ p : Fin 9 → Fl, (takeCut noCut (finPs samplePs) (.fin 20) (head6 p)).ok = true := by
  have hv := (valid_iff sample_accepted.1).2 sample_accepted.2
  have h3 := Real.two_le_pi
  have : ∃ (p : Fin 6 → ℝ) (j : ℝ), (∀ i, 0 ≤ p i ∧ p i ≤ 1) ∧ 0 ≤ j ∧
      takeCut noCut (finPs samplePs) (.fin 20) (fun i => .fin (p i)) =
        ⟨true, .make (finPs samplePs) (.fin 20) (finPt samplePt), .fin j⟩ := by
    refine c67_complete sample_accepted.1 noCut ?_ (by norm_num [samplePt])
      (fun h => absurd h invalid_not_valid) (fun h => absurd h invalid_not_valid)
      ⟨fun h => absurd h invalid_not_valid, fun _ => ?_⟩ ⟨fun h => absurd h invalid_not_valid, fun _ => ?_⟩
    · rw [c23_cut]
      refine ⟨hv, ?_⟩
      simp only [Satisfies, cutTable, noCut, List.forall_mem_cons, invalid_not_valid, false_implies,
        List.not_mem_nil, implies_true, and_true]
    · norm_num [samplePt]; constructor <;> linarith
    · norm_num [samplePt]; constructor <;> linarith
  obtain ⟨p, j, -, -, h⟩ := this
  refine ⟨fun i => if hi : i.val < 6 then .fin (p ⟨i.val, hi⟩) else .fin 0, ?_⟩
  have e : head6 (fun i => if hi : i.val < 6 then .fin (p ⟨i.val, hi⟩) else .fin 0) = fun i => .fin (p i) := by
    funext i
    simp [head6]
  rw [e, h]

/-- And one whose first six coordinates are rejected. -/
example (p : Fin 9 → Fl) : (takeCut noCut (finPs samplePs) (.fin 0) (head6 p)).ok = false := by
  have h : ¬ validCut noCut (takeCut noCut (finPs samplePs) (.fin 0) (head6 p)).kin = true := by
    rw [c23_cut]
    rintro ⟨h, -⟩
    obtain ⟨S', pt, hS, -, ha⟩ := (c66_finite sample_accepted.1 _ _).1 h
    have := ha.S_pos
    simp at hS
    linarith
  exact Bool.eq_false_iff.2 h

end Sidis.Props
