import Verif.Spec.OpenCuts
import Verif.Props.CutRad

/-! # Cuts that cut nothing, and the variants of `take` (C127) -/

namespace Sidis.Props

open Spec VarMap

private theorem inter_cases (a b : Bound) : a.inter b = .invalid ∨ (a.inter b).valid := by
  unfold Bound.inter
  simp only []
  split_ifs with h1 h2
  · exact Or.inl rfl
  · exact Or.inr h2
  · exact Or.inl rfl

open Classical in
private theorem inter_open {b c : Bound} (hb : b = .invalid ∨ b.valid) (hc : Open c) :
    (if c.valid then b.inter c else b) = b := by
  by_cases h : c.valid
  · obtain rfl := hc.resolve_left (not_not.2 h)
    rw [if_pos h]
    rcases hb with rfl | hb
    · simp [Bound.inter, Bound.invalid]
    · obtain ⟨u, v⟩ := b
      have hb' : u ≤ v := hb
      simp only [Bound.inter]
      cases u <;> cases v <;> simp_all [Fl.fmax, Fl.fmin]
  · rw [if_neg h]

private theorem open_contains {b : Bound} (h : Open b) {v : Fl} (hv : ¬ v.isNaN) (hb : b.valid) : b.contains v := by
  obtain rfl := h.resolve_left (not_not.2 hb)
  cases v <;> simp_all [Bound.contains]

/-- C127: with cuts that let every number pass, `take(cut, ...)` returns the same points and jacobians as the
`take` without cuts, and accepts the valid ones. -/
theorem c127_open (cut : Cut) (h : OpenCut cut) (ps : Particles Fl) (S : Fl) (p : Fin 6 → Fl) :
    SamePoint (Cut.takeCut cut ps S p) (Cut.take ps S p) ∧
      (Cut.takeCut cut ps S p).ok = Cut.valid (Cut.take ps S p).kin := by
  classical
  obtain ⟨hx, hy, hz, ht, hn⟩ := h
  simp only [NoCut, cutBounds, List.drop_succ_cons, List.drop_zero, List.forall_mem_cons, List.not_mem_nil,
    false_implies, implies_true, and_true] at hn
  have ex : Cut.xBoundCut cut ps S = Cut.xBound ps S := by
    unfold Cut.xBoundCut
    simp only [hn.2.2.1, hn.2.2.2.2.1, if_false]
    exact inter_open (inter_cases _ _) hx
  have ey : ∀ x, Cut.yBoundCut cut ps S x = Cut.yBound ps S x := fun x => by
    unfold Cut.yBoundCut
    simp only [hn.2.2.1, hn.2.2.2.2.1, if_false]
    exact inter_open (inter_cases _ _) hy
  have ez : ∀ x y, Cut.zBoundCut cut ps S x y = Cut.zBound ps S x y := fun x y =>
    inter_open (inter_cases _ _) hz
  have et : ∀ x y z, Cut.phTSqBoundCut cut ps S x y z = Cut.phTSqBound ps S x y z := fun x y z =>
    inter_open (inter_cases _ _) ht
  have ek : SamePoint (Cut.takeCut cut ps S p) (Cut.take ps S p) := by
    simp only [SamePoint, Cut.takeCut, Cut.take, Cut.takePoint, ex, ey, ez, et, hn.1, hn.2.1, if_false, and_self]
  refine ⟨ek, ?_⟩
  change Cut.validCut cut (Cut.takeCut cut ps S p).kin = _
  rw [ek.1, Bool.eq_iff_iff, c23_cut]
  refine ⟨And.left, fun hv => ⟨hv, ?_⟩⟩
  have hv' := (valid_iff_and _).1 hv
  simp only [Satisfies, cutTable, List.forall_mem_cons, List.not_mem_nil, false_implies, implies_true, and_true, hn]
  have nn : ∀ {a b : Fl}, a ≤ b → ¬ b.isNaN := fun {a b} h => by cases b <;> simp_all
  exact ⟨open_contains hx (nn hv'.2.1.1), open_contains hy (nn hv'.2.2.1.1), open_contains hz (nn hv'.2.2.2.1.1),
    open_contains ht (nn hv'.2.2.2.2.1)⟩

/-- C127: in particular, without any cut. -/
theorem c127_none (cut : Cut) (h : NoCut (cutBounds cut)) (ps : Particles Fl) (S : Fl) (p : Fin 6 → Fl) :
    SamePoint (Cut.takeCut cut ps S p) (Cut.take ps S p) ∧
      (Cut.takeCut cut ps S p).ok = Cut.valid (Cut.take ps S p).kin :=
  c127_open cut ⟨Or.inl (h _ (by simp [cutBounds])), Or.inl (h _ (by simp [cutBounds])),
    Or.inl (h _ (by simp [cutBounds])), Or.inl (h _ (by simp [cutBounds])),
    fun b hb => h b (List.mem_of_mem_drop hb)⟩ ps S p

/-- C127: so for photons, with cuts that let every number pass on `tau` and no others. -/
theorem c127_photon (cut : CutRad) (h : Open cut.tau ∧ NoCut ((cutRadBounds cut).drop 1)) (kin : Kinematics Fl)
    (p : Fin 3 → Fl) :
    SamePoint (Cut.takePhotonCut cut kin p) (Cut.takePhotonKin kin p) ∧
      (Cut.takePhotonCut cut kin p).ok = Cut.validRad (Cut.takePhotonKin kin p).kin := by
  classical
  obtain ⟨hx, hn⟩ := h
  simp only [NoCut, cutRadBounds, List.drop_succ_cons, List.drop_zero, List.forall_mem_cons, List.not_mem_nil,
    false_implies, implies_true, and_true] at hn
  have ex : Cut.tauBoundCut cut kin = Cut.tauBound kin := inter_open (inter_cases _ _) hx
  have ey : ∀ t f, Cut.RBoundCut cut kin t f = Cut.RBound kin t f := fun t f => by
    simp only [Cut.RBoundCut, hn.2.1, hn.2.2.1, if_false]
  have ek : SamePoint (Cut.takePhotonCut cut kin p) (Cut.takePhotonKin kin p) := by
    simp only [SamePoint, Cut.takePhotonCut, Cut.takePhotonKin, Cut.takePhoton, ex, ey, hn.1, if_false, and_self]
  refine ⟨ek, ?_⟩
  change Cut.validCutRad cut (Cut.takePhotonCut cut kin p).kin = _
  rw [ek.1, Bool.eq_iff_iff, c23_cut_rad]
  refine ⟨And.left, fun hv => ⟨hv, ?_⟩⟩
  have hv' := (validRad_iff_and _).1 hv
  simp only [Satisfies, cutRadTable, List.forall_mem_cons, List.not_mem_nil, false_implies, implies_true, and_true, hn]
  have nn : ∀ {a b : Fl}, a ≤ b → ¬ b.isNaN := fun {a b} h => by cases b <;> simp_all
  exact open_contains hx (nn hv'.2.1.1)

/-- C127: the variants of `take` for nine coordinates agree: the one for kinematics describes the point that the
other returns, with the same jacobian. -/
theorem c127_variants (ps : Particles Fl) (S : Fl) (p : Fin 9 → Fl) :
    let t := Cut.takeRad ps S p
    let q := Cut.takeRadPoint ps S p
    t.ok = q.ok ∧ t.jac = q.jac ∧
      t.kin = .make (.make ps S ⟨q.kin.x, q.kin.y, q.kin.z, q.kin.ph_t_sq, q.kin.phi_h, q.kin.phi⟩)
        q.kin.tau q.kin.phi_k q.kin.R :=
  ⟨rfl, rfl, rfl⟩

/-- A cut on an angle that lets every number pass. -/
def angleCut (b : Bound) : Cut :=
  ⟨.invalid, .invalid, .invalid, .invalid, b, .invalid, .invalid, .invalid, .invalid, .invalid, .invalid, .invalid,
    .invalid, .invalid, .invalid, .invalid, .invalid, .invalid⟩

/-- C127, refuted for angles: a cut on `phi_h` from minus to plus infinity excludes no point, and `take` rejects
every one. -/
theorem c127_angle_refuted :
    (∀ kin, Cut.validCut (angleCut ⟨.ninf, .pinf⟩) kin = Cut.valid kin) ∧
    ∀ ps S p, (Cut.takeCut (angleCut ⟨.ninf, .pinf⟩) ps S p).ok = false := by
  classical
  have hi : ¬ Bound.invalid.valid := by simp [Bound.invalid, Bound.valid]
  have hf : Bound.valid ⟨.ninf, .pinf⟩ := by simp [Bound.valid]
  refine ⟨fun kin => ?_, fun ps S p => ?_⟩
  · rw [Bool.eq_iff_iff, c23_cut]
    refine ⟨And.left, fun hv => ⟨hv, ?_⟩⟩
    have hv' := (valid_iff_and _).1 hv
    simp only [Satisfies, cutTable, angleCut, List.forall_mem_cons, List.not_mem_nil, false_implies, implies_true,
      and_true, hi]
    simp only [true_and]
    refine open_contains (Or.inr rfl) ?_
    have := hv'.2.2.2.2.2.1
    cases h : kin.phi_h <;> simp_all
  · rw [← Bool.not_eq_true]
    intro hok
    have hv := (valid_iff_and _).1 ((c23_cut _ _).1 hok).1
    have hph := hv.2.2.2.2.2.1
    change (VarMap.linear.apply (p 4) (if Bound.valid ⟨.ninf, .pinf⟩ then ⟨.ninf, .pinf⟩ else _)).1.isFinite at hph
    rw [if_pos hf] at hph
    simp only [VarMap.apply, linear, Bound.mk', Fl.ninf_le_pinf, not_true_eq_false, if_false, Bound.lerp] at hph
    revert hph
    cases p 4 with
    | nan => simp
    | pinf => simp
    | ninf => simp
    | fin r =>
      simp only [Fl.sub_fin, Fl.fin_mul_ninf, Fl.fin_mul_pinf, Fl.infTimes]
      split_ifs <;> simp

private theorem twice_fin (u : Fl) (r : ℝ) : u * .fin (2 * r) = .fin 2 * (u * .fin r) := by
  have e : Fl.infTimes (2 * r) = Fl.infTimes r := by
    have h1 : (0 < 2 * r) = (0 < r) := propext (by constructor <;> intro h <;> linarith)
    have h2 : (2 * r < 0) = (r < 0) := propext (by constructor <;> intro h <;> linarith)
    simp only [Fl.infTimes, h1, h2]
  have e' : Fl.infTimes (-(2 * r)) = Fl.infTimes (-r) := by
    have h1 : (0 < -(2 * r)) = (0 < -r) := propext (by constructor <;> intro h <;> linarith)
    have h2 : (-(2 * r) < 0) = (-r < 0) := propext (by constructor <;> intro h <;> linarith)
    simp only [Fl.infTimes, h1, h2]
  have t : ∀ s : ℝ, Fl.fin 2 * Fl.infTimes s = Fl.infTimes s := fun s => by
    simp only [Fl.infTimes]
    split_ifs <;> simp [Fl.infTimes]
  cases u with
  | nan => rfl
  | fin a => simp only [Fl.mul_fin, Fl.fin.injEq]; ring
  | pinf => simp only [Fl.pinf_mul_fin, e, t]
  | ninf => simp only [Fl.ninf_mul_fin, e', t]

private theorem fin_assoc (u : Fl) {r s : ℝ} (hr : 0 < r) (hs : 0 < s) :
    u * .fin r * .fin s = u * .fin (r * s) := by
  cases u with
  | nan => rfl
  | fin a => simp only [Fl.mul_fin, Fl.fin.injEq]; ring
  | pinf => simp only [Fl.pinf_mul_fin, Fl.infTimes_pos hr, Fl.infTimes_pos hs, Fl.infTimes_pos (mul_pos hr hs)]
  | ninf =>
    have : -(r * s) < 0 := by have := mul_pos hr hs; linarith
    simp only [Fl.ninf_mul_fin, Fl.infTimes_neg (neg_neg_of_pos hr), Fl.infTimes_neg (neg_neg_of_pos hs),
      Fl.infTimes_neg this]

/-- C127, refuted for angles: a cut on `phi_h` from `-π` to `3π` contains every angle that is sampled without cuts,
and doubles the jacobian: the same directions are counted twice. -/
theorem c127_wide_angle_refuted (ps : Particles Fl) (S : Fl) (p : Fin 6 → Fl) :
    let cut := angleCut ⟨.fin (-Real.pi), .fin (3 * Real.pi)⟩
    (Cut.takeCut cut ps S p).jac = .fin 2 * (Cut.take ps S p).jac ∧
      ((∃ r : ℝ, p 4 = .fin r ∧ 0 ≤ r ∧ r ≤ 1) →
        Cut.validCut cut (Cut.take ps S p).kin = Cut.valid (Cut.take ps S p).kin) := by
  classical
  intro cut
  have hp := Real.pi_pos
  have hi : ¬ Bound.invalid.valid := by simp [Bound.invalid, Bound.valid]
  have hf : Bound.valid ⟨.fin (-Real.pi), .fin (3 * Real.pi)⟩ := by
    simp only [Bound.valid, Fl.le_fin]; linarith
  have l1 : ∀ q, (VarMap.linear.apply q ⟨.fin (-Real.pi), .fin (3 * Real.pi)⟩).2 = .fin (2 * (2 * Real.pi)) := by
    intro q
    have : ¬ ¬ (-Real.pi ≤ 3 * Real.pi) := not_not.2 (by linarith)
    simp only [VarMap.apply, linear, Bound.mk', Fl.le_fin, this, if_false, Bound.size, Fl.sub_fin]
    change Fl.fin 1 * _ = _
    rw [Fl.mul_fin]
    congr 1
    ring
  have l2 : ∀ q, (VarMap.linear.apply q Cut.fullCircle).2 = .fin (2 * Real.pi) := by
    intro q
    have : ¬ ¬ (-Real.pi ≤ Real.pi) := not_not.2 (by linarith)
    rw [fullCircle_eq]
    simp only [VarMap.apply, linear, Bound.mk', Fl.le_fin, this, if_false, Bound.size, Fl.sub_fin]
    change Fl.fin 1 * _ = _
    rw [Fl.mul_fin]
    congr 1
    ring
  refine ⟨?_, fun hq => ?_⟩
  · simp only [cut, angleCut, Cut.takeCut, Cut.take, Cut.takePoint, Cut.xBoundCut, Cut.yBoundCut, Cut.zBoundCut,
      Cut.phTSqBoundCut, hi, hf, if_false, if_true, l1, l2]
    rw [fin_assoc _ (by positivity) (by positivity), fin_assoc _ (by positivity) (by positivity), mul_assoc 2,
      twice_fin]
  · obtain ⟨r, hr, h0, h1⟩ := hq
    rw [Bool.eq_iff_iff, c23_cut]
    refine ⟨And.left, fun hv => ⟨hv, ?_⟩⟩
    simp only [Satisfies, cutTable, cut, angleCut, List.forall_mem_cons, List.not_mem_nil, false_implies,
      implies_true, and_true, hi]
    simp only [true_and]
    intro _
    change Bound.contains _ (VarMap.linear.apply (p 4) Cut.fullCircle).1
    have : ¬ ¬ (-Real.pi ≤ Real.pi) := not_not.2 (by linarith)
    rw [fullCircle_eq, hr]
    simp only [VarMap.apply, linear, Bound.mk', Fl.le_fin, this, if_false, Bound.lerp, Fl.sub_fin, Fl.mul_fin,
      Fl.add_fin, Bound.contains]
    constructor <;> nlinarith

/-- The cuts of the theorems exist: none at all, and one on `x` that lets every number pass. -/
example : NoCut (cutBounds (angleCut .invalid)) ∧ OpenCut { angleCut .invalid with x := ⟨.ninf, .pinf⟩ } := by
  have hi : ¬ Bound.invalid.valid := by simp [Bound.invalid, Bound.valid]
  refine ⟨?_, Or.inr rfl, Or.inl hi, Or.inl hi, Or.inl hi, ?_⟩ <;>
    simp [NoCut, cutBounds, angleCut, hi]

end Sidis.Props
