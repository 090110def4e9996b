import Verif.Lemmas.LibSet
import Verif.Props.Tmd

/-!
# C115, C116: the structure functions of a run

`baseWord`, `NamesLibrary`, `Unfiltered` and `intended` are in `Verif.Spec.LibSet`.
-/

namespace Sidis.Props

open MeasureTheory Real
open Sidis.SfMask (Res)
open Sidis.LibSet Sidis.Spec Sidis.Spec.Tmd Sidis.Lemmas Sidis.Lemmas.LibSet

/-- C115: structure functions should be for the target of the run. Proved: filters never change the
target; the test functions are for the target of the run, the Prokudin functions for a proton, those of a
library for the target that the library chose. Missing, and false in the code (`c115_refuted`): that the
last two are the target of the run. -/
theorem c115_target_partial (env : Env) (target : Nucleus) (name : List Char) (s : TargetSf)
    (h : alloc env target name = .ok s) :
    (baseWord name = some "test".toList → s.target = target) ∧
    (baseWord name = some "prokudin".toList → s.target = .p) ∧
    ∀ o, NamesLibrary env name o → ∃ i, intended env.cub o = some i ∧ s.target = i.target := by
  obtain ⟨base, b, h1, h2, h3⟩ := alloc_base h
  refine ⟨fun ht => ?_, fun hp => ?_, ?_⟩
  · rw [h1, Option.some.injEq] at ht
    rw [ht, LibSet.allocBase, if_neg (by decide), if_pos rfl] at h2
    cases h2
    exact h3
  · rw [h1, Option.some.injEq] at hp
    rw [hp, LibSet.allocBase, if_pos rfl] at h2
    cases h2
    exact h3
  · rintro o ⟨base', g1, g2, g3, g4, g5⟩
    rw [h1, Option.some.injEq] at g1
    subst g1
    rw [base_library g2 g3 g4 g5, fromObj_eq] at h2
    cases o <;> cases h2 <;> exact ⟨_, rfl, h3⟩

/-- C115, refuted: the structure functions are not always for the target of the run. With a target other
than a proton, `prokudin` gives structure functions of the proton, without an error. -/
theorem c115_refuted (env : Env) (target : Nucleus) (ht : target ≠ .p) :
    ∃ s, alloc env target "prokudin".toList = .ok s ∧ s.target ≠ target := by
  refine ⟨⟨.p, env.prokudin⟩, ?_, ht.symm⟩
  rw [alloc_unfiltered env target (base := "prokudin".toList) (by unfold Unfiltered; decide +kernel)
    (by decide +kernel), LibSet.allocBase, if_pos rfl]

/-- C115: the target of the run is not looked at at all, unless the set is `test`: what `alloc_sf` does,
errors included, is the same for every target. -/
theorem c115_unchecked_refuted (env : Env) (t t' : Nucleus) (name : List Char)
    (h : baseWord name ≠ some "test".toList) : alloc env t name = alloc env t' name := by
  unfold alloc
  rw [SfMask.readParts_eq _ _ le_rfl]
  cases hr : (spacedWords name).reverse with
  | nil => rfl
  | cons base parts =>
    have hb : baseWord name = some base := by
      rw [baseWord, List.getLast?_eq_head?_reverse, hr]; rfl
    have hne : base ≠ "test".toList := fun e => h (e ▸ hb)
    have : LibSet.allocBase env t base = LibSet.allocBase env t' base := by
      simp only [LibSet.allocBase, if_neg hne]
    simp only [this]

example : baseWord "leading  uu test ".toList = some "test".toList := by decide +kernel
example : baseWord "leading mylib".toList ≠ some "test".toList := by decide +kernel

/-- Gaussian distributions of one flavour for the examples. -/
private noncomputable def oneFlavor : GaussianTmdSet where
  flavorCount := 1
  target := .n
  charge _ := 1
  meanTmd _ _ := some 1
  meanFf _ _ := some 1
  tmd _ _ _ _ := 1
  ff _ _ _ _ _ := 1

/-- A library with them. -/
private noncomputable def libEnv (cub : Cubature2) : Env where
  prokudin := testSf
  load f := f = "mylib.so".toList
  new c := if c = "mylib".toList then some (.gaussianTmdSet oneFlavor) else none
  cub := cub

private theorem libEnv_names (cub : Cubature2) :
    NamesLibrary (libEnv cub) "mylib".toList (.gaussianTmdSet oneFlavor) :=
  ⟨"mylib".toList, by decide +kernel, by decide, by decide, by simp [libEnv], by simp [libEnv]⟩

example (cub : Cubature2) : alloc (libEnv cub) .p "mylib".toList =
    .ok (tmdSf cub oneFlavor.toTmdSet) := by
  rw [alloc_unfiltered _ _ (base := "mylib".toList) (by unfold Unfiltered; decide +kernel)
    (by decide +kernel), base_library (o := .gaussianTmdSet oneFlavor) (by decide) (by decide)
    (by simp [libEnv]) (by simp [libEnv]), fromObj_eq]
  rfl

/-- C116: a library of distributions should be given the structure functions meant for its kind. Proved: a
class of no kind is refused; all others are accepted, with the target they have; and a class of structure
functions, of general distributions or of distributions in the Wandzura-Wilczek approximation gets the
structure functions meant for it (the last if the cubature of zero is zero). Missing, and false in the code
(`c116_refuted`): the same for Gaussian distributions. -/
theorem c116_kind_partial (env : Env) (target : Nucleus) (name : List Char) (o : Obj)
    (h : Unfiltered name) (ho : NamesLibrary env name o) :
    (intended env.cub o = none → alloc env target name = .notFound) ∧
    ∀ i, intended env.cub o = some i → ∃ s, alloc env target name = .ok s ∧ s.target = i.target ∧
      ((∀ g, ¬ GivesGaussian o g) → (∀ lo hi, env.cub (fun _ => 0) lo hi = 0) → s = i) := by
  obtain ⟨base, h1, h2, h3, h4, h5⟩ := ho
  rw [alloc_unfiltered env target h h1, base_library h2 h3 h4 h5, fromObj_eq]
  cases o with
  | sfSet s => exact ⟨nofun, fun i hi => ⟨s, rfl, by cases hi; rfl, fun _ _ => by cases hi; rfl⟩⟩
  | tmdSet s => exact ⟨nofun, fun i hi => ⟨_, rfl, by cases hi; rfl, fun _ _ => by cases hi; rfl⟩⟩
  | gaussianTmdSet s =>
    exact ⟨nofun, fun i hi => ⟨_, rfl, by cases hi; rfl, fun hg _ => absurd (.inl rfl) (hg s)⟩⟩
  | gaussianWwTmdSet s =>
    exact ⟨nofun, fun i hi => ⟨_, rfl, by cases hi; rfl,
      fun hg _ => absurd (.inr ⟨s, rfl, rfl⟩) (hg s.toGaussian)⟩⟩
  | wwTmdSet s =>
    refine ⟨nofun, fun i hi => ⟨_, rfl, by cases hi; rfl, fun _ hc => ?_⟩⟩
    cases hi
    simp only [tmdSf, wwTmdSf, c59_ww hc]
    rfl
  | other => exact ⟨fun _ => rfl, nofun⟩

/-- For Gaussian distributions, the structure functions are those of `TmdSfSet`, instead of the closed forms,
of which the intended ones are. -/
private theorem gaussian_alloc {env : Env} (target : Nucleus) {name : List Char} {o : Obj} {g : GaussianTmdSet}
    (h : Unfiltered name) (ho : NamesLibrary env name o) (hg : GivesGaussian o g) :
    alloc env target name = .ok (tmdSf env.cub g.toTmdSet) ∧
      intended env.cub o = some (gaussianTmdSf g) := by
  obtain ⟨base, h1, h2, h3, h4, h5⟩ := ho
  rw [alloc_unfiltered env target h h1, base_library h2 h3 h4 h5, fromObj_eq]
  rcases hg with rfl | ⟨s, rfl, rfl⟩
  · exact ⟨rfl, rfl⟩
  · refine ⟨rfl, ?_⟩
    simp only [intended, gaussianWwTmdSf, gaussianTmdSf, c59_gaussian_ww]
    rfl

/-- C116: for Gaussian distributions and an exact cubature, the unpolarised structure function differs from
the closed form at most by an amount that falls like a Gaussian. -/
theorem c116_gaussian_partial (env : Env) (target : Nucleus) (name : List Char) (o : Obj)
    (g : GaussianTmdSet) (h : Unfiltered name) (ho : NamesLibrary env name o) (hg : GivesGaussian o g)
    (hc : Exact env.cub) (hs : PosWidths g) (mt mf : ℕ → ℝ) (ht : ∀ fl, g.meanTmd .f1 fl = some (mt fl))
    (hf : ∀ fl, g.meanFf .D1 fl = some (mf fl)) :
    ∃ s i, alloc env target name = .ok s ∧ intended env.cub o = some i ∧
      ∀ (had : Hadron) (x z Q_sq ph_t_sq : ℝ), 0 < z → 0 ≤ ph_t_sq →
        ∃ a b, s.sf.F_UUT (had, x, z, Q_sq, ph_t_sq) = .fin a ∧
          i.sf.F_UUT (had, x, z, Q_sq, ph_t_sq) = .fin b ∧
          |a - b| ≤ ∑ fl ∈ Finset.range g.flavorCount, g.charge fl ^ 2 * |g.tmd .f1 fl x Q_sq| *
            |g.ff .D1 had fl z Q_sq| * (2 * exp (-50 / mt fl) / (π * mf fl)) := by
  obtain ⟨h1, h2⟩ := gaussian_alloc target h ho hg
  exact ⟨_, _, h1, h2, fun had x z Q_sq ph_t_sq hz hph =>
    ⟨_, _, rfl, rfl, c59_cut hc g hs mt mf ht hf had hz hph⟩⟩

/-- C116, refuted: Gaussian distributions do not get the closed forms. When the distributions of unpolarised
quarks are not negative, and one flavour contributes, the unpolarised structure function is smaller than the
closed form, because quarks with a transverse momentum above 10 GeV are left out, however exact the
cubature is. (The structure function for `sin(3 φ_h - φ_S)` is wrong, too: `c59_numeric`.) -/
theorem c116_refuted (env : Env) (target : Nucleus) (name : List Char) (o : Obj)
    (g : GaussianTmdSet) (h : Unfiltered name) (ho : NamesLibrary env name o) (hg : GivesGaussian o g)
    (hc : Exact env.cub) (hs : PosWidths g) (had : Hadron) (x z Q_sq ph_t_sq : ℝ)
    (hz : 0 < z) (hph : 0 ≤ ph_t_sq)
    (h0 : ∀ fl < g.flavorCount, 0 ≤ g.tmd .f1 fl x Q_sq ∧ 0 ≤ g.ff .D1 had fl z Q_sq)
    (hfl : ∃ fl < g.flavorCount, g.charge fl ≠ 0 ∧ 0 < g.tmd .f1 fl x Q_sq ∧ 0 < g.ff .D1 had fl z Q_sq ∧
      g.meanTmd .f1 fl ≠ none ∧ g.meanFf .D1 fl ≠ none) :
    ∃ s i a b, alloc env target name = .ok s ∧ intended env.cub o = some i ∧
      s.sf.F_UUT (had, x, z, Q_sq, ph_t_sq) = .fin a ∧ i.sf.F_UUT (had, x, z, Q_sq, ph_t_sq) = .fin b ∧
      a < b := by
  obtain ⟨h1, h2⟩ := gaussian_alloc target h ho hg
  refine ⟨_, _, _, _, h1, h2, rfl, rfl, ?_⟩
  have hπ := pi_pos
  let F : Vec → ℝ := fun p => ∑ fl ∈ Finset.range g.flavorCount, g.charge fl ^ 2 * 1 *
      (g.tmd .f1 fl x Q_sq * gaussian (dot p p) (g.meanTmd .f1 fl)) *
      (g.ff .D1 had fl z Q_sq * gaussian (z ^ 2 * dot (p - (1 / z) • (√ph_t_sq) • hhat)
        (p - (1 / z) • (√ph_t_sq) • hhat)) (g.meanFf .D1 fl))
  have hF : Integrable F := integrable_finset_sum _ fun fl _ =>
    (gaussTerm_eq g hs .W0 .f1 .D1 g.target had hz hph _ rfl fl).1
  have e1 : (g.sf had x z Q_sq ph_t_sq).F_UUT = ∫ p, F p := by
    rw [c59_gaussian g hs had hz hph]
    simp only [published, conv, setIntegral_univ]
    rfl
  have e2 : (g.toTmdSet.sf env.cub had x z Q_sq ph_t_sq).F_UUT = ∫ p in disc 10, F p := by
    rw [c59_numeric hc g.toTmdSet had hz hph]
    simp only [published, conv]
    rfl
  have hD : MeasurableSet (disc 10) := measurableSet_lt (by unfold dot; fun_prop) (by fun_prop)
  have hgauss : ∀ (k : ℝ) (w : Width), (∀ m, w = some m → 0 < m) →
      0 ≤ gaussian k w ∧ (w ≠ none → 0 < gaussian k w) := by
    rintro k (_ | m) hw
    · exact ⟨le_rfl, fun h => absurd rfl h⟩
    · have := hw m rfl
      have : 0 < gaussian k (some m) := by simp only [gaussian]; positivity
      exact ⟨this.le, fun _ => this⟩
  have hpos : ∀ p, 0 < F p := by
    intro p
    obtain ⟨fl, hfl, c, d, e, f, k⟩ := hfl
    refine Finset.sum_pos' (fun i hi => ?_) ⟨fl, Finset.mem_range.mpr hfl, ?_⟩
    · have := h0 i (Finset.mem_range.mp hi)
      have a1 := (hgauss (dot p p) (g.meanTmd .f1 i) (hs.1 _ _)).1
      have a2 := (hgauss (z ^ 2 * dot (p - (1 / z) • (√ph_t_sq) • hhat)
        (p - (1 / z) • (√ph_t_sq) • hhat)) (g.meanFf .D1 i) (hs.2 _ _)).1
      have b1 := this.1
      have b2 := this.2
      positivity
    · have a1 := (hgauss (dot p p) (g.meanTmd .f1 fl) (hs.1 _ _)).2 f
      have a2 := (hgauss (z ^ 2 * dot (p - (1 / z) • (√ph_t_sq) • hhat)
        (p - (1 / z) • (√ph_t_sq) • hhat)) (g.meanFf .D1 fl) (hs.2 _ _)).2 k
      positivity
  have e3 : (∫ p, F p) = (∫ p in disc 10, F p) + ∫ p in (disc 10)ᶜ, F p :=
    (integral_add_compl hD hF).symm
  have e4 : 0 < ∫ p in (disc 10)ᶜ, F p := by
    rw [setIntegral_pos_iff_support_of_nonneg_ae (.of_forall fun p => (hpos p).le) hF.integrableOn]
    have hsup : Function.support F = Set.univ := Set.eq_univ_of_forall fun p => (hpos p).ne'
    rw [hsup, Set.univ_inter]
    have hopen : IsOpen {p : Vec | 10 < p.1} := isOpen_lt continuous_const continuous_fst
    refine (hopen.measure_pos volume ⟨(11, 0), by norm_num⟩).trans_le (measure_mono fun p hp => ?_)
    have hp : 10 < p.1 := hp
    have : (10 : ℝ) ^ 2 ≤ dot p p := by
      simp only [dot]; nlinarith [mul_self_nonneg p.2]
    exact not_lt.mpr this
  change (g.toTmdSet.sf env.cub had x z Q_sq ph_t_sq).F_UUT < (g.sf had x z Q_sq ph_t_sq).F_UUT
  rw [e1, e2, e3]
  linarith

example : PosWidths oneFlavor := by
  constructor <;> · intro _ _ m h; simp only [oneFlavor, Option.some.injEq] at h; linarith

example : ∃ fl < oneFlavor.flavorCount, oneFlavor.charge fl ≠ 0 ∧ 0 < oneFlavor.tmd .f1 fl 0.2 2 ∧
    0 < oneFlavor.ff .D1 .piP fl 0.3 2 ∧ oneFlavor.meanTmd .f1 fl ≠ none ∧
    oneFlavor.meanFf .D1 fl ≠ none :=
  ⟨0, by simp [oneFlavor], by simp [oneFlavor], by simp [oneFlavor], by simp [oneFlavor],
    by simp [oneFlavor], by simp [oneFlavor]⟩

example : GivesGaussian (.gaussianTmdSet oneFlavor) oneFlavor := .inl rfl
example : Unfiltered "mylib".toList := by unfold Unfiltered; decide +kernel

end Sidis.Props
