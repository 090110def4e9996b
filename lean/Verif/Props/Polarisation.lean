import Verif.Spec.Polarisation
import Verif.Props.SfSum
import Verif.Props.Positive
import Verif.Props.Density

/-! # Polarisations: C125 -/

namespace Sidis.Props

open Sidis.Spec Real

private theorem averages_linear {f : ℝ → Vec3 → ℝ} (hf : PolarisationLinear f) (T : Transform3) :
    AveragesStates fun l P => f l (T.apply P) := by
  intro ι κ _ _ w l v P hw hv
  obtain ⟨uu, lu, up, lp, h⟩ := hf
  have lin : ∀ a : Vec3, ∃ b : Vec3, ∀ Q : Vec3, a.dot (T.apply Q) = b.x * Q.x + b.y * Q.y + b.z * Q.z := by
    intro a
    refine ⟨⟨a.x * T.x.x + a.y * T.y.x + a.z * T.z.x, a.x * T.x.y + a.y * T.y.y + a.z * T.z.y,
      a.x * T.x.z + a.y * T.y.z + a.z * T.z.z⟩, fun Q => ?_⟩
    simp only [Vec3.dot, Transform3.apply]
    ring
  have mean : ∀ a : Vec3, a.dot (T.apply (meanTarget v P)) = ∑ j, v j * a.dot (T.apply (P j)) := by
    intro a
    obtain ⟨b, hb⟩ := lin a
    simp only [hb, meanTarget, mul_add, Finset.sum_add_distrib, Finset.mul_sum]
    congr 1
    · congr 1 <;> exact Finset.sum_congr rfl fun j _ => by ring
    · exact Finset.sum_congr rfl fun j _ => by ring
  have inner : ∀ i, ∑ j, w i * v j * f (l i) (T.apply (P j))
      = w i * (uu + up.dot (T.apply (meanTarget v P))) + w i * l i * (lu + lp.dot (T.apply (meanTarget v P))) := by
    intro i
    have e : ∀ j, w i * v j * f (l i) (T.apply (P j)) = w i * uu * v j + w i * (v j * up.dot (T.apply (P j)))
        + (w i * l i * lu * v j + w i * l i * (v j * lp.dot (T.apply (P j)))) := by
      intro j
      rw [h]
      ring
    rw [Finset.sum_congr rfl fun j _ => e j]
    simp only [Finset.sum_add_distrib, ← Finset.mul_sum, ← mean, hv.2]
    ring
  change f (meanBeam w l) (T.apply (meanTarget v P)) = _
  rw [h, Finset.sum_congr rfl fun i _ => inner i, Finset.sum_add_distrib, ← Finset.sum_mul, ← Finset.sum_mul, hw.2,
    one_mul]
  rfl

/-- C125: for a mixture of helicities of the beam and a mixture of polarisations of the target, each cross-section is
the average over the states: all that matters are the two mean polarisations. -/
theorem c125_mixture (k : Kinematics ℝ) (ph : Phenom) (sf : SfFuns) :
    AveragesStates (atTarget (fun k => xsBorn k ph sf) k) ∧ AveragesStates (atTarget (fun k => xsAmm k ph sf) k) :=
  ⟨averages_linear (c54_born_linear k ph sf) _, averages_linear (c54_amm_linear k ph sf) _⟩

/-- C125: with a photon. -/
theorem c125_mixture_rad (k : KinematicsRad ℝ) (ph : Phenom) (sf : SfFuns) :
    AveragesStates (atTargetRad (fun k => xsRad k ph sf) k) ∧ AveragesStates (atTargetRad (fun k => xsRadF k ph sf) k) :=
  ⟨averages_linear (c54_rad_linear k ph sf) _, averages_linear (c54_rad_f_linear k ph sf) _⟩

/-- C125: and with soft photons, when the correction is a number. -/
theorem c125_mixture_nrad_ir (k : Kinematics ℝ) (ph : Phenom) (sf : SfFuns) (k_0_bar : Fl) {d : ℝ}
    (hd : deltaVertRadIr k k_0_bar = .fin d) :
    ∃ f, AveragesStates f ∧ ∀ l P, atTarget (fun k l P => xsNradIr k ph sf l P k_0_bar) k l P = .fin (f l P) := by
  obtain ⟨f, hf, e⟩ := c54_nrad_ir_linear k ph sf k_0_bar d hd
  exact ⟨_, averages_linear hf (Frame.hadronFromTarget k), fun l P => e _ _⟩

/-- The sample point with half of the beam in each helicity state is unpolarised. -/
example (ph : Phenom) (P : Vec3) : atTarget (fun k => xsBorn k ph spinSf) (.make samplePs 20 samplePt) 0 P
    = (atTarget (fun k => xsBorn k ph spinSf) (.make samplePs 20 samplePt) 1 P
      + atTarget (fun k => xsBorn k ph spinSf) (.make samplePs 20 samplePt) (-1) P) / 2 := by
  have := (c125_mixture (.make samplePs 20 samplePt) ph spinSf).1 (ι := Fin 2) (κ := Fin 1) (fun _ => 1 / 2) ![1, -1]
    (fun _ => 1) (fun _ => P) ⟨fun _ => by norm_num, by norm_num⟩ ⟨fun _ => by norm_num, by norm_num⟩
  simp [meanBeam, meanTarget, Fin.sum_univ_two] at this
  rw [this]
  ring

/-! ## The generator -/

private theorem weigh_fin (j : ℝ) {x : ℝ} (hx : 0 ≤ x) : Density.weigh (.fin j) (.fin x) = .fin (j * x) := by
  unfold Density.weigh
  rw [if_neg, Fl.mul_fin]
  simpa using hx

/-- C125: the densities of the generator without radiative corrections are averages over the states, so that runs for
the states, with numbers of events in proportion, make up the run for the mixture. This is for structure functions of
positive probabilities and polarisations in their documented ranges. -/
theorem c125_density {ps : Particles ℝ} {S : ℝ} {pt : PhaseSpace ℝ} (h : Physical ps S pt) (hm : 0 < ps.m)
    (hpt : 0 < pt.ph_t_sq) (ph : Phenom) {sf : SfFuns}
    (hF : Realisable (.at sf ps.hadron pt.x pt.z (S * pt.x * pt.y) pt.ph_t_sq)) (j : ℝ) :
    ∃ D : ℝ → Vec3 → ℝ,
      (∀ l P, |l| ≤ 1 → eucl P P ≤ 1 → Density.weigh (.fin j)
        (.fin (atTarget (fun k => xsBorn k ph sf) (.make ps S pt) l P)) = .fin (D l P)) ∧
      AveragesStates D := by
  set k := Kinematics.make ps S pt
  refine ⟨fun l P => j * atTarget (fun k => xsBorn k ph sf) k l P, fun l P hl hP => ?_, ?_⟩
  · refine weigh_fin j (c92_born h hm hpt ph sf hl ?_ hF)
    rw [(c21_hadron h).2.1.1]
    exact hP
  · intro ι κ _ _ w l v P hw hv
    change j * atTarget (fun k => xsBorn k ph sf) k (meanBeam w l) (meanTarget v P) = _
    rw [(c125_mixture k ph sf).1 w l v P hw hv, Finset.mul_sum]
    refine Finset.sum_congr rfl fun i _ => ?_
    rw [Finset.mul_sum]
    exact Finset.sum_congr rfl fun i _ => by ring

/-- The hypotheses hold at the sample point, with a longitudinal double spin asymmetry. -/
example (ph : Phenom) (j : ℝ) : ∃ D : ℝ → Vec3 → ℝ,
    (∀ l P, |l| ≤ 1 → eucl P P ≤ 1 → Density.weigh (.fin j)
      (.fin (atTarget (fun k => xsBorn k ph spinSf) (.make samplePs 20 samplePt) l P)) = .fin (D l P)) ∧
    AveragesStates D :=
  c125_density sample_physical.2 (by norm_num [samplePs, Lepton.mass, CMath.ofReal]) (by norm_num [samplePt]) ph
    (spinSf_realisable _ _ _ _ _) j

/-- The parameters of the sample run with a beam and a target polarised to 200%. -/
def polSetup : Format.P :=
  provide [("setup.beam_energy", .double (.fin (100000000000 / 9382720813))),
    ("setup.beam", .lepton .e), ("setup.target", .nucleus .p), ("setup.hadron", .hadron .piP),
    ("setup.beam_pol", .double (.fin 2)), ("setup.target_pol", .vec3 (.fin 0) (.fin 0) (.fin 2)),
    ("phys.rc_method", .rcMethod .none), ("phys.mass_threshold", .double (.fin (107 / 100)))]

/-- The values in these parameters. -/
def polInputs : Inputs :=
  ⟨.none, .fin (1 / 100), .p, .e, .piP, .fin (107 / 100), .fin (100000000000 / 9382720813), .fin 2,
    (.fin 0, .fin 0, .fin 2)⟩

set_option maxHeartbeats 1000000 in
private theorem pol_inputs : polInputs.Of polSetup := by
  constructor <;> decide +kernel

/-- C125 (refuted): that polarisations out of their documented ranges (a real in [-1,1], a vector in the unit sphere)
are rejected. -/
theorem c125_range_refuted : actual polSetup "setup.beam_pol" = some (.double (.fin 2)) ∧
    actual polSetup "setup.target_pol" = some (.vec3 (.fin 0) (.fin 0) (.fin 2)) ∧
    ∃ d, Density.nradMake polSetup = .ok d :=
  ⟨pol_inputs.beamPol, pol_inputs.targetPol, (c47_nrad_ctor (std_provide _) pol_inputs).2
    ⟨⟨107 / 100, rfl, by norm_num [polInputs, Nucleus.mass, CMath.ofReal],
      by norm_num [polInputs, Nucleus.mass, Hadron.mass, CMath.ofReal]⟩, fun h => absurd rfl h⟩⟩

end Sidis.Props
