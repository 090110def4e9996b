import Verif.Lemmas.PhotonVars
import Verif.Spec.Photons

/-! # The integrals over soft and over hard photons -/

namespace Sidis.Props

open Spec Real MeasureTheory PhotonInteg VarMap

section
variable {ps : Particles ℝ} {S : ℝ} {pt : PhaseSpace ℝ}

theorem inter_fin (a b c d : ℝ) : Bound.inter ⟨.fin a, .fin b⟩ ⟨.fin c, .fin d⟩
    = if max a c ≤ min b d then ⟨.fin (max a c), .fin (min b d)⟩ else .invalid := by
  have e1 : Fl.fmax (.fin a) (.fin c) = .fin (max a c) := by
    simp only [Fl.fmax, Fl.lt_fin]
    split_ifs with q
    · rw [max_eq_right q.le]
    · rw [max_eq_left (not_lt.1 q)]
  have e2 : Fl.fmin (.fin b) (.fin d) = .fin (min b d) := by
    simp only [Fl.fmin, Fl.lt_fin]
    split_ifs with q
    · rw [min_eq_right q.le]
    · rw [min_eq_left (not_lt.1 q)]
  unfold Bound.inter
  rw [if_neg (by simp [Fl.isNaN])]
  simp only [e1, e2, Fl.le_fin]
  split_ifs <;> rfl

theorem inter_pinf (a b c : ℝ) : Bound.inter ⟨.fin a, .fin b⟩ ⟨.fin c, .pinf⟩
    = if max a c ≤ b then ⟨.fin (max a c), .fin b⟩ else .invalid := by
  have e1 : Fl.fmax (.fin a) (.fin c) = .fin (max a c) := by
    simp only [Fl.fmax, Fl.lt_fin]
    split_ifs with q
    · rw [max_eq_right q.le]
    · rw [max_eq_left (not_lt.1 q)]
  have e2 : Fl.fmin (.fin b) .pinf = .fin b := by
    simp [Fl.fmin]
  unfold Bound.inter
  rw [if_neg (by simp [Fl.isNaN])]
  simp only [e1, e2, Fl.le_fin]
  split_ifs <;> rfl

theorem k_0_bar_fin (hm : Massive ps) (h : Accepted ps S pt) {τ φ R : ℝ}
    (ht : ps.M ^ 2 * τ ^ 2 ≤ S * pt.y * τ + S * pt.x * pt.y) :
    (KinematicsRad.make (.make (finPs ps) (.fin S) (finPt pt)) (.fin τ) (.fin φ) (.fin R)).k_0_bar
      = .fin (energyBar ps S pt (τ, φ, R)) := by
  have A := h.agree hm
  have hmx := mx_pos_of_accepted hm h
  have d : 2 * (Kinematics.make ps S pt).mx ≠ 0 := by positivity
  set mu := Cut.muOf (.make (finPs ps) (.fin S) (finPt pt)) (.fin τ) (.fin φ)
      (Cut.tauBound (.make (finPs ps) (.fin S) (finPt pt))).min
      (Cut.tauBound (.make (finPs ps) (.fin S) (finPt pt))).max with hmu
  have emu : mu = .fin (KinematicsRad.make (.make ps S pt) τ φ R).mu := muOf_fin hm h φ R ht
  have e1 : (KinematicsRad.make (.make (finPs ps) (.fin S) (finPt pt)) (.fin τ) (.fin φ)
    (.fin R)).mu = mu := by
    simp only [hmu, tauBound_fin hm h, Cut.muOf, KinematicsRad.make]
    obtain ⟨t1, t2⟩ := tau_ends hm h (.fin τ) (.fin φ) (.fin R)
    simp only [KinematicsRad.make] at t1 t2
    rw [t1, t2]
  change (((1 : Fl) + .fin τ - (KinematicsRad.make (.make (finPs ps) (.fin S) (finPt pt))
    (.fin τ) (.fin φ) (.fin R)).mu) * .fin R) / ((2 : Fl) * _) = _
  rw [e1, emu, A.mx, fl_one, fl_two, Fl.mul_fin, Fl.add_fin, Fl.sub_fin, Fl.mul_fin,
    Fl.div_fin _ d]
  rfl

/-- The range of `R` under a cut on the energy alone. -/
theorem RBoundCut_energy (hm : Massive ps) (h : Accepted ps S pt) {τ : ℝ} (φ : ℝ)
    (ht : ps.M ^ 2 * τ ^ 2 ≤ S * pt.y * τ + S * pt.x * pt.y) (b : Bound) (hb : b.valid) :
    Cut.RBoundCut { noCuts with k_0_bar := b } (.make (finPs ps) (.fin S) (finPt pt)) (.fin τ) (.fin φ)
      = Bound.inter ⟨.fin 0, .fin (((Kinematics.make ps S pt).mx_sq - ps.Mth ^ 2)
          / recoil (.make ps S pt) (τ, φ))⟩
        ⟨b.min * .fin (2 * (Kinematics.make ps S pt).mx) / .fin (recoil (.make ps S pt) (τ, φ)),
         b.max * .fin (2 * (Kinematics.make ps S pt).mx) / .fin (recoil (.make ps S pt) (τ, φ))⟩ := by
  have A := h.agree hm
  have hmx := mx_pos_of_accepted hm h
  have hp := recoil_pos (φ := φ) hm h ht
  unfold Cut.RBoundCut
  have hi : ¬ Bound.invalid.valid := by simp [Bound.invalid, Bound.valid]
  simp only [noCuts, hi, if_false, hb, if_true]
  rw [muOf_fin hm h φ 0 ht, RBound_fin hm h φ 0 ht, one_div_mul_eq_div, ← recoil_eq, A.mx, fl_one, fl_two,
    Fl.mul_fin, Fl.add_fin, Fl.sub_fin, ← recoil_eq]
  congr 1
  unfold Bound.scale
  rw [if_neg (by rw [Fl.lt_fin]; exact not_lt.2 (by positivity))]
  unfold Bound.unscale
  rw [if_neg (by rw [Fl.le_fin]; exact not_le.2 hp)]

theorem validCut_energy (hm : Massive ps) {τ φ R : ℝ} (ha : AcceptedRad ps S pt τ φ R) (b : Bound)
    (hb : b.contains (.fin (energyBar ps S pt (τ, φ, R)))) :
    Cut.validCutRad { noCuts with k_0_bar := b }
      (.make (.make (finPs ps) (.fin S) (finPt pt)) (.fin τ) (.fin φ) (.fin R)) = true := by
  rw [c23_cut_rad]
  refine ⟨(validRad_iff hm _ _ _).2 ⟨_, _, _, rfl, rfl, rfl, ha⟩, ?_⟩
  have hi : ¬ Bound.invalid.valid := by simp [Bound.invalid, Bound.valid]
  simp only [Satisfies, cutRadTable, noCuts, List.forall_mem_cons, hi, false_implies,
    List.not_mem_nil, implies_true, and_true, true_and]
  intro _
  rw [k_0_bar_fin hm ha.acc ha.photon]
  exact hb

/-- The photons up to a cut-off, but for those without energy. -/
theorem softPhotons_ae (hm : Massive ps) (h : Accepted ps S pt) (hs : Samplable ps S pt) (c : ℝ) :
    let k := Kinematics.make ps S pt
    shell (tauLo k) (tauHi k) (-π) π (recoil k) 0 (min (k.mx_sq - ps.Mth ^ 2) (2 * k.mx * c))
      =ᵐ[volume] softPhotons ps S pt c := by
  intro k
  have hk := kinRel_of_physical (physical_of_samplable hm h hs)
  have hmx : 0 < k.mx := mx_pos_of_accepted hm h
  have hz : volume {v : ℝ × ℝ × ℝ | v.2.2 = 0} = 0 := by
    have e : {v : ℝ × ℝ × ℝ | v.2.2 = 0} = Set.univ ×ˢ (Set.univ ×ˢ {0}) := by
      ext ⟨a, b, c⟩; simp
    rw [e, Measure.volume_eq_prod, Measure.prod_prod, Measure.volume_eq_prod, Measure.prod_prod]
    simp
  have hne : ∀ᵐ v : ℝ × ℝ × ℝ, v.2.2 ≠ 0 := by
    rw [ae_iff]; simpa using hz
  refine (hne.mono fun v hv => ?_)
  obtain ⟨τ, φ, R⟩ := v
  refine propext ?_
  change ((tauLo k ≤ τ ∧ τ ≤ tauHi k) ∧ (-π ≤ φ ∧ φ ≤ π) ∧ 0 < recoil k (τ, φ) * R ∧
    recoil k (τ, φ) * R ≤ min (k.mx_sq - ps.Mth ^ 2) (2 * k.mx * c)) ↔
    (AcceptedRad ps S pt τ φ R ∧ -π ≤ φ ∧ φ ≤ π) ∧ energyBar ps S pt (τ, φ, R) ≤ c
  rw [energyBar_eq, div_le_iff₀ (by positivity), tau_mem_iff hk, le_min_iff]
  constructor
  · rintro ⟨ht, h1, h2, h3, h4⟩
    have hp := recoil_pos (φ := φ) hm h ht
    refine ⟨⟨⟨h, ht, (pos_of_mul_pos_right h2 hp.le).le, ?_⟩, h1⟩, by
      change recoil k (τ, φ) * R ≤ c * (2 * k.mx); linarith⟩
    rw [shift_mx_eq hm h, ← recoil_eq]
    change ps.Mth ^ 2 ≤ k.mx_sq - R * recoil k (τ, φ)
    linarith
  · rintro ⟨⟨ha, h1⟩, h2⟩
    have hp : 0 < recoil k (τ, φ) := recoil_pos (φ := φ) hm h ha.photon
    have hR : 0 < R := lt_of_le_of_ne ha.R_nonneg fun e => hv e.symm
    have hmis := ha.missing
    rw [shift_mx_eq hm h, ← recoil_eq] at hmis
    change ps.Mth ^ 2 ≤ k.mx_sq - R * recoil k (τ, φ) at hmis
    change recoil k (τ, φ) * R ≤ c * (2 * k.mx) at h2
    exact ⟨ha.photon, h1, mul_pos hp hR, by linarith, by linarith⟩

/-- The integral the code estimates for the soft photons. -/
theorem soft_integral (hm : Massive ps) (h : Accepted ps S pt) (hs : Samplable ps S pt) {c : ℝ}
    (hc : 0 < c) (xs : KinematicsRad ℝ → ℝ) :
    let k := Kinematics.make ps S pt
    let F := fun v : ℝ × ℝ × ℝ => xs (.make k v.1 v.2.1 v.2.2)
    ∃ g : (Fin 3 → ℝ) → ℝ, (∀ p ∈ unitCube, integrand { noCuts with k_0_bar := Bound.mk' 0 (.fin c) }
        (.make (finPs ps) (.fin S) (finPt pt)) (xsAt k xs) p = .fin (g p)) ∧
      (IntegrableOn g unitCube ↔ IntegrableOn F (softPhotons ps S pt c)) ∧
      ∫ p in unitCube, g p = ∫ v in softPhotons ps S pt c, F v := by
  intro k F
  have hmx : 0 < k.mx := mx_pos_of_accepted hm h
  have hroom : 0 < k.mx_sq - ps.Mth ^ 2 := sub_pos.2 hs.room
  have eb : Bound.mk' 0 (.fin c) = ⟨.fin 0, .fin c⟩ := by
    rw [Bound.mk', fl_zero, if_neg]
    rw [Fl.le_fin, not_not]; exact hc.le
  have hbv : (⟨.fin 0, .fin c⟩ : Bound).valid := by
    change (Fl.fin 0 : Fl) ≤ .fin c
    rw [Fl.le_fin]; exact hc.le
  have hi : ¬ Bound.invalid.valid := by simp [Bound.invalid, Bound.valid]
  rw [eb]
  obtain ⟨g, h1, h2, h3⟩ := photon_integral hm h hs { noCuts with k_0_bar := ⟨.fin 0, .fin c⟩ } hi hi
    le_rfl (lt_min hroom (by positivity : 0 < 2 * k.mx * c)) (min_le_left _ _)
    (fun τ φ ht => by
      have hp := recoil_pos (φ := φ) hm h ht
      rw [RBoundCut_energy hm h φ ht _ hbv]
      simp only [Fl.mul_fin, Fl.div_fin _ hp.ne']
      have h0 : 0 ≤ (k.mx_sq - ps.Mth ^ 2) / recoil k (τ, φ) := div_nonneg hroom.le hp.le
      have h1 : 0 ≤ c * (2 * k.mx) / recoil k (τ, φ) := div_nonneg (by positivity) hp.le
      have e1 : max 0 (0 * (2 * k.mx) / recoil k (τ, φ)) = 0 / recoil k (τ, φ) := by simp
      have e2 : min ((k.mx_sq - ps.Mth ^ 2) / recoil k (τ, φ)) (c * (2 * k.mx) / recoil k (τ, φ))
          = min (k.mx_sq - ps.Mth ^ 2) (2 * k.mx * c) / recoil k (τ, φ) := by
        rw [min_div_div_right hp.le, mul_comm c]
      rw [inter_fin, e1, e2, if_pos]
      refine div_le_div_of_nonneg_right ?_ hp.le
      exact le_min hroom.le (by positivity))
    (fun τ φ R ha h1 h2 => by
      refine validCut_energy hm ha _ ?_
      have hp := recoil_pos (φ := φ) hm h ha.photon
      rw [energyBar_eq]
      constructor
      · rw [Fl.le_fin]
        exact div_nonneg h1 (by positivity)
      · rw [Fl.le_fin, div_le_iff₀ (by positivity)]
        have := (le_min_iff.1 h2).2
        change recoil k (τ, φ) * R ≤ c * (2 * k.mx)
        linarith) xs
  have hae := softPhotons_ae hm h hs c
  refine ⟨g, h1, ?_, ?_⟩
  · rw [h2]; exact integrableOn_congr_set_ae hae
  · rw [h3]; exact setIntegral_congr_set hae

/-- A photon has at most the largest energy. -/
theorem energyBar_le (hm : Massive ps) {τ φ R : ℝ} (ha : AcceptedRad ps S pt τ φ R) :
    energyBar ps S pt (τ, φ, R) ≤ energyMax ps S pt := by
  have h := ha.acc
  have hmx := mx_pos_of_accepted hm h
  have hmis := ha.missing
  rw [shift_mx_eq hm h, ← recoil_eq] at hmis
  rw [energyBar_eq]
  change _ ≤ ((Kinematics.make ps S pt).mx_sq - ps.Mth ^ 2) / (2 * (Kinematics.make ps S pt).mx)
  refine div_le_div_of_nonneg_right ?_ (by positivity)
  linarith

theorem soft_all (hm : Massive ps) {c : ℝ} (hc : energyMax ps S pt ≤ c) :
    softPhotons ps S pt c = photons ps S pt :=
  Set.Subset.antisymm (fun _ hv => hv.1) fun _ hv => ⟨hv, (energyBar_le hm hv.1).trans hc⟩

theorem hard_none (hm : Massive ps) {c : ℝ} (hc : energyMax ps S pt ≤ c) :
    hardPhotons ps S pt c = ∅ :=
  Set.eq_empty_of_forall_notMem fun _ hv => absurd hv.2 (not_lt.2 ((energyBar_le hm hv.1.1).trans hc))

/-- The integral the code estimates without a cut-off. -/
theorem all_integral (hm : Massive ps) (h : Accepted ps S pt) (hs : Samplable ps S pt)
    (xs : KinematicsRad ℝ → ℝ) :
    let k := Kinematics.make ps S pt
    let F := fun v : ℝ × ℝ × ℝ => xs (.make k v.1 v.2.1 v.2.2)
    ∃ g : (Fin 3 → ℝ) → ℝ, (∀ p ∈ unitCube, integrand { noCuts with k_0_bar := Bound.mk' 0 .pinf }
        (.make (finPs ps) (.fin S) (finPt pt)) (xsAt k xs) p = .fin (g p)) ∧
      (IntegrableOn g unitCube ↔ IntegrableOn F (photons ps S pt)) ∧
      ∫ p in unitCube, g p = ∫ v in photons ps S pt, F v := by
  intro k F
  have hmx : 0 < k.mx := mx_pos_of_accepted hm h
  have hroom : 0 < k.mx_sq - ps.Mth ^ 2 := sub_pos.2 hs.room
  have eb : Bound.mk' 0 .pinf = ⟨.fin 0, .pinf⟩ := by
    rw [Bound.mk', fl_zero, if_neg]
    simp
  have hbv : (⟨.fin 0, .pinf⟩ : Bound).valid := by
    change (Fl.fin 0 : Fl) ≤ .pinf
    simp
  have hi : ¬ Bound.invalid.valid := by simp [Bound.invalid, Bound.valid]
  rw [eb]
  obtain ⟨g, h1, h2, h3⟩ := photon_integral hm h hs { noCuts with k_0_bar := ⟨.fin 0, .pinf⟩ } hi hi
    le_rfl hroom le_rfl
    (fun τ φ ht => by
      have hp := recoil_pos (φ := φ) hm h ht
      have hp' : (0 : ℝ) < recoil k (τ, φ) := hp
      have e3 : (Fl.pinf : Fl) * .fin (2 * k.mx) / .fin (recoil k (τ, φ)) = .pinf := by
        change Fl.div (Fl.infTimes (2 * k.mx)) _ = _
        rw [Fl.infTimes, if_pos (by positivity)]
        change (if _ < (0 : ℝ) then Fl.ninf else .pinf) = _
        rw [if_neg (not_lt.2 hp'.le)]
      rw [RBoundCut_energy hm h φ ht _ hbv]
      simp only [Fl.mul_fin, Fl.div_fin _ hp.ne']
      change Bound.inter _ ⟨_, Fl.pinf * .fin (2 * k.mx) / .fin (recoil k (τ, φ))⟩ = _
      have e1 : max 0 (0 * (2 * k.mx) / recoil k (τ, φ)) = 0 / recoil k (τ, φ) := by simp
      rw [e3, inter_pinf, e1, if_pos]
      exact div_le_div_of_nonneg_right hroom.le hp.le)
    (fun τ φ R ha h1 h2 => by
      refine validCut_energy hm ha _ ?_
      rw [energyBar_eq]
      constructor
      · rw [Fl.le_fin]
        exact div_nonneg h1 (by positivity)
      · simp) xs
  have hae := softPhotons_ae hm h hs (energyMax ps S pt)
  have em : min (k.mx_sq - ps.Mth ^ 2) (2 * k.mx * energyMax ps S pt) = k.mx_sq - ps.Mth ^ 2 := by
    change min _ (2 * k.mx * ((k.mx_sq - ps.Mth ^ 2) / (2 * k.mx))) = _
    rw [mul_div_cancel₀ _ (by positivity), min_self]
  change _ =ᵐ[volume] _ at hae
  rw [soft_all hm le_rfl] at hae
  change shell (tauLo k) (tauHi k) (-π) π (recoil k) 0
    (min (k.mx_sq - ps.Mth ^ 2) (2 * k.mx * energyMax ps S pt)) =ᵐ[volume] _ at hae
  rw [em] at hae
  refine ⟨g, h1, ?_, ?_⟩
  · rw [h2]; exact integrableOn_congr_set_ae hae
  · rw [h3]; exact setIntegral_congr_set hae

/-- The integral the code estimates for the hard photons. -/
theorem hard_integral (hm : Massive ps) (h : Accepted ps S pt) (hs : Samplable ps S pt) {c : ℝ}
    (hc : 0 < c) (xs : KinematicsRad ℝ → ℝ) :
    let k := Kinematics.make ps S pt
    let F := fun v : ℝ × ℝ × ℝ => xs (.make k v.1 v.2.1 v.2.2)
    ∃ g : (Fin 3 → ℝ) → ℝ, (∀ p ∈ unitCube, integrand { noCuts with k_0_bar := Bound.mk' (.fin c) .pinf }
        (.make (finPs ps) (.fin S) (finPt pt)) (xsAt k xs) p = .fin (g p)) ∧
      (IntegrableOn g unitCube ↔ IntegrableOn F (hardPhotons ps S pt c)) ∧
      ∫ p in unitCube, g p = ∫ v in hardPhotons ps S pt c, F v := by
  intro k F
  have hmx : 0 < k.mx := mx_pos_of_accepted hm h
  have hroom : 0 < k.mx_sq - ps.Mth ^ 2 := sub_pos.2 hs.room
  have eb : Bound.mk' (.fin c) .pinf = ⟨.fin c, .pinf⟩ := by
    rw [Bound.mk', if_neg]
    simp
  have hbv : (⟨.fin c, .pinf⟩ : Bound).valid := by
    change (Fl.fin c : Fl) ≤ .pinf
    simp
  have hi : ¬ Bound.invalid.valid := by simp [Bound.invalid, Bound.valid]
  rw [eb]
  have hbound : ∀ τ φ : ℝ, ps.M ^ 2 * τ ^ 2 ≤ S * pt.y * τ + S * pt.x * pt.y →
      Cut.RBoundCut { noCuts with k_0_bar := ⟨.fin c, .pinf⟩ } (.make (finPs ps) (.fin S) (finPt pt))
        (.fin τ) (.fin φ) = if 2 * k.mx * c ≤ k.mx_sq - ps.Mth ^ 2 then
        ⟨.fin (2 * k.mx * c / recoil k (τ, φ)), .fin ((k.mx_sq - ps.Mth ^ 2) / recoil k (τ, φ))⟩
        else .invalid := fun τ φ ht => by
    have hp := recoil_pos (φ := φ) hm h ht
    have hp' : (0 : ℝ) < recoil k (τ, φ) := hp
    have e3 : (Fl.pinf : Fl) * .fin (2 * k.mx) / .fin (recoil k (τ, φ)) = .pinf := by
      change Fl.div (Fl.infTimes (2 * k.mx)) _ = _
      rw [Fl.infTimes, if_pos (by positivity)]
      change (if _ < (0 : ℝ) then Fl.ninf else .pinf) = _
      rw [if_neg (not_lt.2 hp'.le)]
    rw [RBoundCut_energy hm h φ ht _ hbv]
    simp only [Fl.mul_fin, Fl.div_fin _ hp.ne']
    change Bound.inter _ ⟨_, Fl.pinf * .fin (2 * k.mx) / .fin (recoil k (τ, φ))⟩ = _
    have e1 : max 0 (c * (2 * k.mx) / recoil k (τ, φ)) = 2 * k.mx * c / recoil k (τ, φ) := by
      rw [mul_comm c, max_eq_right (by positivity)]
    rw [e3, inter_pinf]
    change (if max 0 (c * (2 * k.mx) / recoil k (τ, φ)) ≤ (k.mx_sq - ps.Mth ^ 2) / recoil k (τ, φ) then
      (⟨.fin (max 0 (c * (2 * k.mx) / recoil k (τ, φ))), _⟩ : Bound) else _) = _
    rw [e1]
    simp only [div_le_div_iff_of_pos_right hp']
    rfl
  rcases lt_or_ge (2 * k.mx * c) (k.mx_sq - ps.Mth ^ 2) with hlt | hge
  · obtain ⟨g, h1, h2, h3⟩ := photon_integral hm h hs { noCuts with k_0_bar := ⟨.fin c, .pinf⟩ } hi hi
      (by positivity) hlt le_rfl
      (fun τ φ ht => by rw [hbound τ φ ht, if_pos hlt.le])
      (fun τ φ R ha h1 h2 => by
        refine validCut_energy hm ha _ ⟨?_, by simp⟩
        have hp := recoil_pos (φ := φ) hm h ha.photon
        rw [energyBar_eq, Fl.le_fin, le_div_iff₀ (by positivity)]
        change c * (2 * k.mx) ≤ recoil k (τ, φ) * R
        linarith) xs
    have e := hardPhotons_eq hm h hs hc
    rw [e]
    exact ⟨g, h1, h2, h3⟩
  · have hempty : hardPhotons ps S pt c = ∅ := by
      rw [hardPhotons_eq hm h hs hc]
      ext v
      simp only [shell, Set.mem_ofPred_eq, Set.mem_empty_iff_false, iff_false]
      rintro ⟨-, -, h3, h4⟩
      exact absurd (h3.trans_le h4) (not_lt.2 hge)
    rw [hempty]
    refine ⟨fun _ => 0, fun p hp => ?_, by simp, by simp⟩
    set cut : CutRad := { noCuts with k_0_bar := ⟨.fin c, .pinf⟩ } with hcut
    set K := Kinematics.make (finPs ps) (.fin S) (finPt pt) with hK
    have hkr : KinRel k := kinRel_of_physical (physical_of_samplable hm h hs)
    have hle : tauLo k ≤ tauHi k := by
      unfold tauLo tauHi
      have := hkr.lY_pos
      have := hkr.M_pos
      gcongr; linarith
    obtain ⟨⟨c', w, cr, wr, emt, w0, wr0⟩, ⟨wk, emk, wk0⟩, ⟨o, emr, o0⟩⟩ := photon_maps hm h hs
    rw [← hK] at emt emk emr
    obtain ⟨X0, J0, S0⟩ := (c28_apply_map hle).2.2.2.2.2 c' w cr wr w0 wr0
    obtain ⟨X1, J1, S1⟩ := (c28_apply_map (by linarith [pi_pos] : -π ≤ π)).2.2.2.2.1 0 wk wk0
    rw [← emt] at S0
    rw [← emk] at S1
    have ebt : Cut.tauBoundCut cut K = ⟨.fin (tauLo k), .fin (tauHi k)⟩ := by
      unfold Cut.tauBoundCut
      simp only [hcut, noCuts, hi, if_false]
      exact tauBound_fin hm h
    have hcp : ¬ cut.phi_k.valid := hi
    have ex := S0.eq (p 0) (hp 0).1 (hp 0).2
    have ey := S1.eq (p 1) (hp 1).1 (hp 1).2
    have ht : ps.M ^ 2 * X0 (p 0) ^ 2 ≤ S * pt.y * X0 (p 0) + S * pt.x * pt.y :=
      (tau_mem_iff hkr _).1 ⟨S0.zero ▸ S0.mono 0 _ le_rfl (hp 0).1 (hp 0).2,
        S0.one ▸ S0.mono _ 1 (hp 0).1 (hp 0).2 le_rfl⟩
    have hrp : 0 < recoil k (X0 (p 0), X1 (p 1)) := recoil_pos (φ := X1 (p 1)) hm h ht
    have hb := hbound _ (X1 (p 1)) ht
    unfold integrand Cut.takePhotonCut
    simp only [hcp, if_false, ebt, ex, fullCircle_eq, ey, hb]
    split_ifs with q1 q2 q2
    · have ez := apply_logarithm (p := p 2) (o := o)
        (lo := 2 * k.mx * c / recoil k (X0 (p 0), X1 (p 1)))
        (hi := (k.mx_sq - ps.Mth ^ 2) / recoil k (X0 (p 0), X1 (p 1))) (by positivity)
        (div_le_div_of_nonneg_right q1 hrp.le)
      rw [← emr] at ez
      rw [ez]
      change Asym.nanToZero (.fin _ * .fin _ * .fin _ * .fin _) = _
      rw [Fl.mul_fin, Fl.mul_fin, Fl.mul_fin]
      rw [le_antisymm q1 hge, sub_self, mul_zero, mul_zero, zero_mul]
      simp [Asym.nanToZero]
    · rfl
    · exfalso
      have en : ((Cut.RMap K).apply (.fin (p 2)) Bound.invalid).1 = .nan := by
        rw [emr, apply_nan (logarithm_nan _).1 (logarithm_nan _).2
          (Or.inl (show Bound.invalid.min.isNaN from trivial))]
      rw [en] at q2
      obtain ⟨_, _, _, -, -, e, -⟩ := (validRad_iff hm _ _ _).1 ((c23_cut_rad _ _).1 q2).1
      cases e
    · rfl

/-- Without room for a photon the integrand is zero. -/
theorem integrand_none (hm : Massive ps) (h : Accepted ps S pt) (hs : Samplable ps S pt)
    (xs : KinematicsRad ℝ → ℝ) {p : Fin 3 → ℝ} (hp : p ∈ unitCube) :
    integrand { noCuts with k_0_bar := Bound.mk' .pinf .pinf }
      (.make (finPs ps) (.fin S) (finPt pt)) (xsAt (.make ps S pt) xs) p = .fin 0 := by
  set k := Kinematics.make ps S pt with hkd
  have hmx : 0 < k.mx := mx_pos_of_accepted hm h
  have eb : Bound.mk' .pinf .pinf = ⟨.pinf, .pinf⟩ := by
    rw [Bound.mk', if_neg]
    simp
  have hbv : (⟨.pinf, .pinf⟩ : Bound).valid := by
    change (Fl.pinf : Fl) ≤ .pinf
    simp
  have hi : ¬ Bound.invalid.valid := by simp [Bound.invalid, Bound.valid]
  rw [eb]
  set cut : CutRad := { noCuts with k_0_bar := ⟨.pinf, .pinf⟩ } with hcut
  set K := Kinematics.make (finPs ps) (.fin S) (finPt pt) with hK
  have hkr : KinRel k := kinRel_of_physical (physical_of_samplable hm h hs)
  have hle : tauLo k ≤ tauHi k := by
    unfold tauLo tauHi
    have := hkr.lY_pos
    have := hkr.M_pos
    gcongr; linarith
  obtain ⟨⟨c', w, cr, wr, emt, w0, wr0⟩, ⟨wk, emk, wk0⟩, ⟨o, emr, o0⟩⟩ := photon_maps hm h hs
  rw [← hK] at emt emk emr
  obtain ⟨X0, J0, S0⟩ := (c28_apply_map hle).2.2.2.2.2 c' w cr wr w0 wr0
  obtain ⟨X1, J1, S1⟩ := (c28_apply_map (by linarith [pi_pos] : -π ≤ π)).2.2.2.2.1 0 wk wk0
  rw [← emt] at S0
  rw [← emk] at S1
  have ebt : Cut.tauBoundCut cut K = ⟨.fin (tauLo k), .fin (tauHi k)⟩ := by
    unfold Cut.tauBoundCut
    simp only [hcut, noCuts, hi, if_false]
    exact tauBound_fin hm h
  have hcp : ¬ cut.phi_k.valid := hi
  have ex := S0.eq (p 0) (hp 0).1 (hp 0).2
  have ey := S1.eq (p 1) (hp 1).1 (hp 1).2
  have ht : ps.M ^ 2 * X0 (p 0) ^ 2 ≤ S * pt.y * X0 (p 0) + S * pt.x * pt.y :=
    (tau_mem_iff hkr _).1 ⟨S0.zero ▸ S0.mono 0 _ le_rfl (hp 0).1 (hp 0).2,
      S0.one ▸ S0.mono _ 1 (hp 0).1 (hp 0).2 le_rfl⟩
  have hrp : 0 < recoil k (X0 (p 0), X1 (p 1)) := recoil_pos (φ := X1 (p 1)) hm h ht
  have e3 : (Fl.pinf : Fl) * .fin (2 * k.mx) / .fin (recoil k (X0 (p 0), X1 (p 1))) = .pinf := by
    change Fl.div (Fl.infTimes (2 * k.mx)) _ = _
    rw [Fl.infTimes, if_pos (by positivity)]
    change (if _ < (0 : ℝ) then Fl.ninf else .pinf) = _
    rw [if_neg (not_lt.2 hrp.le)]
  have hb := RBoundCut_energy hm h (X1 (p 1)) ht _ hbv
  change _ = Bound.inter _ ⟨Fl.pinf * .fin (2 * k.mx) / .fin (recoil k (X0 (p 0), X1 (p 1))),
    Fl.pinf * .fin (2 * k.mx) / .fin (recoil k (X0 (p 0), X1 (p 1)))⟩ at hb
  have hb : Cut.RBoundCut cut K (.fin (X0 (p 0))) (.fin (X1 (p 1))) = Bound.invalid := by
    refine hb.trans ?_
    rw [e3]
    unfold Bound.inter
    rw [if_neg (by simp [Fl.isNaN])]
    simp [Fl.fmax, Fl.fmin]
  unfold integrand Cut.takePhotonCut
  simp only [hcp, if_false, ebt, ex, fullCircle_eq, ey, hb]
  split_ifs with q2
  · exfalso
    have en : ((Cut.RMap K).apply (.fin (p 2)) Bound.invalid).1 = .nan := by
      rw [emr, apply_nan (logarithm_nan _).1 (logarithm_nan _).2
        (Or.inl (show Bound.invalid.min.isNaN from trivial))]
    rw [en] at q2
    obtain ⟨_, _, _, -, -, e, -⟩ := (validRad_iff hm _ _ _).1 ((c23_cut_rad _ _).1 q2).1
    cases e
  · rfl

end
end Sidis.Props
