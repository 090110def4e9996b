import Verif.Lemmas.TakeAll
import Verif.Props.Cut
import Verif.Props.CutRad

/-! # C103: sampling without cuts draws from the phase space, above the threshold -/

namespace Sidis.Props

open Spec VarMap

section
variable {ps : Particles ℝ} {S : ℝ}

set_option maxHeartbeats 800000 in
theorem take_all (hm : Massive ps) (hl : 0 < ps.m) (h : Reaches ps S) (p : Fin 6 → ℝ)
    (hp : ∀ i, 0 ≤ p i ∧ p i ≤ 1) :
    ∃ (pt : PhaseSpace ℝ) (jx jy jz jt jh jp : ℝ), Accepted ps S pt ∧ 0 < pt.x ∧
      Cut.take (finPs ps) (.fin S) (fun i => .fin (p i)) =
        ⟨true, .make (finPs ps) (.fin S) (finPt pt), .fin (jx * jy * jz * jt * jh * jp)⟩ ∧
      Axis (inverse (.fin (1 / 1000))) (Cut.xBound (finPs ps) (.fin S)) (p 0) pt.x jx ∧
      Axis (inverse (.fin 0)) (Cut.yBound (finPs ps) (.fin S) (.fin pt.x)) (p 1) pt.y jy ∧
      Axis linear (Cut.zBound (finPs ps) (.fin S) (.fin pt.x) (.fin pt.y)) (p 2) pt.z jz ∧
      Axis (decay (.fin (1 / 4))) (Cut.phTSqBound (finPs ps) (.fin S) (.fin pt.x) (.fin pt.y)
        (.fin pt.z)) (p 3) pt.ph_t_sq jt ∧
      Axis linear ⟨.fin (-Real.pi), .fin Real.pi⟩ (p 4) pt.phi_h jh ∧
      Axis linear ⟨.fin (-Real.pi), .fin Real.pi⟩ (p 5) pt.phi jp ∧
      0 ≤ jx * jy * jz * jt * jh * jp ∧
      (Exceeds ps S → (∀ i, 0 < p i ∧ p i < 1) →
        0 < jx * jy * jz * jt * jh * jp ∧ Samplable ps S pt) := by
  obtain ⟨hS, -, hb⟩ := beam_of_reaches hm h
  have hM := hm.M_pos
  have hD := D_pos hm
  have hA : 0 < S ^ 2 - 4 * ps.M ^ 2 * ps.m ^ 2 +
      ps.M ^ 2 * ((ps.Mth + ps.mh) ^ 2 - ps.M ^ 2) := by
    have := mul_nonneg (sq_nonneg ps.M) hD.le
    linarith
  -- x
  obtain ⟨xm, xm0, xm1, xmq, xms⟩ := x_middle hm hl h
  have cxm := (xBound_iff hm h xm).2 ⟨⟨xm0.le, xm1.le⟩, xmq⟩
  obtain ⟨x, jx, ax, nx, qx, cx, sx⟩ := axis_inside (t := inverse (.fin (1 / 1000)))
    (b := Cut.xBound (finPs ps) (.fin S))
    (fun v hv => unit_sub hv)
    (fun lo hi hl h0 _ => (c28_apply_map hl).2.1 (1 / 1000) (by linarith)) cxm (hp 0).1 (hp 0).2
  obtain ⟨⟨ux0, ux1⟩, xq⟩ := (xBound_iff hm h x).1 cx
  obtain ⟨x0, x1⟩ := x_strict hm hl h ux0 ux1 xq
  -- y
  obtain ⟨y1, y2, y10, y21, y12, y12s, e1, e2⟩ := y_ends hm hl h x0 x1 xq
  have hG : 0 < S * ((ps.M * x) ^ 2 + S * x + ps.m ^ 2) := by positivity
  have hK : 0 < (1 - x) * S := mul_pos (by linarith) hS
  have cy1 : (Cut.yBound (finPs ps) (.fin S) (.fin x)).contains (.fin y1) :=
    (yBound_iff hM hS x0 x1 y1).2 ⟨⟨y10.le, by linarith⟩, e1.ge, by
      rw [← e2]; nlinarith [mul_le_mul_of_nonneg_left y12 hG.le]⟩
  have cy2 : (Cut.yBound (finPs ps) (.fin S) (.fin x)).contains (.fin y2) :=
    (yBound_iff hM hS x0 x1 y2).2 ⟨⟨by linarith, y21⟩, by
      rw [← e1]; nlinarith [mul_le_mul_of_nonneg_left y12 hK.le], e2.le⟩
  obtain ⟨y, jy, ay, ny, qy, cy, sy⟩ := axis_inside (t := inverse (.fin 0))
    (b := Cut.yBound (finPs ps) (.fin S) (.fin x))
    (fun v hv => yBound_low hm hS x1 hv)
    (fun lo hi hl h0 _ => (c28_apply_map hl).2.1 0 (by
      have : 0 < ((ps.Mth + ps.mh) ^ 2 - ps.M ^ 2) / ((1 - x) * S) := div_pos hD hK
      linarith)) cy1 (hp 1).1 (hp 1).2
  obtain ⟨⟨uy0, uy1⟩, yW, yA⟩ := (yBound_iff hM hS x0 x1 y).1 cy
  have y0 : 0 < y := by
    rcases uy0.lt_or_eq with k | k
    · exact k
    · rw [← k] at yW; linarith
  have hL : (ps.Mth + ps.mh) ^ 2 ≤ S * y - S * x * y + ps.M ^ 2 := by linarith
  -- z
  obtain ⟨z1, z2, cz1, cz2, z12⟩ := z_exists hm hS x0.le y0 hL
  obtain ⟨z, jz, az, nz, qz, cz, sz⟩ := axis_inside (t := linear)
    (b := Cut.zBound (finPs ps) (.fin S) (.fin x) (.fin y))
    (fun v hv => unit_sub hv) (fun lo hi hl _ _ => (c28_apply_map hl).1) cz1 (hp 2).1 (hp 2).2
  obtain ⟨⟨uz0, uz1⟩, zh, zq⟩ := z_room hm hS x0.le y0 hL cz
  have hPm := PtMax_nonneg hM hm.mh_pos (mul_pos hS y0) (by positivity) zh zq
  -- ph_t_sq
  have ct0 := (phTSqBound_iff (ps := ps) hM hS x0.le y0 z 0).2 ⟨le_rfl, hPm⟩
  obtain ⟨t, jt, at', nt, qt, ct, st⟩ := axis_inside (t := decay (.fin (1 / 4)))
    (b := Cut.phTSqBound (finPs ps) (.fin S) (.fin x) (.fin y) (.fin z))
    (fun v hv => phTSqBound_high hm hS x0.le y0 hv)
    (fun lo hi hl _ _ => (c28_apply_map hl).2.2.2.1 (1 / 4) (by norm_num)) ct0 (hp 3).1 (hp 3).2
  obtain ⟨t0, tm⟩ := (phTSqBound_iff hM hS x0.le y0 z t).1 ct
  -- angles
  have hpi : -Real.pi ≤ Real.pi := by linarith [Real.pi_pos]
  have cpi : (⟨.fin (-Real.pi), .fin Real.pi⟩ : Bound).contains (.fin (-Real.pi)) :=
    ⟨le_refl (-Real.pi), hpi⟩
  have cpi' : (⟨.fin (-Real.pi), .fin Real.pi⟩ : Bound).contains (.fin Real.pi) :=
    ⟨hpi, le_refl Real.pi⟩
  obtain ⟨f, jh, af, nf, qf, -, sf⟩ := axis_inside (t := linear)
    (b := ⟨.fin (-Real.pi), .fin Real.pi⟩) (l := -Real.pi) (u := Real.pi)
    (fun v hv => hv) (fun lo hi hl _ _ => (c28_apply_map hl).1) cpi (hp 4).1 (hp 4).2
  obtain ⟨g, jp, ag, ng, qg, -, sg⟩ := axis_inside (t := linear)
    (b := ⟨.fin (-Real.pi), .fin Real.pi⟩) (l := -Real.pi) (u := Real.pi)
    (fun v hv => hv) (fun lo hi hl _ _ => (c28_apply_map hl).1) cpi (hp 5).1 (hp 5).2
  obtain ⟨acc, room⟩ := accepted_of hm h ⟨x, y, z, t, f, g⟩ x0 x1 y0 uy1 yW yA uz1 zh t0 tm
  refine ⟨⟨x, y, z, t, f, g⟩, jx, jy, jz, jt, jh, jp, acc, x0, ?_, ax, ay, az, at', af, ag,
    by positivity, fun hx hi => ?_⟩
  · have q0 : (inverse Cut.xCutoff).apply (.fin (p 0)) (Cut.xBound (finPs ps) (.fin S)) =
      (.fin x, .fin jx) := qx
    have q1 : (inverse 0).apply (.fin (p 1)) (Cut.yBound (finPs ps) (.fin S) (.fin x)) =
      (.fin y, .fin jy) := qy
    have q3 : (decay Cut.phTSqDecayWidth).apply (.fin (p 3)) (Cut.phTSqBound (finPs ps) (.fin S)
      (.fin x) (.fin y) (.fin z)) = (.fin t, .fin jt) := qt
    simp only [Cut.take, Cut.takePoint, q0, q1, qz, q3, fullCircle_eq, qf, qg, Fl.mul_fin, finPt]
  · -- strictly inside
    have xs := xms hx
    obtain ⟨xm', xq', xlt⟩ : ∃ xm', (Cut.xBound (finPs ps) (.fin S)).contains (.fin xm') ∧
        xm < xm' := by
      have hd : 0 < xm * (1 - xm) := mul_pos xm0 (by linarith)
      set A := S ^ 2 - 4 * ps.M ^ 2 * ps.m ^ 2 + ps.M ^ 2 * ((ps.Mth + ps.mh) ^ 2 - ps.M ^ 2) with hAd
      obtain ⟨e, he0, he1, heq⟩ : ∃ e, 0 < e ∧ xm + e ≤ 1 ∧ XQuad ps S (xm + e) ≤ 0 := by
        have hcont : Continuous (fun e => XQuad ps S (xm + e)) := by unfold XQuad; fun_prop
        have hlim := (hcont.tendsto 0).eventually (eventually_lt_nhds (b := 0) (by simpa using xs))
        obtain ⟨ε, hε, hball⟩ := Metric.eventually_nhds_iff.1 hlim
        refine ⟨min (ε / 2) (1 - xm), lt_min (by linarith) (by linarith), ?_, ?_⟩
        · linarith [min_le_right (ε / 2) (1 - xm)]
        · refine (hball ?_).le
          rw [Real.dist_eq, sub_zero, abs_of_pos (lt_min (by linarith) (by linarith))]
          linarith [min_le_left (ε / 2) (1 - xm)]
      exact ⟨xm + e, (xBound_iff hm h _).2 ⟨⟨by linarith, he1⟩, heq⟩, by linarith⟩
    obtain ⟨jx0, xa, xc, cxa, cxc, xax, xxc⟩ := sx xm' xq' xlt (hi 0).1 (hi 0).2
    have xq2 : XQuad ps S x < 0 := quad_between hA ((xBound_iff hm h _).1 cxa).2
      ((xBound_iff hm h _).1 cxc).2 xax xxc
    obtain ⟨jy0, ya, yc, cya, cyc, yay, yyc⟩ := sy y2 cy2 (y12s xq2) (hi 1).1 (hi 1).2
    obtain ⟨-, yaW, -⟩ := (yBound_iff hM hS x0 x1 ya).1 cya
    obtain ⟨-, -, ycA⟩ := (yBound_iff hM hS x0 x1 yc).1 cyc
    have hL' : (ps.Mth + ps.mh) ^ 2 < S * y - S * x * y + ps.M ^ 2 := by
      have := mul_lt_mul_of_pos_left yay hK
      linarith
    obtain ⟨jz0, za, zc, cza, czc, zaz, zzc⟩ := sz z2 cz2 (z12 hL') (hi 2).1 (hi 2).2
    have hP := z_inside hm hS x0.le y0 hL cza czc zaz zzc
    have ctm := (phTSqBound_iff hM hS x0.le y0 z _).2 ⟨hPm, le_refl _⟩
    obtain ⟨jt0, ta, tc, -, ctc, -, ttc⟩ := st _ ctm hP (hi 3).1 (hi 3).2
    obtain ⟨jh0, -⟩ := sf _ cpi' (by linarith [Real.pi_pos]) (hi 4).1 (hi 4).2
    obtain ⟨jp0, -⟩ := sg _ cpi' (by linarith [Real.pi_pos]) (hi 5).1 (hi 5).2
    refine ⟨by positivity, hl, ?_, room ?_⟩
    · have k := mul_lt_mul_of_pos_left yyc hG
      have k2 : S * y * ((ps.M * x) ^ 2 + S * x + ps.m ^ 2) < x * (S ^ 2 - 4 * ps.M ^ 2 * ps.m ^ 2) := by
        linarith
      have := mul_lt_mul_of_pos_left k2 (mul_pos hS y0)
      simp only
      linarith
    · exact ttc.trans_le ((phTSqBound_iff hM hS x0.le y0 z tc).1 ctc).2

/-- C103: at every point of the unit cube and every beam energy at which the process is possible,
`take(ps, S, ...)` returns true with a point of the phase space, which its own `valid` accepts;
every variable is sampled from its limits at the preceding variables by a map whose jacobian is its
derivative, and the jacobian written out is the finite non-negative product of the six, positive
strictly inside the cube when there is energy to spare. -/
theorem c103_take (hm : Massive ps) (hl : 0 < ps.m) (h : Reaches ps S) (p : Fin 6 → ℝ)
    (hp : ∀ i, 0 ≤ p i ∧ p i ≤ 1) :
    ∃ (pt : PhaseSpace ℝ) (jx jy jz jt jh jp : ℝ), Accepted ps S pt ∧ 0 < pt.x ∧
      Cut.valid (.make (finPs ps) (.fin S) (finPt pt)) = true ∧
      Cut.take (finPs ps) (.fin S) (fun i => .fin (p i)) =
        ⟨true, .make (finPs ps) (.fin S) (finPt pt), .fin (jx * jy * jz * jt * jh * jp)⟩ ∧
      Axis (inverse (.fin (1 / 1000))) (Cut.xBound (finPs ps) (.fin S)) (p 0) pt.x jx ∧
      Axis (inverse (.fin 0)) (Cut.yBound (finPs ps) (.fin S) (.fin pt.x)) (p 1) pt.y jy ∧
      Axis linear (Cut.zBound (finPs ps) (.fin S) (.fin pt.x) (.fin pt.y)) (p 2) pt.z jz ∧
      Axis (decay (.fin (1 / 4))) (Cut.phTSqBound (finPs ps) (.fin S) (.fin pt.x) (.fin pt.y)
        (.fin pt.z)) (p 3) pt.ph_t_sq jt ∧
      Axis linear ⟨.fin (-Real.pi), .fin Real.pi⟩ (p 4) pt.phi_h jh ∧
      Axis linear ⟨.fin (-Real.pi), .fin Real.pi⟩ (p 5) pt.phi jp ∧
      0 ≤ jx * jy * jz * jt * jh * jp ∧
      (Exceeds ps S → (∀ i, 0 < p i ∧ p i < 1) → 0 < jx * jy * jz * jt * jh * jp) := by
  obtain ⟨pt, jx, jy, jz, jt, jh, jp, a, x0, e, h1, h2, h3, h4, h5, h6, n, s⟩ :=
    take_all hm hl h p hp
  exact ⟨pt, jx, jy, jz, jt, jh, jp, a, x0, (valid_iff hm).2 a, e, h1, h2, h3, h4, h5, h6, n,
    fun hx hi => (s hx hi).1⟩

/-- C103: every value of the four limits, each at the preceding variables, makes a point of the phase
space: the kinematic limits do not let in anything else.  With `c24_limits` the phase space is exactly
what they contain. -/
theorem c103_limits (hm : Massive ps) (hl : 0 < ps.m) (h : Cut.SMin (finPs ps) ≤ .fin S)
    (pt : PhaseSpace ℝ) :
    ((Cut.xBound (finPs ps) (.fin S)).contains (.fin pt.x) ∧
      (Cut.yBound (finPs ps) (.fin S) (.fin pt.x)).contains (.fin pt.y) ∧
      (Cut.zBound (finPs ps) (.fin S) (.fin pt.x) (.fin pt.y)).contains (.fin pt.z) ∧
      (Cut.phTSqBound (finPs ps) (.fin S) (.fin pt.x) (.fin pt.y) (.fin pt.z)).contains
        (.fin pt.ph_t_sq)) ↔ Accepted ps S pt := by
  have h := SMin_le_iff.1 h
  obtain ⟨hS, -, hb⟩ := beam_of_reaches hm h
  have hM := hm.M_pos
  have hD := D_pos hm
  constructor
  · rintro ⟨cx, cy, cz, ct⟩
    obtain ⟨⟨ux0, ux1⟩, xq⟩ := (xBound_iff hm h _).1 cx
    obtain ⟨x0, x1⟩ := x_strict hm hl h ux0 ux1 xq
    obtain ⟨⟨uy0, uy1⟩, yW, yA⟩ := (yBound_iff hM hS x0 x1 _).1 cy
    have y0 : 0 < pt.y := by
      rcases uy0.lt_or_eq with k | k
      · exact k
      · rw [← k] at yW; linarith
    have hL : (ps.Mth + ps.mh) ^ 2 ≤ S * pt.y - S * pt.x * pt.y + ps.M ^ 2 := by linarith
    obtain ⟨⟨uz0, uz1⟩, zh, -⟩ := z_room hm hS x0.le y0 hL cz
    obtain ⟨t0, tm⟩ := (phTSqBound_iff hM hS x0.le y0 _ _).1 ct
    exact (accepted_of hm h pt x0 x1 y0 uy1 yW yA uz1 zh t0 tm).1
  · intro ha
    exact ⟨x_mem hm ha, y_mem hm ha (c66_x_pos hm ha hl), z_mem hm ha, ph_t_sq_mem hm ha⟩

/-- C103: there is phase space exactly from `S_min` on. -/
theorem c103_threshold (hm : Massive ps) (hl : 0 < ps.m) :
    (Cut.SMin (finPs ps) ≤ .fin S ↔ Reaches ps S) ∧
    (Reaches ps S ↔ ∃ pt : PhaseSpace ℝ, Accepted ps S pt) := by
  refine ⟨SMin_le_iff, fun h => ?_, ?_⟩
  · obtain ⟨pt, -, -, -, -, -, -, a, -⟩ := take_all hm hl h (fun _ => 0) (fun _ => ⟨le_rfl, zero_le_one⟩)
    exact ⟨pt, a⟩
  · rintro ⟨pt, ha⟩
    rw [reaches_iff]
    have hS := ha.S_pos
    have hD := D_pos hm
    have hmh := hm.mh_pos
    have hM := hm.M_pos
    have hx0 := ha.x_nonneg
    obtain ⟨h1, -, -⟩ := quad_roots (A_pos hm ha (w := (ps.Mth + ps.mh) ^ 2) (by linarith))
      (x_limits ha (W_sq_ge hm ha))
    have hq := x_limits ha (W_sq_ge hm ha)
    rw [x_disc] at h1
    have hb := ha.beam
    have h2 := nonneg_of_mul_nonneg_right h1 (show 0 < S ^ 2 - 4 * ps.M ^ 2 * ps.m ^ 2 by linarith)
    -- `S` is not below the threshold from the other side
    have hxp := c66_x_pos hm ha hl
    have h3 : S * ((ps.Mth + ps.mh) ^ 2 - ps.M ^ 2) < S ^ 2 := by
      have hA := A_pos hm ha (w := (ps.Mth + ps.mh) ^ 2) (by linarith)
      by_contra hc
      push Not at hc
      have k1 : 0 ≤ ps.M ^ 2 * ps.m ^ 2 := by positivity
      have k2 := mul_nonneg (show 0 ≤ S * ((ps.Mth + ps.mh) ^ 2 - ps.M ^ 2) - S ^ 2 +
        4 * ps.M ^ 2 * ps.m ^ 2 by linarith) hxp.le
      have k3 : 0 < (S ^ 2 - 4 * ps.M ^ 2 * ps.m ^ 2 +
        ps.M ^ 2 * ((ps.Mth + ps.mh) ^ 2 - ps.M ^ 2)) * pt.x ^ 2 := by positivity
      have k4 := mul_nonneg (sq_nonneg ps.m) hD.le
      linarith
    have h4 : (ps.Mth + ps.mh) ^ 2 - ps.M ^ 2 < S := by
      by_contra hc
      have := mul_le_mul_of_nonneg_left (not_lt.1 hc) hS.le
      linarith
    have h5 : (2 * ps.m * (ps.Mth + ps.mh)) ^ 2 ≤ (S - ((ps.Mth + ps.mh) ^ 2 - ps.M ^ 2)) ^ 2 := by
      linarith
    have := le_of_sq_le_sq h5 (by linarith)
    linarith

/-- C103, refuted below the threshold: for a beam energy (not below the mass of the lepton) at which
the process is impossible, `take(ps, S, ...)` still returns true, whatever the point, with `x` not a
number. -/
theorem c103_below_refuted (hm : Massive ps) (hl : 0 < ps.m) (hE : 2 * ps.M * ps.m ≤ S)
    (h : ¬ Cut.SMin (finPs ps) ≤ .fin S) (p : Fin 6 → Fl) :
    (Cut.take (finPs ps) (.fin S) p).ok = true ∧
    (Cut.take (finPs ps) (.fin S) p).kin.x = .nan ∧
    Cut.valid (Cut.take (finPs ps) (.fin S) p).kin = false := by
  rw [SMin_le_iff, reaches_iff, not_le] at h
  have hM := hm.M_pos
  have hD := D_pos hm
  have hs : ps.M < ps.Mth + ps.mh := by linarith [hm.Mth_ge, hm.mh_pos]
  have hS : 0 < S := lt_of_lt_of_le (by positivity) hE
  have hlam : 0 ≤ S * S - 4 * (ps.M * ps.M) * (ps.m * ps.m) := by
    have := mul_self_le_mul_self (by positivity : 0 ≤ 2 * ps.M * ps.m) hE
    linarith
  have hA : 0 < S * S - 4 * (ps.M * ps.M) * (ps.m * ps.m) +
      ps.M * ps.M * ((ps.Mth + ps.mh) * (ps.Mth + ps.mh) - ps.M * ps.M) := by
    have := mul_pos (pow_pos hM 2) hD
    linarith
  have hd : 2 * (S * S - 4 * (ps.M * ps.M) * (ps.m * ps.m) +
      ps.M * ps.M * ((ps.Mth + ps.mh) * (ps.Mth + ps.mh) - ps.M * ps.M)) ≠ 0 := by positivity
  have hnone : ∀ v, ¬ (Cut.xBound (finPs ps) (.fin S)).contains v := by
    intro v hv
    obtain ⟨v0, -⟩ := unit_sub hv
    obtain ⟨-, h2⟩ := (c01_inter_contains _ _ _).1 hv
    rw [Bound.mk'_contains] at h2
    obtain ⟨-, h2⟩ := h2
    have h2 := Fl.le_trans' v0 h2
    simp only [finPs, sq, fl_two, fl_four, Fl.mul_fin, Fl.add_fin, Fl.sub_fin] at h2
    set r := (S * S - 4 * (ps.M * ps.M) * (ps.m * ps.m)) *
      (S - ((ps.Mth + ps.mh) * (ps.Mth + ps.mh) - ps.M * ps.M) - 2 * ps.m * (ps.Mth + ps.mh)) *
      (S - ((ps.Mth + ps.mh) * (ps.Mth + ps.mh) - ps.M * ps.M) + 2 * ps.m * (ps.Mth + ps.mh)) with hr
    rcases lt_or_ge r 0 with hneg | hpos
    · change Fl.fin 0 ≤ (_ + Fl.sqrt _) / _ at h2
      rw [Fl.sqrt_fin_neg hneg] at h2
      simp at h2
    · rw [sqrt_fl hpos, Fl.add_fin, Fl.div_fin _ hd, Fl.le_fin, le_div_iff₀ (by positivity),
        zero_mul] at h2
      -- the numerator is negative
      have hms : 0 < 2 * ps.m * (ps.Mth + ps.mh) := mul_pos (by linarith) (by linarith)
      have ha : S * S - 4 * (ps.M * ps.M) * (ps.m * ps.m) -
          S * ((ps.Mth + ps.mh) * (ps.Mth + ps.mh) - ps.M * ps.M) < 0 := by
        rcases hlam.lt_or_eq with k | k
        · have hL : S - ((ps.Mth + ps.mh) * (ps.Mth + ps.mh) - ps.M * ps.M) +
              2 * ps.m * (ps.Mth + ps.mh) ≤ 0 := by
            by_contra hc
            push Not at hc
            have : r < 0 := by
              rw [hr]
              refine mul_neg_of_neg_of_pos (mul_neg_of_pos_of_neg k ?_) hc
              linarith
            linarith
          have k2 := mul_nonneg hS.le (neg_nonneg.2 hL)
          have k3 := mul_pos hS hms
          have k4 : 0 ≤ 4 * (ps.M * ps.M) * (ps.m * ps.m) := by positivity
          linarith
        · rw [← k]
          have := mul_pos hS hD
          linarith
      have hlt : √r < -(S * S - 4 * (ps.M * ps.M) * (ps.m * ps.m) -
          S * ((ps.Mth + ps.mh) * (ps.Mth + ps.mh) - ps.M * ps.M)) := by
        rw [Real.sqrt_lt' (by linarith), hr]
        have k := mul_pos (mul_pos hA (pow_pos hl 2)) hD
        have e := x_disc ps.M ps.m S ((ps.Mth + ps.mh) ^ 2)
        linarith
      linarith
  have hb : (Cut.xBound (finPs ps) (.fin S)).min.isNaN := by
    have hn : (Cut.xBound (finPs ps) (.fin S)).Normal := Bound.inter_normal _ _
    rcases hn with hn | hn
    · exact hn
    · exact absurd ⟨(fl_le_refl hn).1, hn⟩ (hnone _)
  have hx : (Cut.take (finPs ps) (.fin S) p).kin.x = .nan :=
    apply_nan (inverse_nan _).1 (inverse_nan _).2 (Or.inl hb) _
  refine ⟨rfl, hx, ?_⟩
  rw [Bool.eq_false_iff]
  intro hv
  have := ((valid_iff_and _).1 hv).2.1.1
  rw [hx] at this
  simp at this

/-- C103: the overload without cuts draws the same points with the same jacobians as the one with
cuts when none is active; only the answer differs, by the check of validity. -/
theorem c103_no_cuts (PS : Particles Fl) (s : Fl) (p : Fin 6 → Fl) :
    (Cut.takeCut noCut PS s p).kin = (Cut.take PS s p).kin ∧
    (Cut.takeCut noCut PS s p).jac = (Cut.take PS s p).jac ∧
    (Cut.takeCut noCut PS s p).ok = Cut.valid (Cut.take PS s p).kin := by
  classical
  have e1 : Cut.xBoundCut noCut PS s = Cut.xBound PS s := by
    unfold Cut.xBoundCut
    simp [noCut, invalid_not_valid]
  have e2 : ∀ x, Cut.yBoundCut noCut PS s x = Cut.yBound PS s x := by
    intro x
    unfold Cut.yBoundCut
    simp [noCut, invalid_not_valid]
  have e3 : ∀ x y, Cut.zBoundCut noCut PS s x y = Cut.zBound PS s x y := by
    intro x y
    unfold Cut.zBoundCut
    simp [noCut, invalid_not_valid]
  have e4 : ∀ x y z, Cut.phTSqBoundCut noCut PS s x y z = Cut.phTSqBound PS s x y z := by
    intro x y z
    unfold Cut.phTSqBoundCut
    simp [noCut, invalid_not_valid]
  have e5 : ¬ noCut.phi_h.valid := invalid_not_valid
  have e6 : ¬ noCut.phi.valid := invalid_not_valid
  have hk : (Cut.takeCut noCut PS s p).kin = (Cut.take PS s p).kin := by
    simp only [Cut.takeCut, Cut.take, Cut.takePoint, e1, e2, e3, e4, e5, e6, if_false]
  refine ⟨hk, by simp only [Cut.takeCut, Cut.take, Cut.takePoint, e1, e2, e3, e4, e5, e6, if_false], ?_⟩
  rw [← hk, Bool.eq_iff_iff]
  refine (c25_take noCut PS s p).1.trans ((c23_cut _ _).trans ⟨fun h => h.1, fun h => ⟨h, ?_⟩⟩)
  simp only [Satisfies, cutTable, noCut, List.forall_mem_cons, invalid_not_valid, false_implies,
    List.not_mem_nil, implies_true, and_true]

/-- C103 for the photon: above a point at which the photon can be sampled, `take(kin, ...)` returns
true, at every point of the unit cube, with a radiative point of the phase space, which `valid`
accepts, and a finite jacobian, the product of the three derivatives, positive. -/
theorem c103_take_photon (hm : Massive ps) {pt : PhaseSpace ℝ} (h : Accepted ps S pt)
    (hs : Samplable ps S pt) (p : Fin 3 → ℝ) (hp : ∀ i, 0 ≤ p i ∧ p i ≤ 1) :
    ∃ t f r jt jf jr : ℝ, AcceptedRad ps S pt t f r ∧
      Cut.validRad (.make (.make (finPs ps) (.fin S) (finPt pt)) (.fin t) (.fin f) (.fin r)) = true ∧
      Cut.takePhotonKin (.make (finPs ps) (.fin S) (finPt pt)) (fun i => .fin (p i)) =
        ⟨true, .make (.make (finPs ps) (.fin S) (finPt pt)) (.fin t) (.fin f) (.fin r),
          .fin (jt * jf * jr)⟩ ∧
      Axis (Cut.tauMap (.make (finPs ps) (.fin S) (finPt pt)))
        (Cut.tauBound (.make (finPs ps) (.fin S) (finPt pt))) (p 0) t jt ∧
      Axis (Cut.phiKMap (.make (finPs ps) (.fin S) (finPt pt)))
        ⟨.fin (-Real.pi), .fin Real.pi⟩ (p 1) f jf ∧
      Axis (Cut.RMap (.make (finPs ps) (.fin S) (finPt pt)))
        (Cut.RBound (.make (finPs ps) (.fin S) (finPt pt)) (.fin t) (.fin f)) (p 2) r jr ∧
      0 ≤ jt * jf * jr ∧ ((∀ i, 0 < p i ∧ p i < 1) → 0 < jt * jf * jr) := by
  obtain ⟨⟨c, w, cr, wr, emt, w0, wr0⟩, ⟨wk, emk, wk0⟩, ⟨o, emr, o0⟩⟩ := photon_maps hm h hs
  have hM := hm.M_pos
  obtain ⟨-, -, -, -, Y2, Y0, -⟩ :=
    real_hadron hM h.S_pos h.x_nonneg h.y_pos h.z_pos h.hadron
  have htb := tauBound_fin hm h
  set K := Kinematics.make (finPs ps) (.fin S) (finPt pt) with hK
  set lo := (S * pt.y - (Kinematics.make ps S pt).lambda_Y_sqrt) / (2 * ps.M ^ 2) with hlo
  set hi := (S * pt.y + (Kinematics.make ps S pt).lambda_Y_sqrt) / (2 * ps.M ^ 2) with hhi
  have hlh : lo < hi := by
    rw [hlo, hhi]
    apply div_lt_div_of_pos_right _ (by positivity)
    linarith
  obtain ⟨t, jt, at', nt, qt, ct, st⟩ := axis_inside (t := Cut.tauMap K) (b := Cut.tauBound K)
    (l := lo) (u := hi) (v := lo)
    (fun v hv => by rw [htb] at hv; exact hv)
    (fun lo hi hl _ _ => by rw [emt]; exact (c28_apply_map hl).2.2.2.2.2 _ _ _ _ w0 wr0)
    (by rw [htb]; exact ⟨le_refl lo, hlh.le⟩) (hp 0).1 (hp 0).2
  have ct' := ct
  rw [htb] at ct'
  have ht := (tau_range _ hM Y0 Y2 t).1 ct'
  have hpi := Real.pi_pos
  obtain ⟨f, jf, af, nf, qf, cf, sf⟩ := axis_inside (t := Cut.phiKMap K)
    (b := ⟨.fin (-Real.pi), .fin Real.pi⟩) (l := -Real.pi) (u := Real.pi) (v := -Real.pi)
    (fun v hv => hv)
    (fun lo hi hl _ _ => by rw [emk]; exact (c28_apply_map hl).2.2.2.2.1 _ _ wk0)
    ⟨le_refl (-Real.pi), show -Real.pi ≤ Real.pi by linarith⟩ (hp 1).1 (hp 1).2
  have hrb := RBound_fin hm h f 0 ht
  have hmu := mu_pos (phi_k := f) (R := 0) hm h ht
  set u := 1 / (1 + t - (KinematicsRad.make (.make ps S pt) t f 0).mu) *
    ((Kinematics.make ps S pt).mx_sq - ps.Mth ^ 2) with hu
  have hu0 : 0 < u := mul_pos (by positivity) (sub_pos.2 hs.room)
  obtain ⟨r, jr, ar, nr, qr, cr', sr⟩ := axis_inside (t := Cut.RMap K)
    (b := Cut.RBound K (.fin t) (.fin f)) (l := 0) (u := u) (v := 0)
    (fun v hv => by rw [hrb] at hv; exact hv)
    (fun lo hi hl h0 _ => by rw [emr]; exact (c28_apply_map hl).2.2.1 _ (by linarith))
    (by rw [hrb]; exact ⟨le_refl (0 : ℝ), hu0.le⟩) (hp 2).1 (hp 2).2
  have cr2 := cr'
  rw [hrb] at cr2
  have ha : AcceptedRad ps S pt t f r := ⟨h, ht, cr2.1, (R_le_iff hm h ht).1 cr2.2⟩
  refine ⟨t, f, r, jt, jf, jr, ha, (validRad_iff hm _ _ _).2 ⟨t, f, r, rfl, rfl, rfl, ha⟩, ?_,
    at', af, ar, by positivity, fun hin => ?_⟩
  · simp only [Cut.takePhotonKin, Cut.takePhoton, qt, fullCircle_eq, qf, qr, Fl.mul_fin]
  · obtain ⟨k1, -⟩ := st hi (by rw [htb]; exact ⟨hlh.le, le_refl hi⟩) hlh (hin 0).1 (hin 0).2
    obtain ⟨k2, -⟩ := sf Real.pi ⟨show -Real.pi ≤ Real.pi by linarith, le_refl Real.pi⟩
      (by linarith) (hin 1).1 (hin 1).2
    obtain ⟨k3, -⟩ := sr u (by rw [hrb]; exact ⟨hu0.le, le_refl u⟩) hu0 (hin 2).1 (hin 2).2
    positivity

/-- C103 for the nine-dimensional sampler: with energy to spare, `take(ps, S, ...)` returns true, at
every point of the open unit cube, with a radiative point of the phase space, which `valid` accepts,
and a finite positive jacobian. -/
theorem c103_take_rad (hm : Massive ps) (hl : 0 < ps.m) (h : Exceeds ps S) (p : Fin 9 → ℝ)
    (hp : ∀ i, 0 < p i ∧ p i < 1) :
    ∃ (pt : PhaseSpace ℝ) (t f r j : ℝ), AcceptedRad ps S pt t f r ∧ 0 < j ∧
      Cut.validRad (.make (.make (finPs ps) (.fin S) (finPt pt)) (.fin t) (.fin f) (.fin r)) = true ∧
      Cut.takeRad (finPs ps) (.fin S) (fun i => .fin (p i)) =
        ⟨true, .make (.make (finPs ps) (.fin S) (finPt pt)) (.fin t) (.fin f) (.fin r), .fin j⟩ := by
  obtain ⟨pt, jx, jy, jz, jt, jh, jp, a, -, e, -, -, -, -, -, -, -, s⟩ :=
    take_all hm hl (le_of_lt h) (fun i => p ⟨i, by omega⟩) (fun i => ⟨(hp _).1.le, (hp _).2.le⟩)
  obtain ⟨j0, hs⟩ := s h (fun i => hp _)
  obtain ⟨t, f, r, kt, kf, kr, ar, v, e', -, -, -, -, s'⟩ :=
    c103_take_photon hm a hs (fun i => p ⟨i + 6, by omega⟩) (fun i => ⟨(hp _).1.le, (hp _).2.le⟩)
  refine ⟨pt, t, f, r, kt * kf * kr * (jx * jy * jz * jt * jh * jp), ar,
    mul_pos (s' fun i => hp _) j0, v, ?_⟩
  have g1 : Cut.head6 (fun i => .fin (p i)) = fun i => .fin (p ⟨i, by omega⟩) := rfl
  have g2 : Cut.tail3 (fun i => .fin (p i)) = fun i => .fin (p ⟨i + 6, by omega⟩) := rfl
  simp only [Cut.takeRad, g1, g2, e, e', Bool.and_self, Fl.mul_fin]

/-- With `log` of an interval of no width at zero, the jacobian is not a number. -/
theorem log_point_nan (p v : Fl) :
    ((logarithm (.fin 0)).apply p (Bound.mk' (.fin 0) (v * .fin 0))).2 = .nan := by
  have hb : Bound.mk' (.fin 0) (v * .fin 0) = ⟨.fin 0, .fin 0⟩ ∨
      Bound.mk' (.fin 0) (v * .fin 0) = .invalid := by
    cases v <;> simp [Bound.mk', Fl.infTimes]
  have hl : CMap.log (Fl.fin 0) = Fl.ninf := by simp [CMap.log, Fl.lift]
  have hn : CMap.log Fl.nan = Fl.nan := rfl
  rcases hb with e | e <;> rw [e]
  · simp [VarMap.apply, logarithm, hl, Bound.mk', Bound.size]
  · simp [VarMap.apply, logarithm, hn, Bound.mk', Bound.size, Bound.invalid]

/-- At the lowest `y` nothing is left for a photon. -/
theorem no_room (hm : Massive ps) {pt : PhaseSpace ℝ} (h : Accepted ps S pt)
    (hW : (1 - pt.x) * (S * pt.y) = (ps.Mth + ps.mh) ^ 2 - ps.M ^ 2) :
    (Kinematics.make ps S pt).mx_sq = ps.Mth ^ 2 := by
  have hM := hm.M_pos
  have hmh := hm.mh_pos
  have hMth := hm.Mth_ge
  have h0 : 0 ≤ (Kinematics.make ps S pt).mx_sq := le_trans (sq_nonneg _) h.missing
  set q := √(Kinematics.make ps S pt).mx_sq with hq
  have hq2 : q ^ 2 = (Kinematics.make ps S pt).mx_sq := Real.sq_sqrt h0
  have hge : ps.Mth ≤ q := Real.le_sqrt_of_sq_le h.missing
  have hm' : Massive { ps with Mth := q } := ⟨hM, hm.m_nonneg, hmh, hMth.trans hge⟩
  have h' : Accepted { ps with Mth := q } S pt :=
    ⟨h.S_pos, h.x_nonneg, h.x_le, h.y_pos, h.y_le, h.z_pos, h.z_le, h.ph_t_sq_nonneg, h.beam,
      h.lepton, h.hadron, hq2.le, h.missing_le⟩
  have k := W_sq_ge hm' h'
  simp only at k
  rw [hW] at k
  have : q + ps.mh ≤ ps.Mth + ps.mh := le_of_sq_le_sq (by linarith) (by linarith)
  rw [← hq2, le_antisymm (by linarith) hge]

/-- C103, refuted on the boundary of the cube: where the second coordinate is zero there is no room
for a photon, and the nine-dimensional `take(ps, S, ...)` returns true with a jacobian that is not a
number. -/
theorem c103_edge_refuted (hm : Massive ps) (hl : 0 < ps.m) (h : Reaches ps S) (p : Fin 9 → ℝ)
    (hp : ∀ i, 0 ≤ p i ∧ p i ≤ 1) (h1 : p 1 = 0) :
    (Cut.takeRad (finPs ps) (.fin S) (fun i => .fin (p i))).ok = true ∧
    (Cut.takeRad (finPs ps) (.fin S) (fun i => .fin (p i))).jac = .nan := by
  refine ⟨rfl, ?_⟩
  obtain ⟨hS, -, -⟩ := beam_of_reaches hm h
  have hM := hm.M_pos
  obtain ⟨pt, jx, jy, jz, jt, jh, jp, a, -, e, ax, ay, -⟩ :=
    take_all hm hl h (fun i => p ⟨i, by omega⟩) (fun i => hp _)
  have x0 := c66_x_pos hm a hl
  obtain ⟨⟨ux0, ux1⟩, xq⟩ := (xBound_iff hm h _).1 (x_mem hm a)
  obtain ⟨-, x1⟩ := x_strict hm hl h ux0 ux1 xq
  obtain ⟨y1, y2, y10, y21, y12, -, e1, e2⟩ := y_ends hm hl h x0 x1 xq
  have hK : 0 < (1 - pt.x) * S := mul_pos (by linarith) hS
  have hG : 0 < S * ((ps.M * pt.x) ^ 2 + S * pt.x + ps.m ^ 2) := by positivity
  have cy1 : (Cut.yBound (finPs ps) (.fin S) (.fin pt.x)).contains (.fin y1) :=
    (yBound_iff hM hS x0 x1 y1).2 ⟨⟨y10.le, by linarith⟩, e1.ge, by
      rw [← e2]; nlinarith [mul_le_mul_of_nonneg_left y12 hG.le]⟩
  obtain ⟨-, yW, -⟩ := (yBound_iff hM hS x0 x1 pt.y).1 (y_mem hm a x0)
  obtain ⟨lo, hi, X, J, eb, Sm, eX, -⟩ := ay
  have hlo : X 0 = pt.y := by rw [← eX]; exact congrArg X h1.symm
  rw [Sm.zero] at hlo
  rw [eb] at cy1
  have hy : pt.y ≤ y1 := hlo ▸ cy1.1
  have hW : (1 - pt.x) * (S * pt.y) = (ps.Mth + ps.mh) ^ 2 - ps.M ^ 2 := by
    refine le_antisymm ?_ yW
    have := mul_le_mul_of_nonneg_left hy hK.le
    linarith
  have hr := no_room hm a hW
  have A := a.agree hm
  have g1 : Cut.head6 (fun i => .fin (p i)) = fun i => .fin (p ⟨i, by omega⟩) := rfl
  have hd : 0 < 1 + S * pt.y / (ps.M * ps.M) - (Kinematics.make ps S pt).ph_l / ps.M := by
    obtain ⟨l0, l2, -⟩ := real_hadron hM hS a.x_nonneg a.y_pos a.z_pos a.hadron
    have k1 : (Kinematics.make ps S pt).ph_l ≤ pt.z * (S * pt.y) / (2 * ps.M) := by
      apply le_of_sq_le_sq _ (by have := a.z_pos; have := a.y_pos; positivity)
      have e : (Kinematics.make ps S pt).ph_l ^ 2 =
        (pt.z * (S * pt.y) / (2 * ps.M)) ^ 2 - pt.ph_t_sq - ps.mh ^ 2 := l2
      rw [e]
      nlinarith [a.ph_t_sq_nonneg, sq_nonneg ps.mh]
    have k2 : pt.z * (S * pt.y) / (2 * ps.M) / ps.M ≤ S * pt.y / (ps.M * ps.M) := by
      rw [div_div, div_le_div_iff₀ (by positivity) (by positivity)]
      have := a.z_le
      have h3 : 0 < S * pt.y := mul_pos hS a.y_pos
      have h4 : 0 < S * pt.y * (ps.M * ps.M) := by positivity
      nlinarith
    have k3 := div_le_div_of_nonneg_right k1 hM.le
    linarith
  have hMM : ps.M * ps.M ≠ 0 := by positivity
  have eM : (Kinematics.make ps S pt).M = ps.M := rfl
  have eMth : (Kinematics.make ps S pt).Mth = ps.Mth := rfl
  have eSx : (Kinematics.make ps S pt).S_x = S * pt.y := rfl
  have eR : Cut.RMap (.make (finPs ps) (.fin S) (finPt pt)) = logarithm (.fin 0) := by
    simp only [Cut.RMap, A.mx_sq, A.Mth, A.S_x, A.M, A.ph_l, sq, fl_one, Fl.mul_fin, Fl.sub_fin,
      Fl.add_fin, eM, eMth, eSx, Fl.div_fin _ hM.ne', Fl.div_fin _ hMM, Fl.div_fin _ hd.ne',
      Fl.div_fin _ (show (128 : ℝ) ≠ 0 by norm_num), hr]
    congr 2
    ring_nf
  have eB : ∀ t f, ∃ v, Cut.RBound (.make (finPs ps) (.fin S) (finPt pt)) t f =
      Bound.mk' (.fin 0) (v * .fin 0) := by
    intro t f
    refine ⟨1 / (1 + t - Cut.muOf (.make (finPs ps) (.fin S) (finPt pt)) t f
      (Cut.tauBound (.make (finPs ps) (.fin S) (finPt pt))).min
      (Cut.tauBound (.make (finPs ps) (.fin S) (finPt pt))).max), ?_⟩
    simp only [Cut.RBound, A.mx_sq, A.Mth, eMth, sq, fl_zero, Fl.mul_fin, Fl.sub_fin, hr]
    rw [show ps.Mth ^ 2 - ps.Mth * ps.Mth = 0 by ring]
  simp only [Cut.takeRad, g1, e, Cut.takePhotonKin, Cut.takePhoton, eR]
  obtain ⟨v, hv⟩ := eB ((Cut.tauMap (.make (finPs ps) (.fin S) (finPt pt))).apply
    (Cut.tail3 (fun i => .fin (p i)) 0) (Cut.tauBound (.make (finPs ps) (.fin S) (finPt pt)))).1
    ((Cut.phiKMap (.make (finPs ps) (.fin S) (finPt pt))).apply
    (Cut.tail3 (fun i => .fin (p i)) 1) Cut.fullCircle).1
  rw [hv, log_point_nan]
  simp

end

/-- The sample beam and target have energy to spare. -/
theorem sample_exceeds : Massive samplePs ∧ 0 < samplePs.m ∧ Exceeds samplePs 20 := by
  refine ⟨sample_accepted.1, ?_, ?_⟩
  all_goals norm_num [Exceeds, samplePs, Nucleus.mass, Lepton.mass, Hadron.mass, CMath.ofReal]

-- Hypotheses of `c103_take`, `c103_limits`, `c103_threshold`, `c103_take_rad`, `c103_edge_refuted`.
example : Massive samplePs ∧ 0 < samplePs.m ∧ Reaches samplePs 20 ∧ Exceeds samplePs 20 ∧
    Cut.SMin (finPs samplePs) ≤ .fin 20 :=
  ⟨sample_exceeds.1, sample_exceeds.2.1, le_of_lt sample_exceeds.2.2, sample_exceeds.2.2,
    SMin_le_iff.2 (le_of_lt sample_exceeds.2.2)⟩

-- Hypotheses of `c103_below_refuted`: a beam of energy 0.001 above its threshold for existing.
example : Massive samplePs ∧ 0 < samplePs.m ∧ 2 * samplePs.M * samplePs.m ≤ 1 / 10 ∧
    ¬ Cut.SMin (finPs samplePs) ≤ .fin (1 / 10) := by
  refine ⟨sample_exceeds.1, sample_exceeds.2.1, ?_, ?_⟩
  · norm_num [samplePs, Nucleus.mass, Lepton.mass, Hadron.mass, CMath.ofReal]
  · rw [SMin_le_iff]
    norm_num [Reaches, samplePs, Nucleus.mass, Lepton.mass, Hadron.mass, CMath.ofReal]

-- The centre of the cube gives a radiative point with a positive jacobian.
example : ∃ (pt : PhaseSpace ℝ) (t f r j : ℝ), AcceptedRad samplePs 20 pt t f r ∧ 0 < j ∧
    Cut.takeRad (finPs samplePs) (.fin 20) (fun _ => .fin (1 / 2)) =
      ⟨true, .make (.make (finPs samplePs) (.fin 20) (finPt pt)) (.fin t) (.fin f) (.fin r),
        .fin j⟩ := by
  obtain ⟨pt, t, f, r, j, a, b, -, c⟩ := c103_take_rad sample_exceeds.1 sample_exceeds.2.1
    sample_exceeds.2.2 (fun _ => 1 / 2) (fun _ => by norm_num)
  exact ⟨pt, t, f, r, j, a, b, c⟩

end Sidis.Props
