import Verif.Spec.ProkudinTables
import Verif.Props.LoadGrids
import Verif.Props.Interp
import Verif.Props.Density
import Verif.Props.PlotSsa

/-!
# C121: the structure functions of the Prokudin sets and the ranges of their tables

`Given`, `OffGrid`, `fragTables`, `distTables` and `Shipped` are in `Verif.Spec.ProkudinTables`.
-/

namespace Sidis.Props

open Sidis.ParamStream Sidis.Codec Sidis.Spec Sidis.LoadGrids Sidis.Interp Sidis.ProkudinTables Sidis.Density

variable {rnd : ℝ → ℝ} {P : Type} {A : Parts} {T : LoadGrids.Tables P}

/-- A grid on which views are defined. -/
private structure Sound (g : Grid) : Prop where
  check : Interp.check 0 g.dims = none
  count : ∀ d ∈ g.dims, d.count < 2 ^ 53
  data : (g.dims.map Dim.count).prod ≤ g.data.length
  two : g.dims.length = 2

private structure SoundT (T : LoadGrids.Tables P) : Prop where
  plus : T.D1_pi_plus.length = 6 ∧ ∀ g ∈ T.D1_pi_plus, Sound g
  minus : T.D1_pi_minus.length = 6 ∧ ∀ g ∈ T.D1_pi_minus, Sound g
  g1 : T.g1.length = 6 ∧ ∀ g ∈ T.g1, Sound g
  xgT : T.xgT.length = 6 ∧ ∀ g ∈ T.xgT, Sound g
  xh : T.xh1LperpM1.length = 2 ∧ ∀ g ∈ T.xh1LperpM1, Sound g
  sb : T.sb.length = 6 ∧ ∀ g ∈ T.sb, Sound g

private theorem file_lines {t : Text} {ls : List Text} (h : FileOf t ls) : ls.length ≤ t.length := by
  have key : ∀ ls : List Text, ls.length ≤ (ls.flatMap (· ++ ['\n'])).length := by
    intro ls
    induction ls with
    | nil => simp
    | cons l ls ih => simp at ih ⊢; omega
  obtain ⟨-, rfl | ⟨init, last, rfl, hne, rfl⟩⟩ := h
  · exact key ls
  · have := key init
    have := List.length_pos_iff.2 hne
    rw [List.length_append, List.length_append]
    refine Nat.add_le_add ?_ (by simpa [Nat.succ_le_iff] using this)
    exact key init

private theorem load_sound {rd : ℚ → Option ℚ} {fl : ℝ → ℝ} {disk : Disk} {datadir name : Text} {K : ℕ}
    {gs : List Grid} (hd : ∀ p t, disk p = some t → t.length < 2 ^ 53)
    (h : loadGrids rd fl disk datadir 2 K name = .ok gs) : gs.length = K ∧ ∀ g ∈ gs, Sound g := by
  unfold loadGrids at h
  cases hf : findFile disk datadir name with
  | ok t =>
    rw [hf] at h
    simp only [Load.bind] at h
    have ht : t.length < 2 ^ 53 := by
      unfold findFile at hf
      have key : ∀ ps : List Text, openFirst disk ps = some t → ∃ p, disk p = some t := by
        intro ps
        induction ps with
        | nil => simp [openFirst]
        | cons p ps ih =>
          rw [openFirst]
          cases hp : disk p with
          | none => simpa using ih
          | some u => intro e; cases e; exact ⟨p, hp⟩
      cases ho : openFirst disk (candidates datadir name) with
      | none => rw [ho] at hf; cases hf
      | some u =>
        rw [ho] at hf
        cases hf
        obtain ⟨p, hp⟩ := key _ ho
        exact hd p _ hp
    cases hr : readRows rd (2 + K) (getlines t) with
    | none => rw [hr] at h; cases h
    | some rows =>
      rw [hr] at h
      simp only at h
      have hlen : rows.length ≤ t.length := by
        have : rows.length = (getlines t).length := by
          clear h hf
          generalize getlines t = ls at hr
          induction ls generalizing rows with
          | nil => cases hr; rfl
          | cons l ls ih =>
            rw [readRows] at hr
            split at hr
            · cases hr
            · cases h2 : readRows rd (2 + K) ls with
              | none => rw [h2] at hr; cases hr
              | some rs => rw [h2] at hr; cases hr; simp [ih _ h2]
        rw [this]
        exact file_lines (file_of_getlines t)
      cases h2 : readGrids fl (.fin 0.000001) 2 K (toTable rows) with
      | val gs' =>
        rw [h2] at h
        cases h
        obtain ⟨ord, cnt, plane, hp, hl, hn, h3⟩ := c33_accepted h2
        refine ⟨by simpa using h3.length_eq.symm, ?_⟩
        have hperm : (ord.map cnt).prod = cnt 0 * cnt 1 := by
          rw [(hp.map cnt).prod_eq]
          simp [List.range_succ]
        have hc0 := hl.count 0 (hp.mem_iff.2 (by simp))
        have hc1 := hl.count 1 (hp.mem_iff.2 (by simp))
        have htab : (toTable rows).length = rows.length := by simp [toTable]
        rw [hperm, htab] at hn
        intro g hg
        obtain ⟨i, hi, rfl⟩ := List.mem_iff_getElem.1 hg
        obtain ⟨g1, g2, g3⟩ := h3.get (h3.length_eq ▸ hi) hi
        simp only [List.get_eq_getElem] at g1 g2 g3
        have b0 : cnt 0 ≤ cnt 0 * cnt 1 := Nat.le_mul_of_pos_right _ (by omega)
        have b1 : cnt 1 ≤ cnt 0 * cnt 1 := Nat.le_mul_of_pos_left _ (by omega)
        refine ⟨g2, ?_, ?_, ?_⟩
        · intro d hd
          have : d.count ∈ gs[i].dims.map Dim.count := List.mem_map_of_mem hd
          rw [g1] at this
          simp [List.range_succ] at this
          rcases this with e | e <;> rw [e] <;> omega
        · rw [g3.1, g1]
        · have := congrArg List.length g1
          simpa using this
      | throw e => rw [h2] at h; cases h
      | ub => rw [h2] at h; cases h
  | notFound n => rw [hf] at h; cases h
  | parseError n => rw [hf] at h; cases h
  | badGrid e => rw [hf] at h; cases h
  | ub => rw [hf] at h; cases h

private theorem pick_mem {gs gs' : List Grid} : ∀ {is : List ℕ}, pick gs is = .ok gs' →
    gs'.length = is.length ∧ ∀ g ∈ gs', g ∈ gs
  | [], h => by cases h; simp
  | i :: is, h => by
    rw [pick] at h
    split at h
    · cases h
    · rename_i g hg
      cases h2 : pick gs is with
      | ok r =>
        rw [h2] at h
        cases h
        obtain ⟨a, b⟩ := pick_mem h2
        refine ⟨by simp [a], ?_⟩
        intro x hx
        rcases List.mem_cons.1 hx with rfl | hx
        · exact List.mem_of_getElem? hg
        · exact b x hx
      | notFound n => rw [h2] at h; cases h
      | parseError n => rw [h2] at h; cases h
      | badGrid e => rw [h2] at h; cases h
      | ub => rw [h2] at h; cases h

private theorem ok_bind {α β : Type} {l : Load α} {f : α → Load β} {b : β} :
    l.bind f = .ok b ↔ ∃ a, l = .ok a ∧ f a = .ok b := by
  cases l <;> simp [Load.bind]

private theorem soundT {mstw : Text → P} {rd : ℚ → Option ℚ} {fl : ℝ → ℝ} {disk : Disk} {datadir : Text}
    (hd : ∀ p t, disk p = some t → t.length < 2 ^ 53) (h : prokudinImpl mstw rd fl disk datadir = .ok T) :
    SoundT T := by
  unfold prokudinImpl at h
  simp only [ok_bind] at h
  obtain ⟨t, -, dp, h1, dm, h2, g1, h3, gT, h4, hh, h5, sb, h6, dp', p1, dm', p2, g1', p3, gT', p4, hh', p5,
    sb', p6, e⟩ := h
  cases e
  have key : ∀ {gs gs' : List Grid} {is : List ℕ}, (∀ g ∈ gs, Sound g) → pick gs is = .ok gs' →
      gs'.length = is.length ∧ ∀ g ∈ gs', Sound g := fun hs hp =>
    ⟨(pick_mem hp).1, fun g hg => hs g ((pick_mem hp).2 g hg)⟩
  exact ⟨key (load_sound hd h1).2 p1, key (load_sound hd h2).2 p2, key (load_sound hd h3).2 p3,
    key (load_sound hd h4).2 p4, key (load_sound hd h5).2 p5, key (load_sound hd h6).2 p6⟩

private theorem view_val (hr : Arithmetic rnd) {gs : List Grid} {n : ℕ} (hs : gs.length = n ∧ ∀ g ∈ gs, Sound g)
    {fl : ℕ} (hf : fl < n) (x Q : Fl) : ∃ v, view rnd gs fl x Q = .val v := by
  have hl : fl < gs.length := by omega
  unfold view
  rw [List.getElem?_eq_getElem hl]
  have := hs.2 _ (List.getElem_mem hl)
  exact (c29_safe hr _ _ this.check this.count this.data [x, Q] (by simp [this.two])).2

private theorem view_ub {gs : List Grid} {fl : ℕ} (hf : gs.length ≤ fl) (x Q : Fl) : view rnd gs fl x Q = .ub := by
  unfold view
  rw [List.getElem?_eq_none hf]

private theorem view_nan (hr : Arithmetic rnd) {gs : List Grid} {n : ℕ} (hs : gs.length = n ∧ ∀ g ∈ gs, Sound g)
    {x Q : Fl} (ho : OffGrid gs x Q) : ∃ fl < n, view rnd gs fl x Q = .val .nan := by
  obtain ⟨g, hg, ho⟩ := ho
  obtain ⟨i, hi, rfl⟩ := List.mem_iff_getElem.1 hg
  refine ⟨i, by omega, ?_⟩
  unfold view
  rw [List.getElem?_eq_getElem hi]
  have := hs.2 _ hg
  exact (c29_outside hr _ _ this.check this.count this.data [x, Q] (by simp [this.two]) ho).2

@[simp] private theorem nan_add (a : Fl) : Fl.nan + a = .nan := by cases a <;> rfl
@[simp] private theorem add_nan (a : Fl) : a + Fl.nan = .nan := by cases a <;> rfl
@[simp] private theorem nan_mul (a : Fl) : Fl.nan * a = .nan := by cases a <;> rfl
@[simp] private theorem mul_nan (a : Fl) : a * Fl.nan = .nan := by cases a <;> rfl
@[simp] private theorem nan_sub (a : Fl) : Fl.nan - a = .nan := by cases a <;> rfl
@[simp] private theorem sub_nan (a : Fl) : a - Fl.nan = .nan := by cases a <;> rfl

private theorem sumLoop_val {dist : ℕ → Res Fl} {frag : ℕ → Option (Res Fl)} :
    ∀ (fls : List ℕ) (acc : Fl), (∀ fl ∈ fls, (∃ d, dist fl = .val d) ∧ ∃ f, frag fl = some (.val f)) →
    ∃ v, sumLoop A dist frag fls acc = some (.val v) ∧
      ((acc = .nan ∨ ∃ fl ∈ fls, dist fl = .val .nan ∨ frag fl = some (.val .nan)) → v = .nan)
  | [], acc, _ => ⟨acc, rfl, by simp⟩
  | fl :: fls, acc, h => by
    obtain ⟨⟨d, hd⟩, f, hf⟩ := h fl (by simp)
    obtain ⟨v, h1, h2⟩ := sumLoop_val fls (acc + A.charge_sq fl * d * f) fun x hx => h x (by simp [hx])
    refine ⟨v, by simp only [sumLoop, hd, hf, h1], fun hn => h2 ?_⟩
    rcases hn with rfl | ⟨k, hk, hn⟩
    · exact .inl (by simp)
    · rcases List.mem_cons.1 hk with rfl | hk
      · left
        rcases hn with hn | hn
        · rw [hd] at hn; cases hn; simp
        · rw [hf] at hn; cases hn; simp
      · exact .inr ⟨k, hk, hn⟩

private theorem sum_val {dist : ℕ → Res Fl} {frag : ℕ → Option (Res Fl)}
    (hd : ∀ fl < 6, ∃ d, dist fl = .val d) (hf : ∀ fl < 6, ∃ f, frag fl = some (.val f)) :
    ∃ v, sum A dist frag = some (.val v) ∧
      ((∃ fl < 6, dist fl = .val .nan ∨ frag fl = some (.val .nan)) → v = .nan) := by
  have hm : ∀ fl, fl ∈ [0, 1, 2, 3, 4, 5] ↔ fl < 6 := by
    intro fl
    simp only [List.mem_cons, List.not_mem_nil, or_false]
    omega
  obtain ⟨v, h1, h2⟩ := sumLoop_val (A := A) (dist := dist) (frag := frag) [0, 1, 2, 3, 4, 5] (.fin 0)
    fun fl hfl => ⟨hd fl ((hm fl).1 hfl), hf fl ((hm fl).1 hfl)⟩
  exact ⟨v, h1, fun ⟨fl, hl, hn⟩ => h2 (.inr ⟨fl, (hm fl).2 hl, hn⟩)⟩

/-- What is needed of a structure function: it is defined, and NaN outside of its tables. -/
private def Well (A : Parts) (rnd : ℝ → ℝ) (T : LoadGrids.Tables P) (gs : List Grid) (n : Name) (h : Hadron)
    (x z Q t : Fl) : Prop :=
  ∃ v, sf rnd A T n h x z Q t = some (.val v) ∧
    ((OffGrid gs z Q ∧ Given n) ∨ (∃ ts ∈ distTables T n, OffGrid ts x Q) → v = .nan)

private theorem frags (hr : Arithmetic rnd) (hs : SoundT T) {h : Hadron} {gs : List Grid}
    (hg : fragTables T h = some gs) (z Q : Fl) :
    (∀ fl < 6, ∃ f, D1 rnd T h fl z Q = some (.val f)) ∧
    (∀ fl < 6, ∃ f, H1perpM1 rnd A T h fl z Q = some (.val f)) ∧
    (OffGrid gs z Q → (∃ fl < 6, D1 rnd T h fl z Q = some (.val .nan)) ∧
      ∃ fl < 6, H1perpM1 rnd A T h fl z Q = some (.val .nan)) := by
  have e : gs.length = 6 ∧ (∀ g ∈ gs, Sound g) ∧ ∀ fl, D1 rnd T h fl z Q = some (view rnd gs fl z Q) := by
    cases h <;> simp only [fragTables, Option.some.injEq, reduceCtorEq] at hg
    · subst hg; exact ⟨hs.plus.1, hs.plus.2, fun _ => rfl⟩
    · subst hg; exact ⟨hs.minus.1, hs.minus.2, fun _ => rfl⟩
  obtain ⟨e1, e2, e3⟩ := e
  have e4 : ∀ fl, H1perpM1 rnd A T h fl z Q = some ((view rnd gs fl z Q).bind fun d => .val (A.collins h fl z * d)) := by
    intro fl; rw [H1perpM1, e3]; rfl
  refine ⟨fun fl hf => ?_, fun fl hf => ?_, fun ho => ?_⟩
  · obtain ⟨v, hv⟩ := view_val hr ⟨e1, e2⟩ hf z Q
    exact ⟨v, by rw [e3, hv]⟩
  · obtain ⟨v, hv⟩ := view_val hr ⟨e1, e2⟩ hf z Q
    exact ⟨_, by rw [e4, hv]; rfl⟩
  · obtain ⟨fl, hf, hv⟩ := view_nan hr ⟨e1, e2⟩ ho
    exact ⟨⟨fl, hf, by rw [e3, hv]⟩, fl, hf, by rw [e4, hv]; simp [Res.bind]⟩

private theorem well (hr : Arithmetic rnd) (hs : SoundT T) {h : Hadron} {gs : List Grid}
    (hg : fragTables T h = some gs) (n : Name) (x z Q t : Fl) : Well A rnd T gs n h x z Q t := by
  obtain ⟨fd, fh, fo⟩ := frags (A := A) hr hs hg z Q
  have vg := fun fl hf => view_val hr hs.g1 (fl := fl) hf x Q
  have vT := fun fl hf => view_val hr hs.xgT (fl := fl) hf x Q
  have vs := fun fl hf => view_val hr hs.sb (fl := fl) hf x Q
  have vh := fun fl hf => view_val hr hs.xh (fl := fl) hf x Q
  have one : ∀ {dist : ℕ → Res Fl} {frag : ℕ → Option (Res Fl)} {off : Prop} (p : Fl),
      (∀ fl < 6, ∃ d, dist fl = .val d) → (∀ fl < 6, ∃ f, frag fl = some (.val f)) →
      (OffGrid gs z Q → ∃ fl < 6, frag fl = some (.val .nan)) → (off → ∃ fl < 6, dist fl = .val .nan) →
      ∃ v, (sum A dist frag).map (fun r => r.bind fun s => .val (p * s)) = some (.val v) ∧
        ((OffGrid gs z Q ∧ Given n) ∨ off → v = .nan) := by
    intro dist frag off p h1 h2 h3 h4
    obtain ⟨v, e, hn⟩ := sum_val (A := A) h1 h2
    refine ⟨p * v, by rw [e]; rfl, ?_⟩
    intro ho
    rw [hn ?_, mul_nan]
    rcases ho with ho | ho
    · obtain ⟨fl, hf, e⟩ := h3 ho.1
      exact ⟨fl, hf, .inr e⟩
    · obtain ⟨fl, hf, e⟩ := h4 ho
      exact ⟨fl, hf, .inl e⟩
  have og : OffGrid T.g1 x Q → ∃ fl < 6, view rnd T.g1 fl x Q = .val .nan := view_nan hr hs.g1
  have oT : OffGrid T.xgT x Q → ∃ fl < 6, view rnd T.xgT fl x Q = .val .nan := view_nan hr hs.xgT
  have os : OffGrid T.sb x Q → ∃ fl < 6, view rnd T.sb fl x Q = .val .nan := view_nan hr hs.sb
  have oh : OffGrid T.xh1LperpM1 x Q → ∃ fl < 2, view rnd T.xh1LperpM1 fl x Q = .val .nan := view_nan hr hs.xh
  have pg : ∀ fl < 6, ∃ d, xg1 rnd T fl x Q = .val d := fun fl hf => by
    obtain ⟨v, hv⟩ := vg fl hf; exact ⟨_, by rw [xg1, hv]; rfl⟩
  have ph : ∀ fl < 6, ∃ d, xh1LperpM1 rnd T fl x Q = .val d := fun fl hf => by
    unfold xh1LperpM1
    split_ifs with hc
    · exact vh fl (by omega)
    · exact ⟨_, rfl⟩
  have p1 : ∀ fl < 6, ∃ d, xh1 rnd A T fl x Q = .val d := fun fl hf => by
    obtain ⟨v, hv⟩ := vs fl hf; exact ⟨_, by rw [xh1, hv]; rfl⟩
  have pm : ∀ fl < 6, ∃ d, xh1M1 rnd A T fl x Q = .val d := fun fl hf => by
    obtain ⟨v, hv⟩ := p1 fl hf; exact ⟨_, by rw [xh1M1, hv]; rfl⟩
  have pp : ∀ fl < 6, ∃ d, xh1TperpM2 rnd A T fl x Q = .val d := fun fl hf => by
    obtain ⟨v, hv⟩ := pg fl hf; exact ⟨_, by rw [xh1TperpM2, hv]; rfl⟩
  have ng : OffGrid T.g1 x Q → ∃ fl < 6, xg1 rnd T fl x Q = .val .nan := fun ho => by
    obtain ⟨fl, hf, e⟩ := og ho; exact ⟨fl, hf, by rw [xg1, e]; simp [Res.bind]⟩
  have np : OffGrid T.g1 x Q → ∃ fl < 6, xh1TperpM2 rnd A T fl x Q = .val .nan := fun ho => by
    obtain ⟨fl, hf, e⟩ := ng ho; exact ⟨fl, hf, by rw [xh1TperpM2, e]; simp [Res.bind]⟩
  have n1 : OffGrid T.sb x Q → ∃ fl < 6, xh1 rnd A T fl x Q = .val .nan := fun ho => by
    obtain ⟨fl, hf, e⟩ := os ho; exact ⟨fl, hf, by rw [xh1, e]; simp [Res.bind]⟩
  have nm : OffGrid T.sb x Q → ∃ fl < 6, xh1M1 rnd A T fl x Q = .val .nan := fun ho => by
    obtain ⟨fl, hf, e⟩ := n1 ho; exact ⟨fl, hf, by rw [xh1M1, e]; simp [Res.bind]⟩
  have nh : OffGrid T.xh1LperpM1 x Q → ∃ fl < 6, xh1LperpM1 rnd T fl x Q = .val .nan := fun ho => by
    obtain ⟨fl, hf, e⟩ := oh ho
    refine ⟨fl, by omega, ?_⟩
    rw [xh1LperpM1, if_neg (by omega), e]
  have f1 : ∀ fl < 6, ∃ d, Res.val (xf1 A fl x Q) = .val d := fun fl _ => ⟨_, rfl⟩
  have f2 : ∀ fl < 6, ∃ d, xf1TperpM1 A fl x Q = .val d := fun fl _ => ⟨_, rfl⟩
  have f3 : ∀ fl < 6, ∃ d, xh1perpM1 A fl x Q = .val d := fun fl _ => ⟨_, rfl⟩
  have od := fun ho => (fo ho).1
  have oh1 := fun ho => (fo ho).2
  have no : ∀ {p : ℕ → Res Fl}, (∃ ts ∈ ([] : List (List Grid)), OffGrid ts x Q) → ∃ fl < 6, p fl = .val .nan := by
    rintro p ⟨_, h, -⟩; cases h
  have si : ∀ {ts : List Grid} {p : ℕ → Res Fl}, (OffGrid ts x Q → ∃ fl < 6, p fl = .val .nan) →
      (∃ us ∈ [ts], OffGrid us x Q) → ∃ fl < 6, p fl = .val .nan := by
    rintro ts p h ⟨us, hu, ho⟩
    rw [List.mem_singleton] at hu
    exact h (hu ▸ ho)
  cases n <;> unfold Well <;> simp only [sf, distTables]
  case UUL => exact ⟨_, rfl, by simp [Given]⟩
  case UTL_sin_phih_m_phis => exact ⟨_, rfl, by simp [Given]⟩
  case LU_sin_phih => exact ⟨_, rfl, by simp [Given]⟩
  case UUT => exact one _ f1 fd od no
  case UU_cos_phih => exact one _ f1 fd od no
  case UU_cos_2phih => exact one _ f3 fh oh1 no
  case UL_sin_phih => exact one _ ph fh oh1 (si nh)
  case UL_sin_2phih => exact one _ ph fh oh1 (si nh)
  case UTT_sin_phih_m_phis => exact one _ f2 fd od no
  case UT_sin_3phih_m_phis => exact one _ pp fh oh1 (si np)
  case UT_sin_phis => exact one _ pm fh oh1 (si nm)
  case UT_sin_phih_p_phis => exact one _ p1 fh oh1 (si n1)
  case LL => exact one _ pg fd od (si ng)
  case LL_cos_phih => exact one _ pg fd od (si ng)
  case LT_cos_phih_m_phis => exact one _ vT fd od (si oT)
  case LT_cos_2phih_m_phis => exact one _ vT fd od (si oT)
  case LT_cos_phis => exact one _ vT fd od (si oT)
  case UT_sin_2phih_m_phis =>
    obtain ⟨v1, e1, m1⟩ := sum_val (A := A) f2 fd
    obtain ⟨v2, e2, m2⟩ := sum_val (A := A) pp fh
    refine ⟨_, by simp only [e1, e2, Res.bind]; rfl, ?_⟩
    rintro (ho | ho)
    · obtain ⟨fl, hf, e⟩ := od ho.1
      rw [m1 ⟨fl, hf, .inr e⟩]
      simp
    · obtain ⟨fl, hf, e⟩ := si np ho
      rw [m2 ⟨fl, hf, .inl e⟩]
      simp

/-- C121: with any files that the constructor accepts (of less than 2^53 characters), every structure function
of a pion is defined at every point: no access outside of a table, in exact and in double precision. -/
theorem c121_defined {mstw : Text → P} {rd : ℚ → Option ℚ} {fl : ℝ → ℝ} {disk : Disk} {datadir : String}
    (hr : Arithmetic rnd) (hd : ∀ p t, disk p = some t → t.length < 2 ^ 53)
    (hT : prokudinImpl mstw rd fl disk datadir.toList = .ok T) {h : Hadron} (hh : h = .piP ∨ h = .piM)
    (A : Parts) (n : Name) (x z Q_sq ph_t_sq : Fl) : ∃ v, sf rnd A T n h x z Q_sq ph_t_sq = some (.val v) := by
  obtain ⟨gs, hg⟩ : ∃ gs, fragTables T h = some gs := by rcases hh with rfl | rfl <;> exact ⟨_, rfl⟩
  obtain ⟨v, hv, -⟩ := well (A := A) hr (soundT hd hT) hg n x z Q_sq ph_t_sq
  exact ⟨v, hv⟩

/-- C121: where `z` and `Q²` are outside of the fragmentation tables of the pion, every structure function of
the set is NaN. -/
theorem c121_outside {mstw : Text → P} {rd : ℚ → Option ℚ} {fl : ℝ → ℝ} {disk : Disk} {datadir : String}
    (hr : Arithmetic rnd) (hd : ∀ p t, disk p = some t → t.length < 2 ^ 53)
    (hT : prokudinImpl mstw rd fl disk datadir.toList = .ok T) {h : Hadron} {gs : List Grid}
    (hg : fragTables T h = some gs) {z Q_sq : Fl} (ho : OffGrid gs z Q_sq) (A : Parts) {n : Name} (hn : Given n)
    (x ph_t_sq : Fl) : sf rnd A T n h x z Q_sq ph_t_sq = some (.val .nan) := by
  obtain ⟨v, hv, h1⟩ := well (A := A) hr (soundT hd hT) hg n x z Q_sq ph_t_sq
  rw [hv, h1 (.inl ⟨ho, hn⟩)]

/-- C121: where `x` and `Q²` are outside of a table of distributions, the structure functions made from it are
NaN. -/
theorem c121_outside_dist {mstw : Text → P} {rd : ℚ → Option ℚ} {fl : ℝ → ℝ} {disk : Disk} {datadir : String}
    (hr : Arithmetic rnd) (hd : ∀ p t, disk p = some t → t.length < 2 ^ 53)
    (hT : prokudinImpl mstw rd fl disk datadir.toList = .ok T) {h : Hadron} (hh : h = .piP ∨ h = .piM)
    {n : Name} {ts : List Grid} (ht : ts ∈ distTables T n) {x Q_sq : Fl} (ho : OffGrid ts x Q_sq) (A : Parts)
    (z ph_t_sq : Fl) : sf rnd A T n h x z Q_sq ph_t_sq = some (.val .nan) := by
  obtain ⟨gs, hg⟩ : ∃ gs, fragTables T h = some gs := by rcases hh with rfl | rfl <;> exact ⟨_, rfl⟩
  obtain ⟨v, hv, h1⟩ := well (A := A) hr (soundT hd hT) hg n x z Q_sq ph_t_sq
  rw [hv, h1 (.inr ⟨ts, ht, ho⟩)]

/-- C121: at a point of a grid which is not the last in either direction, the fragmentation function is exactly
the number that was loaded (c120_grid: the number in the file). -/
theorem c121_node {h : Hadron} {gs : List Grid} (hg : fragTables T h = some gs) {fl : ℕ} {g : Grid}
    (hf : gs[fl]? = some g) {d e : RDim} (hd : g.dims = [d.dim, e.dim]) (d1 : d.Proper ∧ d.count < 2 ^ 53)
    (e1 : e.Proper ∧ e.count < 2 ^ 53) {v : ℕ → ℕ → ℝ}
    (hv : ∀ i < d.count, ∀ j < e.count, g.data[i * e.count + j]? = some (.fin (v i j)))
    {i j : ℕ} (hi : i + 1 < d.count) (hj : j + 1 < e.count) :
    D1 id T h fl (.fin (d.node i)) (.fin (e.node j)) = some (.val (.fin (v i j))) := by
  have e3 : D1 id T h fl (.fin (d.node i)) (.fin (e.node j)) =
      some (view id gs fl (.fin (d.node i)) (.fin (e.node j))) := by
    cases h <;> simp only [fragTables, Option.some.injEq, reduceCtorEq] at hg <;> subst hg <;> rfl
  rw [e3]
  unfold view
  rw [hf]
  simp only
  rw [hd]
  have := (c29_nodes g.data [d, e] (fun l => v (l.headD 0) (l.tail.headD 0)) [i, j]
    (by rintro x (_ | ⟨_, _ | ⟨_, ⟨⟩⟩⟩); exacts [d1, e1])
    (by
      intro l hl
      match l, hl with
      | [a, b], .cons ha (.cons hb .nil) => simpa [flat] using hv a ha b hb)
    (.cons hi (.cons hj .nil))).2
  simpa [nodes] using this

private theorem uses_nan {k : Kinematics Fl} (hr : Arithmetic rnd) (hs : SoundT T) {gs : List Grid}
    (hg : fragTables T k.hadron = some gs) (ho : OffGrid gs k.z k.Q_sq) :
    ∃ had, hadUU rnd A T k = some (.val had) ∧ had.H_10 = .nan := by
  obtain ⟨a, ha, -⟩ := well (A := A) hr hs hg .UUL k.x k.z k.Q_sq k.ph_t_sq
  obtain ⟨b, hb, hb'⟩ := well (A := A) hr hs hg .UUT k.x k.z k.Q_sq k.ph_t_sq
  obtain ⟨c, hc, -⟩ := well (A := A) hr hs hg .UU_cos_phih k.x k.z k.Q_sq k.ph_t_sq
  obtain ⟨d, hd, -⟩ := well (A := A) hr hs hg .UU_cos_2phih k.x k.z k.Q_sq k.ph_t_sq
  rw [hb' (.inl ⟨ho, by simp [Given]⟩)] at hb
  refine ⟨makeHadUU k a .nan c d, ?_, ?_⟩
  · unfold hadUU
    simp only [ha, hb, hc, hd, Res.bind]
  · simp [makeHadUU]

/-- C121: where `z` and `Q²` of an event are outside of the fragmentation tables, the cross-sections of a
Prokudin set (Born, and both with radiative corrections) are NaN, for any polarisations. -/
theorem c121_cross_section {mstw : Text → P} {rd : ℚ → Option ℚ} {fl : ℝ → ℝ} {disk : Disk} {datadir : String}
    (hr : Arithmetic rnd) (hd : ∀ p t, disk p = some t → t.length < 2 ^ 53)
    (hT : prokudinImpl mstw rd fl disk datadir.toList = .ok T) {F : XsFuns} (hF : Uses rnd A T F)
    {k : Kinematics Fl} {gs : List Grid} (hg : fragTables T k.hadron = some gs) (ho : OffGrid gs k.z k.Q_sq)
    (lambda_e : Fl) (eta : V3 Fl) (k_0_bar : Fl) :
    F.born k lambda_e eta = .nan ∧ F.nradIr k lambda_e eta k_0_bar = .nan ∧
      F.nradInteg k lambda_e eta k_0_bar = .nan := by
  obtain ⟨had, h1, h2⟩ := uses_nan (A := A) hr (soundT hd hT) hg ho
  obtain ⟨_, _, _, _, _, e1⟩ := hF.born k lambda_e eta had h1
  obtain ⟨_, _, _, _, _, _, _, e2⟩ := hF.nradIr k lambda_e eta k_0_bar had h1
  obtain ⟨_, e3⟩ := hF.nradInteg k lambda_e eta k_0_bar
  have e2' : F.nradIr k lambda_e eta k_0_bar = .nan := by rw [e2]; simp [combine, nradUU, h2]
  refine ⟨by rw [e1]; simp [combine, bornUU, h2], e2', by rw [e3, e2', nan_add]⟩

/-- C121: and the generator then gives them the density zero: it never makes such events, with no message. -/
theorem c121_density {mstw : Text → P} {rd : ℚ → Option ℚ} {fl : ℝ → ℝ} {disk : Disk} {datadir : String}
    (hr : Arithmetic rnd) (hd : ∀ p t, disk p = some t → t.length < 2 ^ 53)
    (hT : prokudinImpl mstw rd fl disk datadir.toList = .ok T) {F : XsFuns} (hF : Uses rnd A T F)
    (d : Setup) (u : Fin 6 → Fl) {gs : List Grid}
    (hg : fragTables T (Cut.takeCut d.cut d.ps d.S u).kin.hadron = some gs)
    (ho : OffGrid gs (Cut.takeCut d.cut d.ps d.S u).kin.z (Cut.takeCut d.cut d.ps d.S u).kin.Q_sq) :
    d.eval F u = .fin 0 := by
  have key := c121_cross_section hr hd hT hF hg ho d.beam_pol
    (F.hadronFromTarget (Cut.takeCut d.cut d.ps d.S u).kin d.target_pol) d.soft_threshold
  have hw : ∀ j, weigh j .nan = .fin 0 := fun j => by
    unfold weigh
    rw [if_pos (.inl (by simp [Fl.isFinite]))]
  unfold Setup.eval
  simp only
  split_ifs with h
  · cases d.rc_method <;> simp only [key.1, key.2.1, key.2.2, hw]
  · rfl

/-- C121: which is the case, for the installed tables, for `Q²` below 1 or from 89.11, and for `z` below 0.010098
or from 0.989902. -/
theorem c121_shipped (hT : Shipped T) {h : Hadron} {gs : List Grid} (hg : fragTables T h = some gs)
    (h0 : gs ≠ []) (z Q_sq : ℝ) :
    OffGrid gs (.fin z) (.fin Q_sq) ↔ Q_sq < 1 ∨ 89.11 ≤ Q_sq ∨ z < 0.010098 ∨ 0.989902 ≤ z := by
  have hd : ∀ g ∈ gs, g.dims = [⟨99, .fin 0.010098, .fin 0.989902⟩, ⟨100, .fin 1, .fin 89.11⟩] := by
    intro g hm
    refine hT.D1 g (List.mem_append.2 ?_)
    cases h <;> simp only [fragTables, Option.some.injEq, reduceCtorEq] at hg <;> subst hg
    · exact .inl hm
    · exact .inr hm
  have key : ∀ a b c d z q : ℝ, List.Forall₂ Inside [⟨99, .fin a, .fin b⟩, ⟨100, .fin c, .fin d⟩] [.fin z, .fin q] ↔
      (a ≤ z ∧ z < b) ∧ c ≤ q ∧ q < d := by
    intro a b c d z q
    simp only [List.forall₂_cons, List.forall₂_nil_left_iff, and_true]
    rfl
  have k2 := key 0.010098 0.989902 1 89.11 z Q_sq
  constructor
  · rintro ⟨g, hm, hn⟩
    rw [hd g hm, k2] at hn
    by_contra hc
    push Not at hc
    exact hn ⟨⟨hc.2.2.1, hc.2.2.2⟩, hc.1, hc.2.1⟩
  · intro hc
    obtain ⟨g, hm⟩ := List.exists_mem_of_ne_nil _ h0
    refine ⟨g, hm, ?_⟩
    rw [hd g hm, k2]
    rintro ⟨⟨h1, h2⟩, h3, h4⟩
    rcases hc with hc | hc | hc | hc <;> linarith

/-- A point of the phase space at 10.6 GeV with `Q²` of about 0.6 GeV². -/
def lowQPt : PhaseSpace ℝ := ⟨0.1, 0.3, 0.3, 0.1, 0, 0⟩

/-- C121, a counterexample to "the cross-section is a number at every point of the phase space": with the
installed tables, it is NaN at `lowQPt`, which the cuts accept. -/
theorem c121_number_refuted {mstw : Text → P} {rd : ℚ → Option ℚ} {fl : ℝ → ℝ} {disk : Disk} {datadir : String}
    (hr : Arithmetic rnd) (hd : ∀ p t, disk p = some t → t.length < 2 ^ 53)
    (hT : prokudinImpl mstw rd fl disk datadir.toList = .ok T) (hS : Shipped T) {F : XsFuns}
    (hF : Uses rnd A T F) :
    Accepted examplePs (PlotSsa.quickS examplePs) lowQPt ∧ ∀ lambda_e eta,
      F.born (.make (finPs examplePs) (.fin (PlotSsa.quickS examplePs)) (finPt lowQPt)) lambda_e eta = .nan := by
  have e1 : examplePs.M = 0.9382720813 := by norm_num [examplePs, Nucleus.mass, CMath.ofReal]
  have e2 : examplePs.mh = 0.13957061 := by norm_num [examplePs, Hadron.mass, CMath.ofReal]
  have e3 : examplePs.Mth = 0.9382720813 + 0.1349770 := by
    norm_num [examplePs, Hadron.mass, Nucleus.mass, CMath.ofReal]
  constructor
  · have ht : (0.1 : ℝ) ≤ PtMax examplePs.M examplePs.mh examplePs.Mth (PlotSsa.quickS examplePs * 0.3)
        (PlotSsa.quickS examplePs * 0.1 * 0.3) 0.3 := by
      rw [PtMax, PlotSsa.quickS, e1, e2, e3]
      rcases le_total 0 (ZDet 0.9382720813 0.13957061 (0.9382720813 + 0.1349770)
        (2 * 10.6 * 0.9382720813 * 0.3) (2 * 10.6 * 0.9382720813 * 0.1 * 0.3) 0.3) with h | h
      · rw [max_eq_left h, ZDet]
        norm_num
      · rw [max_eq_right h]
        norm_num
    exact (accepted_of example_massive.1 (by
      norm_num [Reaches, PlotSsa.quickS, examplePs, Nucleus.mass, Lepton.mass, Hadron.mass, CMath.ofReal])
      lowQPt (by norm_num [lowQPt]) (by norm_num [lowQPt]) (by norm_num [lowQPt])
      (by norm_num [lowQPt])
      (by norm_num [lowQPt, PlotSsa.quickS, examplePs, Nucleus.mass, Lepton.mass, Hadron.mass, CMath.ofReal])
      (by norm_num [lowQPt, PlotSsa.quickS, examplePs, Nucleus.mass, Lepton.mass, Hadron.mass, CMath.ofReal])
      (by norm_num [lowQPt])
      (by norm_num [lowQPt, PlotSsa.quickS, examplePs, Nucleus.mass, Lepton.mass, Hadron.mass, CMath.ofReal])
      (by norm_num [lowQPt]) ht).1
  · intro lambda_e eta
    have hs := soundT hd hT
    refine (c121_cross_section hr hd hT hF (gs := T.D1_pi_plus) rfl ?_ lambda_e eta (.fin 0)).1
    have := (c121_shipped hS (h := .piP) (gs := T.D1_pi_plus) rfl
      (List.ne_nil_of_length_pos (by rw [hs.plus.1]; norm_num)) 0.3
      (PlotSsa.quickS examplePs * 0.1 * 0.3)).2 (.inl (by rw [PlotSsa.quickS, e1]; norm_num))
    exact this

private theorem sum_fin {parton : ℤ → ℝ → ℝ → ℝ} {dist : ℕ → Res Fl} {frag : ℕ → Option (Res Fl)} {f d : ℕ → ℝ}
    {d' : ℕ → Option ℝ} (h1 : ∀ fl < 6, dist fl = .val (.fin (f fl)))
    (h2 : ∀ fl < 6, frag fl = some (.val (.fin (d fl)))) (h3 : ∀ fl < 6, d' fl = some (d fl)) :
    ∃ s : ℝ, ProkudinTables.sum (parts parton) dist frag = some (.val (.fin s)) ∧ Prokudin.loop f d' = some s := by
  have e1 : ProkudinTables.sum (parts parton) dist frag = some (.val (.fin (
      (((((0 + sq (Prokudin.charge 0) * f 0 * d 0) + sq (Prokudin.charge 1) * f 1 * d 1)
        + sq (Prokudin.charge 2) * f 2 * d 2) + sq (Prokudin.charge 3) * f 3 * d 3)
        + sq (Prokudin.charge 4) * f 4 * d 4) + sq (Prokudin.charge 5) * f 5 * d 5))) := by
    simp only [ProkudinTables.sum, sumLoop, h1 0 (by norm_num), h1 1 (by norm_num), h1 2 (by norm_num),
      h1 3 (by norm_num), h1 4 (by norm_num), h1 5 (by norm_num), h2 0 (by norm_num), h2 1 (by norm_num),
      h2 2 (by norm_num), h2 3 (by norm_num), h2 4 (by norm_num), h2 5 (by norm_num)]
    rfl
  refine ⟨_, e1, ?_⟩
  rw [Prokudin.loop, show List.range Prokudin.numFlavors = [0, 1, 2, 3, 4, 5] from rfl]
  simp only [List.foldlM_cons, List.foldlM_nil, h3 0 (by norm_num), h3 1 (by norm_num), h3 2 (by norm_num),
    h3 3 (by norm_num), h3 4 (by norm_num), h3 5 (by norm_num)]
  rfl

private theorem number_view {gs : List Grid} {k : ℕ} {x q : ℝ} (h : OnGrid gs k x q) {fl : ℕ} (hf : fl < k) :
    view id gs fl (.fin x) (.fin q) = .val (.fin (number (view id gs fl (.fin x) (.fin q)))) := by
  obtain ⟨r, e⟩ := h fl hf
  rw [e]
  rfl

/-- C121: inside of the tables the structure functions are those of the formulas (C60) with the loaded tables as
the functions, in exact arithmetic. -/
theorem c121_formulas {h : Hadron} {gs : List Grid} (hg : fragTables T h = some gs) {x z Q_sq : ℝ}
    (hz : OnGrid gs 6 z Q_sq) {n : Name} (hx : ∀ ts ∈ distTables T n,
      OnGrid ts (if n = .UL_sin_phih ∨ n = .UL_sin_2phih then 2 else 6) x Q_sq)
    (parton : ℤ → ℝ → ℝ → ℝ) (ph_t_sq : ℝ) : ∃ v : ℝ,
    sf id (parts parton) T n h (.fin x) (.fin z) (.fin Q_sq) (.fin ph_t_sq) = some (.val (.fin v)) ∧
    named (Prokudin.sf (asFunctions parton T) h x z Q_sq ph_t_sq) n = some v := by
  set R := asFunctions parton T with hR
  -- fragmentation functions
  obtain ⟨dd, D, D'⟩ : ∃ d : ℕ → ℝ,
      (∀ fl < 6, D1 id T h fl (.fin z) (.fin Q_sq) = some (.val (.fin (d fl)))) ∧
      ∀ fl, Prokudin.D1 R h fl z Q_sq = some (d fl) := by
    cases h <;> simp only [fragTables, Option.some.injEq, reduceCtorEq] at hg <;> subst hg
    · exact ⟨fun fl => number (view id T.D1_pi_plus fl (.fin z) (.fin Q_sq)),
        fun fl hf => congrArg some (number_view hz hf), fun _ => rfl⟩
    · exact ⟨fun fl => number (view id T.D1_pi_minus fl (.fin z) (.fin Q_sq)),
        fun fl hf => congrArg some (number_view hz hf), fun _ => rfl⟩
  obtain ⟨hh, H, H'⟩ : ∃ d : ℕ → ℝ,
      (∀ fl < 6, H1perpM1 id (parts parton) T h fl (.fin z) (.fin Q_sq) = some (.val (.fin (d fl)))) ∧
      ∀ fl < 6, Prokudin.H1perpM1 R h fl z Q_sq = some (d fl) := by
    have hc : ∀ fl, ∃ c, Prokudin.collinsCoeff h fl = some c := by
      cases h <;> simp only [fragTables, Option.some.injEq, reduceCtorEq] at hg <;> exact fun fl => ⟨_, rfl⟩
    choose c hc using hc
    have e : ∀ fl, ∃ v : ℝ, Prokudin.H1perpM1 R h fl z Q_sq = some v ∧
        (fl < 6 → H1perpM1 id (parts parton) T h fl (.fin z) (.fin Q_sq) = some (.val (.fin v))) := by
      intro fl
      rw [Prokudin.H1perpM1, D' fl, hc]
      refine ⟨_, rfl, fun hf => ?_⟩
      rw [H1perpM1, D fl hf]
      simp only [Option.map_some, Res.bind, parts, lift, hc, Option.getD_some]
      rfl
    choose v e1 e2 using e
    exact ⟨v, fun fl hf => e2 fl hf, fun fl _ => e1 fl⟩
  -- distributions
  have F1 : ∀ fl < 6, Res.val (xf1 (parts parton) fl (.fin x) (.fin Q_sq)) =
      .val (.fin (Prokudin.xf1 R fl x Q_sq)) := by
    intro fl hf
    interval_cases fl <;> rfl
  have F1' : ∀ fl < 6, xf1 (parts parton) fl (.fin x) (.fin Q_sq) = .fin (Prokudin.xf1 R fl x Q_sq) :=
    fun fl hf => Res.val.inj (F1 fl hf)
  have FS : ∀ fl < 6, xf1TperpM1 (parts parton) fl (.fin x) (.fin Q_sq) =
      .val (.fin (Prokudin.xf1TperpM1 R fl x Q_sq)) := by
    intro fl hf
    rw [xf1TperpM1, F1' fl hf]
    rfl
  have FB : ∀ fl < 6, xh1perpM1 (parts parton) fl (.fin x) (.fin Q_sq) =
      .val (.fin (Prokudin.xh1perpM1 R fl x Q_sq)) := by
    intro fl hf
    rw [xh1perpM1, F1' fl hf]
    rfl
  have FG : OnGrid T.g1 6 x Q_sq → ∀ fl < 6, xg1 id T fl (.fin x) (.fin Q_sq) =
      .val (.fin (Prokudin.xg1 R fl x Q_sq)) := by
    intro ho fl hf
    rw [xg1, number_view ho hf]
    rfl
  have FP : OnGrid T.g1 6 x Q_sq → ∀ fl < 6, xh1TperpM2 id (parts parton) T fl (.fin x) (.fin Q_sq) =
      .val (.fin (Prokudin.xh1TperpM2 R fl x Q_sq)) := by
    intro ho fl hf
    rw [xh1TperpM2, FG ho fl hf, Res.bind, F1' fl hf]
    rfl
  have FT : OnGrid T.xgT 6 x Q_sq → ∀ fl < 6, xgT id T fl (.fin x) (.fin Q_sq) =
      .val (.fin (Prokudin.xgT R fl x Q_sq)) := by
    intro ho fl hf
    rw [xgT, number_view ho hf]
    rfl
  have FH : OnGrid T.sb 6 x Q_sq → ∀ fl < 6, xh1 id (parts parton) T fl (.fin x) (.fin Q_sq) =
      .val (.fin (Prokudin.xh1 R fl x Q_sq)) := by
    intro ho fl hf
    rw [xh1, number_view ho hf]
    rfl
  have FM : OnGrid T.sb 6 x Q_sq → ∀ fl < 6, xh1M1 id (parts parton) T fl (.fin x) (.fin Q_sq) =
      .val (.fin (Prokudin.xh1M1 R fl x Q_sq)) := by
    intro ho fl hf
    rw [xh1M1, FH ho fl hf]
    rfl
  have FL : OnGrid T.xh1LperpM1 2 x Q_sq → ∀ fl < 6, xh1LperpM1 id T fl (.fin x) (.fin Q_sq) =
      .val (.fin (Prokudin.xh1LperpM1 R fl x Q_sq)) := by
    intro ho fl hf
    rw [xh1LperpM1, Prokudin.xh1LperpM1]
    split_ifs with hc
    · exact number_view ho (by omega)
    · rfl
  have one : ∀ {dist : ℕ → Res Fl} {frag : ℕ → Option (Res Fl)} {f d : ℕ → ℝ} {d' : ℕ → Option ℝ} {p p' : ℝ},
      (∀ fl < 6, dist fl = .val (.fin (f fl))) → (∀ fl < 6, frag fl = some (.val (.fin (d fl)))) →
      (∀ fl < 6, d' fl = some (d fl)) → p = p' →
      ∃ v : ℝ, (ProkudinTables.sum (parts parton) dist frag).map (fun r => r.bind fun s => .val (.fin p * s)) =
          some (.val (.fin v)) ∧ (Prokudin.loop f d').bind (fun s => some (p' * s)) = some v := by
    rintro dist frag f d d' p p' h1 h2 h3 rfl
    obtain ⟨s, e1, e2⟩ := sum_fin (parton := parton) h1 h2 h3
    exact ⟨p * s, by rw [e1]; rfl, by rw [e2]; rfl⟩
  have D6 : ∀ fl < 6, Prokudin.D1 R h fl z Q_sq = some (dd fl) := fun fl _ => D' fl
  cases n <;> simp only [distTables, List.mem_cons, List.not_mem_nil, or_false, forall_eq, reduceCtorEq, or_true,
    or_self, true_or, if_true, if_false] at hx
  case UUL => exact ⟨0, rfl, rfl⟩
  case UTL_sin_phih_m_phis => exact ⟨0, rfl, rfl⟩
  case LU_sin_phih => exact ⟨0, rfl, rfl⟩
  case UUT => exact one F1 D D6 rfl
  case UU_cos_phih => exact one F1 D D6 rfl
  case UU_cos_2phih => exact one FB H H' rfl
  case UL_sin_phih => exact one (FL hx) H H' rfl
  case UL_sin_2phih => exact one (FL hx) H H' rfl
  case UTT_sin_phih_m_phis => exact one FS D D6 rfl
  case UT_sin_3phih_m_phis => exact one (FP hx) H H' rfl
  case UT_sin_phis => exact one (FM hx) H H' rfl
  case UT_sin_phih_p_phis => exact one (FH hx) H H' rfl
  case LL => exact one (FG hx) D D6 rfl
  case LL_cos_phih => exact one (FG hx) D D6 rfl
  case LT_cos_phih_m_phis => exact one (FT hx) D D6 rfl
  case LT_cos_2phih_m_phis => exact one (FT hx) D D6 rfl
  case LT_cos_phis => exact one (FT hx) D D6 rfl
  case UT_sin_2phih_m_phis =>
    obtain ⟨s1, a1, b1⟩ := sum_fin (parton := parton) FS D D6
    obtain ⟨s2, a2, b2⟩ := sum_fin (parton := parton) (FP hx) H H'
    have e : ∃ v : ℝ, named (Prokudin.sf R h x z Q_sq ph_t_sq) .UT_sin_2phih_m_phis = some v ∧
        sf id (parts parton) T .UT_sin_2phih_m_phis h (.fin x) (.fin z) (.fin Q_sq) (.fin ph_t_sq) =
          some (.val (.fin v)) := by
      simp only [named, Prokudin.sf, b1, b2]
      refine ⟨_, rfl, ?_⟩
      simp only [sf, a1, a2, Res.bind]
      rfl
    obtain ⟨v, e1, e2⟩ := e
    exact ⟨v, e2, e1⟩

/-- C121: a point inside of the ranges of grids filled with finite numbers has a finite value there. -/
theorem c121_on_grid {gs : List Grid} {k : ℕ} {x Q_sq : ℝ} (hg : ∀ fl < k, ∃ (g : Grid) (d e : RDim),
      gs[fl]? = some g ∧ g.dims = [d.dim, e.dim] ∧ (d.Proper ∧ d.count < 2 ^ 53) ∧ (e.Proper ∧ e.count < 2 ^ 53) ∧
      (∀ i < d.count * e.count, ∃ r : ℝ, g.data[i]? = some (.fin r)) ∧
      (d.lo ≤ x ∧ x < d.hi) ∧ e.lo ≤ Q_sq ∧ Q_sq < e.hi) : OnGrid gs k x Q_sq := by
  intro fl hf
  obtain ⟨g, d, e, h1, h2, h3, h4, h5, h6, h7⟩ := hg fl hf
  unfold view
  rw [h1]
  simp only
  rw [h2]
  choose! v hv using h5
  have := cubicView_exact (data := g.data) [d, e]
    (by rintro x (_ | ⟨_, _ | ⟨_, ⟨⟩⟩⟩); exacts [h3, h4]) 0 (fun l => v (flat [d.count, e.count] l))
    (by
      intro l hl
      match l, hl with
      | [a, b], .cons ha (.cons hb .nil) =>
        have : flat [d.count, e.count] [a, b] < d.count * e.count := by
          simp [flat]
          calc a * e.count + b < a * e.count + e.count := by omega
            _ = (a + 1) * e.count := by ring
            _ ≤ d.count * e.count := Nat.mul_le_mul_right _ ha
        simpa using hv _ this)
    [x, Q_sq] (.cons h6 (.cons h7 .nil))
  exact ⟨_, this⟩

/-- C121: a flavour that is not one of the six reads past the end of the array of tables. -/
theorem c121_flavor_refuted {mstw : Text → P} {rd : ℚ → Option ℚ} {fl : ℝ → ℝ} {disk : Disk} {datadir : String}
    (hd : ∀ p t, disk p = some t → t.length < 2 ^ 53)
    (hT : prokudinImpl mstw rd fl disk datadir.toList = .ok T) {f : ℕ} (hf : 6 ≤ f) (x Q_sq : Fl) :
    D1 rnd T .piP f x Q_sq = some .ub ∧ D1 rnd T .piM f x Q_sq = some .ub ∧ xg1 rnd T f x Q_sq = .ub ∧
      xgT rnd T f x Q_sq = .ub := by
  have hs := soundT hd hT
  refine ⟨congrArg some (view_ub (by rw [hs.plus.1]; exact hf) _ _),
    congrArg some (view_ub (by rw [hs.minus.1]; exact hf) _ _), ?_, view_ub (by rw [hs.xgT.1]; exact hf) _ _⟩
  rw [xg1, view_ub (by rw [hs.g1.1]; exact hf)]
  rfl

/-! ### The hypotheses are met -/

/-- With the tables of `c120_example`, every structure function is defined everywhere, and those of π⁺ are NaN at
`z = 1/2`, `Q² = 5`, outside of these tables. -/
example (A : Parts) (mstw : Text → P) : ∃ T,
    prokudinImpl mstw some id (fun _ => some exFile) "/usr/share".toList = .ok T ∧
    (∀ n x z Q_sq t, ∃ v, sf id A T n .piP x z Q_sq t = some (.val v)) ∧
    ∀ x t, sf id A T .UUT .piP x (.fin (1 / 2)) (.fin 5) t = some (.val .nan) := by
  obtain ⟨T, hT, -, l1, -, hd, -⟩ := c120_example mstw
  have hlen : ∀ (p t : Text), (fun _ : Text => some exFile) p = some t → t.length < 2 ^ 53 := by
    rintro p t ⟨⟩
    decide
  refine ⟨T, hT, fun n x z Q_sq t => c121_defined (.inl rfl) hlen hT (.inl rfl) A n x z Q_sq t, fun x t => ?_⟩
  refine c121_outside (.inl rfl) hlen hT (gs := T.D1_pi_plus) rfl ?_ A (by simp [Given]) x t
  obtain ⟨g, hm⟩ := List.exists_mem_of_ne_nil T.D1_pi_plus (List.ne_nil_of_length_pos (by rw [l1]; norm_num))
  refine ⟨g, hm, ?_⟩
  rw [hd g (List.mem_append_left _ hm)]
  rintro (_ | ⟨-, _ | ⟨h, -⟩⟩)
  have : (5 : ℝ) < 1 := h.2
  norm_num at this

/-- Grids filled with ones on `[0, 2) × [1, 3)`, and a point inside. -/
example : ∃ gs : List Grid, OnGrid gs 6 1 2 := by
  let d : RDim := ⟨2, 0, 2⟩
  let e : RDim := ⟨2, 1, 3⟩
  refine ⟨List.replicate 6 ⟨[d.dim, e.dim], List.replicate 4 (.fin 1)⟩, c121_on_grid fun fl hf => ?_⟩
  refine ⟨_, d, e, by rw [List.getElem?_replicate, if_pos hf], rfl, ?_, ?_, fun i hi => ⟨1, ?_⟩, ?_, ?_⟩
  · norm_num [d, RDim.Proper]
  · norm_num [e, RDim.Proper]
  · rw [List.getElem?_replicate, if_pos (by simpa [d, e] using hi)]
  · norm_num [d]
  · norm_num [e]

/-- Functions that use a set, with the Born cross-section of a set in place of the others. -/
example (rnd : ℝ → ℝ) (A : Parts) (T : LoadGrids.Tables P) (F₀ : XsFuns) : ∃ F, Uses rnd A T F := by
  classical
  let o : V3 Fl := ⟨.fin 0, .fin 0, .fin 0⟩
  let one := fun (_ : Fin 4) => Fl.fin 1
  let b := fun (k : Kinematics Fl) (l : Fl) (e : V3 Fl) => match hadUU rnd A T k with
    | some (.val had) => combine (bornUU (.fin 1) one had) o (.fin 0) o l e
    | _ => .fin 0
  let n := fun (k : Kinematics Fl) (l : Fl) (e : V3 Fl) (_ : Fl) => match hadUU rnd A T k with
    | some (.val had) => combine (nradUU (.fin 1) (.fin 0) one one had) o (.fin 0) o l e
    | _ => .fin 0
  refine ⟨{ F₀ with born := b, nradIr := n, nradInteg := fun k l e s => n k l e s + .fin 1 }, ⟨?_, ?_, ?_⟩⟩
  · intro k l e had h
    exact ⟨.fin 1, one, o, .fin 0, o, by simp only [b, h]⟩
  · intro k l e s had h
    exact ⟨.fin 1, .fin 0, one, one, o, .fin 0, o, by simp only [n, h]⟩
  · intro k l e s
    exact ⟨_, rfl⟩

/-- Tables with the ranges of the installed ones. -/
example (p : P) : ∃ T : LoadGrids.Tables P, Shipped T ∧ T.D1_pi_plus ≠ [] := by
  let g : Grid := ⟨[⟨99, .fin 0.010098, .fin 0.989902⟩, ⟨100, .fin 1, .fin 89.11⟩], []⟩
  let g' : Grid := ⟨[⟨100, .fin 0.01, .fin 0.9406⟩, ⟨100, .fin 1, .fin 49.51⟩], []⟩
  exact ⟨⟨p, [g], [g], [g], [g'], [g'], [g]⟩, ⟨by simp [g], by simp [g], by simp [g']⟩, by simp⟩

end Sidis.Props
