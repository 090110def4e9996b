import Verif.Spec.ReadGrids
import Verif.Lemmas.Interp
import Mathlib.Data.List.Range
import Mathlib.Data.List.Perm.Basic
import Mathlib.Algebra.BigOperators.Group.List.Basic

/-! # Lemmas on reading grids -/

namespace Sidis.Interp

open Spec

theorem Res.bind_eq_val {α β : Type} {x : Res α} {f : α → Res β} {b : β} :
    x.bind f = .val b ↔ ∃ a, x = .val a ∧ f a = .val b := by
  cases x <;> simp [Res.bind]

theorem Res.bind_eq_ub {α β : Type} {x : Res α} {f : α → Res β} :
    x.bind f = .ub ↔ x = .ub ∨ ∃ a, x = .val a ∧ f a = .ub := by
  cases x <;> simp [Res.bind]

@[simp] theorem Res.bind_val {α β : Type} (a : α) (f : α → Res β) : (Res.val a).bind f = f a := rfl

/-! ## Mixed radix numbers -/

/-- Position with the fastest index first. -/
def fastPos : List ℕ → List ℕ → ℕ
  | c :: cs, i :: is => i + c * fastPos cs is
  | _, _ => 0

/-- Digits, fastest first. -/
def digits (r : ℕ) : List ℕ → List ℕ
  | [] => []
  | c :: cs => r % c :: digits (r / c) cs

theorem flat_append (cs is : List ℕ) (c i : ℕ) (h : cs.length = is.length) :
    flat (cs ++ [c]) (is ++ [i]) = flat cs is * c + i := by
  induction cs generalizing is with
  | nil =>
    obtain rfl : is = [] := by simpa using h.symm
    simp [flat]
  | cons d cs ih =>
    obtain _ | ⟨j, is⟩ := is
    · simp at h
    have e := ih is (by simpa using h)
    simp only [List.cons_append, flat, e, List.prod_append, List.prod_cons, List.prod_nil]
    ring

theorem flat_reverse (cs is : List ℕ) (h : cs.length = is.length) :
    flat cs.reverse is.reverse = fastPos cs is := by
  induction cs generalizing is with
  | nil =>
    obtain rfl : is = [] := by simpa using h.symm
    rfl
  | cons d cs ih =>
    obtain _ | ⟨j, is⟩ := is
    · simp at h
    have h' : cs.length = is.length := by simpa using h
    rw [List.reverse_cons, List.reverse_cons, flat_append _ _ _ _ (by simpa using h'), ih is h',
      fastPos]
    ring

theorem fastPos_digits (r : ℕ) (cs : List ℕ) : fastPos cs (digits r cs) = r % cs.prod := by
  induction cs generalizing r with
  | nil => simp [fastPos, digits, Nat.mod_one]
  | cons c cs ih => rw [digits, fastPos, ih, List.prod_cons, Nat.mod_mul]

theorem digits_length (r : ℕ) (cs : List ℕ) : (digits r cs).length = cs.length := by
  induction cs generalizing r with
  | nil => rfl
  | cons c cs ih => simp [digits, ih]

theorem digits_range (r : ℕ) (cs : List ℕ) (h : ∀ c ∈ cs, 0 < c) : InRange cs (digits r cs) := by
  induction cs generalizing r with
  | nil => exact .nil
  | cons c cs ih =>
    exact .cons (Nat.mod_lt _ (h c (by simp))) (ih _ fun d hd => h d (by simp [hd]))

theorem digits_eq {r : ℕ} {cs is : List ℕ} (h : InRange cs is) (hr : r % cs.prod = fastPos cs is) :
    digits r cs = is := by
  induction h generalizing r with
  | nil => rfl
  | @cons c i cs is h1 _ ih =>
    have hc : 0 < c := by omega
    rw [List.prod_cons, Nat.mod_mul, fastPos] at hr
    have e1 : r % c = i := by
      have := congrArg (· % c) hr
      simpa [Nat.add_mul_mod_self_left, Nat.mod_eq_of_lt h1] using this
    have e2 : r / c % cs.prod = fastPos cs is := by
      rw [e1] at hr
      exact Nat.eq_of_mul_eq_mul_left hc (by omega)
    rw [digits, e1, ih e2]

theorem digits_append (r : ℕ) (cs ds : List ℕ) :
    digits r (cs ++ ds) = digits r cs ++ digits (r / cs.prod) ds := by
  induction cs generalizing r with
  | nil => simp [digits]
  | cons c cs ih => simp [digits, ih, Nat.div_div_eq_div_mul]

theorem flat_inj {cs is js : List ℕ} (hi : InRange cs is) (hj : InRange cs js)
    (h : flat cs is = flat cs js) : is = js := by
  have key : ∀ {cs is}, InRange cs is → InRange cs.reverse is.reverse := by
    intro cs is h
    exact List.rel_reverse h
  have li := hi.length_eq
  have lj := hj.length_eq
  have e1 := flat_reverse cs.reverse is.reverse (by simp [li])
  have e2 := flat_reverse cs.reverse js.reverse (by simp [lj])
  rw [List.reverse_reverse, List.reverse_reverse] at e1 e2
  have d (l : List ℕ) (hl : InRange cs l) : fastPos cs.reverse l.reverse < cs.reverse.prod := by
    have := key hl
    clear e1 e2 li lj hi hj h
    generalize cs.reverse = cs' at this ⊢
    generalize l.reverse = l' at this ⊢
    induction this with
    | nil => simp [fastPos]
    | @cons c i cs is h1 _ ih =>
      rw [fastPos, List.prod_cons]
      have : c * (fastPos cs is + 1) ≤ c * cs.prod := Nat.mul_le_mul_left _ ih
      rw [Nat.mul_add, Nat.mul_one] at this
      omega
  have a1 := digits_eq (r := fastPos cs.reverse is.reverse) (key hi) (Nat.mod_eq_of_lt (d is hi))
  have a2 := digits_eq (r := fastPos cs.reverse is.reverse) (key hj)
    (by rw [Nat.mod_eq_of_lt (d is hi), ← e1, h, e2])
  have := a1.symm.trans a2
  simpa using congrArg List.reverse this

theorem flat_lt {cs is : List ℕ} (hi : InRange cs is) : flat cs is < cs.prod := by
  induction hi with
  | nil => simp [flat]
  | @cons c i cs is h1 _ ih =>
    rw [flat, List.prod_cons]
    have : (i + 1) * cs.prod ≤ c * cs.prod := Nat.mul_le_mul_right _ h1
    rw [Nat.add_mul, Nat.one_mul] at this
    omega

theorem inRange_map {cnt i : ℕ → ℕ} {l : List ℕ} (h : ∀ k ∈ l, i k < cnt k) :
    InRange (l.map cnt) (l.map i) := by
  induction l with
  | nil => exact .nil
  | cons k l ih => exact .cons (h k (by simp)) (ih fun j hj => h j (by simp [hj]))

/-! ## Positions in the output -/

/-- Number of cells of the axes after `k`. -/
def weight (cnt : ℕ → ℕ) (N k : ℕ) : ℕ := ((List.range' (k + 1) (N - (k + 1))).map cnt).prod

theorem flat_range' (cnt i : ℕ → ℕ) (a n : ℕ) :
    flat ((List.range' a n).map cnt) ((List.range' a n).map i)
      = ((List.range' a n).map fun k => i k * weight cnt (a + n) k).sum := by
  induction n generalizing a with
  | zero => rfl
  | succ n ih =>
    have e : a + (n + 1) = a + 1 + n := by omega
    rw [List.range'_succ, List.map_cons, List.map_cons, flat, List.map_cons, List.sum_cons, ih, e]
    congr 2
    rw [weight]
    congr 3
    omega

theorem countTotals_eq {axes : List Axis} {N : ℕ} (hp : ∀ k < N, 0 < countOf axes k) (k : ℕ)
    (hk : k < N) :
    countTotals axes ((List.range N).map (countOf axes)).prod k = weight (countOf axes) N k := by
  induction k with
  | zero =>
    obtain ⟨n, rfl⟩ : ∃ n, N = n + 1 := ⟨N - 1, by omega⟩
    rw [countTotals, List.range_eq_range', List.range'_succ, List.map_cons, List.prod_cons,
      Nat.mul_div_cancel_left _ (hp 0 hk), weight]
    congr 2
  | succ k ih =>
    rw [countTotals, ih (by omega), weight, weight]
    obtain ⟨n, hn⟩ : ∃ n, N - (k + 1) = n + 1 := ⟨N - (k + 1) - 1, by omega⟩
    rw [hn, List.range'_succ, List.map_cons, List.prod_cons, Nat.mul_div_cancel_left _ (hp _ hk)]
    congr 3
    omega

theorem newRow_eq (all : List Axis) (ct row : ℕ) (i : ℕ → ℕ) (axes : List Axis) (nc nr : ℕ)
    (h : digits (row / nc) (axes.map Axis.count) = axes.map fun a => i a.col) :
    newRow all ct row axes nc nr
      = nr + (axes.map fun a => i a.col * countTotals all ct a.col).sum := by
  induction axes generalizing nc nr with
  | nil => simp [newRow]
  | cons a axes ih =>
    simp only [List.map_cons, digits, List.cons.injEq] at h
    rw [newRow, ih _ _ (by rw [← Nat.div_div_eq_div_mul]; exact h.2), h.1, List.map_cons,
      List.sum_cons, Nat.add_assoc]

/-- The axes cover all the columns. -/
structure Covers (N : ℕ) (axes : List Axis) : Prop where
  perm : (axes.map Axis.col).Perm (List.range N)
  count : ∀ a ∈ axes, 2 ≤ a.count

namespace Covers

theorem find {N : ℕ} {axes : List Axis} (h : (axes.map Axis.col).Nodup) {a : Axis} (ha : a ∈ axes) :
    axisOf axes a.col = some a := by
  induction axes with
  | nil => simp at ha
  | cons b axes ih =>
    simp only [List.map_cons, List.nodup_cons] at h
    rcases List.mem_cons.1 ha with rfl | ha
    · simp [axisOf]
    · have : b.col ≠ a.col := fun e => h.1 (e ▸ List.mem_map_of_mem ha)
      simp only [axisOf, List.find?_cons, this, decide_false]
      exact ih h.2 ha

variable {N : ℕ} {axes : List Axis} (h : Covers N axes)
include h

theorem nodup : (axes.map Axis.col).Nodup := h.perm.nodup_iff.2 List.nodup_range

theorem countOf_eq {a : Axis} (ha : a ∈ axes) : countOf axes a.col = a.count := by
  rw [countOf, find (N := N) h.nodup ha]

theorem exists_axis {k : ℕ} (hk : k < N) : ∃ a ∈ axes, a.col = k := by
  have : k ∈ axes.map Axis.col := h.perm.mem_iff.2 (List.mem_range.2 hk)
  simpa using this

theorem col_lt {a : Axis} (ha : a ∈ axes) : a.col < N :=
  List.mem_range.1 (h.perm.mem_iff.1 (List.mem_map_of_mem ha))

theorem count_map : axes.map Axis.count = (axes.map Axis.col).map (countOf axes) := by
  rw [List.map_map]
  apply List.map_congr_left
  intro a ha
  exact (h.countOf_eq ha).symm

theorem two_le {k : ℕ} (hk : k < N) : 2 ≤ countOf axes k := by
  obtain ⟨a, ha, rfl⟩ := h.exists_axis hk
  rw [h.countOf_eq ha]
  exact h.count a ha

theorem prod_eq : (axes.map Axis.count).prod = ((List.range N).map (countOf axes)).prod := by
  rw [h.count_map]
  exact (h.perm.map _).prod_eq

/-- A row in the place of multi-index `i` goes to the position of `i`. -/
theorem newRow_flat {row : ℕ} {i : ℕ → ℕ} (hi : ∀ k < N, i k < countOf axes k)
    (hr : row % (axes.map Axis.count).prod
      = fastPos (axes.map Axis.count) ((axes.map Axis.col).map i)) :
    newRow axes (axes.map Axis.count).prod row axes 1 0
      = flat ((List.range N).map (countOf axes)) ((List.range N).map i) := by
  have hd : digits row (axes.map Axis.count) = (axes.map Axis.col).map i := by
    apply digits_eq _ hr
    rw [h.count_map]
    exact inRange_map fun k hk => hi k (List.mem_range.1 (h.perm.mem_iff.1 hk))
  rw [newRow_eq _ _ _ i _ _ _ (by rw [Nat.div_one, hd, List.map_map]; rfl), Nat.zero_add,
    List.range_eq_range', flat_range', Nat.zero_add, ← List.range_eq_range']
  have e : (axes.map fun a => i a.col * countTotals axes (axes.map Axis.count).prod a.col)
      = (axes.map Axis.col).map fun k => i k * weight (countOf axes) N k := by
    rw [List.map_map]
    apply List.map_congr_left
    intro a ha
    have hpos : ∀ k < N, 0 < countOf axes k := fun k hk => by have := h.two_le hk; omega
    simp only [Function.comp]
    rw [h.prod_eq, countTotals_eq hpos a.col (h.col_lt ha)]
  rw [e]
  exact (h.perm.map _).sum_eq

/-- Every row is in the place of some multi-index. -/
theorem exists_index (row : ℕ) : ∃ i : ℕ → ℕ, (∀ k < N, i k < countOf axes k) ∧
    row % (axes.map Axis.count).prod
      = fastPos (axes.map Axis.count) ((axes.map Axis.col).map i) := by
  have hpos : ∀ c ∈ axes.map Axis.count, 0 < c := by
    intro c hc
    obtain ⟨a, ha, rfl⟩ := List.mem_map.1 hc
    have := h.count a ha
    omega
  have hr := digits_range row _ hpos
  have hl := digits_length row (axes.map Axis.count)
  obtain ⟨i, hi⟩ : ∃ i : ℕ → ℕ, digits row (axes.map Axis.count) = (axes.map Axis.col).map i := by
    have key : ∀ (cols ds : List ℕ), cols.Nodup → ds.length = cols.length →
        ∃ i : ℕ → ℕ, ds = cols.map i := by
      intro cols
      induction cols with
      | nil => intro ds _ hl; exact ⟨id, by simpa using hl⟩
      | cons c cols ih =>
        intro ds hn hl
        obtain _ | ⟨d, ds⟩ := ds
        · simp at hl
        rw [List.nodup_cons] at hn
        obtain ⟨i, hi⟩ := ih ds hn.2 (by simpa using hl)
        refine ⟨Function.update i c d, ?_⟩
        rw [List.map_cons, Function.update_self, hi]
        congr 1
        apply List.map_congr_left
        intro k hk
        have : k ≠ c := fun e => hn.1 (e ▸ hk)
        rw [Function.update_of_ne this]
    exact key _ _ h.nodup (by simpa using hl)
  refine ⟨i, ?_, ?_⟩
  · intro k hk
    rw [hi, h.count_map] at hr
    have : ∀ (l : List ℕ), InRange (l.map (countOf axes)) (l.map i) → ∀ k ∈ l, i k < countOf axes k := by
      intro l
      induction l with
      | nil => simp
      | cons b l ih =>
        intro hl
        obtain _ | ⟨h1, h2⟩ := hl
        intro k hk
        rcases List.mem_cons.1 hk with rfl | hk
        · exact h1
        · exact ih h2 k hk
    exact this _ hr k (h.perm.mem_iff.2 (List.mem_range.2 hk))
  · rw [← hi, fastPos_digits]

theorem newRow_lt (row : ℕ) : newRow axes (axes.map Axis.count).prod row axes 1 0
    < (axes.map Axis.count).prod := by
  obtain ⟨i, hi, hr⟩ := h.exists_index row
  rw [h.newRow_flat hi hr, h.prod_eq]
  exact flat_lt (inRange_map fun k hk => hi k (List.mem_range.1 hk))

theorem newRow_inj {r r' : ℕ} (e : newRow axes (axes.map Axis.count).prod r axes 1 0
    = newRow axes (axes.map Axis.count).prod r' axes 1 0) :
    r % (axes.map Axis.count).prod = r' % (axes.map Axis.count).prod := by
  obtain ⟨i, hi, hr⟩ := h.exists_index r
  obtain ⟨j, hj, hr'⟩ := h.exists_index r'
  rw [h.newRow_flat hi hr, h.newRow_flat hj hr'] at e
  have := flat_inj (inRange_map fun k hk => hi k (List.mem_range.1 hk))
    (inRange_map fun k hk => hj k (List.mem_range.1 hk)) e
  have e2 : (axes.map Axis.col).map i = (axes.map Axis.col).map j := by
    apply List.map_congr_left
    intro k hk
    have hk := h.perm.mem_iff.1 hk
    exact List.map_inj_left.1 this k hk
  rw [hr, hr', e2]

end Covers

theorem get_ok {raw : Table} {r : ℕ} (h : r < raw.length) (col : ℕ) :
    raw.get r col = .val (raw[r] col) := by
  simp [Table.get, List.getElem?_eq_getElem h]

theorem get_val {raw : Table} {r : ℕ} {row : ℕ → Fl} (h : raw[r]? = some row) (col : ℕ) :
    raw.get r col = .val (row col) := by
  simp [Table.get, h]

theorem transpose_spec (raw : Table) (col : ℕ) (axes : List Axis) (ct : ℕ) (a n : ℕ)
    (out : List Fl) (hn : a + n ≤ raw.length)
    (hp : ∀ r, newRow axes ct r axes 1 0 < out.length) :
    ∃ out', transposeLoop raw col axes ct (List.range' a n) out = .val out' ∧
      out'.length = out.length ∧
      (∀ p, (∀ r, a ≤ r → r < a + n → newRow axes ct r axes 1 0 ≠ p) → out'[p]? = out[p]?) ∧
      (∀ r row, a ≤ r → r < a + n → raw[r]? = some row →
        (∀ r', r < r' → r' < a + n → newRow axes ct r' axes 1 0 ≠ newRow axes ct r axes 1 0) →
        out'[newRow axes ct r axes 1 0]? = some (row col)) := by
  induction n generalizing a out with
  | zero => exact ⟨out, rfl, rfl, fun _ _ => rfl, fun r _ h1 h2 => by omega⟩
  | succ n ih =>
    have ha : a < raw.length := by omega
    obtain ⟨out', h1, h2, h3, h4⟩ := ih (a + 1) (out.set (newRow axes ct a axes 1 0) (raw[a] col))
      (by omega) (by simpa using hp)
    refine ⟨out', ?_, by simpa using h2, ?_, ?_⟩
    · rw [List.range'_succ, transposeLoop, get_ok ha, Res.bind_val]
      simp only [if_pos (hp a), h1]
    · intro p hq
      rw [h3 p (fun r hr1 hr2 => hq r (by omega) (by omega)),
        List.getElem?_set_ne (hq a le_rfl (by omega))]
    · intro r row hr1 hr2 hrow hlast
      by_cases e : r = a
      · subst e
        rw [h3 _ (fun r' h1 h2 => hlast r' (by omega) (by omega)),
          List.getElem?_set_self (hp r)]
        rw [List.getElem?_eq_getElem ha, Option.some_inj] at hrow
        rw [hrow]
      · exact h4 r row (by omega) (by omega) hrow
          (fun r' h1 h2 => hlast r' h1 (by omega))

/-! ## From the axes to the grids -/

theorem dimsOf_eq {N : ℕ} {axes : List Axis} (h : Covers N axes) (cols : List ℕ)
    (hc : ∀ k ∈ cols, k < N) :
    ∃ ds, dimsOf axes cols = some ds ∧ ds.map Dim.count = cols.map (countOf axes) ∧
      ∀ d ∈ ds, ∃ a ∈ axes, d = ⟨a.count, a.lower, a.upper⟩ := by
  induction cols with
  | nil => exact ⟨[], rfl, rfl, by simp⟩
  | cons k cols ih =>
    obtain ⟨ds, h1, h2, h3⟩ := ih fun j hj => hc j (by simp [hj])
    obtain ⟨a, ha, rfl⟩ := h.exists_axis (hc k (by simp))
    have e := Covers.find (N := N) h.nodup ha
    refine ⟨⟨a.count, a.lower, a.upper⟩ :: ds, by simp [dimsOf, e, h1], ?_, ?_⟩
    · simp [h2, h.countOf_eq ha]
    · intro d hd
      rcases List.mem_cons.1 hd with rfl | hd
      · exact ⟨a, ha, rfl⟩
      · exact h3 d hd

/-- Bounds of an axis as the loop leaves them. -/
def Bounded (a : Axis) : Prop := ∃ lo hi : ℝ, a.lower = .fin lo ∧ a.upper = .fin hi ∧ lo < hi

theorem makeGrids_spec {N : ℕ} {axes : List Axis} (h : Covers N axes)
    (hb : ∀ a ∈ axes, Bounded a) (raw : Table) (hl : (axes.map Axis.count).prod ≤ raw.length)
    (dims : List Dim) (hd : dimsOf axes (List.range N) = some dims) (cols : List ℕ) :
    ∃ gs, makeGrids N raw axes (axes.map Axis.count).prod dims cols = .val gs ∧
      List.Forall₂ (fun col g => g.dims = dims ∧
        Stores raw N col (axes.map Axis.col).reverse (countOf axes) g) cols gs := by
  induction cols with
  | nil => exact ⟨[], rfl, .nil⟩
  | cons col cols ih =>
    obtain ⟨gs, h1, h2⟩ := ih
    obtain ⟨ds, e1, e2, e3⟩ := dimsOf_eq h (List.range N) (by simp)
    obtain rfl : ds = dims := by rw [hd] at e1; exact (Option.some.inj e1).symm
    obtain ⟨out, t1, t2, -, t4⟩ := transpose_spec raw (N + col) axes (axes.map Axis.count).prod 0
      raw.length (List.replicate raw.length (.fin 0)) (by omega)
      (fun r => by rw [List.length_replicate]; exact lt_of_lt_of_le (h.newRow_lt r) hl)
    rw [List.length_replicate] at t2
    have hck : check 0 ds = none := by
      rw [check_iff]
      intro d hd'
      obtain ⟨a, ha, rfl⟩ := e3 d hd'
      obtain ⟨lo, hi, b1, b2, b3⟩ := hb a ha
      exact ⟨by have := h.count a ha; simp only; omega, lo, hi, b1, b2, b3.le⟩
    have htot : total ds = (axes.map Axis.count).prod := by rw [total_eq, e2, h.prod_eq]
    refine ⟨⟨ds, out.take (total ds)⟩ :: gs, ?_, .cons ⟨rfl, ?_, ?_⟩ h2⟩
    · rw [makeGrids, List.range_eq_range', t1, Res.bind_val, mkGrid, hck]
      simp only
      rw [if_pos (by rw [htot, t2]; exact hl), Res.bind_val, h1, Res.bind_val]
    · rw [List.length_take, t2, htot, h.prod_eq, min_eq_left]
      rw [← h.prod_eq]; exact hl
    · intro i hi r row hrow hr hlast
      have eprod : ((axes.map Axis.col).reverse.map (countOf axes)).prod
          = (axes.map Axis.count).prod := by
        rw [List.map_reverse, ← h.count_map, List.prod_reverse]
      rw [eprod] at hr hlast
      rw [List.map_reverse, List.map_reverse, flat_reverse _ _ (by simp), ← h.count_map] at hr
      have hrl : r < raw.length := by
        by_contra hc
        rw [List.getElem?_eq_none (by omega)] at hrow
        cases hrow
      have hp := h.newRow_flat hi hr
      have := t4 r row (Nat.zero_le _) (by omega) hrow (by
        intro r' hr1 hr2 e
        have em := h.newRow_inj e
        set T := (axes.map Axis.count).prod
        have a1 := Nat.div_add_mod r' T
        have a2 := Nat.div_add_mod r T
        have a3 : r / T + 1 ≤ r' / T := by
          have : T * (r / T) < T * (r' / T) := by omega
          exact lt_of_mul_lt_mul_left this (Nat.zero_le _)
        have a4 : T * (r / T + 1) ≤ T * (r' / T) := Nat.mul_le_mul_left _ a3
        rw [Nat.mul_add, Nat.mul_one] at a4
        omega)
      rw [hp] at this
      have hlt := flat_lt (inRange_map (cnt := countOf axes) (i := i) (l := List.range N)
        fun k hk => hi k (List.mem_range.1 hk))
      simp only
      rw [List.getElem?_take_of_lt (by rw [total_eq, e2]; exact hlt), this]

/-! ## What the loop establishes -/

/-- A column that steps by `s` runs through `count` planes again and again. -/
def Steps (raw : Table) (s col count : ℕ) (p : ℕ → Fl) : Prop :=
  ∀ r row, raw[r]? = some row → Fl.eq (row col) (p (r / s % count))

/-- The state of the loop. -/
structure Inv (N : ℕ) (raw : Table) (ct : ℕ) (axes : List Axis) : Prop where
  ct_eq : ct = (axes.map Axis.count).prod
  room : ct ≤ raw.length
  nodup : (axes.map Axis.col).Nodup
  col_lt : ∀ a ∈ axes, a.col < N
  count : ∀ a ∈ axes, 2 ≤ a.count
  bounded : ∀ a ∈ axes, Bounded a
  steps : ∀ pre a post, axes = pre ++ a :: post →
    ∃ p, Steps raw (pre.map Axis.count).prod a.col a.count p

theorem findStep_val {raw : Table} {ct : ℕ} {filled cols : List ℕ} {c : ℕ}
    (h : findStep raw ct filled cols = .val c) : c ∈ cols ∧ c ∉ filled := by
  induction cols with
  | nil => simp [findStep] at h
  | cons k cols ih =>
    have up (h : findStep raw ct filled cols = .val c) : c ∈ k :: cols ∧ c ∉ filled :=
      ⟨List.mem_cons_of_mem _ (ih h).1, (ih h).2⟩
    rw [findStep] at h
    split_ifs at h with h1
    · exact up h
    · simp only [Res.bind_eq_val] at h
      obtain ⟨a, -, b, -, h⟩ := h
      split_ifs at h with h2
      · exact up h
      · simp only [Res.bind_eq_val] at h
        obtain ⟨s, -, h⟩ := h
        split_ifs at h with h3
        · cases h
          exact ⟨by simp, h1⟩
        · exact up h

theorem planesLoop_val {raw : Table} {ct col : ℕ} {acc ps : List Fl} {gs : List ℕ}
    (h : planesLoop raw ct col acc gs = .val ps) : ps.length ≤ acc.length + gs.length := by
  induction gs generalizing acc with
  | nil => cases h; simp
  | cons g gs ih =>
    rw [planesLoop] at h
    simp only [Res.bind_eq_val] at h
    obtain ⟨v, -, h⟩ := h
    rcases acc with _ | ⟨p, acc⟩
    · have := ih h
      simp at this ⊢
      omega
    · simp only at h
      split_ifs at h
      · cases h
        simp
      · have := ih h
        simp at this ⊢
        omega

theorem validateLoop_val {raw : Table} {ct col : ℕ} {ps : List Fl} {rows : List ℕ}
    (h : validateLoop raw ct col ps rows = .val ()) :
    ∀ r ∈ rows, ∃ v p, raw.get r col = .val v ∧ ps[r / ct % ps.length]? = some p ∧ Fl.eq v p := by
  induction rows with
  | nil => simp
  | cons r rows ih =>
    rw [validateLoop] at h
    simp only [Res.bind_eq_val] at h
    obtain ⟨v, hv, h⟩ := h
    split at h
    · cases h
    · rename_i p hp
      split_ifs at h with h1
      intro r' hr'
      rcases List.mem_cons.1 hr' with rfl | hr'
      · exact ⟨v, p, hv, hp, h1⟩
      · exact ih h r' hr'

theorem gridStep_inv {rnd : ℝ → ℝ} {tol : Fl} {N : ℕ} {raw : Table} {ct : ℕ} {axes : List Axis}
    {s : ℕ × List Axis} (hi : Inv N raw ct axes) (h : gridStep rnd tol N raw ct axes = .val s) :
    Inv N raw s.1 s.2 ∧ s.2.length = axes.length + 1 := by
  rw [gridStep] at h
  simp only at h
  split_ifs at h with h1
  simp only [Res.bind_eq_val] at h
  obtain ⟨col, hcol, planes, hpl, h⟩ := h
  split_ifs at h with h2
  simp only [Res.bind_eq_val] at h
  obtain ⟨_, hval, h⟩ := h
  split at h
  swap
  · cases h
  rename_i lower upper hlo hup
  split_ifs at h with h3 h4
  simp only [Res.bind_eq_val] at h
  obtain ⟨_, hsp, h⟩ := h
  cases h
  have hc := findStep_val hcol
  have hlen := planesLoop_val hpl
  simp only [List.length_nil, List.length_range, Nat.zero_add] at hlen
  refine ⟨⟨?_, ?_, ?_, ?_, ?_, ?_, ?_⟩, by simp⟩
  · simp [hi.ct_eq]
  · simp only
    calc ct * planes.length ≤ ct * (raw.length / ct) := Nat.mul_le_mul_left _ hlen
      _ ≤ raw.length := Nat.mul_div_le _ _
  · simp only [List.map_append, List.map_cons, List.map_nil]
    exact List.nodup_append.2 ⟨hi.nodup, by simp, by
      intro a ha b hb
      simp only [List.mem_singleton] at hb
      rintro rfl
      exact hc.2 (hb ▸ ha)⟩
  · intro a ha
    rcases List.mem_append.1 ha with ha | ha
    · exact hi.col_lt a ha
    · simp only [List.mem_singleton] at ha
      subst ha
      exact List.mem_range.1 hc.1
  · intro a ha
    rcases List.mem_append.1 ha with ha | ha
    · exact hi.count a ha
    · simp only [List.mem_singleton] at ha
      subst ha
      simp only
      omega
  · intro a ha
    rcases List.mem_append.1 ha with ha | ha
    · exact hi.bounded a ha
    · simp only [List.mem_singleton] at ha
      subst ha
      push Not at h3
      cases lower <;> cases upper <;> simp_all [Bounded]
  · intro pre a post e
    rcases List.eq_nil_or_concat post with rfl | ⟨post', b, rfl⟩
    · obtain ⟨e1, e2⟩ := List.append_inj' e rfl
      simp only [List.cons.injEq, and_true] at e2
      subst e2
      refine ⟨fun j => planes[j]?.getD .nan, ?_⟩
      intro r row hrow
      have hr : r < raw.length := by
        by_contra hc
        rw [List.getElem?_eq_none (by omega)] at hrow
        cases hrow
      obtain ⟨v, p, k1, k2, k3⟩ := validateLoop_val hval r (List.mem_range.2 hr)
      rw [get_val hrow, Res.val.injEq] at k1
      rw [← e1, ← hi.ct_eq]
      simp only [k2, Option.getD_some, k1]
      exact k3
    · rw [List.concat_eq_append, ← List.cons_append, ← List.append_assoc] at e
      obtain ⟨e1, -⟩ := List.append_inj' e rfl
      exact hi.steps pre a post' e1

theorem gridLoop_inv {rnd : ℝ → ℝ} {tol : Fl} {N : ℕ} {raw : Table} (n : ℕ) {ct : ℕ}
    {axes : List Axis} {s : ℕ × List Axis} (hi : Inv N raw ct axes)
    (h : gridLoop rnd tol N raw n ct axes = .val s) :
    Inv N raw s.1 s.2 ∧ s.2.length = axes.length + n := by
  induction n generalizing ct axes with
  | zero => cases h; exact ⟨hi, rfl⟩
  | succ n ih =>
    rw [gridLoop] at h
    simp only [Res.bind_eq_val] at h
    obtain ⟨t, h1, h2⟩ := h
    obtain ⟨i1, i2⟩ := gridStep_inv hi h1
    obtain ⟨j1, j2⟩ := ih i1 h2
    exact ⟨j1, by omega⟩

theorem inv_start {N : ℕ} {raw : Table} (h : 0 < raw.length) : Inv N raw 1 [] :=
  ⟨rfl, h, by simp, by simp, by simp, by simp, by intro pre a post e; simp at e⟩

theorem Inv.covers {N : ℕ} {raw : Table} {ct : ℕ} {axes : List Axis} (h : Inv N raw ct axes)
    (hl : axes.length = N) : Covers N axes := by
  refine ⟨?_, h.count⟩
  apply List.Subperm.perm_of_length_le
  · apply List.Nodup.subperm h.nodup
    intro k hk
    obtain ⟨a, ha, rfl⟩ := List.mem_map.1 hk
    exact List.mem_range.2 (h.col_lt a ha)
  · simp [hl]

/-- The state says that the table lists a grid. -/
theorem Inv.lists {N : ℕ} {raw : Table} {ct : ℕ} {axes : List Axis} (h : Inv N raw ct axes) :
    ∃ plane, Lists raw (axes.map Axis.col).reverse (countOf axes) plane := by
  have hcount : ∀ a ∈ axes, countOf axes a.col = a.count := by
    intro a ha
    rw [countOf, Covers.find (N := N) h.nodup ha]
  have hmap : axes.map Axis.count = (axes.map Axis.col).map (countOf axes) := by
    rw [List.map_map]
    exact List.map_congr_left fun a ha => (hcount a ha).symm
  have key : ∀ k : ℕ, ∃ p : ℕ → Fl, k ∈ axes.map Axis.col →
      ∀ (i : ℕ → ℕ), (∀ k ∈ (axes.map Axis.col).reverse, i k < countOf axes k) →
      ∀ r row, raw[r]? = some row →
      r % ((axes.map Axis.col).reverse.map (countOf axes)).prod
        = flat ((axes.map Axis.col).reverse.map (countOf axes))
            ((axes.map Axis.col).reverse.map i) → Fl.eq (row k) (p (i k)) := by
    intro k
    by_cases hk : k ∈ axes.map Axis.col
    swap
    · exact ⟨fun _ => .nan, fun h => absurd h hk⟩
    obtain ⟨a, ha, rfl⟩ := List.mem_map.1 hk
    obtain ⟨pre, post, e⟩ := List.append_of_mem ha
    obtain ⟨p, hp⟩ := h.steps pre a post e
    refine ⟨p, fun _ i hi r row hrow hr => ?_⟩
    have := hp r row hrow
    rw [List.map_reverse, List.map_reverse, flat_reverse _ _ (by simp), List.prod_reverse,
      ← hmap] at hr
    have hd : digits r (axes.map Axis.count) = (axes.map Axis.col).map i := by
      apply digits_eq _ hr
      rw [hmap]
      exact inRange_map fun k hk => hi k (List.mem_reverse.2 hk)
    rw [e, List.map_append, List.map_append, List.map_append, digits_append] at hd
    have := (List.append_inj hd (by simp [digits_length])).2
    simp only [List.map_cons, digits, List.cons.injEq] at this
    rw [← this.1]
    exact hp r row hrow
  choose plane hplane using key
  refine ⟨plane, List.nodup_reverse.2 h.nodup, ?_, ?_⟩
  · intro k hk
    obtain ⟨a, ha, rfl⟩ := List.mem_map.1 (List.mem_reverse.1 hk)
    rw [hcount a ha]
    exact h.count a ha
  · intro i hi r row hrow hr k hk
    exact hplane k (List.mem_reverse.1 hk) i hi r row hrow hr

/-! ## Undefined behaviour -/

theorem sameLoop_safe {raw : Table} {col : ℕ} {v : Fl} {rows : List ℕ}
    (h : ∀ r ∈ rows, r < raw.length) : sameLoop raw col v rows ≠ .ub := by
  induction rows with
  | nil => simp [sameLoop]
  | cons r rows ih =>
    rw [sameLoop, get_ok (h r (by simp)), Res.bind_val]
    split_ifs
    · exact ih fun j hj => h j (by simp [hj])
    · simp

theorem findStep_safe {raw : Table} {ct : ℕ} {filled cols : List ℕ} (h : ct < raw.length) :
    findStep raw ct filled cols ≠ .ub := by
  induction cols with
  | nil => simp [findStep]
  | cons k cols ih =>
    rw [findStep, get_ok (by omega : 0 < raw.length), get_ok h, Res.bind_val, Res.bind_val]
    split_ifs
    · exact ih
    · exact ih
    · intro hc
      rw [Res.bind_eq_ub] at hc
      rcases hc with hc | ⟨s, -, hc⟩
      · exact sameLoop_safe (fun r hr => by have := List.mem_range.1 hr; omega) hc
      · split_ifs at hc
        exact ih hc

theorem planesLoop_safe {raw : Table} {ct col : ℕ} {acc : List Fl} {gs : List ℕ}
    (h : ∀ g ∈ gs, g * ct < raw.length) : planesLoop raw ct col acc gs ≠ .ub := by
  induction gs generalizing acc with
  | nil => simp [planesLoop]
  | cons g gs ih =>
    rw [planesLoop, get_ok (h g (by simp)), Res.bind_val]
    have ih' (acc : List Fl) := ih (acc := acc) fun j hj => h j (by simp [hj])
    rcases acc with _ | ⟨p, acc⟩
    · exact ih' _
    · simp only
      split_ifs
      · simp
      · exact ih' _

theorem validateLoop_safe {raw : Table} {ct col : ℕ} {ps : List Fl} (hp : ps ≠ []) {rows : List ℕ}
    (h : ∀ r ∈ rows, r < raw.length) : validateLoop raw ct col ps rows ≠ .ub := by
  induction rows with
  | nil => simp [validateLoop]
  | cons r rows ih =>
    have hl : r / ct % ps.length < ps.length := Nat.mod_lt _ (List.length_pos_iff.2 hp)
    rw [validateLoop, get_ok (h r (by simp)), Res.bind_val, List.getElem?_eq_getElem hl]
    simp only
    split_ifs
    · exact ih fun j hj => h j (by simp [hj])
    · simp

theorem spacingLoop_safe {rnd : ℝ → ℝ} {tol lower spacing : Fl} {idx : ℕ} {ps : List Fl} :
    spacingLoop rnd tol lower spacing idx ps ≠ .ub := by
  induction ps generalizing idx with
  | nil => simp [spacingLoop]
  | cons p ps ih =>
    rw [spacingLoop]
    split_ifs
    · simp
    · exact ih

theorem gridStep_ub {rnd : ℝ → ℝ} {tol : Fl} {N : ℕ} {raw : Table} {ct : ℕ} {axes : List Axis}
    (hi : Inv N raw ct axes) (h : gridStep rnd tol N raw ct axes = .ub) : ct = raw.length := by
  by_contra hne
  have hlt : ct < raw.length := lt_of_le_of_ne hi.room hne
  rw [gridStep] at h
  simp only at h
  split_ifs at h with h1
  push Not at h1
  have hct : 0 < ct := by
    rcases Nat.eq_zero_or_pos ct with rfl | h
    · simp at h1; omega
    · exact h
  rw [Res.bind_eq_ub] at h
  rcases h with h | ⟨col, -, h⟩
  · exact findStep_safe hlt h
  rw [Res.bind_eq_ub] at h
  rcases h with h | ⟨planes, -, h⟩
  · refine planesLoop_safe (fun g hg => ?_) h
    have hg := List.mem_range.1 hg
    calc g * ct < raw.length / ct * ct := Nat.mul_lt_mul_of_pos_right hg hct
      _ = raw.length := h1
  split_ifs at h with h2
  have hp : planes ≠ [] := by rintro rfl; simp at h2
  rw [Res.bind_eq_ub] at h
  rcases h with h | ⟨_, -, h⟩
  · exact validateLoop_safe hp (fun r hr => List.mem_range.1 hr) h
  split at h
  · split_ifs at h
    rw [Res.bind_eq_ub] at h
    rcases h with h | ⟨_, -, h⟩
    · exact spacingLoop_safe h
    · cases h
  · rename_i hno
    obtain ⟨a, as, rfl⟩ := List.exists_cons_of_ne_nil hp
    exact hno _ _ rfl (List.getLast?_eq_some_getLast hp)

theorem gridLoop_ub {rnd : ℝ → ℝ} {tol : Fl} {N : ℕ} {raw : Table} (n : ℕ) {ct : ℕ}
    {axes : List Axis} (hi : Inv N raw ct axes) (h : gridLoop rnd tol N raw n ct axes = .ub) :
    ∃ axes', Inv N raw raw.length axes' ∧ axes'.length < axes.length + n := by
  induction n generalizing ct axes with
  | zero => cases h
  | succ n ih =>
    rw [gridLoop, Res.bind_eq_ub] at h
    rcases h with h | ⟨s, h1, h2⟩
    · have := gridStep_ub hi h
      exact ⟨axes, this ▸ hi, by omega⟩
    · obtain ⟨i1, i2⟩ := gridStep_inv hi h1
      obtain ⟨ax, j1, j2⟩ := ih i1 h2
      exact ⟨ax, j1, by omega⟩

/-! ## Tables that are grids -/

theorem fl_eq_fin (a b : ℝ) : Fl.eq (.fin a) (.fin b) ↔ a = b := Iff.rfl

theorem eq_fin {v : Fl} {b : ℝ} (h : Fl.eq v (.fin b)) : v = .fin b := by
  cases v <;> simp_all [Fl.eq]

theorem sameLoop_true {raw : Table} {col : ℕ} {v : ℝ} {rows : List ℕ}
    (h : ∀ r ∈ rows, raw.get r col = .val (.fin v)) :
    sameLoop raw col (.fin v) rows = .val true := by
  induction rows with
  | nil => rfl
  | cons r rows ih =>
    rw [sameLoop, h r (by simp), Res.bind_val, if_neg (by simp [fl_eq_fin])]
    exact ih fun j hj => h j (by simp [hj])

theorem planesLoop_full {raw : Table} {ct col c : ℕ} {p : ℕ → ℝ} (hc : 0 < c) {sub : ℕ}
    (hcs : c ≤ sub) (hp : ∀ j, 0 < j → j < c → p j ≠ p 0)
    (h : ∀ g < sub, raw.get (g * ct) col = .val (.fin (p (g % c)))) :
    planesLoop raw ct col [] (List.range sub) = .val ((List.range c).map fun j => .fin (p j)) := by
  have key : ∀ n j, 0 < j → j + n = c →
      planesLoop raw ct col ((List.range j).map fun j => .fin (p j)) (List.range' j (sub - j))
        = .val ((List.range c).map fun j => .fin (p j)) := by
    intro n
    induction n with
    | zero =>
      intro j hj e
      obtain rfl : j = c := by omega
      rcases Nat.eq_zero_or_pos (sub - j) with e | e
      · rw [e]; rfl
      · obtain ⟨n, hn⟩ : ∃ n, sub - j = n + 1 := ⟨sub - j - 1, by omega⟩
        obtain ⟨m, rfl⟩ : ∃ m, j = m + 1 := ⟨j - 1, by omega⟩
        rw [hn, List.range'_succ, planesLoop, h _ (by omega), Res.bind_val, List.range_succ_eq_map]
        simp [Fl.eq]
    | succ n ih =>
      intro j hj e
      obtain ⟨k, hk⟩ : ∃ k, sub - j = k + 1 := ⟨sub - j - 1, by omega⟩
      have hstep := ih (j + 1) (by omega) (by omega)
      rw [show sub - (j + 1) = k by omega] at hstep
      rw [hk, List.range'_succ, planesLoop, h j (by omega), Res.bind_val,
        Nat.mod_eq_of_lt (by omega : j < c), ← hstep, List.range_succ, List.map_append]
      obtain ⟨m, rfl⟩ : ∃ m, j = m + 1 := ⟨j - 1, by omega⟩
      rw [List.range_succ_eq_map]
      simp only [List.map_cons, List.map_nil, List.cons_append]
      rw [if_pos (by rw [fl_eq_fin]; exact hp _ (by omega) (by omega))]
  obtain ⟨n, rfl⟩ : ∃ n, sub = n + 1 := ⟨sub - 1, by omega⟩
  have := key (c - 1) 1 one_pos (by omega)
  rw [List.range_eq_range', List.range'_succ, planesLoop, h 0 (by omega), Res.bind_val, Nat.zero_mod]
  simpa using this

theorem validateLoop_ok {raw : Table} {ct col : ℕ} {ps : List Fl} {rows : List ℕ}
    (h : ∀ r ∈ rows, ∃ v : ℝ, raw.get r col = .val (.fin v) ∧
      ps[r / ct % ps.length]? = some (.fin v)) :
    validateLoop raw ct col ps rows = .val () := by
  induction rows with
  | nil => rfl
  | cons r rows ih =>
    obtain ⟨v, h1, h2⟩ := h r (by simp)
    rw [validateLoop, h1, Res.bind_val, h2]
    simp only
    rw [if_neg (by simp [fl_eq_fin])]
    exact ih fun j hj => h j (by simp [hj])

theorem spacingLoop_ok {tol lo sp : ℝ} (p : ℕ → ℝ) (n idx : ℕ)
    (h : ∀ j, idx ≤ j → j < idx + n → |p j - (lo + j * sp)| ≤ |tol * sp|) :
    spacingLoop id (.fin tol) (.fin lo) (.fin sp) idx ((List.range' idx n).map fun j => .fin (p j))
      = .val () := by
  induction n generalizing idx with
  | zero => rfl
  | succ n ih =>
    rw [List.range'_succ, List.map_cons, spacingLoop]
    simp only [rd, Fl.mul_fin, Fl.add_fin, Fl.sub_fin, flAbs, id]
    rw [if_neg (by rw [Fl.lt_fin]; exact not_lt.2 (h idx le_rfl (by omega)))]
    exact ih (idx + 1) fun j h1 h2 => h j (by omega) (by omega)

/-- The axis of column `k`. -/
def axis (cnt : ℕ → ℕ) (plane : ℕ → ℕ → ℝ) (k : ℕ) : Axis :=
  ⟨k, cnt k, .fin (plane k 0), .fin (plane k (cnt k - 1))⟩

/-- The table lists a grid `m` times; `fo` has the fastest column first. -/
structure Full (raw : Table) (N : ℕ) (fo : List ℕ) (cnt : ℕ → ℕ) (plane : ℕ → ℕ → ℝ) (m : ℕ)
    (tol : ℝ) : Prop where
  perm : fo.Perm (List.range N)
  count : ∀ k ∈ fo, 2 ≤ cnt k
  even : ∀ k ∈ fo, Even tol (cnt k) (plane k)
  size : raw.length = (fo.map cnt).prod * m
  m_pos : 0 < m
  digit : ∀ pre k post, fo = pre ++ k :: post → ∀ r < raw.length,
    raw.get r k = .val (.fin (plane k (r / (pre.map cnt).prod % cnt k)))

theorem prod_map_pos {l : List ℕ} {cnt : ℕ → ℕ} (h : ∀ k ∈ l, 2 ≤ cnt k) : 0 < (l.map cnt).prod := by
  induction l with
  | nil => simp
  | cons k l ih =>
    rw [List.map_cons, List.prod_cons]
    have := h k (by simp)
    exact Nat.mul_pos (by omega) (ih fun j hj => h j (by simp [hj]))

theorem Full.findStep {raw : Table} {N : ℕ} {fo : List ℕ} {cnt : ℕ → ℕ} {plane : ℕ → ℕ → ℝ} {m : ℕ}
    {tol : ℝ} (h : Full raw N fo cnt plane m tol) {pre post : List ℕ} {k : ℕ}
    (e : fo = pre ++ k :: post) (cols : List ℕ) (hk : k ∈ cols) (hc : ∀ j ∈ cols, j ∈ fo) :
    findStep raw (pre.map cnt).prod pre cols = .val k := by
  have hnd : fo.Nodup := h.perm.nodup_iff.2 List.nodup_range
  rw [e] at hnd
  have hkp : k ∉ pre := fun hc => by
    have := (List.nodup_append.1 hnd).2.2 k hc k (by simp)
    exact this rfl
  have hkm : k ∈ fo := by rw [e]; simp
  have hpre : 0 < (pre.map cnt).prod := prod_map_pos fun j hj => h.count j (by rw [e]; simp [hj])
  have hpost : 0 < (post.map cnt).prod := prod_map_pos fun j hj => h.count j (by rw [e]; simp [hj])
  have hck := h.count k hkm
  have hsz : raw.length = (pre.map cnt).prod * (cnt k * (post.map cnt).prod * m) := by
    rw [h.size, e, List.map_append, List.prod_append, List.map_cons, List.prod_cons]; ring
  have h2 : 2 ≤ cnt k * (post.map cnt).prod * m := by
    have := Nat.mul_le_mul (Nat.mul_le_mul hck hpost) h.m_pos
    simpa using this
  have hlt : (pre.map cnt).prod < raw.length := by
    rw [hsz]
    calc (pre.map cnt).prod < (pre.map cnt).prod * 2 := by omega
      _ ≤ _ := Nat.mul_le_mul_left _ h2
  induction cols with
  | nil => simp at hk
  | cons c cols ih =>
    have next (hne : k ≠ c) : Interp.findStep raw (pre.map cnt).prod pre cols = .val k :=
      ih (by simpa [hne] using hk) fun j hj => hc j (by simp [hj])
    rw [Interp.findStep]
    by_cases hcp : c ∈ pre
    · rw [if_pos hcp]
      exact next fun e => hkp (e ▸ hcp)
    rw [if_neg hcp]
    by_cases hck' : c = k
    · subst hck'
      rw [h.digit pre c post e 0 (by omega), h.digit pre c post e _ hlt, Res.bind_val, Res.bind_val,
        Nat.div_self hpre, Nat.zero_div, Nat.zero_mod, Nat.mod_eq_of_lt (by omega : 1 < cnt c),
        if_neg (by
          rw [fl_eq_fin]
          exact ((h.even c hkm).ascend 1 one_pos (by omega)).ne)]
      rw [sameLoop_true (fun r hr => by
        have hr := List.mem_range.1 hr
        rw [h.digit pre c post e r (by omega), Nat.div_eq_of_lt hr, Nat.zero_mod])]
      simp
    · -- slower columns do not change yet
      have hcm : c ∈ post := by
        have := hc c (by simp)
        rw [e] at this
        simpa [hcp, hck'] using this
      obtain ⟨p1, p2, ep⟩ := List.append_of_mem hcm
      have e' : fo = (pre ++ k :: p1) ++ c :: p2 := by rw [e, ep]; simp
      have hp1 : 0 < (p1.map cnt).prod := prod_map_pos fun j hj => h.count j (by
        rw [e, ep]; simp [hj])
      have hz : (pre.map cnt).prod / ((pre ++ k :: p1).map cnt).prod = 0 := by
        apply Nat.div_eq_of_lt
        rw [List.map_append, List.prod_append, List.map_cons, List.prod_cons]
        have := Nat.mul_le_mul hck hp1
        calc (pre.map cnt).prod < (pre.map cnt).prod * 2 := by omega
          _ ≤ _ := Nat.mul_le_mul_left _ (by simpa using this)
      rw [h.digit _ c p2 e' 0 (by omega), h.digit _ c p2 e' _ hlt, Res.bind_val, Res.bind_val, hz,
        Nat.zero_div, if_pos (by rw [fl_eq_fin])]
      exact next fun e => hck' e.symm

theorem Full.step {raw : Table} {N : ℕ} {fo : List ℕ} {cnt : ℕ → ℕ} {plane : ℕ → ℕ → ℝ} {m : ℕ}
    {tol : ℝ} (h : Full raw N fo cnt plane m tol) {pre post : List ℕ} {k : ℕ}
    (e : fo = pre ++ k :: post) :
    gridStep id (.fin tol) N raw (pre.map cnt).prod (pre.map (axis cnt plane))
      = .val (((pre ++ [k]).map cnt).prod, (pre ++ [k]).map (axis cnt plane)) := by
  have hkm : k ∈ fo := by rw [e]; simp
  have hpre : 0 < (pre.map cnt).prod := prod_map_pos fun j hj => h.count j (by rw [e]; simp [hj])
  have hpost : 0 < (post.map cnt).prod := prod_map_pos fun j hj => h.count j (by rw [e]; simp [hj])
  have hck := h.count k hkm
  have hsz : raw.length = (pre.map cnt).prod * (cnt k * ((post.map cnt).prod * m)) := by
    rw [h.size, e, List.map_append, List.prod_append, List.map_cons, List.prod_cons]; ring
  have hsub : raw.length / (pre.map cnt).prod = cnt k * ((post.map cnt).prod * m) := by
    rw [hsz, Nat.mul_div_cancel_left _ hpre]
  have hq : 0 < (post.map cnt).prod * m := Nat.mul_pos hpost h.m_pos
  have hcols : (pre.map (axis cnt plane)).map Axis.col = pre := by
    rw [List.map_map]
    exact List.map_id'' (fun _ => rfl) pre
  have hfind : Interp.findStep raw (pre.map cnt).prod pre (List.range N) = .val k :=
    h.findStep e _ (h.perm.mem_iff.1 hkm) fun j hj => h.perm.mem_iff.2 hj
  have hdig := h.digit pre k post e
  have hev := h.even k hkm
  have hpl : planesLoop raw (pre.map cnt).prod k []
      (List.range (raw.length / (pre.map cnt).prod))
        = .val ((List.range (cnt k)).map fun j => .fin (plane k j)) := by
    apply planesLoop_full (by omega)
    · rw [hsub]; exact Nat.le_mul_of_pos_right _ hq
    · intro j h1 h2
      exact (hev.ascend j h1 h2).ne'
    · intro g hg
      have : g * (pre.map cnt).prod < raw.length := by
        rw [hsz, Nat.mul_comm]
        exact Nat.mul_lt_mul_of_pos_left (hsub ▸ hg) hpre
      rw [hdig _ this, Nat.mul_div_cancel _ hpre]
  have hvl : validateLoop raw (pre.map cnt).prod k ((List.range (cnt k)).map fun j => .fin (plane k j))
      (List.range raw.length) = .val () := by
    apply validateLoop_ok
    intro r hr
    refine ⟨_, hdig r (List.mem_range.1 hr), ?_⟩
    rw [List.length_map, List.length_range, List.getElem?_map, List.getElem?_range
      (Nat.mod_lt _ (by omega))]
    rfl
  rw [gridStep]
  simp only [hcols]
  rw [if_neg (by rw [hsub, hsz, Nat.mul_comm]; simp), hfind, Res.bind_val, hpl, Res.bind_val,
    List.length_map, List.length_range, if_neg (by omega), hvl, Res.bind_val]
  have hhead : ((List.range (cnt k)).map fun j => Fl.fin (plane k j)).head? = some (.fin (plane k 0)) := by
    obtain ⟨n, hn⟩ : ∃ n, cnt k = n + 1 := ⟨cnt k - 1, by omega⟩
    rw [hn, List.range_succ_eq_map]
    rfl
  have hlast : ((List.range (cnt k)).map fun j => Fl.fin (plane k j)).getLast?
      = some (.fin (plane k (cnt k - 1))) := by
    obtain ⟨n, hn⟩ : ∃ n, cnt k = n + 1 := ⟨cnt k - 1, by omega⟩
    rw [hn, List.range_succ, List.map_append]
    simp
  rw [hhead, hlast]
  have hlt := hev.ascend (cnt k - 1) (by omega) (by omega)
  have hne : ((cnt k - 1 : ℕ) : ℝ) ≠ 0 := by exact_mod_cast (by omega : cnt k - 1 ≠ 0)
  simp only [Fl.isFinite_fin, not_true, or_self, if_false, Fl.le_fin, not_le.2 hlt, Fl.sub_fin, rd,
    id, Fl.div_fin _ hne]
  rw [List.range_eq_range', spacingLoop_ok (plane k) (cnt k) 0 fun j _ hj => hev.even j (by omega),
    Res.bind_val]
  simp [axis]

theorem Full.loop {raw : Table} {N : ℕ} {fo : List ℕ} {cnt : ℕ → ℕ} {plane : ℕ → ℕ → ℝ} {m : ℕ}
    {tol : ℝ} (h : Full raw N fo cnt plane m tol) (pre post : List ℕ) (e : fo = pre ++ post) :
    gridLoop id (.fin tol) N raw post.length (pre.map cnt).prod (pre.map (axis cnt plane))
      = .val ((fo.map cnt).prod, fo.map (axis cnt plane)) := by
  induction post generalizing pre with
  | nil => simp [e, gridLoop]
  | cons k post ih =>
    rw [List.length_cons, gridLoop, h.step e, Res.bind_val]
    exact ih (pre ++ [k]) (by simp [e])

theorem Full.covers {raw : Table} {N : ℕ} {fo : List ℕ} {cnt : ℕ → ℕ} {plane : ℕ → ℕ → ℝ} {m : ℕ}
    {tol : ℝ} (h : Full raw N fo cnt plane m tol) : Covers N (fo.map (axis cnt plane)) := by
  refine ⟨?_, ?_⟩
  · rw [List.map_map]
    simpa [Function.comp_def, axis] using h.perm
  · intro a ha
    obtain ⟨k, hk, rfl⟩ := List.mem_map.1 ha
    exact h.count k hk

theorem Covers.countOf_axis {N : ℕ} {fo : List ℕ} {cnt : ℕ → ℕ} {plane : ℕ → ℕ → ℝ}
    (h : Covers N (fo.map (axis cnt plane))) {k : ℕ} (hk : k ∈ fo) :
    countOf (fo.map (axis cnt plane)) k = cnt k :=
  h.countOf_eq (a := axis cnt plane k) (List.mem_map_of_mem hk)

/-- Digit form of a table. -/
theorem full_of_lists {raw : Table} {N : ℕ} {ord : List ℕ} {cnt : ℕ → ℕ} {plane : ℕ → ℕ → ℝ} {m : ℕ}
    {tol : ℝ} (h : Lists raw ord cnt fun k j => .fin (plane k j)) (hp : ord.Perm (List.range N))
    (he : ∀ k ∈ ord, Even tol (cnt k) (plane k)) (hs : raw.length = (ord.map cnt).prod * m)
    (hm : 0 < m) : Full raw N ord.reverse cnt plane m tol := by
  have hperm : ord.reverse.Perm (List.range N) := (List.reverse_perm ord).trans hp
  refine ⟨hperm, fun k hk => h.count k (List.mem_reverse.1 hk),
    fun k hk => he k (List.mem_reverse.1 hk), ?_, hm, ?_⟩
  · rw [hs, List.map_reverse, List.prod_reverse]
  · intro pre k post e r hr
    have hcov : Covers N (ord.reverse.map (axis cnt plane)) := by
      refine ⟨?_, ?_⟩
      · rw [List.map_map]
        simpa [Function.comp_def, axis] using hperm
      · intro a ha
        obtain ⟨k, hk, rfl⟩ := List.mem_map.1 ha
        exact h.count k (List.mem_reverse.1 hk)
    obtain ⟨i, hi, hfp⟩ := hcov.exists_index r
    have e1 : (ord.reverse.map (axis cnt plane)).map Axis.count = ord.reverse.map cnt := by
      rw [List.map_map]; rfl
    have e2 : (ord.reverse.map (axis cnt plane)).map Axis.col = ord.reverse := by
      rw [List.map_map]
      exact List.map_id'' (fun _ => rfl) _
    rw [e1, e2] at hfp
    have hi' : ∀ k ∈ ord, i k < cnt k := by
      intro k hk
      have := hi k (List.mem_range.1 (hp.mem_iff.1 hk))
      rwa [hcov.countOf_axis (List.mem_reverse.2 hk)] at this
    have hdig : digits r (ord.reverse.map cnt) = ord.reverse.map i :=
      digits_eq (inRange_map fun k hk => hi' k (List.mem_reverse.1 hk)) hfp
    have hfl : flat (ord.map cnt) (ord.map i) = fastPos (ord.reverse.map cnt) (ord.reverse.map i) := by
      rw [← flat_reverse _ _ (by simp), ← List.map_reverse, ← List.map_reverse,
        List.reverse_reverse]
    have hrow : raw[r]? = some raw[r] := List.getElem?_eq_getElem hr
    have hk : k ∈ ord := by
      rw [← List.mem_reverse, e]
      simp
    have := eq_fin (h.coord i hi' r _ hrow (by
      rw [hfl, ← hfp, List.map_reverse, List.prod_reverse]) k hk)
    rw [get_val hrow, this]
    rw [e, List.map_append, List.map_append, digits_append] at hdig
    have hd := (List.append_inj hdig (by simp [digits_length])).2
    simp only [List.map_cons, digits, List.cons.injEq] at hd
    rw [hd.1]

theorem two_pow_le {l : List ℕ} {cnt : ℕ → ℕ} (h : ∀ k ∈ l, 2 ≤ cnt k) :
    2 ^ l.length ≤ (l.map cnt).prod := by
  induction l with
  | nil => simp
  | cons k l ih =>
    rw [List.length_cons, List.map_cons, List.prod_cons, pow_succ, Nat.mul_comm]
    exact Nat.mul_le_mul (h k (by simp)) (ih fun j hj => h j (by simp [hj]))

theorem dimsOf_axis {N : ℕ} {fo : List ℕ} {cnt : ℕ → ℕ} {plane : ℕ → ℕ → ℝ}
    (h : Covers N (fo.map (axis cnt plane))) (cols : List ℕ) (hc : ∀ k ∈ cols, k ∈ fo) :
    dimsOf (fo.map (axis cnt plane)) cols
      = some (cols.map fun k => ⟨cnt k, .fin (plane k 0), .fin (plane k (cnt k - 1))⟩) := by
  induction cols with
  | nil => rfl
  | cons k cols ih =>
    have e := Covers.find (N := N) h.nodup (a := axis cnt plane k)
      (List.mem_map_of_mem (hc k (by simp)))
    have e' : axisOf (fo.map (axis cnt plane)) k = some (axis cnt plane k) := e
    rw [dimsOf, ih fun j hj => hc j (by simp [hj]), e']
    rfl

end Sidis.Interp
