import Verif.Spec.Integrate

/-!
# C117, C118: numerical integration

`Balanced`, `evaluated`, `InBox`, `AsksIn`, `AsksAtMost`, `Returns`, `Throws`, `Asked` and `IsMonte` are in
`Verif.Spec.Integrate`.
-/

namespace Sidis.Props

open Sidis.Integrate Sidis.Spec

variable {R S : Type} (lib : Lib R S) (func : List ℝ → Option Fl) (lower upper : List ℝ) (params : Params)

private theorem evaluated_append (s t : List Event) : evaluated (s ++ t) = evaluated s ++ evaluated t := by
  induction s with
  | nil => rfl
  | cons e s ih => cases e <;> simp [evaluated, ih]

/-- Only evaluations. -/
private def Quiet (t : List Event) : Prop := ∀ e ∈ t, ∃ x, e = .eval x

private theorem exec_quiet {α : Type} (r : Run α) : Quiet (r.exec func).1 := by
  induction r with
  | done a => intro e he; cases he
  | eval x k ih =>
    unfold Run.exec
    cases func x with
    | none => intro e he; simp at he; exact ⟨x, he⟩
    | some y =>
      intro e he
      simp only [List.mem_cons] at he
      rcases he with rfl | he
      · exact ⟨x, rfl⟩
      · exact ih y e he

private theorem balanced_quiet {t : List Event} (h : Quiet t) (s : List Event) (held : List Resource) :
    Balanced (t ++ s) held ↔ Balanced s held := by
  induction t with
  | nil => rfl
  | cons e t ih =>
    obtain ⟨x, rfl⟩ := h e (by simp)
    exact ih fun e he => h e (by simp [he])

/-- A piece of the program that gives back what it takes, unless behaviour is undefined. -/
private def Clean (p : List Event × End) : Prop :=
  p.2 ≠ .ub → ∀ s held, Balanced (p.1 ++ s) held ↔ Balanced s held

private theorem withPtr_clean {X : Type} (p : Option X) (r : Resource) {body : X → List Event × End}
    (h : ∀ x, Clean (body x)) : Clean (withPtr p r body) := by
  unfold withPtr
  cases p with
  | none => intro _ s held; rfl
  | some x =>
    have hx := h x
    simp only
    split
    · intro h; exact absurd rfl h
    · rename_i t e hne heq
      intro _ s held
      rw [heq] at hx
      simp only [List.cons_append, List.append_assoc, List.nil_append]
      change Balanced (t ++ (.release r :: s)) (r :: held) ↔ _
      rw [hx hne]
      simp only [Balanced]
      constructor
      · rintro ⟨rest, h, hb⟩
        cases h
        exact hb
      · exact fun hb => ⟨held, rfl, hb⟩

private theorem callMonte_clean (run : Run (EstErr × R × S)) {rest : EstErr → R → S → List Event × End}
    (h : ∀ e r s, Clean (rest e r s)) : Clean (callMonte func run rest) := by
  unfold callMonte
  have hq := exec_quiet func run
  split
  · intro h; exact absurd rfl h
  · rename_i t e r s heq
    rw [heq] at hq
    intro hne s' held
    rw [List.append_assoc, balanced_quiet hq]
    exact h e r s hne s' held

private theorem value_clean (e : EstErr) : Clean ([], .value e) := fun _ _ _ => Iff.rfl

/-- C117: whatever the libraries do, and also when memory runs out or the integrand throws (without
undefined behaviour), all memory taken is given back once, the last one taken first. -/
theorem c117_released (h : (integrate lib func lower upper params).2 ≠ .ub) :
    Balanced (integrate lib func lower upper params).1 [] := by
  have : Clean (integrate lib func lower upper params) := by
    unfold integrate
    split_ifs
    · have hq := exec_quiet func (lib.cubature lower upper params.num_evals)
      split <;> rename_i heq <;> rw [heq] at hq <;> exact fun _ s held => balanced_quiet hq s held
    · exact withPtr_clean _ _ fun rnd => withPtr_clean _ _ fun st => callMonte_clean _ _ fun e _ _ =>
        value_clean e
    · exact withPtr_clean _ _ fun rnd => withPtr_clean _ _ fun st => callMonte_clean _ _ fun e _ _ =>
        value_clean e
    · exact withPtr_clean _ _ fun rnd => withPtr_clean _ _ fun st => callMonte_clean _ _ fun _ _ _ =>
        callMonte_clean _ _ fun e _ _ => value_clean e
    · exact value_clean _
  have := (this h [] []).mpr rfl
  simpa using this

/-- A property of the evaluated points of the parts is one of the whole. -/
private theorem withPtr_points {X : Type} {p : Option X} {r : Resource} {body : X → List Event × End}
    {P : List (List ℝ) → Prop} (h0 : P []) (h : ∀ x, P (evaluated (body x).1)) :
    P (evaluated (withPtr p r body).1) := by
  unfold withPtr
  cases p with
  | none => exact h0
  | some x =>
    have hx := h x
    simp only
    split
    · rename_i t heq
      rw [heq] at hx
      exact hx
    · rename_i t e hne heq
      rw [heq] at hx
      simpa [evaluated, evaluated_append] using hx

private theorem callMonte_points {run : Run (EstErr × R × S)} {rest : EstErr → R → S → List Event × End} :
    ∃ s : List Event, evaluated (callMonte func run rest).1 = evaluated (run.exec func).1 ++ evaluated s ∧
      (s = [] ∨ ∃ e r st, s = (rest e r st).1) := by
  unfold callMonte
  split
  · rename_i t heq
    exact ⟨[], by simp [heq, evaluated], .inl rfl⟩
  · rename_i t e r st heq
    exact ⟨(rest e r st).1, by simp [heq, evaluated_append], .inr ⟨e, r, st, rfl⟩⟩

private theorem exec_in {α : Type} {r : Run α} (h : AsksIn lower upper r) :
    ∀ x ∈ evaluated (r.exec func).1, InBox lower upper x := by
  induction h with
  | done a => intro x hx; cases hx
  | eval x k hx hk ih =>
    unfold Run.exec
    cases func x with
    | none => simpa [evaluated] using hx
    | some y => simpa [evaluated] using ⟨hx, ih y⟩

private theorem exec_count {α : Type} {n : ℕ} {r : Run α} (h : AsksAtMost n r) :
    (evaluated (r.exec func).1).length ≤ n := by
  induction h with
  | done n a => simp [Run.exec, evaluated]
  | eval n x k hk ih =>
    unfold Run.exec
    cases func x with
    | none => simp [evaluated]
    | some y => simpa [evaluated] using ih y

/-- C117: the integrand is evaluated only inside the box, if the libraries do so. -/
theorem c117_points (hcub : ∀ n, AsksIn lower upper (lib.cubature lower upper n))
    (hmc : ∀ m n r s, AsksIn lower upper (lib.monte m lower upper n r s)) :
    ∀ x ∈ evaluated (integrate lib func lower upper params).1, InBox lower upper x := by
  have hcall : ∀ m n r s (rest : EstErr → R → S → List Event × End),
      (∀ e r s, ∀ x ∈ evaluated (rest e r s).1, InBox lower upper x) →
      ∀ x ∈ evaluated (callMonte func (lib.monte m lower upper n r s) rest).1, InBox lower upper x := by
    intro m n r s rest hrest x hx
    obtain ⟨t, ht, h⟩ := callMonte_points func (run := lib.monte m lower upper n r s) (rest := rest)
    rw [ht, List.mem_append] at hx
    rcases hx with hx | hx
    · exact exec_in func lower upper (hmc m n r s) x hx
    · rcases h with rfl | ⟨e, r, st, rfl⟩
      · cases hx
      · exact hrest e r st x hx
  unfold integrate
  split_ifs
  · have := exec_in func lower upper (hcub params.num_evals)
    split <;> rename_i heq <;> rw [heq] at this <;> exact this
  · refine withPtr_points (P := fun l => ∀ x ∈ l, InBox lower upper x) (by simp) fun rnd => ?_
    exact withPtr_points (P := fun l => ∀ x ∈ l, InBox lower upper x) (by simp) fun st =>
      hcall _ _ _ _ _ fun e r s x hx => by cases hx
  · refine withPtr_points (P := fun l => ∀ x ∈ l, InBox lower upper x) (by simp) fun rnd => ?_
    exact withPtr_points (P := fun l => ∀ x ∈ l, InBox lower upper x) (by simp) fun st =>
      hcall _ _ _ _ _ fun e r s x hx => by cases hx
  · refine withPtr_points (P := fun l => ∀ x ∈ l, InBox lower upper x) (by simp) fun rnd => ?_
    exact withPtr_points (P := fun l => ∀ x ∈ l, InBox lower upper x) (by simp) fun st =>
      hcall _ _ _ _ _ fun e r s => hcall _ _ _ _ _ fun e r s x hx => by cases hx
  · simp [evaluated]

/-- C117: the number of evaluations is at most the one asked for, plus the one to burn for VEGAS, if the
libraries keep to the number they are given. -/
theorem c117_cost (hcub : ∀ n, AsksAtMost n (lib.cubature lower upper n))
    (hmc : ∀ m n r s, AsksAtMost n (lib.monte m lower upper n r s)) :
    (evaluated (integrate lib func lower upper params).1).length ≤
      params.num_evals + if params.method = .vegas then params.num_burn else 0 := by
  have hcall : ∀ m n k r s (rest : EstErr → R → S → List Event × End),
      (∀ e r s, (evaluated (rest e r s).1).length ≤ k) →
      (evaluated (callMonte func (lib.monte m lower upper n r s) rest).1).length ≤ n + k := by
    intro m n k r s rest hrest
    obtain ⟨t, ht, h⟩ := callMonte_points func (run := lib.monte m lower upper n r s) (rest := rest)
    rw [ht, List.length_append]
    refine Nat.add_le_add (exec_count func (hmc m n r s)) ?_
    rcases h with rfl | ⟨e, r, st, rfl⟩
    · exact Nat.zero_le _
    · exact hrest e r st
  rcases params with ⟨m, n, b⟩
  unfold integrate
  cases m
  · simp only [if_true, reduceCtorEq, if_false]
    have := exec_count func (hcub n)
    split <;> rename_i heq <;> rw [heq] at this <;> simpa using this
  · simp only [if_true, reduceCtorEq, if_false, true_or]
    refine withPtr_points (P := fun l => l.length ≤ n + 0) (by simp) fun rnd => ?_
    refine withPtr_points (P := fun l => l.length ≤ n + 0) (by simp) fun st => ?_
    exact hcall _ _ 0 _ _ _ fun _ _ _ => by simp [evaluated]
  · simp only [if_true, reduceCtorEq, if_false, true_or, false_or]
    refine withPtr_points (P := fun l => l.length ≤ n + 0) (by simp) fun rnd => ?_
    refine withPtr_points (P := fun l => l.length ≤ n + 0) (by simp) fun st => ?_
    exact hcall _ _ 0 _ _ _ fun _ _ _ => by simp [evaluated]
  · simp only [if_true, reduceCtorEq, if_false, false_or]
    refine withPtr_points (P := fun l => l.length ≤ n + b) (by simp) fun rnd => ?_
    refine withPtr_points (P := fun l => l.length ≤ n + b) (by simp) fun st => ?_
    rw [Nat.add_comm]
    exact hcall _ _ n _ _ _ fun e r s => hcall _ _ 0 _ _ _ fun _ _ _ => by simp [evaluated]
  · simp [evaluated]

private theorem exec_returns {α : Type} {r : Run α} {a : α} (h : Returns func r a) :
    (r.exec func).2 = some a := by
  induction h with
  | done a => rfl
  | eval x k y a hy hk ih => simp [Run.exec, hy, ih]

private theorem exec_throws {α : Type} {r : Run α} (h : Throws func r) : (r.exec func).2 = none := by
  induction h with
  | here x k hx => simp [Run.exec, hx]
  | later x k y hy hk ih => simp [Run.exec, hy, ih]

private theorem withPtr_end {X : Type} {x : X} {r : Resource} {body : X → List Event × End} :
    (withPtr (some x) r body).2 = (body x).2 := by
  unfold withPtr
  simp only
  split <;> rename_i heq <;> rw [heq]

private theorem callMonte_end {run : Run (EstErr × R × S)} {rest : EstErr → R → S → List Event × End}
    {e : EstErr} {r : R} {s : S} (h : Returns func run (e, r, s)) :
    (callMonte func run rest).2 = (rest e r s).2 := by
  have := exec_returns func h
  unfold callMonte
  split <;> rename_i heq <;> rw [heq] at this <;> cases this
  rfl

private theorem callMonte_ub {run : Run (EstErr × R × S)} {rest : EstErr → R → S → List Event × End}
    (h : Throws func run) : (callMonte func run rest).2 = .ub := by
  have := exec_throws func h
  unfold callMonte
  split <;> rename_i heq <;> rw [heq] at this <;> cases this

/-- C117: what is returned. With cubature, the result of the cubature. With a Monte-Carlo method, a new
generator and a new state are taken; with plain or MISER sampling, the result of the routine of this method
with them; with VEGAS, the result of the second run only, which goes on with the generator and the grid that
the burn-in left. -/
theorem c117_value :
    (∀ e, params.method = .cubature → Returns func (lib.cubature lower upper params.num_evals) e →
      (integrate lib func lower upper params).2 = .value e) ∧
    (∀ r s e r' s', lib.rng = some r → lib.state params.method lower.length = some s →
      params.method = .mcPlain ∨ params.method = .miser →
      Returns func (lib.monte params.method lower upper params.num_evals r s) (e, r', s') →
      (integrate lib func lower upper params).2 = .value e) ∧
    ∀ r s e₀ r₁ s₁ e r' s', lib.rng = some r → lib.state .vegas lower.length = some s →
      params.method = .vegas →
      Returns func (lib.monte .vegas lower upper params.num_burn r s) (e₀, r₁, s₁) →
      Returns func (lib.monte .vegas lower upper params.num_evals r₁ s₁) (e, r', s') →
      (integrate lib func lower upper params).2 = .value e := by
  refine ⟨fun e hm h => ?_, ?_, ?_⟩
  · have := exec_returns func h
    rw [integrate, if_pos hm]
    split <;> rename_i heq <;> rw [heq] at this <;> cases this
    rfl
  · rintro r s e r' s' hr hs (hm | hm) h
    · rw [hm] at hs h
      rw [integrate, if_neg (by simp [hm]), if_pos (by simp [hm]), hr, withPtr_end, if_pos hm, hs,
        withPtr_end, callMonte_end func h]
    · rw [hm] at hs h
      rw [integrate, if_neg (by simp [hm]), if_pos (by simp [hm]), hr, withPtr_end, if_neg (by simp [hm]),
        if_pos hm, hs, withPtr_end, callMonte_end func h]
  · intro r s e₀ r₁ s₁ e r' s' hr hs hm h0 h
    rw [integrate, if_neg (by simp [hm]), if_pos (by simp [hm]), hr, withPtr_end, if_neg (by simp [hm]),
      if_neg (by simp [hm]), hs, withPtr_end, callMonte_end func h0, callMonte_end func h]

private theorem exec_asked {α : Type} {r : Run α} {pts : List (List ℝ)} (h : Asked func r pts) :
    evaluated (r.exec func).1 = pts := by
  induction h with
  | done a => rfl
  | throws x k hx => simp [Run.exec, hx, evaluated]
  | eval x k y pts hy hk ih => simp [Run.exec, hy, evaluated, ih]

private theorem withPtr_evaluated {X : Type} {x : X} {r : Resource} {body : X → List Event × End} :
    evaluated (withPtr (some x) r body).1 = evaluated (body x).1 := by
  unfold withPtr
  simp only
  split <;> rename_i heq <;> simp [heq, evaluated, evaluated_append]

private theorem callMonte_last {run : Run (EstErr × R × S)} {g : EstErr → R → S → End} :
    evaluated (callMonte func run fun e r s => ([], g e r s)).1 = evaluated (run.exec func).1 := by
  unfold callMonte
  split <;> rename_i heq <;> simp [heq]

/-- C117: the integrand is evaluated at the points that the routine of the method asks for, in order, each
once, and nowhere else; with VEGAS, those of the burn-in and then, unless the integrand threw, those of the
second run. -/
theorem c117_evaluated :
    (∀ pts, params.method = .cubature → Asked func (lib.cubature lower upper params.num_evals) pts →
      evaluated (integrate lib func lower upper params).1 = pts) ∧
    (∀ r s pts, lib.rng = some r → lib.state params.method lower.length = some s →
      params.method = .mcPlain ∨ params.method = .miser →
      Asked func (lib.monte params.method lower upper params.num_evals r s) pts →
      evaluated (integrate lib func lower upper params).1 = pts) ∧
    ∀ r s pts₀, lib.rng = some r → lib.state .vegas lower.length = some s → params.method = .vegas →
      Asked func (lib.monte .vegas lower upper params.num_burn r s) pts₀ →
      (∀ e₀ r₁ s₁ pts, Returns func (lib.monte .vegas lower upper params.num_burn r s) (e₀, r₁, s₁) →
        Asked func (lib.monte .vegas lower upper params.num_evals r₁ s₁) pts →
        evaluated (integrate lib func lower upper params).1 = pts₀ ++ pts) ∧
      (Throws func (lib.monte .vegas lower upper params.num_burn r s) →
        evaluated (integrate lib func lower upper params).1 = pts₀) := by
  refine ⟨fun pts hm h => ?_, ?_, ?_⟩
  · have := exec_asked func h
    rw [integrate, if_pos hm]
    split <;> rename_i heq <;> rw [heq] at this <;> exact this
  · rintro r s pts hr hs (hm | hm) h
    · rw [hm] at hs h
      rw [integrate, if_neg (by simp [hm]), if_pos (by simp [hm]), hr, withPtr_evaluated, if_pos hm, hs,
        withPtr_evaluated, callMonte_last, exec_asked func h]
    · rw [hm] at hs h
      rw [integrate, if_neg (by simp [hm]), if_pos (by simp [hm]), hr, withPtr_evaluated,
        if_neg (by simp [hm]), if_pos hm, hs, withPtr_evaluated, callMonte_last, exec_asked func h]
  · intro r s pts₀ hr hs hm h0
    have e0 := exec_asked func h0
    constructor
    · intro e₀ r₁ s₁ pts h1 h
      have e1 := exec_returns func h1
      rw [integrate, if_neg (by simp [hm]), if_pos (by simp [hm]), hr, withPtr_evaluated,
        if_neg (by simp [hm]), if_neg (by simp [hm]), hs, withPtr_evaluated]
      rw [callMonte]
      split <;> rename_i heq <;> rw [heq] at e1 e0 <;> cases e1
      rw [evaluated_append, e0, callMonte_last, exec_asked func h]
    · intro h1
      have e1 := exec_throws func h1
      rw [integrate, if_neg (by simp [hm]), if_pos (by simp [hm]), hr, withPtr_evaluated,
        if_neg (by simp [hm]), if_neg (by simp [hm]), hs, withPtr_evaluated]
      rw [callMonte]
      split <;> rename_i heq <;> rw [heq] at e1 e0 <;> cases e1
      exact e0

/-- C117: lack of memory is reported by `std::bad_alloc` with nothing evaluated, and only then. -/
theorem c117_bad_alloc :
    (integrate lib func lower upper params).2 = .badAlloc ↔
      IsMonte params.method ∧ (lib.rng = none ∨ lib.state params.method lower.length = none) := by
  have hcall : ∀ (run : Run (EstErr × R × S)) (rest : EstErr → R → S → List Event × End),
      (∀ e r s, (rest e r s).2 ≠ .badAlloc) → (callMonte func run rest).2 ≠ .badAlloc := by
    intro run rest h
    unfold callMonte
    split
    · simp
    · exact h _ _ _
  have hptr : ∀ {X : Type} (p : Option X) (q : Resource) (body : X → List Event × End),
      (withPtr p q body).2 = .badAlloc ↔ p = none ∨ ∃ x, p = some x ∧ (body x).2 = .badAlloc := by
    intro X p q body
    cases p with
    | none => simp [withPtr]
    | some x => rw [withPtr_end]; simp
  have hrng : ∀ {A : Prop}, (lib.rng = none ∨ ∃ x, lib.rng = some x ∧ A) ↔ (lib.rng = none ∨ A) := by
    intro A
    cases lib.rng <;> simp
  unfold integrate IsMonte
  cases hm : params.method
  · simp only [if_pos]
    split <;> simp
  · simp only [reduceCtorEq, if_false, true_or, if_true, hptr, true_and]
    have : ∀ rnd st, (callMonte func (lib.monte .mcPlain lower upper params.num_evals rnd st) fun e _ _ =>
      ([], .value e)).2 ≠ .badAlloc := fun rnd st => hcall _ _ (by simp)
    simp only [this, and_false, exists_false, or_false, hrng]
  · simp only [reduceCtorEq, if_false, false_or, true_or, if_true, hptr, true_and]
    have : ∀ rnd st, (callMonte func (lib.monte .miser lower upper params.num_evals rnd st) fun e _ _ =>
      ([], .value e)).2 ≠ .badAlloc := fun rnd st => hcall _ _ (by simp)
    simp only [this, and_false, exists_false, or_false, hrng]
  · simp only [reduceCtorEq, if_false, false_or, if_true, hptr, true_and]
    have : ∀ rnd st, (callMonte func (lib.monte .vegas lower upper params.num_burn rnd st) fun _ rnd st =>
      callMonte func (lib.monte .vegas lower upper params.num_evals rnd st) fun e _ _ =>
      ([], .value e)).2 ≠ .badAlloc := fun rnd st => hcall _ _ fun _ _ _ => hcall _ _ (by simp)
    simp only [this, and_false, exists_false, or_false, hrng]
  · simp

/-- C117: an integral over an interval is the one over the box with one dimension; the function gets the
coordinate. -/
theorem c117_interval (f : ℝ → Option Fl) (a b : ℝ) (g : List ℝ → Option Fl) (hg : ∀ x, g [x] = f x)
    (hcub : ∀ n, AsksIn [a] [b] (lib.cubature [a] [b] n))
    (hmc : ∀ m n r s, AsksIn [a] [b] (lib.monte m [a] [b] n r s)) :
    integrate1 lib f a b params = integrate lib g [a] [b] params := by
  have hex : ∀ {α : Type} {r : Run α}, AsksIn [a] [b] r →
      r.exec (fun x => f (x.headD 0)) = r.exec g := by
    intro α r h
    induction h with
    | done a => rfl
    | eval x k hx hk ih =>
      have hx1 : ∃ t, x = [t] := by
        obtain ⟨h1, -⟩ := hx
        cases h1 with
        | cons _ h => cases h; exact ⟨_, rfl⟩
      obtain ⟨t, rfl⟩ := hx1
      unfold Run.exec
      simp only [List.headD_cons, hg]
      cases f t with
      | none => rfl
      | some y => simp only [ih y]
  have hcall : ∀ m n r s (rest : EstErr → R → S → List Event × End),
      callMonte (fun x => f (x.headD 0)) (lib.monte m [a] [b] n r s) rest =
        callMonte g (lib.monte m [a] [b] n r s) rest := by
    intro m n r s rest
    simp only [callMonte, hex (hmc m n r s)]
  simp only [integrate1, integrate, hex (hcub _), hcall]

/-- C118: an exception of the structure functions should reach the caller. Proved for cubature. Missing, and
false in the code (`c118_refuted`): the Monte-Carlo methods. -/
theorem c118_exception_partial (hm : params.method = .cubature)
    (h : Throws func (lib.cubature lower upper params.num_evals)) :
    (integrate lib func lower upper params).2 = .thrown := by
  have := exec_throws func h
  rw [integrate, if_pos hm]
  split <;> rename_i heq <;> rw [heq] at this <;> cases this

/-- C118, refuted: with a Monte-Carlo method the exception leaves a function called by the C library, which
is undefined behaviour. -/
theorem c118_refuted (hm : IsMonte params.method) (r : R) (s : S) (hr : lib.rng = some r)
    (hs : lib.state params.method lower.length = some s)
    (h : Throws func (lib.monte params.method lower upper
      (if params.method = .vegas then params.num_burn else params.num_evals) r s)) :
    (integrate lib func lower upper params).2 = .ub := by
  rcases hm with hm | hm | hm <;> rw [hm] at hs h
  · rw [integrate, if_neg (by simp [hm]), if_pos (by simp [hm]), hr, withPtr_end, if_pos hm, hs,
      withPtr_end, callMonte_ub func (by simpa using h)]
  · rw [integrate, if_neg (by simp [hm]), if_pos (by simp [hm]), hr, withPtr_end, if_neg (by simp [hm]),
      if_pos hm, hs, withPtr_end, callMonte_ub func (by simpa using h)]
  · rw [integrate, if_neg (by simp [hm]), if_pos (by simp [hm]), hr, withPtr_end, if_neg (by simp [hm]),
      if_neg (by simp [hm]), hs, withPtr_end, callMonte_ub func (by simpa using h)]

/-- C118: without exceptions of the integrand there is none, and nothing undefined. -/
theorem c118_no_exception_partial (h : ∀ x, func x ≠ none) :
    (integrate lib func lower upper params).2 ≠ .ub ∧ (integrate lib func lower upper params).2 ≠ .thrown := by
  have hex : ∀ {α : Type} (r : Run α), (r.exec func).2 ≠ none := by
    intro α r
    induction r with
    | done a => simp [Run.exec]
    | eval x k ih =>
      obtain ⟨y, hy⟩ := Option.ne_none_iff_exists'.mp (h x)
      simpa [Run.exec, hy] using ih y
  have hcall : ∀ (P : End → Prop) (run : Run (EstErr × R × S)) (rest : EstErr → R → S → List Event × End),
      (∀ e r s, P (rest e r s).2) → P (callMonte func run rest).2 := by
    intro P run rest h
    have := hex run
    unfold callMonte
    split
    · rename_i heq; rw [heq] at this; exact absurd rfl this
    · exact h _ _ _
  have hptr : ∀ (P : End → Prop) {X : Type} (p : Option X) (q : Resource) (body : X → List Event × End),
      P .badAlloc → (∀ x, P (body x).2) → P (withPtr p q body).2 := by
    intro P X p q body h0 h
    cases p with
    | none => exact h0
    | some x => rw [withPtr_end]; exact h x
  have key : ∀ P : End → Prop, P .badAlloc → (∀ e, P (.value e)) →
      P (integrate lib func lower upper params).2 := by
    intro P h1 h2
    unfold integrate
    split_ifs
    · have := hex (lib.cubature lower upper params.num_evals)
      split
      · rename_i heq; rw [heq] at this; exact absurd rfl this
      · exact h2 _
    · exact hptr P _ _ _ h1 fun rnd => hptr P _ _ _ h1 fun st => hcall P _ _ fun e _ _ => h2 e
    · exact hptr P _ _ _ h1 fun rnd => hptr P _ _ _ h1 fun st => hcall P _ _ fun e _ _ => h2 e
    · exact hptr P _ _ _ h1 fun rnd => hptr P _ _ _ h1 fun st => hcall P _ _ fun _ _ _ =>
        hcall P _ _ fun e _ _ => h2 e
    · exact h2 _
  exact ⟨key (· ≠ .ub) (by simp) (by simp), key (· ≠ .thrown) (by simp) (by simp)⟩

/-! ### A library for the examples: the value in the lower corner, and the number of the run -/

private noncomputable def cornerLib : Lib ℕ ℕ where
  cubature lower _ n := if n = 0 then .done ⟨.fin 0, .fin 0⟩ else .eval lower fun y => .done ⟨y, .fin 0⟩
  rng := some 0
  state _ _ := some 0
  monte _ lower _ n r s :=
    if n = 0 then .done (⟨.fin 0, .fin 0⟩, r, s + 1)
    else .eval lower fun y => .done (⟨y, .fin s⟩, r + 1, s + 1)

example (n : ℕ) : AsksIn [0, 0] [1, 1] (cornerLib.cubature [0, 0] [1, 1] n) := by
  unfold cornerLib
  by_cases h : n = 0 <;> simp only [h, if_true, if_false]
  · exact .done _
  · exact .eval _ _ (by simp [InBox]) fun _ => .done _

example (m : Method) (n r s : ℕ) : AsksIn [0, 0] [1, 1] (cornerLib.monte m [0, 0] [1, 1] n r s) := by
  unfold cornerLib
  by_cases h : n = 0 <;> simp only [h, if_true, if_false]
  · exact .done _
  · exact .eval _ _ (by simp [InBox]) fun _ => .done _

example (m : Method) (n r s : ℕ) : AsksAtMost n (cornerLib.monte m [0, 0] [1, 1] n r s) := by
  unfold cornerLib
  by_cases h : n = 0 <;> simp only [h, if_true, if_false]
  · exact .done _ _
  · obtain ⟨k, rfl⟩ := Nat.exists_eq_succ_of_ne_zero h
    exact .eval _ _ _ fun _ => .done _ _

/-- With VEGAS the result is that of the second run. -/
example : (integrate cornerLib (fun _ => some (.fin 7)) [0, 0] [1, 1] ⟨.vegas, 100, 10⟩).2 =
    .value ⟨.fin 7, .fin 1⟩ := by
  have := (c117_value cornerLib (fun _ => some (.fin 7)) [0, 0] [1, 1] ⟨.vegas, 100, 10⟩).2.2 0 0
    ⟨.fin 7, .fin 0⟩ 1 1 ⟨.fin 7, .fin 1⟩ 2 2 rfl rfl rfl
    (by simp [cornerLib]; exact .eval _ _ _ _ rfl (.done _))
    (by simp [cornerLib]; exact .eval _ _ _ _ rfl (.done _))
  exact this

example : evaluated (integrate cornerLib (fun _ => some (.fin 7)) [0, 0] [1, 1] ⟨.vegas, 100, 10⟩).1 =
    [[0, 0], [0, 0]] := by
  have := ((c117_evaluated cornerLib (fun _ => some (.fin 7)) [0, 0] [1, 1] ⟨.vegas, 100, 10⟩).2.2 0 0
    [[0, 0]] rfl rfl rfl (by simp [cornerLib]; exact .eval _ _ _ _ rfl (.done _))).1
    ⟨.fin 7, .fin 0⟩ 1 1 [[0, 0]]
    (by simp [cornerLib]; exact .eval _ _ _ _ rfl (.done _))
    (by simp [cornerLib]; exact .eval _ _ _ _ rfl (.done _))
  exact this

example : Throws (fun _ => none) (cornerLib.monte .vegas [0] [1] 10 0 0) := by
  simp only [cornerLib]
  exact .here _ _ rfl

end Sidis.Props
