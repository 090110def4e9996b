import Verif.Model.Generate

/-! # Specification vocabulary for event statistics and event generation -/

namespace Sidis.Spec

open Gen StatsLib

/-- What is assumed of the external statistics library: adding up two collections of weights is
commutative and associative, the empty collection is neutral, and the number of weights is counted
correctly. -/
structure Counts (S : Type) [StatsLib S] : Prop where
  add_comm : ∀ a b : S, add a b = add b a
  add_assoc : ∀ a b c : S, add (add a b) c = add a (add b c)
  empty_add : ∀ a : S, add empty a = a
  count_empty : count (empty : S) = 0
  count_add : ∀ a b : S, count (add a b) = count a + count b
  count_push : ∀ (a : S) w, count (push a w) = count a + 1

/-- Collections of finite weights (`Finite`) have a sum (`sum`), which is additive; the mean is the
sum divided by the count. -/
structure HasSum {S : Type} [StatsLib S] (Finite : S → Prop) (sum : S → ℝ) : Prop where
  empty : Finite empty
  add : ∀ a b, Finite a → Finite b → Finite (add a b) ∧ sum (add a b) = sum a + sum b
  mean : ∀ a, Finite a → 0 < count a → mean a = .fin (sum a / count a)

/-- The collection of the weights `ws`. -/
def collect {S : Type} [StatsLib S] (ws : List Fl) : S := ws.foldl push empty

/-- The root mean square of some finite weights, not all zero, is a positive number; with a weight
that is not finite it is not a finite number. -/
structure RootMeanSquare (S : Type) [StatsLib S] : Prop where
  pos : ∀ (ws : List Fl) (n : ℕ), (∀ w ∈ ws, w.isFinite) → (∃ w ∈ ws, ¬ w.eq (.fin 0)) → 0 < n →
    ∃ r, 0 < r ∧ sqrtM2 (collect ws : S) n = .fin r
  special : ∀ (ws : List Fl) (n : ℕ), (∃ w ∈ ws, ¬ w.isFinite) → 0 < n →
    ¬ (sqrtM2 (collect ws : S) n).isFinite

/-- An integrator as the code makes them: its count is the number of its weights, and with at least
one weight its inverse prime is a number. -/
structure Sound {S : Type} [StatsLib S] (a : Integrator S) : Prop where
  count : a.count = StatsLib.count a.weights
  acc : a.countAcc ≤ a.count
  prime : 0 < a.count → ∃ r : ℝ, a.primeInv = .fin r

/-- A way of combining integrators: every grouping of every list. -/
inductive Merge (S : Type) where
  | leaf (a : Integrator S)
  | node (l r : Merge S)

namespace Merge
/-- The integrators that are combined. -/
def leaves {S : Type} : Merge S → List (Integrator S)
  | leaf a => [a]
  | node l r => l.leaves ++ r.leaves
/-- The result. -/
noncomputable def value {S : Type} [StatsLib S] : Merge S → Integrator S
  | leaf a => a
  | node l r => l.value.add r.value
end Merge

/-- The number in a finite value (0 otherwise). -/
noncomputable def num : Fl → ℝ
  | .fin r => r
  | _ => 0

/-- The weights drawn from generator `i`, in order. -/
def weightsOf {K : Type} (i : ℕ) (ds : List (Draw K)) : List Fl :=
  (ds.filter fun d => d.gen = i).map Draw.weight

/-- The events that are kept: those of non-zero weight. -/
noncomputable def kept {K : Type} (ds : List (Draw K)) : List (Draw K) :=
  open Classical in ds.filter fun d => ¬ d.weight.eq (.fin 0)

/-- The draws `ds` are what the random source gives, one after another, starting in the state `rnd`
and ending in `rnd'`, when generator number `i` has rejection scale `scale i`. -/
def Drawn {R K : Type} (src : Source R K) (scale : ℕ → Fl) : R → List (Draw K) → R → Prop
  | rnd, [], rnd' => rnd' = rnd
  | rnd, d :: ds, rnd' =>
    Drawn src scale (drawOnce src d.gen (scale d.gen) rnd).2 ds rnd' ∧
      (drawOnce src d.gen (scale d.gen) rnd).1 = (d.weight, d.kin)

/-- What is known after some events: the integrator of every generator has seen exactly the weights
drawn from that generator, and the rows of the output are exactly the draws of non-zero weight, with
the type of their generator. -/
structure Faithful {S R K : Type} [StatsLib S] (gens : List (EventType × Fl × Fl))
    (s : State S R K) : Prop where
  types : s.gens.map (fun g => (g.evType, g.integ.primeInv, g.rejScale)) = gens
  seen : ∀ i g, s.gens[i]? = some g →
    g.integ.weights = collect (weightsOf i s.draws) ∧
    g.integ.count = (s.draws.filter fun d => d.gen = i).length ∧
    g.integ.countAcc = ((kept s.draws).filter fun d => d.gen = i).length
  range : ∀ d ∈ s.draws, d.gen < gens.length
  rows : s.rows.map (fun r => (some r.type, r.weight, r.kin)) = (kept s.draws).map fun d =>
    ((gens[d.gen]?).map fun g => typeCode g.1, d.weight, d.kin)

end Sidis.Spec
