import Verif.Model.Dist

/-!
# Vocabulary for C48 and C49: lives of engines, disciplined use of generators
-/

namespace Sidis.Dist.Spec

variable {B : Type}

/-- The engine an event is about. -/
def idOf : Ev → ℕ
  | .ctor i => i
  | .use i => i
  | .dtor i => i

/-- The events in the life of engine `i`, in order. -/
def life (log : List Ev) (i : ℕ) : List Ev := log.filter fun e => idOf e = i

/-- Engine `i` does not exist yet. -/
def Unborn (log : List Ev) (i : ℕ) : Prop := life log i = []

/-- Engine `i` was constructed, then used any number of times, and is not destroyed. -/
def Alive (log : List Ev) (i : ℕ) : Prop :=
  ∃ n, life log i = .ctor i :: List.replicate n (.use i)

/-- Engine `i` was constructed, then used any number of times, then destroyed, once, and after that
nothing happened to it. -/
def Done (log : List Ev) (i : ℕ) : Prop :=
  ∃ n, life log i = .ctor i :: List.replicate n (.use i) ++ [.dtor i]

/-- The type and the dimension at the start of a stream. -/
def header (is : IStream) : Option (ℕ × ℕ) :=
  if is.fail = false ∧ 12 ≤ is.data.length then
    some (ofLe (is.data.take 4), ofLe ((is.data.drop 4).take 8))
  else none

/-- The object can be used. -/
def _root_.Sidis.Dist.Obj.Usable (o : Obj B) : Prop := o.valid = true ∧ ∃ e, o.engine = some e ∧ e.type = o.type

/-- `build_dist` returns. -/
def BuildOk (t : DistType) (f : BuildFault B) : Prop :=
  t = .uniform ∨ t = .bubble ∧ ∃ b, f = .none b

/-- `read_dist` meets a distribution type it does not know, or cannot construct an engine. -/
def ReadSpoils (ev : Format.EventType) (is : IStream) (f : ReadFault B) : Prop :=
  ∃ t, header is = some (t, dim ev) ∧ (3 < t ∨ t = 2 ∧ f = .ctor)

/-- What the client of a generator may do with it. -/
inductive Status
  | usable (ev : Format.EventType)
  | spoilt
  | gone

/-- Disciplined use, and what becomes of the generators: everything may be done with a usable
generator; one whose `build_dist` threw, or whose `read_dist` met an unknown type or threw while
constructing the engine, may only be destroyed.  Of the latter kind of `read_dist` it is required
that the destructor's last store survives. -/
inductive Next : List Status → Op B → List Status → Prop
  | make (S ev) : Next S (.make ev) (S ++ [.usable ev])
  | move {S i ev} : S[i]? = some (.usable ev) → Next S (.move i) (S ++ [.usable ev])
  | build {S i ev t f n} : S[i]? = some (.usable ev) → BuildOk t f → Next S (.build i t f n) S
  | buildThrows {S i ev t f n} : S[i]? = some (.usable ev) → ¬ BuildOk t f →
      Next S (.build i t f n) (S.set i .spoilt)
  | read {S i ev is f k} : S[i]? = some (.usable ev) → ¬ ReadSpoils ev is f →
      Next S (.read i is f k) S
  | readSpoils {S i ev is f} : S[i]? = some (.usable ev) → ReadSpoils ev is f →
      Next S (.read i is f false) (S.set i .spoilt)
  | write {S i ev os} : S[i]? = some (.usable ev) → Next S (.write i os) S
  | draw {S i ev} : S[i]? = some (.usable ev) → Next S (.draw i) S
  | prime {S i ev} : S[i]? = some (.usable ev) → Next S (.prime i) S
  | destroy {S i ev} : S[i]? = some (.usable ev) → Next S (.destroy i) (S.set i .gone)
  | destroySpoilt {S i} : S[i]? = some .spoilt → Next S (.destroy i) (S.set i .gone)

/-- A disciplined history. -/
inductive Follows : List Status → List (Op B) → List Status → Prop
  | nil (S) : Follows S [] S
  | cons {S S' S'' o os} : Next S o S' → Follows S' os S'' → Follows S (o :: os) S''

/-- The generator draws points from the distribution in state `b`. -/
def DrawsFrom (g : Gen B) (b : B) : Prop := ∀ w, ∃ w', g.draw w = some (some (.bubble b), w')

end Sidis.Dist.Spec
