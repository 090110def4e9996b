import Verif.Model.Params

/-!
# Specification vocabulary for `Filter` and `Params`

* Filter expressions with their Boolean meaning.
* A history of calls on one `Params` object, and the trace of elementary facts a caller can
  observe: "name `n` was provided with `v`" and "name `n` was fetched with get".  What counts as
  used is defined on the trace alone.
-/

namespace Sidis.Spec

/-- Filter expressions as written by a caller. -/
inductive FExpr (Tag : Type) where
  | reject
  | accept
  | tag (t : Tag)
  | or (a b : FExpr Tag)
  | and (a b : FExpr Tag)

/-- Boolean meaning of a filter expression on a set of tags. -/
def FExpr.Holds {Tag : Type} (tags : Finset Tag) : FExpr Tag → Prop
  | .reject => False
  | .accept => True
  | .tag t => t ∈ tags
  | .or a b => a.Holds tags ∨ b.Holds tags
  | .and a b => a.Holds tags ∧ b.Holds tags

/-- The `Filter` object built by the expression. -/
def FExpr.build {Tag : Type} [DecidableEq Tag] : FExpr Tag → Filter Tag
  | .reject => .reject
  | .accept => .accept
  | .tag t => .tag t
  | .or a b => a.build.or b.build
  | .and a b => a.build.and b.build

/-- Elementary observable facts about one `Params` object. -/
inductive Fact (N V : Type) where
  /-- the value of `n` was replaced (by `none` when cleared) -/
  | provided (n : N) (v : Option V)
  /-- `get n` returned a provided (not default) value -/
  | fetched (n : N)

/-- The value provided for `n` by a trace (latest fact first). -/
def provided {N V : Type} [DecidableEq N] (n : N) : List (Fact N V) → Option V
  | [] => none
  | .provided m v :: t => if m = n then v else provided n t
  | .fetched _ :: t => provided n t

/-- Was `n` fetched since it was last provided?  (latest fact first) -/
def fetchedSince {N V : Type} [DecidableEq N] (n : N) : List (Fact N V) → Prop
  | [] => False
  | .provided m _ :: t => if m = n then False else fetchedSince n t
  | .fetched m :: t => m = n ∨ fetchedSince n t

/-- Calls a client can make on one `Params` object. -/
inductive Call (N Tag T V : Type) where
  | get (n : N)
  | getSoft (n : N)
  | set (n : N) (v : Option V)
  | setFrom (other : Params N Tag T V) (n : N)
  | clearUnused

variable {N Tag T V : Type} [DecidableEq N] [DecidableEq T] [DecidableEq Tag]

/-- Run a call: resulting object. -/
def Call.exec (ty : V → T) (P : Params N Tag T V) : Call N Tag T V → Params N Tag T V
  | .get n => (P.get n).2
  | .getSoft _ => P
  | .set n v => (P.set ty n v).2
  | .setFrom o n => (P.setFrom o n).2
  | .clearUnused => P.clearUnused

open Classical in
/-- The facts a call adds, read off from what the caller sees: the arguments and whether the call
returned normally. -/
noncomputable def Call.facts (ty : V → T) (P : Params N Tag T V) (tr : List (Fact N V)) :
    Call N Tag T V → List (Fact N V)
  | .get n =>
    match (P.get n).1, P.isSet n with
    | .ok _, .ok true => [.fetched n]
    | _, _ => []
  | .getSoft _ => []
  | .set n v =>
    match (P.set ty n v).1 with
    | .ok _ => [.provided n v]
    | .error _ => []
  | .setFrom o n =>
    match (P.setFrom o n).1, o.find n with
    | .ok _, some p => [.provided n p.value]
    | _, _ => []
  | .clearUnused =>
    (P.names.filter fun n => ¬ fetchedSince n tr).map fun n => .provided n none

/-- Object and trace after a list of calls. -/
noncomputable def runCalls (ty : V → T) (P : Params N Tag T V) (tr : List (Fact N V)) :
    List (Call N Tag T V) → Params N Tag T V × List (Fact N V)
  | [] => (P, tr)
  | c :: cs => runCalls ty (c.exec ty P) (c.facts ty P tr ++ tr) cs

/-- A parameter table in which nothing has been provided yet (as `PARAMS_STD_FORMAT`). -/
def Fresh (P : Params N Tag T V) : Prop :=
  P.WF ∧ ∀ e ∈ P.entries, e.2.value = none ∧ e.2.used = false

/-- Two parameters have the same format: type, tags, and the identical default. -/
def SameFormat (p q : Params.Param Tag T V) : Prop :=
  p.type = q.type ∧ p.tags = q.tags ∧ p.dflt.map Prod.fst = q.dflt.map Prod.fst

/-- Two optional values agree up to the type's equivalence. -/
def SameValue (equiv : T → V → V → Bool) (t : T) : Option V → Option V → Prop
  | none, none => True
  | some a, some b => equiv t a b = true
  | _, _ => False

end Sidis.Spec
