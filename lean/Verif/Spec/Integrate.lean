import Verif.Model.Integrate

/-! # What is expected of a numerical integration -/

namespace Sidis.Spec

open Sidis.Integrate

/-- Follow the events with the resources held, the last one taken first: a resource is given back only if
it is the last one taken, and in the end nothing is held. -/
def Balanced : List Event → List Resource → Prop
  | [], held => held = []
  | .acquire r :: t, held => Balanced t (r :: held)
  | .release r :: t, held => ∃ rest, held = r :: rest ∧ Balanced t rest
  | .eval _ :: t, held => Balanced t held

/-- The points at which the integrand was evaluated. -/
def evaluated : List Event → List (List ℝ)
  | [] => []
  | .eval x :: t => x :: evaluated t
  | _ :: t => evaluated t

/-- The point is in the box. -/
def InBox (lower upper x : List ℝ) : Prop :=
  List.Forall₂ (· ≤ ·) lower x ∧ List.Forall₂ (· ≤ ·) x upper

/-- The routine asks only for points in the box. -/
inductive AsksIn {α : Type} (lower upper : List ℝ) : Run α → Prop where
  | done (a : α) : AsksIn lower upper (.done a)
  | eval (x : List ℝ) (k : Fl → Run α) (hx : InBox lower upper x) (hk : ∀ y, AsksIn lower upper (k y)) :
      AsksIn lower upper (.eval x k)

/-- The routine asks at most `n` times. -/
inductive AsksAtMost {α : Type} : ℕ → Run α → Prop where
  | done (n : ℕ) (a : α) : AsksAtMost n (.done a)
  | eval (n : ℕ) (x : List ℝ) (k : Fl → Run α) (hk : ∀ y, AsksAtMost n (k y)) :
      AsksAtMost (n + 1) (.eval x k)

/-- The value that a routine returns for an integrand, if the integrand throws nowhere it asks. -/
inductive Returns {α : Type} (func : List ℝ → Option Fl) : Run α → α → Prop where
  | done (a : α) : Returns func (.done a) a
  | eval (x : List ℝ) (k : Fl → Run α) (y : Fl) (a : α) (hy : func x = some y) (hk : Returns func (k y) a) :
      Returns func (.eval x k) a

/-- The integrand throws at one of the points the routine asks for. -/
inductive Throws {α : Type} (func : List ℝ → Option Fl) : Run α → Prop where
  | here (x : List ℝ) (k : Fl → Run α) (hx : func x = none) : Throws func (.eval x k)
  | later (x : List ℝ) (k : Fl → Run α) (y : Fl) (hy : func x = some y) (hk : Throws func (k y)) :
      Throws func (.eval x k)

/-- The points a routine asks for, in order, until it returns or the integrand throws. -/
inductive Asked {α : Type} (func : List ℝ → Option Fl) : Run α → List (List ℝ) → Prop where
  | done (a : α) : Asked func (.done a) []
  | throws (x : List ℝ) (k : Fl → Run α) (hx : func x = none) : Asked func (.eval x k) [x]
  | eval (x : List ℝ) (k : Fl → Run α) (y : Fl) (pts : List (List ℝ)) (hy : func x = some y)
      (hk : Asked func (k y) pts) : Asked func (.eval x k) (x :: pts)

/-- The Monte-Carlo methods of GSL. -/
def IsMonte (m : Method) : Prop := m = .mcPlain ∨ m = .miser ∨ m = .vegas

end Sidis.Spec
