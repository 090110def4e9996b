import Verif.Model.Fl

/-!
# Model of `math::integrate` (include/sidis/extra/integrate.hpp)

The libraries (cubature and GSL) are an interface `Lib`. What matters of a routine of a library is at
which points it asks for the integrand and what it returns in the end, so that a routine is a tree
(`Run`).  The integrand may throw.  Simplification: the random number generator and the state of a GSL
integrator are values that a routine takes and returns; addresses are not modelled.
-/

namespace Sidis.Integrate

/-- `IntegMethod` (include/sidis/integ_params.hpp 25-30); `other` is a value that is no enumerator. -/
inductive Method where
  | cubature | mcPlain | miser | vegas | other
  deriving DecidableEq

/-- `EstErr` (integ_params.hpp 16-19). -/
structure EstErr where
  val : Fl
  err : Fl

/-- `IntegParams` (integ_params.hpp 39-46). -/
structure Params where
  method : Method
  num_evals : ℕ
  num_burn : ℕ

/-- A routine of a library: it returns, or asks for the value of the integrand at a point. -/
inductive Run (α : Type) where
  | done (a : α)
  | eval (x : List ℝ) (k : Fl → Run α)

/-- The libraries. -/
structure Lib (R S : Type) where
  /-- `cubature::cubature<D>(func, lower, upper, num_evals, 0., 0.)` -/
  cubature : (lower upper : List ℝ) → ℕ → Run EstErr
  /-- `gsl_rng_alloc(gsl_rng_taus2)`, `none` for a null pointer -/
  rng : Option R
  /-- `gsl_monte_plain_alloc(D)`, `gsl_monte_miser_alloc(D)`, `gsl_monte_vegas_alloc(D)` -/
  state : Method → ℕ → Option S
  /-- `gsl_monte_plain_integrate`, `gsl_monte_miser_integrate`, `gsl_monte_vegas_integrate` -/
  monte : Method → (lower upper : List ℝ) → ℕ → R → S → Run (EstErr × R × S)

/-- What is held. -/
inductive Resource where
  | rng | state (m : Method)
  deriving DecidableEq

/-- What can be seen of a call: memory taken and given back, and evaluations of the integrand. -/
inductive Event where
  | acquire (r : Resource)
  | release (r : Resource)
  | eval (x : List ℝ)

/-- How a call ends. -/
inductive End where
  | value (e : EstErr)
  /-- `std::bad_alloc` -/
  | badAlloc
  /-- the exception of the integrand reaches the caller -/
  | thrown
  /-- the exception of the integrand leaves a function called by a C library: undefined behaviour -/
  | ub

/-- The events and the result of a routine for an integrand (`none`: it throws). -/
def Run.exec {α : Type} (func : List ℝ → Option Fl) : Run α → List Event × Option α
  | .done a => ([], some a)
  | .eval x k =>
    match func x with
    | none => ([.eval x], none)
    | some y =>
      let r := (k y).exec func
      (.eval x :: r.1, r.2)

/-- A `std::unique_ptr` made from a pointer that may be null, the test for null that follows, and the
rest of the scope (integrate.hpp 50-54, 56-62, 75-81, 94-100). The deleter runs at the end of the scope,
unless behaviour is undefined. -/
def withPtr {X : Type} (p : Option X) (r : Resource) (body : X → List Event × End) : List Event × End :=
  match p with
  | none => ([], .badAlloc)
  | some x =>
    match body x with
    | (t, .ub) => (.acquire r :: t, .ub)
    | (t, e) => (.acquire r :: t ++ [.release r], e)

/-- A call of a GSL integrator, and the rest of the scope. -/
def callMonte {R S : Type} (func : List ℝ → Option Fl) (run : Run (EstErr × R × S))
    (rest : EstErr → R → S → List Event × End) : List Event × End :=
  match run.exec func with
  | (t, none) => (t, .ub)
  | (t, some (e, r, s)) =>
    let q := rest e r s
    (t ++ q.1, q.2)

/-- `integrate<D>` (integrate.hpp 26-131); `D` is the length of `lower`. -/
def integrate {R S : Type} (lib : Lib R S) (func : List ℝ → Option Fl) (lower upper : List ℝ)
    (params : Params) : List Event × End :=
  if params.method = .cubature then
    match (lib.cubature lower upper params.num_evals).exec func with
    | (t, none) => (t, .thrown)
    | (t, some e) => (t, .value e)
  else if params.method = .mcPlain ∨ params.method = .miser ∨ params.method = .vegas then
    withPtr lib.rng .rng fun rnd =>
      if params.method = .mcPlain then
        withPtr (lib.state .mcPlain lower.length) (.state .mcPlain) fun st =>
          callMonte func (lib.monte .mcPlain lower upper params.num_evals rnd st) fun e _ _ =>
            ([], .value e)
      else if params.method = .miser then
        withPtr (lib.state .miser lower.length) (.state .miser) fun st =>
          callMonte func (lib.monte .miser lower upper params.num_evals rnd st) fun e _ _ =>
            ([], .value e)
      else
        withPtr (lib.state .vegas lower.length) (.state .vegas) fun st =>
          -- burn the first samples (integrate.hpp 101-111)
          callMonte func (lib.monte .vegas lower upper params.num_burn rnd st) fun _ rnd st =>
            callMonte func (lib.monte .vegas lower upper params.num_evals rnd st) fun e _ _ =>
              ([], .value e)
  else ([], .value ⟨.fin 0, .fin 0⟩)

/-- `integrate` over an interval (integrate.hpp 133-138). -/
def integrate1 {R S : Type} (lib : Lib R S) (func : ℝ → Option Fl) (lower upper : ℝ) (params : Params) :
    List Event × End :=
  integrate lib (fun x => func (x.headD 0)) [lower] [upper] params

end Sidis.Integrate
