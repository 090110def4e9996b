import Verif.Model.ProdDiv

/-! # The progress counter of `command_generate` -/

namespace Sidis.Progress

/-- Variables of the progress display (app/sidisgen/main.cpp 887-890). -/
structure State where
  percent : ℤ
  nextPercentRem : ℤ
  nextPercent : ℤ
deriving DecidableEq

/-- Initial values (app/sidisgen/main.cpp 888-890): `num_events % 100`, `num_events / 100`. -/
def init (N : ℤ) : State := ⟨0, N.tmod 100, N.tdiv 100⟩

/-- The loop condition `event_idx >= next_percent + (next_percent_rem != 0)`
(app/sidisgen/main.cpp 893). -/
def cond (i : ℤ) (s : State) : Prop :=
  i ≥ s.nextPercent + (if s.nextPercentRem ≠ 0 then 1 else 0)

instance (i : ℤ) (s : State) : Decidable (cond i s) := by unfold cond; infer_instance

/-- The loop body (app/sidisgen/main.cpp 894-895); `long` overload of `prod_div`. -/
def step (N : ℤ) (s : State) : Option State := do
  let (q, r) ← ProdDiv.prodDiv IntTy.int64 N (s.percent + 1 + 1) 100
  some ⟨s.percent + 1, r, q⟩

/-- Execution of the `while` loop (app/sidisgen/main.cpp 893-897) as a big-step relation, so that
termination is something to prove. -/
inductive While (N i : ℤ) : State → State → Prop
  | done {s} : ¬ cond i s → While N i s s
  | next {s s' t} : cond i s → step N s = some s' → While N i s' t → While N i s t

/-- States in which the progress bar code reaches event `i` and leaves the `while` loop
(app/sidisgen/main.cpp 891-897). -/
inductive Reaches (N : ℤ) : ℤ → State → Prop
  | first {t} : 0 < N → While N 0 (init N) t → Reaches N 0 t
  | next {i s t} : Reaches N i s → i + 1 < N → While N (i + 1) s t → Reaches N (i + 1) t

end Sidis.Progress
