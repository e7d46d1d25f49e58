import Verif.Model.Penalty
import Verif.Model.RingBuffer
import Verif.Model.Statistics
import Verif.Model.Stop
/-!
# `pyvrp/IteratedLocalSearch.py`

The search method and the stopping criterion are arbitrary objects with state. Printing is left out,
and callbacks only observe: each call is recorded in `events`.
-/
namespace PyVRP

/-- `IteratedLocalSearchParams` (`IteratedLocalSearch.py` 70-104), without the callbacks. -/
structure IlsParams where
  numItersNoImprovement : Int := 150000
  historyLength : Int := 300
  exhaustiveOnBest : Bool := true
deriving DecidableEq, Repr

/-- `__post_init__` (`IteratedLocalSearch.py` 96-104). -/
def IlsParams.check (p : IlsParams) : Option Error :=
  if p.numItersNoImprovement < 0 then
    some (.invalidArgument "num_iters_no_improvement < 0 not understood.")
  else if p.historyLength ≤ 0 then some (.invalidArgument "history_length must be positive.")
  else none

/-- Calls of `IteratedLocalSearchCallbacks` (`IteratedLocalSearch.py` 22-66), except `on_end`. -/
inductive IlsEvent where
  | onStart
  | onRestart (best : Solution)
  | onBest (best : Solution)
  | onIteration (current candidate best : Solution) (costEvaluator : CostEvaluator)

/-- What the algorithm is given (`IteratedLocalSearch.py` 124-136): a search method with states `σ`, a
stopping criterion with states `τ`, and the readings of the clock. -/
structure IlsEnv (σ τ : Type) where
  R : Rounding
  params : IlsParams
  search : σ → Solution → CostEvaluator → Bool → σ × Solution
  stop : τ → Int → τ × Bool
  init : Solution
  clock : Nat → Int

/-- The variables of `run`. -/
structure IlsState (σ τ : Type) where
  pm : PenaltyManager
  searchState : σ
  stopState : τ
  history : RingBuffer Solution
  stats : Statistics
  iters : Nat := 0
  itersNoImprovement : Nat := 0
  best : Solution
  curr : Solution
  costEval : CostEvaluator
  reads : Nat
  events : List IlsEvent

namespace Ils
variable {σ τ : Type}

/-- Before the loop (`IteratedLocalSearch.py` 207-222). -/
def start (env : IlsEnv σ τ) (pm : PenaltyManager) (ss : σ) (ts : τ) (collectStats : Bool) :
    Except Error (IlsState σ τ) :=
  match pm.costEvaluator env.R with
  | .error e => .error e
  | .ok ce =>
    .ok { pm, searchState := ss, stopState := ts
          history := RingBuffer.make env.params.historyLength.toNat
          stats := Statistics.make collectStats (env.clock 0)
          best := env.init, curr := env.init, costEval := ce, reads := 2, events := [.onStart] }

/-- The restart at the beginning of an iteration (`IteratedLocalSearch.py` 224-233). -/
def restart (env : IlsEnv σ τ) (s : IlsState σ τ) : IlsState σ τ :=
  let s := { s with iters := s.iters + 1 }
  if (s.itersNoImprovement : Int) = env.params.numItersNoImprovement then
    { s with
      history := s.history.clear
      curr := s.best
      itersNoImprovement := 0
      events := s.events ++ [.onRestart s.best] }
  else s

/-- The new best solution and the candidate (`IteratedLocalSearch.py` 239-254). -/
def updateBest (env : IlsEnv σ τ) (s : IlsState σ τ) (cand : Solution) : IlsState σ τ × Solution :=
  let s := { s with itersNoImprovement := s.itersNoImprovement + 1 }
  if s.costEval.cost cand < s.costEval.cost s.best then
    let s := { s with best := cand, itersNoImprovement := 0 }
    let (s, cand) :=
      if env.params.exhaustiveOnBest then
        let (ss, cand) := env.search s.searchState cand s.costEval true
        let s := { s with searchState := ss }
        if cand.isFeasible then ({ s with best := cand }, cand) else (s, cand)
      else (s, cand)
    ({ s with events := s.events ++ [.onBest s.best] }, cand)
  else (s, cand)

/-- Late acceptance hill climbing (`IteratedLocalSearch.py` 256-278). -/
def accept (env : IlsEnv σ τ) (s : IlsState σ τ) (cand : Solution) : IlsState σ τ :=
  let candCost := s.costEval.penalisedCost cand
  let currCost := s.costEval.penalisedCost s.curr
  let late := s.history.peek
  let lateCost := match late with
    | some l => s.costEval.penalisedCost l
    | none => s.costEval.penalisedCost env.init
  let (curr, currCost) :=
    if candCost < lateCost ∨ candCost < currCost then (cand, candCost) else (s.curr, currCost)
  let history :=
    if currCost < lateCost ∨ late = none then s.history.append curr else s.history.skip
  { s with curr, history }

/-- One iteration of the loop (`IteratedLocalSearch.py` 224-282). -/
def iteration (env : IlsEnv σ τ) (s : IlsState σ τ) : Except Error (IlsState σ τ) :=
  let s := restart env s
  match s.pm.costEvaluator env.R with
  | .error e => .error e
  | .ok ce =>
    let s := { s with costEval := ce }
    let (ss, cand) := env.search s.searchState s.curr s.costEval false
    let s := { s with searchState := ss }
    match s.pm.register env.R cand with
    | .error e => .error e
    | .ok pm =>
      let s := { s with pm }
      let (s, cand) := updateBest env s cand
      let s := accept env s cand
      .ok { s with
        stats := s.stats.collect s.curr cand s.best s.costEval (env.clock s.reads)
        reads := if s.stats.collectStats then s.reads + 1 else s.reads
        events := s.events ++ [.onIteration s.curr cand s.best s.costEval] }

/-- The loop (`IteratedLocalSearch.py` 223-282), cut off after `fuel` iterations; the flag says whether
the stopping criterion has ended it. -/
def loop (env : IlsEnv σ τ) : Nat → IlsState σ τ → Except Error (IlsState σ τ × Bool)
  | 0, s => .ok (s, false)
  | fuel + 1, s =>
    let (ts, ans) := env.stop s.stopState (s.costEval.cost s.best)
    let s := { s with stopState := ts }
    if ans then .ok (s, true)
    else
      match iteration env s with
      | .error e => .error e
      | .ok s' => loop env fuel s'

/-- After the loop (`IteratedLocalSearch.py` 284-290). -/
def finish (env : IlsEnv σ τ) (s : IlsState σ τ) : Except Error Result :=
  Result.make s.best s.stats s.iters (env.clock s.reads - env.clock 1)

/-- `run` (`IteratedLocalSearch.py` 168-290); `none` if it has not finished after `fuel - 1` iterations. -/
def run (env : IlsEnv σ τ) (pm : PenaltyManager) (ss : σ) (ts : τ) (collectStats : Bool) (fuel : Nat) :
    Except Error (Option Result) :=
  match start env pm ss ts collectStats with
  | .error e => .error e
  | .ok s =>
    match loop env fuel s with
    | .error e => .error e
    | .ok (_, false) => .ok none
    | .ok (s', true) =>
      match finish env s' with
      | .error e => .error e
      | .ok res => .ok (some res)

end Ils
end PyVRP
