import Verif.Model.Int64Run
import Verif.Model.Solve
/-!
# `solve` on 64-bit integers

As in `Model/Int64Run.lean`, the result `none` means that a signed integer overflows, that an array is read
outside of its bounds, or that an assertion fails in the C++ code. Numbers that only occur in Python are
unbounded there, such as counters of iterations and sums of violations. Neighbourhoods are computed before,
in floating point, and only order clients, see C40.
-/
namespace PyVRP.Checked64
open Checked

/-! ## The call of the local search, with the solution that it returns -/

section
variable (data : ProblemData) (ce : CostEvaluator)

/-- The loop of `unload` (`search/Solution.cpp` 219-232). -/
def unloadRoutes : List SRoute → Option (Except Error (List Route))
  | [] => some (.ok [])
  | r :: rest =>
    if r.empty then unloadRoutes rest
    else do
      match ← I64.makeRoute data ((r.nodes.map (·.activity)).tail.dropLast) r.vehicleType with
      | .error e => return .error e
      | .ok route =>
        match ← unloadRoutes rest with
        | .error e => return .error e
        | .ok routes => return .ok (route :: routes)

/-- `unload` (`search/Solution.cpp` 214-235). -/
def unloadSolution (s : SSol) : Option (Except Error Solution) := do
  let _ ← s.routes.mapM (fun r => do
    let _ ← empty data r
    ensure (2 ≤ r.size))
  match ← unloadRoutes data s.routes with
  | .error e => return .error e
  | .ok routes => I64.makeSolution data routes

/-- `operator()` (`LocalSearch.cpp` 17-52), for at most `fuel` rounds of the search. -/
def runAll (ls : LocalSearch) (solution : Solution) (exhaustive : Bool) (fuel : Nat) :
    Option (Except Error (Option (Solution × LocalSearch))) := do
  match ← prepare data ce ls solution exhaustive with
  | .error e => return .error e
  | .ok st =>
    match ← search data ce ls.unaryOps fuel st with
    | .error e => return .error e
    | .ok none => return .ok none
    | .ok (some st) =>
      match ← unloadSolution data st.sol with
      | .error e => return .error e
      | .ok solution => return .ok (some (solution, { ls with space := st.space, sol := st.sol }))

/-- `LocalSearch.__call__` (`LocalSearch.py` 94-121), for an arbitrary generator. -/
def call {σ : Type} (next : σ → Nat × σ) (ls : LocalSearch) (rng : σ) (solution : Solution)
    (exhaustive : Bool) (fuel : Nat) : Option (Except Error (Option (Solution × LocalSearch × σ))) := do
  let (ls, rng) := ls.shuffle next rng
  match ← runAll data ce ls solution exhaustive fuel with
  | .error e => return .error e
  | .ok none => return .ok none
  | .ok (some (solution, ls)) => return .ok (some (solution, ls, rng))

end

/-! ## Random solutions -/

/-- The routes of a random solution (`Solution.cpp` 238-241), see `Solution.buildRoutes`. -/
def buildRoutes (data : ProblemData) : List (List Activity × Nat) → Option (Except Error (List Route))
  | [] => some (.ok [])
  | (acts, v) :: rest => do
    match ← I64.makeRoute data acts v with
    | .error e => return .error e
    | .ok r =>
      match ← buildRoutes data rest with
      | .error e => return .error e
      | .ok rs => return .ok (r :: rs)

/-- `Solution::Solution(data, rng)` (`Solution.cpp` 157-244). -/
def makeRandom {σ : Type} (next : σ → Nat × σ) (data : ProblemData) (s : σ) :
    Option (Except Error Solution) := do
  let plan := Solution.randomPlan next data s
  match ← buildRoutes data (plan.1.zip plan.2.1) with
  | .error e => return .error e
  | .ok rs => I64.makeSolution data rs

/-! ## Iterated local search -/

/-- `collect` (`Statistics.py` 65-103). -/
def collect (s : Statistics) (current candidate best : Solution) (ce : CostEvaluator) (now : Int) :
    Option Statistics := do
  if !s.collectStats then return s
  else
    let currentCost ← I64.penalisedCost ce current
    let candidateCost ← I64.penalisedCost ce candidate
    let bestCost ← I64.penalisedCost ce best
    return { s with
      clock := now
      runtimes := s.runtimes ++ [now - s.clock]
      numIterations := s.numIterations + 1
      data := s.data ++ [
        { currentCost := currentCost, currentFeas := current.isFeasible
          candidateCost := candidateCost, candidateFeas := candidate.isFeasible
          bestCost := bestCost, bestFeas := best.isFeasible }] }

/-- A search method on 64-bit integers. -/
abbrev Method (σ : Type) := σ → Solution → CostEvaluator → Bool → Option (σ × Solution)

section
variable {σ τ : Type} (search : Method σ) (env : IlsEnv σ τ)

/-- The new best solution and the candidate (`IteratedLocalSearch.py` 239-254). Here and below `search`
replaces the search method of the environment. -/
def updateBest (s : IlsState σ τ) (cand : Solution) : Option (IlsState σ τ × Solution) := do
  let s := { s with itersNoImprovement := s.itersNoImprovement + 1 }
  if (← I64.cost s.costEval cand) < (← I64.cost s.costEval s.best) then
    let s := { s with best := cand, itersNoImprovement := 0 }
    if env.params.exhaustiveOnBest then
      let (ss, cand) ← search s.searchState cand s.costEval true
      let s := { s with searchState := ss }
      let s := if cand.isFeasible then { s with best := cand } else s
      return ({ s with events := s.events ++ [.onBest s.best] }, cand)
    else return ({ s with events := s.events ++ [.onBest s.best] }, cand)
  else return (s, cand)

/-- Late acceptance hill climbing (`IteratedLocalSearch.py` 256-278). -/
def accept (s : IlsState σ τ) (cand : Solution) : Option (IlsState σ τ) := do
  let candCost ← I64.penalisedCost s.costEval cand
  let currCost ← I64.penalisedCost s.costEval s.curr
  let initCost ← I64.penalisedCost s.costEval env.init
  let late := s.history.peek
  let lateCost ← match late with
    | some l => I64.penalisedCost s.costEval l
    | none => pure initCost
  let (curr, currCost) :=
    if candCost < lateCost ∨ candCost < currCost then (cand, candCost) else (s.curr, currCost)
  let history :=
    if currCost < lateCost ∨ late = none then s.history.append curr else s.history.skip
  return { s with curr, history }

/-- One iteration of the loop (`IteratedLocalSearch.py` 224-282). -/
def iteration (s : IlsState σ τ) : Option (Except Error (IlsState σ τ)) := do
  let s := Ils.restart env s
  match s.pm.costEvaluator env.R with
  | .error e => return .error e
  | .ok ce =>
    let s := { s with costEval := ce }
    let (ss, cand) ← search s.searchState s.curr s.costEval false
    let s := { s with searchState := ss }
    match s.pm.register env.R cand with
    | .error e => return .error e
    | .ok pm =>
      let s := { s with pm }
      let (s, cand) ← updateBest search env s cand
      let s ← accept env s cand
      let stats ← collect s.stats s.curr cand s.best s.costEval (env.clock s.reads)
      return .ok { s with
        stats := stats
        reads := if s.stats.collectStats then s.reads + 1 else s.reads
        events := s.events ++ [.onIteration s.curr cand s.best s.costEval] }

/-- The loop (`IteratedLocalSearch.py` 223-282), cut off after `fuel` iterations. -/
def loop : Nat → IlsState σ τ → Option (Except Error (IlsState σ τ × Bool))
  | 0, s => some (.ok (s, false))
  | fuel + 1, s => do
    let (ts, ans) := env.stop s.stopState (← I64.cost s.costEval s.best)
    let s := { s with stopState := ts }
    if ans then return .ok (s, true)
    else
      match ← iteration search env s with
      | .error e => return .error e
      | .ok s' => loop fuel s'

end

/-! ## `solve` -/

section
variable {σ τ : Type} (next : σ → Nat × σ) (data : ProblemData)

/-- The local search as the search method, see `Solve.searchMethod`. -/
def searchMethod (rounds : Nat) : Method (Except Solve.Failure (LocalSearch × σ)) :=
  fun st sol ce exhaustive => do
    match st with
    | .error f => return (.error f, sol)
    | .ok (ls, rng) =>
      match ← call data ce next ls rng sol exhaustive rounds with
      | .error e => return (.error (.raised e), sol)
      | .ok none => return (.error .unfinished, sol)
      | .ok (some (sol', ls', rng')) => return (.ok (ls', rng'), sol')

/-- The initial solution (`solve.py` 167-172). -/
def initialSolution (R : Rounding) (pm : PenaltyManager) (ls : LocalSearch) (rng : σ)
    (initial : Option Solution) (rounds : Nat) :
    Option (Except Error (Option (Solution × LocalSearch × σ))) := do
  match initial with
  | some init => return .ok (some (init, ls, rng))
  | none =>
    match ← makeRandom next data rng with
    | .error e => return .error e
    | .ok random =>
      match pm.maxCostEvaluator R with
      | .error e => return .error e
      | .ok ce => call data ce next ls (Solution.randomPlan next data rng).2.2 random true rounds

/-- `algo.run(...)` (`solve.py` 174-175), see `Solve.runAlgorithm`. -/
def runAlgorithm (rounds : Nat) (env : IlsEnv (Except Solve.Failure (LocalSearch × σ)) τ)
    (pm : PenaltyManager) (ls : LocalSearch) (rng : σ) (ts : τ) (collectStats : Bool) (fuel : Nat) :
    Option (Except Error (Option Result)) := do
  match Ils.start env pm (.ok (ls, rng)) ts collectStats with
  | .error e => return .error e
  | .ok s =>
    match ← loop (searchMethod next data rounds) env fuel s with
    | .error e => return .error e
    | .ok (s, done) =>
      match s.searchState with
      | .error (.raised e) => return .error e
      | .error .unfinished => return .ok none
      | .ok _ =>
        if done then
          match Ils.finish env s with
          | .error e => return .error e
          | .ok res => return .ok (some res)
        else return .ok none

/-- `solve` (`solve.py` 118-175), see `Solve.solve`. -/
def solve (R : Rounding) (params : SolveParams) (stop : τ → Int → τ × Bool) (ts : τ)
    (clock : Nat → Int) (rng : σ) (collectStats : Bool) (initial : Option Solution) (fuel rounds : Nat) :
    Option (Except Error (Option Result)) := do
  match Solve.makeSearch R data params with
  | .error e => return .error e
  | .ok ls =>
    let pm := Solve.makePenalties R data params
    match ← initialSolution next data R pm ls rng initial rounds with
    | .error e => return .error e
    | .ok none => return .ok none
    | .ok (some (init, ls, rng)) =>
      runAlgorithm next data rounds (Solve.env next R data params stop clock init rounds) pm ls rng ts
        collectStats fuel

end

/-- `Result.cost` (`Result.py` 43-52), see `Result.cost`. -/
def resultCost (r : Result) : Option (Option Int) := do
  if !r.best.isFeasible then return none
  else
    let numLoadDims := r.best.excessLoad.length
    return some (← I64.cost ⟨List.replicate numLoadDims (fun _ => 0), fun _ => 0, fun _ => 0⟩ r.best)

end PyVRP.Checked64
