import Verif.Model.LocalSearch
import Verif.Model.Neighbourhood
import Verif.Model.Ils
/-!
# `pyvrp/solve.py`, and the method `supports` of the operators

Reading parameters from a file, and displaying progress are not modelled.
-/
namespace PyVRP

/-! ## `supports` -/

/-- Some vehicle type may reload (`RelocateWithDepot.cpp` 197-205, `RemoveAdjacentDepot.cpp` 70-78). -/
def ProblemData.mayReload (data : ProblemData) : Bool :=
  data.vehicleTypes.any (fun v => !v.reloadDepots.isEmpty && v.maxReloads != 0)

/-- Some client is optional (`InsertOptionalClient.cpp` 61-72, `RemoveOptionalClient.cpp` 49-60). -/
def ProblemData.hasOptionalClient (data : ProblemData) : Bool :=
  data.groups.any (fun g => !g.required)
    || data.clients.any (fun c => !c.required && c.group.isNone)

/-- Some shipment is optional (`InsertOptionalShipment.cpp` 75-82, `RemoveOptionalShipment.cpp` 60-67,
`ReplaceOptionalShipment.cpp` 86-93). -/
def ProblemData.hasOptionalShipment (data : ProblemData) : Bool :=
  data.shipments.any (fun s => !s.required)

/-- Some group is mutually exclusive (`RelocateAlternative.cpp` 156-163, `ReplaceGroup.cpp` 68-75). -/
def ProblemData.hasExclusiveGroup (data : ProblemData) : Bool :=
  data.groups.any (fun g => g.mutuallyExclusive)

/-- `supports(data)` of the unary operators (`RemoveAdjacentDepot.cpp` 70-78, `RemoveOptionalClient.cpp`
49-60, `ReplaceGroup.cpp` 68-75, `RemoveOptionalShipment.cpp` 60-67, `RelocatePickup.cpp` 69-72,
`RelocateDelivery.cpp` 70-73). -/
def UnaryOp.supports (op : UnaryOp) (data : ProblemData) : Bool :=
  match op with
  | .removeAdjacentDepot => data.mayReload
  | .removeOptionalClient => data.hasOptionalClient
  | .replaceGroup => data.hasExclusiveGroup
  | .removeOptionalShipment => data.hasOptionalShipment
  | .relocatePickup => decide (data.numShipments > 0)
  | .relocateDelivery => decide (data.numShipments > 0)

/-- `supports(data)` of the binary operators (`Relocate.h` 184-192, `Swap.h` 186-194, `SwapTails.cpp`
128-134, `RelocateWithDepot.cpp` 197-205, `RelocateAlternative.cpp` 156-163, `InsertOptionalClient.cpp`
61-72, `ReplaceOptionalClient.cpp` 48-55, `InsertOptionalShipment.cpp` 75-82,
`ReplaceOptionalShipment.cpp` 86-93, `RelocateShipment.cpp` 112-117). -/
def BinaryOp.supports (op : BinaryOp) (data : ProblemData) : Bool :=
  match op with
  | .relocate n => !(data.numClients == 0 && decide (data.numShipments > 0) && n % 2 == 1)
  | .swap n m =>
    !(data.numClients == 0 && decide (data.numShipments > 0) && (n % 2 == 1 || m % 2 == 1))
  | .swapTails => decide (data.numVehicles > 1) && decide (data.numClients > 0)
  | .relocateWithDepot => data.mayReload
  | .relocateAlternative => data.hasExclusiveGroup
  | .insertOptionalClient => data.hasOptionalClient
  | .replaceOptionalClient => data.clients.any (fun c => !c.required && c.group.isNone)
  | .insertOptionalShipment => data.hasOptionalShipment
  | .replaceOptionalShipment => data.hasOptionalShipment
  | .relocateShipment => decide (data.numShipments > 0) && decide (data.numVehicles > 1)

/-- A type of operator. -/
inductive Operator where
  | unary (op : UnaryOp)
  | binary (op : BinaryOp)
deriving DecidableEq, Repr

/-- `op.supports(data)`. -/
def Operator.supports (op : Operator) (data : ProblemData) : Bool :=
  match op with
  | .unary op => op.supports data
  | .binary op => op.supports data

/-- `OPERATORS` (`search/__init__.py` 35-55). -/
def defaultOperators : List Operator :=
  [.binary (.relocate 1), .binary (.relocate 2), .binary (.swap 1 1), .binary (.swap 2 1),
    .binary (.swap 2 2), .binary .swapTails, .binary .relocateAlternative, .unary .relocatePickup,
    .unary .relocateDelivery, .binary .relocateWithDepot, .unary .removeAdjacentDepot,
    .unary .removeOptionalClient, .binary .insertOptionalClient, .binary .replaceOptionalClient,
    .unary .removeOptionalShipment, .binary .insertOptionalShipment, .binary .replaceOptionalShipment,
    .unary .replaceGroup, .binary .relocateShipment]

/-- `add_operator(op)` (`search/LocalSearch.py` 48-58). -/
def LocalSearch.add (ls : LocalSearch) : Operator → LocalSearch
  | .unary op => ls.addUnary op
  | .binary op => ls.addBinary op

/-! ## `solve` -/

/-- `SolveParams` (`solve.py` 32-63), without the display interval. -/
structure SolveParams where
  ils : IlsParams := {}
  penalty : PenaltyParams := {}
  neighbourhood : NeighbourhoodParams := {}
  operators : List Operator := defaultOperators
  perturbation : PerturbationParams := {}

namespace Solve

/-- Why the search method has not returned: it raised, or it needs more rounds than it was given. -/
inductive Failure where
  | raised (e : Error)
  | unfinished

variable {σ τ : Type} (next : σ → Nat × σ)

/-- The local search and its random number generator as the search method of the algorithm. After a
failure nothing it returns matters, since the failure is the outcome of `solve` then. -/
def searchMethod (data : ProblemData) (rounds : Nat) (st : Except Failure (LocalSearch × σ))
    (sol : Solution) (ce : CostEvaluator) (exhaustive : Bool) :
    Except Failure (LocalSearch × σ) × Solution :=
  match st with
  | .error f => (.error f, sol)
  | .ok (ls, rng) =>
    match ls.call next data ce rng sol exhaustive rounds with
    | .error e => (.error (.raised e), sol)
    | .ok none => (.error .unfinished, sol)
    | .ok (some (sol', ls', rng')) => (.ok (ls', rng'), sol')

/-- The loop over operators (`solve.py` 160-162). -/
def addOperators (data : ProblemData) (ops : List Operator) (ls : LocalSearch) : LocalSearch :=
  ops.foldl (fun ls op => if op.supports data then ls.add op else ls) ls

/-- The local search (`solve.py` 155-162). -/
def makeSearch (R : Rounding) (data : ProblemData) (params : SolveParams) : Except Error LocalSearch :=
  match LocalSearch.make data (Neighbourhood.computeNeighbours R.rnd data params.neighbourhood)
      (PerturbationManager.new params.perturbation) with
  | .error e => .error e
  | .ok ls => .ok (addOperators data params.operators ls)

/-- The penalty manager (`solve.py` 164-165). -/
def makePenalties (R : Rounding) (data : ProblemData) (params : SolveParams) : PenaltyManager :=
  .make (params.penalty.midpointPenalties R data) params.penalty

/-- The initial solution (`solve.py` 167-172). -/
def initialSolution (R : Rounding) (data : ProblemData) (pm : PenaltyManager) (ls : LocalSearch) (rng : σ)
    (initial : Option Solution) (rounds : Nat) : Except Error (Option (Solution × LocalSearch × σ)) :=
  match initial with
  | some init => .ok (some (init, ls, rng))
  | none =>
    match Solution.makeRandom next data rng with
    | .error e => .error e
    | .ok random =>
      match pm.maxCostEvaluator R with
      | .error e => .error e
      | .ok ce => ls.call next data ce (Solution.randomPlan next data rng).2.2 random true rounds

/-- What the algorithm is given (`solve.py` 174). -/
def env (R : Rounding) (data : ProblemData) (params : SolveParams) (stop : τ → Int → τ × Bool)
    (clock : Nat → Int) (init : Solution) (rounds : Nat) :
    IlsEnv (Except Failure (LocalSearch × σ)) τ :=
  { R, params := params.ils, search := searchMethod next data rounds, stop, init, clock }

/-- `algo.run(...)` (`solve.py` 174-175). -/
def runAlgorithm (env : IlsEnv (Except Failure (LocalSearch × σ)) τ) (pm : PenaltyManager)
    (ls : LocalSearch) (rng : σ) (ts : τ) (collectStats : Bool) (fuel : Nat) : Except Error (Option Result) :=
  match Ils.start env pm (.ok (ls, rng)) ts collectStats with
  | .error e => .error e
  | .ok s =>
    match Ils.loop env fuel s with
    | .error e => .error e
    | .ok (s, done) =>
      match s.searchState with
      | .error (.raised e) => .error e
      | .error .unfinished => .ok none
      | .ok _ =>
        if done then
          match Ils.finish env s with
          | .error e => .error e
          | .ok res => .ok (some res)
        else .ok none

/-- `solve` (`solve.py` 118-175), for an arbitrary random number generator and stopping criterion. The
result is `none` if it has not finished after `fuel - 1` iterations, or if a call of the local search
needs more than `rounds` rounds. -/
def solve (R : Rounding) (data : ProblemData) (params : SolveParams) (stop : τ → Int → τ × Bool) (ts : τ)
    (clock : Nat → Int) (rng : σ) (collectStats : Bool) (initial : Option Solution) (fuel rounds : Nat) :
    Except Error (Option Result) :=
  match makeSearch R data params with
  | .error e => .error e
  | .ok ls =>
    let pm := makePenalties R data params
    match initialSolution next R data pm ls rng initial rounds with
    | .error e => .error e
    | .ok none => .ok none
    | .ok (some (init, ls, rng)) =>
      runAlgorithm (env next R data params stop clock init rounds) pm ls rng ts collectStats fuel

/-- `solve(data, stop, seed, ...)` (`solve.py` 118-175). -/
def solveSeed (R : Rounding) (data : ProblemData) (params : SolveParams) (stop : Criterion)
    (clock : Nat → Int) (seed : BitVec 32) (collectStats : Bool) (initial : Option Solution)
    (fuel rounds : Nat) : Except Error (Option Result) :=
  solve Rng.next R data params Criterion.call stop clock (Rng.ofSeed seed) collectStats initial fuel rounds

end Solve
end PyVRP
