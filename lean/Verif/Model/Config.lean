import Verif.Model.Solve
/-!
# Parameters from a file (`SolveParams.from_file`, `solve.py` 102-121)

Parsing of TOML is not modelled: a file is what `tomllib.load` returns. Python does not check the types of
the arguments of the parameter classes that are dataclasses; here a value of another type than the parameter's
raises, as it does for the other classes. Numbers are rational: infinity and NaN are left out. The `callbacks` of the algorithm cannot be given in a file here. All
kinds of errors raised are `invalidArgument`.
-/
namespace PyVRP.Config

/-- A value in a file. -/
inductive Value where
  | int (n : Int)
  | float (x : Rat)
  | bool (b : Bool)
deriving DecidableEq, Repr

/-- A section of a file: its keys and values. -/
abbrev Table := List (String × Value)

/-- An entry at the top level of a file. -/
inductive Entry where
  | table (t : Table)
  | strings (l : List String)
  | value (v : Value)

/-- A parsed file. -/
abbrev File := List (String × Entry)

/-- A value as an argument of type `int`. -/
def Value.asInt : Value → Option Int
  | .int n => some n
  | _ => none

/-- A value as an argument of type `float`. -/
def Value.asFloat : Value → Option Rat
  | .int n => some n
  | .float x => some x
  | .bool _ => none

/-- A value as an argument of type `bool`. -/
def Value.asBool : Value → Option Bool
  | .bool b => some b
  | _ => none

/-- A value as an argument of type `size_t` (`bindings.cpp` 540, 847). -/
def Value.asSize : Value → Option Nat
  | .int n => if 0 ≤ n ∧ n ≤ SIZE_MAX then some n.toNat else none
  | _ => none

/-- The keyword argument `key` in a call `f(**table)`. -/
def argument {α : Type} (conv : Value → Option α) (table : Table) (key : String) (default : α) :
    Except Error α :=
  match table.lookup key with
  | none => .ok default
  | some v =>
    match conv v with
    | none => .error (.invalidArgument "incompatible argument")
    | some x => .ok x

/-- A call `f(**table)` raises if the table has other keys than the parameters of `f`. -/
def expect (keys : List String) (table : Table) : Except Error Unit :=
  checked (throwIf (table.any (fun p => !keys.contains p.1) = true)
    (.invalidArgument "unexpected keyword argument")) ()

/-- `IteratedLocalSearchParams(**table)` (`IteratedLocalSearch.py` 70-104). -/
def ilsParams (t : Table) : Except Error IlsParams := do
  expect ["num_iters_no_improvement", "history_length", "exhaustive_on_best"] t
  let numItersNoImprovement ← argument Value.asInt t "num_iters_no_improvement" 150000
  let historyLength ← argument Value.asInt t "history_length" 300
  let exhaustiveOnBest ← argument Value.asBool t "exhaustive_on_best" true
  let p : IlsParams := { numItersNoImprovement, historyLength, exhaustiveOnBest }
  checked p.check p

/-- `PenaltyParams(**table)` (`PenaltyManager.py` 13-111). -/
def penaltyParams (t : Table) : Except Error PenaltyParams := do
  expect ["solutions_between_updates", "penalty_increase", "penalty_decrease", "target_feasible",
    "feas_tolerance", "min_penalty", "max_penalty"] t
  let solutionsBetweenUpdates ← argument Value.asInt t "solutions_between_updates" 500
  let penaltyIncrease ← argument Value.asFloat t "penalty_increase" (3 / 2)
  let penaltyDecrease ← argument Value.asFloat t "penalty_decrease" (9 / 10)
  let targetFeasible ← argument Value.asFloat t "target_feasible" (65 / 100)
  let feasTolerance ← argument Value.asFloat t "feas_tolerance" (5 / 100)
  let minPenalty ← argument Value.asFloat t "min_penalty" (1 / 10)
  let maxPenalty ← argument Value.asFloat t "max_penalty" 100000
  let p : PenaltyParams :=
    { solutionsBetweenUpdates, penaltyIncrease, penaltyDecrease, targetFeasible, feasTolerance,
      minPenalty, maxPenalty }
  checked p.check p

/-- `NeighbourhoodParams(**table)` (`bindings.cpp` 845-850). -/
def neighbourhoodParams (t : Table) : Except Error NeighbourhoodParams := do
  expect ["weight_wait_time", "num_neighbours", "symmetric_proximity"] t
  let weightWaitTime ← argument Value.asFloat t "weight_wait_time" (1 / 5)
  let numNeighbours ← argument Value.asSize t "num_neighbours" 50
  let symmetricProximity ← argument Value.asBool t "symmetric_proximity" true
  NeighbourhoodParams.make { weightWaitTime, numNeighbours, symmetricProximity }

/-- `PerturbationParams(**table)` (`bindings.cpp` 538-542). -/
def perturbationParams (t : Table) : Except Error PerturbationParams := do
  expect ["min_perturbations", "max_perturbations"] t
  let minPerturbations ← argument Value.asSize t "min_perturbations" 1
  let maxPerturbations ← argument Value.asSize t "max_perturbations" 25
  PerturbationParams.make { minPerturbations, maxPerturbations }

/-- The operators in `pyvrp.search` (`search/__init__.py` 6-31). -/
def operatorNames : List (String × Operator) :=
  [("InsertOptionalClient", .binary .insertOptionalClient),
   ("InsertOptionalShipment", .binary .insertOptionalShipment),
   ("Relocate1", .binary (.relocate 1)), ("Relocate2", .binary (.relocate 2)),
   ("Relocate3", .binary (.relocate 3)), ("RelocateAlternative", .binary .relocateAlternative),
   ("RelocateDelivery", .unary .relocateDelivery), ("RelocatePickup", .unary .relocatePickup),
   ("RelocateShipment", .binary .relocateShipment), ("RelocateWithDepot", .binary .relocateWithDepot),
   ("RemoveAdjacentDepot", .unary .removeAdjacentDepot),
   ("RemoveOptionalClient", .unary .removeOptionalClient),
   ("RemoveOptionalShipment", .unary .removeOptionalShipment), ("ReplaceGroup", .unary .replaceGroup),
   ("ReplaceOptionalClient", .binary .replaceOptionalClient),
   ("ReplaceOptionalShipment", .binary .replaceOptionalShipment), ("Swap11", .binary (.swap 1 1)),
   ("Swap21", .binary (.swap 2 1)), ("Swap22", .binary (.swap 2 2)), ("Swap31", .binary (.swap 3 1)),
   ("Swap32", .binary (.swap 3 2)), ("Swap33", .binary (.swap 3 3)), ("SwapTails", .binary .swapTails)]

/-- `getattr(pyvrp.search, op)` (`solve.py` 112). Names of other things than operators in this module
are not modelled: they raise here, and later in the code. -/
def operatorNamed (name : String) : Except Error Operator :=
  match operatorNames.lookup name with
  | none => .error (.invalidArgument "no such attribute")
  | some op => .ok op

/-- The list of operators (`solve.py` 112). -/
def operatorsNamed : List String → Except Error (List Operator)
  | [] => .ok []
  | name :: names => do
    let op ← operatorNamed name
    let ops ← operatorsNamed names
    .ok (op :: ops)

/-- `data["operators"]`, if given (`solve.py` 110-112). -/
def operators (file : File) : Except Error (List Operator) :=
  match file.lookup "operators" with
  | none => .ok defaultOperators
  | some (.strings names) => operatorsNamed names
  | some _ => .error (.invalidArgument "attribute name must be string")

/-- `data.get(name, {})` as the argument of `**` (`solve.py` 115-120). -/
def section_ (file : File) (name : String) : Except Error Table :=
  match file.lookup name with
  | none => .ok []
  | some (.table t) => .ok t
  | some _ => .error (.invalidArgument "argument after ** must be a mapping")

/-- `data.get("display_interval", 5.0)` (`solve.py` 119). -/
def displayInterval (file : File) : Except Error Rat :=
  match file.lookup "display_interval" with
  | none => .ok 5
  | some (.value v) =>
    match v.asFloat with
    | none => .error (.invalidArgument "incompatible argument")
    | some x => .ok x
  | some _ => .error (.invalidArgument "incompatible argument")

/-- `SolveParams.from_file` (`solve.py` 102-121): the parameters, and the display interval. -/
def fromFile (file : File) : Except Error (SolveParams × Rat) := do
  let operators ← operators file
  let ils ← ilsParams (← section_ file "ils")
  let penalty ← penaltyParams (← section_ file "penalty")
  let neighbourhood ← neighbourhoodParams (← section_ file "neighbourhood")
  let interval ← displayInterval file
  let perturbation ← perturbationParams (← section_ file "perturbation")
  .ok ({ ils, penalty, neighbourhood, operators, perturbation }, interval)

end PyVRP.Config
