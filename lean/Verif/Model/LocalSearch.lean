import Verif.Model.Operators
import Verif.Model.Perturbation
/-!
# `pyvrp/cpp/search/LocalSearch.cpp` and `pyvrp/search/LocalSearch.py`

Null pointers are errors here. The counters are of types `int` and `size_t` in the code, and are
unbounded here. Logging is not modelled, and statistics are in `SearchStatistics`. The code's operators are objects, which might
be added twice to a local search; here each occurrence has its own cache.
-/
namespace PyVRP

/-- What changes during a call (`LocalSearch.h` 23-41): the solution, the search space, the caches of
the binary operators, and the counters. -/
structure LState where
  sol : SSol
  space : SearchSpace
  binary : List (BinaryOp × Cache)
  lastTest : List Int
  lastUpdate : List Int
  numUpdates : Nat
  completed : Bool

namespace LState

variable (data : ProblemData) (ce : CostEvaluator)

/-- The lambda of `update` (`LocalSearch.cpp` 343-356), for the route at `idx`. -/
def updateRoute (st : LState) (idx : Nat) : LState :=
  let sol := st.sol.updateRoute data idx
  let sol := if (sol.route idx).empty then sol.clearRoute data idx else sol
  { st with
    sol := sol
    lastUpdate := st.lastUpdate.set idx st.numUpdates
    binary := st.binary.map (fun p => (p.1, p.1.update data (sol.route idx) p.2)) }

/-- `update(U, V)` (`LocalSearch.cpp` 337-363). -/
def update (st : LState) (u : Option Nat) (v : Nat) : LState :=
  let st := { st with numUpdates := st.numUpdates + 1, completed := false }
  let st := match u with
    | some u => updateRoute data st u
    | none => st
  if u ≠ some v then updateRoute data st v else st

/-- `searchSpace_.markPromising(node)`, for a node in a route. -/
def mark (st : LState) (node : Nat × Nat) : LState :=
  { st with space := st.space.markPromisingNode (st.sol.route node.1) node.2 }

/-- `if (node->route()) searchSpace_.markPromising(node)`. -/
def markIf (st : LState) : Option (Nat × Nat) → LState
  | some node => mark st node
  | none => st

/-- The loop of `applyUnaryOps` up to the first operator to be applied (`LocalSearch.cpp` 122-125). -/
def findUnary (sol : SSol) (u : Activity) : List UnaryOp → Option (UnaryOp × Verdict)
  | [] => none
  | op :: rest =>
    let verdict := op.evaluate data ce sol u
    if verdict.apply then some (op, verdict) else findUnary sol u rest

/-- `applyUnaryOps` (`LocalSearch.cpp` 119-163): the new state, and whether a move was applied. -/
def applyUnaryOps (ops : List UnaryOp) (st : LState) (u : Activity) : Except Error (LState × Bool) :=
  match findUnary data ce st.sol u ops with
  | none => .ok (st, false)
  | some (op, verdict) =>
    let node := st.sol.place u
    let st := markIf st node
    match op.apply data st.sol u verdict.move with
    | .error e => .error e
    | .ok sol =>
      let st := { st with sol := sol }
      match node with
      | some (idx, _) => .ok (update data st (some idx) idx, true)
      | none =>
        match st.sol.place u with
        | none => .error (.runtimeError "")  -- null pointer: `U` has not been inserted
        | some node => .ok (update data (mark st node) (some node.1) node.1, true)

/-- The loop of `applyBinaryOps` up to the first operator to be applied (`LocalSearch.cpp` 169-172): the
operators with their new caches, and the operator to be applied. -/
def findBinary (sol : SSol) (u : Activity) (v : NodeRef) :
    List (BinaryOp × Cache) → List (BinaryOp × Cache) × Option (BinaryOp × Verdict)
  | [] => ([], none)
  | (op, cache) :: rest =>
    let (verdict, cache) := op.evaluate data ce sol cache u v
    if verdict.apply then ((op, cache) :: rest, some (op, verdict))
    else
      let (rest, found) := findBinary sol u v rest
      ((op, cache) :: rest, found)

/-- `applyBinaryOps` (`LocalSearch.cpp` 165-209). -/
def applyBinaryOps (st : LState) (u : Activity) (v : NodeRef) : Except Error (LState × Bool) :=
  let (binary, found) := findBinary data ce st.sol u v st.binary
  let st := { st with binary := binary }
  match found with
  | none => .ok (st, false)
  | some (op, verdict) =>
    let rU := st.sol.place u
    match st.sol.find v with
    | none => .error (.runtimeError "")  -- null pointer
    | some rV =>
      let st := mark (markIf st rU) rV
      match op.apply data st.sol u v verdict.move with
      | .error e => .error e
      | .ok sol => .ok (update data { st with sol := sol } (rU.map (·.1)) rV.1, true)

/-- `lastUpdate_[...]` of a node's route, 0 if it is in none (`LocalSearch.cpp` 90-93). -/
def updateOf (st : LState) : Option (Nat × Nat) → Int
  | some (idx, _) => st.lastUpdate.getD idx 0
  | none => 0

/-- The body of the loop over neighbours (`LocalSearch.cpp` 81-103). -/
def testNeighbour (lastTest : Int) (st : LState) (u v : Activity) : Except Error LState :=
  match st.sol.place v with
  | none => .ok st
  | some (idx, pos) =>
    if updateOf st (st.sol.place u) > lastTest || decide (updateOf st (some (idx, pos)) > lastTest) then
      match applyBinaryOps data ce st u (.task v) with
      | .error e => .error e
      | .ok (st, true) => .ok st
      | .ok (st, false) =>
        if ((st.sol.route idx).node (pos - 1)).isStartDepot then
          match applyBinaryOps data ce st u (.start idx) with
          | .error e => .error e
          | .ok (st, _) => .ok st
        else .ok st
    else .ok st

/-- The loop over neighbours (`LocalSearch.cpp` 81-103). -/
def testNeighbours (lastTest : Int) (u : Activity) (st : LState) : List Activity → Except Error LState
  | [] => .ok st
  | v :: rest =>
    match testNeighbour data ce lastTest st u v with
    | .error e => .error e
    | .ok st => testNeighbours lastTest u st rest

/-- `applyEmptyRouteMoves` (`LocalSearch.cpp` 211-228). -/
def applyEmptyRouteMoves (u : Activity) (st : LState) : List (Nat × Nat) → Except Error LState
  | [] => .ok st
  | (vehType, offset) :: rest =>
    match st.sol.firstEmpty data vehType offset with
    | none => applyEmptyRouteMoves u st rest
    | some idx =>
      match applyBinaryOps data ce st u (.start idx) with
      | .error e => .error e
      | .ok (st, true) => .ok st
      | .ok (st, false) => applyEmptyRouteMoves u st rest

/-- The index into `lastTest_` (`LocalSearch.cpp` 74). -/
def testIdx (u : Activity) : Nat := (if u.isClient then 0 else data.numClients) + u.idx

/-- The body of the loop over activities (`LocalSearch.cpp` 66-106). -/
def testActivity (ops : List UnaryOp) (st : LState) (u : Activity) : Except Error LState :=
  if !st.space.isPromising u then .ok st
  else
    let idx := testIdx data u
    let lastTest := st.lastTest.getD idx 0
    let st := { st with lastTest := st.lastTest.set idx st.numUpdates }
    match applyUnaryOps data ce ops st u with
    | .error e => .error e
    | .ok (st, _) =>
      match st.space.neighboursOf u with
      | .error e => .error e
      | .ok neighbours =>
        match testNeighbours data ce lastTest u st neighbours with
        | .error e => .error e
        | .ok st => applyEmptyRouteMoves data ce u st st.space.vehTypeOrder

/-- The loop over activities (`LocalSearch.cpp` 64-107). -/
def testAll (ops : List UnaryOp) (st : LState) : List Activity → Except Error LState
  | [] => .ok st
  | u :: rest =>
    match testActivity data ce ops st u with
    | .error e => .error e
    | .ok st => testAll ops st rest

/-- The outer loop of `search` (`LocalSearch.cpp` 58-107), for at most `fuel` rounds; the result is
`none` if that is not enough. -/
def searchLoop (ops : List UnaryOp) : Nat → LState → Except Error (Option LState)
  | 0, st => .ok (if st.completed then some st else none)
  | fuel + 1, st =>
    if st.completed then .ok (some st)
    else
      match testAll data ce ops { st with completed := true } st.space.activityOrder with
      | .error e => .error e
      | .ok st => searchLoop ops fuel st

/-- `search` (`LocalSearch.cpp` 54-108). -/
def search (ops : List UnaryOp) (fuel : Nat) (st : LState) : Except Error (Option LState) :=
  if ops.isEmpty && st.binary.isEmpty then .ok (some st)
  else searchLoop data ce ops fuel { st with completed := false }

/-! ## `ensureStructuralFeasibility` -/

/-- The number of a group's clients in the solution (`LocalSearch.cpp` 234-240). -/
def groupCounts (sol : SSol) : List Nat :=
  data.groups.map (fun g => g.clients.countP (fun c => (sol.owner ⟨.client, c⟩).isSome))

/-- `solution_.insert(&node, ..., true); update(...); markPromising(&node)` for a client
(`LocalSearch.cpp` 255-257, 269-271). -/
def insertClient (st : LState) (client : Nat) : Except Error LState :=
  match st.sol.insertClient data ce st.space client true with
  | .error e => .error e
  | .ok (sol, _) =>
    match sol.place ⟨.client, client⟩ with
    | none => .error (.runtimeError "")  -- null pointer
    | some (idx, _) =>
      let st := update data { st with sol := sol } (some idx) idx
      match st.sol.place ⟨.client, client⟩ with
      | none => .error (.runtimeError "")  -- null pointer
      | some node => .ok (mark st node)

/-- The same for a shipment (`LocalSearch.cpp` 297-302). -/
def insertShipment (st : LState) (shipment : Nat) : Except Error LState :=
  match st.sol.insertShipment data ce st.space shipment true with
  | .error e => .error e
  | .ok (sol, _) =>
    match sol.place ⟨.pickup, shipment⟩, sol.place ⟨.delivery, shipment⟩ with
    | some (idx, _), some (idx', _) =>
      let st := update data { st with sol := sol } (some idx) idx'
      match st.sol.place ⟨.pickup, shipment⟩, st.sol.place ⟨.delivery, shipment⟩ with
      | some node, some node' => .ok (mark (mark st node) node')
      | _, _ => .error (.runtimeError "")  -- null pointer
    | _, _ => .error (.runtimeError "")  -- null pointer

/-- The second part of the case for clients (`LocalSearch.cpp` 261-286): the group at `g`. -/
def repairGroup (st : LState) (counts : List Nat) (client g : Nat) : Except Error (LState × List Nat) :=
  if (data.group g).required && counts.getD g 0 == 0 then
    match insertClient data ce st client with
    | .error e => .error e
    | .ok st => .ok (st, counts.modify g (· + 1))
  else
    match st.sol.place ⟨.client, client⟩ with
    | none => .ok (st, counts)
    | some (idx, pos) =>
      if counts.getD g 0 > 1 then
        let st := mark st (idx, pos)
        .ok (update data { st with sol := st.sol.removeAt idx pos } (some idx) idx,
          counts.modify g (· - 1))
      else .ok (st, counts)

/-- The body of the loop over activities (`LocalSearch.cpp` 244-310). -/
def repair (st : LState) (counts : List Nat) (a : Activity) : Except Error (LState × List Nat) :=
  match a.type with
  | .client =>
    if (st.sol.place a).isNone && (data.client a.idx).required then
      match insertClient data ce st a.idx with
      | .error e => .error e
      | .ok st => .ok (st, counts)
    else
      match (data.client a.idx).group with
      | none => .ok (st, counts)
      | some g => repairGroup data ce st counts a.idx g
  | .pickup =>
    if (st.sol.place a).isNone && (data.shipment a.idx).required then
      match insertShipment data ce st a.idx with
      | .error e => .error e
      | .ok st => .ok (st, counts)
    else .ok (st, counts)
  | _ => .ok (st, counts)

/-- The loop over activities (`LocalSearch.cpp` 244-310). -/
def repairAll (st : LState) (counts : List Nat) : List Activity → Except Error (LState × List Nat)
  | [] => .ok (st, counts)
  | a :: rest =>
    match repair data ce st counts a with
    | .error e => .error e
    | .ok (st, counts) => repairAll st counts rest

/-- `ensureStructuralFeasibility` (`LocalSearch.cpp` 230-335). -/
def ensureStructuralFeasibility (st : LState) : Except Error LState :=
  match repairAll data ce st (groupCounts data st.sol) st.space.activityOrder with
  | .error e => .error e
  | .ok (st, _) => .ok st

end LState

/-- `LocalSearch` (`LocalSearch.h` 21-41). -/
structure LocalSearch where
  unaryOps : List UnaryOp := []
  binaryOps : List BinaryOp := []
  manager : PerturbationManager
  space : SearchSpace
  sol : SSol

namespace LocalSearch

/-- The constructor (`LocalSearch.cpp` 414-424). -/
def make (data : ProblemData) (neighbours : Neighbours) (manager : PerturbationManager) :
    Except Error LocalSearch :=
  match SearchSpace.make data neighbours with
  | .error e => .error e
  | .ok space => .ok { manager := manager, space := space, sol := SSol.new data }

/-- `addOperator` for a unary operator (`LocalSearch.cpp` 365-368). -/
def addUnary (ls : LocalSearch) (op : UnaryOp) : LocalSearch :=
  { ls with unaryOps := ls.unaryOps ++ [op] }

/-- `addOperator` for a binary operator (`LocalSearch.cpp` 370-373). -/
def addBinary (ls : LocalSearch) (op : BinaryOp) : LocalSearch :=
  { ls with binaryOps := ls.binaryOps ++ [op] }

/-- `setNeighbours` (`LocalSearch.cpp` 385-388). -/
def setNeighbours (ls : LocalSearch) (neighbours : Neighbours) : Except Error LocalSearch :=
  match ls.space.setNeighbours neighbours with
  | .error e => .error e
  | .ok space => .ok { ls with space := space }

/-- `shuffle` (`LocalSearch.cpp` 110-117), for an arbitrary generator. -/
def shuffle {σ : Type} (next : σ → Nat × σ) (rng : σ) (ls : LocalSearch) : LocalSearch × σ :=
  let (manager, rng) := ls.manager.shuffle next rng
  let (space, rng) := ls.space.shuffle next rng
  let (unaryOps, rng) := PyVRP.shuffle next rng ls.unaryOps
  let (binaryOps, rng) := PyVRP.shuffle next rng ls.binaryOps
  ({ ls with manager := manager, space := space, unaryOps := unaryOps, binaryOps := binaryOps }, rng)

/-- The state before perturbing (`LocalSearch.cpp` 24-34). -/
def start (data : ProblemData) (ls : LocalSearch) (sol : SSol) : LState :=
  { sol := sol
    space := ls.space
    binary := ls.binaryOps.map (fun op => (op, op.init data))
    lastTest := List.replicate (data.numClients + data.numShipments) (-1)
    lastUpdate := List.replicate data.numVehicles 0
    numUpdates := 0
    completed := false }

/-- The state from which the search starts improving (`LocalSearch.cpp` 24-41). -/
def prepare (data : ProblemData) (ce : CostEvaluator) (ls : LocalSearch) (solution : Solution)
    (exhaustive : Bool) : Except Error LState :=
  match ls.sol.load data solution with
  | .error e => .error e
  | .ok sol =>
    let st := ls.start data sol
    match
      if exhaustive then .ok ⟨st.sol, st.space.markAllPromising⟩
      else ls.manager.perturb data ce st.sol st.space with
    | .error e => .error e
    | .ok p => LState.ensureStructuralFeasibility data ce { st with sol := p.sol, space := p.space }

/-- `operator()` (`LocalSearch.cpp` 17-52), for at most `fuel` rounds of the search: the returned
solution, and the local search afterwards. -/
def run (data : ProblemData) (ce : CostEvaluator) (ls : LocalSearch) (solution : Solution)
    (exhaustive : Bool) (fuel : Nat) : Except Error (Option (Solution × LocalSearch)) :=
  match ls.prepare data ce solution exhaustive with
  | .error e => .error e
  | .ok st =>
    match LState.search data ce ls.unaryOps fuel st with
    | .error e => .error e
    | .ok none => .ok none
    | .ok (some st) =>
      match st.sol.unload data with
      | .error e => .error e
      | .ok solution => .ok (some (solution, { ls with space := st.space, sol := st.sol }))

/-- `LocalSearch.__call__` (`LocalSearch.py` 94-121), for an arbitrary generator. -/
def call {σ : Type} (next : σ → Nat × σ) (data : ProblemData) (ce : CostEvaluator) (ls : LocalSearch)
    (rng : σ) (solution : Solution) (exhaustive : Bool) (fuel : Nat) :
    Except Error (Option (Solution × LocalSearch × σ)) :=
  let (ls, rng) := ls.shuffle next rng
  match ls.run data ce solution exhaustive fuel with
  | .error e => .error e
  | .ok none => .ok none
  | .ok (some (solution, ls)) => .ok (some (solution, ls, rng))

end LocalSearch
end PyVRP
