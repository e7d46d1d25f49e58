import Verif.Model.Checked
/-!
# Assertions and array accesses of the local search: moves, and the loops that make them

As in `Model/Checked.lean`, `none` stands for a failed assertion, or for an access outside an array.
-/
namespace PyVRP.Checked

/-! ## Changing routes -/

/-- `routes[idx].insert(pos, node)` (`search/Route.cpp` 90-129). -/
def insertAt (data : ProblemData) (s : SSol) (idx pos : Nat) (a : Activity) :
    Option (Except Error SSol) := do
  let r ← route s idx
  ensure (0 < pos ∧ pos < r.size)
  return s.insertAt data idx pos a

/-- `routes[idx].remove(pos)` (`search/Route.cpp` 133-163). -/
def removeAt (s : SSol) (idx pos : Nat) : Option SSol := do
  let r ← route s idx
  let last ← minus r.size 1
  ensure (0 < pos ∧ pos < last)
  let n ← node r pos
  ensure (n.isDepot ∨ s.owner n.activity = some idx)
  return s.removeAt idx pos

/-- `nodes[node->pos_]`, for a node in a route. -/
def slot (s : SSol) : Option (Nat × Nat) → Option Unit
  | none => some ()
  | some (idx, pos) => do
    let r ← route s idx
    let _ ← node r pos
    return ()

/-- `Route::swap` (`search/Route.cpp` 165-187). -/
def swapNodes (s : SSol) (first second : Activity) : Option SSol := do
  ensure (first.type ≠ .depot ∧ second.type ≠ .depot)
  slot s (s.place first)
  slot s (s.place second)
  return s.swapNodes first second

/-- `node->route()->remove(node->pos())`. -/
def takeOut (s : SSol) (a : Activity) : Option SSol := do
  let (idx, pos) ← s.place a
  removeAt s idx pos

/-- `V->route()->insert(V->pos() + 1, node)`. -/
def insertAfter (data : ProblemData) (s : SSol) (v : NodeRef) (a : Activity) :
    Option (Except Error SSol) := do
  let (idx, pos) ← s.find v
  insertAt data s idx (pos + 1) a

/-! ## Applying moves -/

/-- The loop of `Relocate<N>::apply` and of `Swap<N, M>::apply` (`Relocate.h` 164-170, `Swap.h`
164-170). -/
def applyLoop (data : ProblemData) (v : NodeRef) : Nat → Activity → SSol → Option (Except Error SSol)
  | 0, _, s => some (.ok s)
  | n + 1, a, s => do
    let (idx, pos) ← s.place a
    let r ← here s idx pos a
    let prev ← node r (← minus pos 1)
    match ← insertAfter data (← removeAt s idx pos) v a with
    | .error e => return .error e
    | .ok s => applyLoop data v n prev.activity s

/-- `Relocate<N>::apply` (`Relocate.h` 155-171). -/
def Relocate.apply (n : Nat) (data : ProblemData) (s : SSol) (uAct : Activity) (v : NodeRef) :
    Option (Except Error SSol) := do
  let (i, u) ← s.place uAct
  let _ ← s.find v
  let r ← route s i
  let last ← node r (u + n - 1)
  applyLoop data v n last.activity s

/-- The second loop of `Swap<N, M>::apply` (`Swap.h` 172-178). -/
def swapLoop : Nat → Activity → Activity → SSol → Option SSol
  | 0, _, _, s => some s
  | n + 1, a, b, s => do
    let s ← swapNodes s a b
    let (i, u) ← s.place a
    let (j, v) ← s.place b
    let a ← node (← route s i) (u + 1)
    let b ← node (← route s j) (v + 1)
    swapLoop n a.activity b.activity s

/-- `Swap<N, M>::apply` (`Swap.h` 153-179). -/
def Swap.apply (n m : Nat) (data : ProblemData) (s : SSol) (uAct : Activity) (vRef : NodeRef) :
    Option (Except Error SSol) := do
  let (i, u) ← s.place uAct
  let (j, v) ← s.find vRef
  let rU ← route s i
  let rV ← route s j
  let last ← node rU (u + n - 1)
  let after ← node rV (v + m - 1)
  let vNode ← node rV v
  let extra ← minus n m
  match ← applyLoop data (.task after.activity) extra last.activity s with
  | .error e => return .error e
  | .ok s => return .ok (← swapLoop m uAct vNode.activity s)

/-- The loops of `SwapTails::apply` (`SwapTails.cpp` 108-114 and 117-123). -/
def moveAll (data : ProblemData) (idx : Nat) : Nat → List Activity → SSol → Option (Except Error SSol)
  | _, [], s => some (.ok s)
  | pos, a :: rest, s => do
    match ← insertAt data (← takeOut s a) idx pos a with
    | .error e => return .error e
    | .ok s => moveAll data idx (pos + 1) rest s

/-- `SwapTails::apply` (`SwapTails.cpp` 101-124). -/
def SwapTails.apply (data : ProblemData) (s : SSol) (uAct : Activity) (vRef : NodeRef) :
    Option (Except Error SSol) := do
  let (i, u) ← s.place uAct
  let (j, v) ← s.find vRef
  let rU ← route s i
  let rV ← route s j
  let _ ← node rU (u + 1)
  let _ ← node rV (v + 1)
  match ← moveAll data i (u + 1) (PyVRP.SwapTails.tail rV v) s with
  | .error e => return .error e
  | .ok s => moveAll data j (v + 1) (PyVRP.SwapTails.tail rU u) s

/-- `RelocateWithDepot::apply` (`RelocateWithDepot.cpp` 163-187). -/
def RelocateWithDepot.apply (data : ProblemData) (s : SSol) (uAct : Activity) (vRef : NodeRef)
    (move : Move) : Option (Except Error SSol) := do
  let s ← takeOut s uAct
  let (j, v) ← s.find vRef
  match move with
  | .depotU depot =>
    match ← insertAt data s j (v + 1) uAct with
    | .error e => return .error e
    | .ok s => insertAt data s j (v + 1) ⟨.depot, depot⟩
  | .uDepot depot =>
    match ← insertAt data s j (v + 1) uAct with
    | .error e => return .error e
    | .ok s => insertAt data s j (v + 2) ⟨.depot, depot⟩
  | _ => return .ok s

/-- `RemoveAdjacentDepot::apply` (`RemoveAdjacentDepot.cpp` 56-66). -/
def RemoveAdjacentDepot.apply (s : SSol) (uAct : Activity) (move : Move) : Option SSol := do
  let (i, u) ← s.place uAct
  match move with
  | .removePrev => removeAt s i (← minus u 1)
  | .removeNext => removeAt s i (u + 1)
  | _ => return s

/-- `RelocateAlternative::apply` (`RelocateAlternative.cpp` 137-145). -/
def RelocateAlternative.apply (data : ProblemData) (s : SSol) (uAct : Activity) (vRef : NodeRef)
    (move : Move) : Option (Except Error SSol) := do
  ensure (uAct.isClient ∧ (s.place uAct).isSome ∧ (s.find vRef).isSome)
  match move with
  | .node a =>
    ensure ((s.place a).isNone)
    insertAfter data (← takeOut s uAct) vRef a
  | _ => none

/-- `InsertOptionalClient::apply` (`InsertOptionalClient.cpp` 41-48). -/
def InsertOptionalClient.apply (data : ProblemData) (s : SSol) (uAct : Activity) (vRef : NodeRef) :
    Option (Except Error SSol) := do
  ensure (uAct.isClient ∧ (s.place uAct).isNone ∧ (s.find vRef).isSome)
  insertAfter data s vRef uAct

/-- `RemoveOptionalClient::apply` (`RemoveOptionalClient.cpp` 37-42). -/
def RemoveOptionalClient.apply (s : SSol) (uAct : Activity) : Option SSol := do
  ensure uAct.isClient
  takeOut s uAct

/-- `ReplaceOptionalClient::apply` (`ReplaceOptionalClient.cpp` 32-41). -/
def ReplaceOptionalClient.apply (data : ProblemData) (s : SSol) (uAct : Activity) (vRef : NodeRef) :
    Option (Except Error SSol) := do
  let (j, v) ← s.find vRef
  let n ← node (← route s j) v
  ensure ((s.place uAct).isNone ∧ uAct.isClient ∧ n.isClient)
  insertAt data (← removeAt s j v) j v uAct

/-- `ReplaceGroup::apply` (`ReplaceGroup.cpp` 49-58). -/
def ReplaceGroup.apply (data : ProblemData) (s : SSol) (uAct : Activity) (move : Move) :
    Option (Except Error SSol) := do
  ensure (uAct.isClient ∧ (s.place uAct).isNone)
  match move with
  | .node a =>
    let (j, v) ← s.place a
    insertAt data (← removeAt s j v) j v uAct
  | _ => none

/-- The two insertions (`InsertOptionalShipment.cpp` 64-67, `RelocateShipment.cpp` 98-101). -/
def insertBoth (data : ProblemData) (s : SSol) (uAct : Activity) (vRef : NodeRef) (move : Move) :
    Option (Except Error SSol) := do
  let (j, v) ← s.find vRef
  match move with
  | .pos p =>
    ensure (p > v)
    match ← insertAt data s j p ⟨.delivery, uAct.idx⟩ with
    | .error e => return .error e
    | .ok s => insertAt data s j (v + 1) uAct
  | _ => none

/-- `InsertOptionalShipment::apply` (`InsertOptionalShipment.cpp` 59-68). -/
def InsertOptionalShipment.apply (data : ProblemData) (s : SSol) (uAct : Activity) (vRef : NodeRef)
    (move : Move) : Option (Except Error SSol) := do
  ensure (uAct.isPickup ∧ (s.place uAct).isNone ∧ (s.find vRef).isSome)
  insertBoth data s uAct vRef move

/-- `RemoveOptionalShipment::apply` (`RemoveOptionalShipment.cpp` 45-53): both nodes are removed from the
route of the pickup. -/
def RemoveOptionalShipment.apply (s : SSol) (uAct : Activity) : Option SSol := do
  ensure uAct.isPickup
  let (i, _) ← s.place uAct
  let (i', _) ← s.place ⟨.delivery, uAct.idx⟩
  ensure (i' = i)
  takeOut (← takeOut s ⟨.delivery, uAct.idx⟩) uAct

/-- `ReplaceOptionalShipment::apply` (`ReplaceOptionalShipment.cpp` 60-79). -/
def ReplaceOptionalShipment.apply (s : SSol) (uAct : Activity) (vRef : NodeRef) : Option SSol := do
  let (j, v) ← s.find vRef
  let n ← node (← route s j) v
  ensure (uAct.isPickup ∧ n.isShipment ∧ (s.place uAct).isNone)
  swapNodes (← swapNodes s ⟨.pickup, n.activity.idx⟩ uAct) ⟨.delivery, n.activity.idx⟩
    ⟨.delivery, uAct.idx⟩

/-- `RelocateShipment::apply` (`RelocateShipment.cpp` 89-102). -/
def RelocateShipment.apply (data : ProblemData) (s : SSol) (uAct : Activity) (vRef : NodeRef)
    (move : Move) : Option (Except Error SSol) := do
  ensure (s.find vRef).isSome
  insertBoth data (← RemoveOptionalShipment.apply s uAct) uAct vRef move

/-- `RelocatePickup::apply` (`RelocatePickup.cpp` 57-65): the pickup is inserted into its old route. -/
def RelocatePickup.apply (data : ProblemData) (s : SSol) (uAct : Activity) (move : Move) :
    Option (Except Error SSol) := do
  ensure uAct.isPickup
  let (i, _) ← s.place uAct
  match move with
  | .node a =>
    let s ← takeOut s uAct
    let (i', p) ← s.place a
    ensure (i' = i)
    insertAt data s i p uAct
  | _ => none

/-- `RelocateDelivery::apply` (`RelocateDelivery.cpp` 57-66): the delivery is removed from the route of
the pickup, and inserted into it. -/
def RelocateDelivery.apply (data : ProblemData) (s : SSol) (uAct : Activity) (move : Move) :
    Option (Except Error SSol) := do
  ensure uAct.isPickup
  let (i, _) ← s.place uAct
  let (i', _) ← s.place ⟨.delivery, uAct.idx⟩
  ensure (i' = i)
  match move with
  | .node a =>
    let s ← takeOut s ⟨.delivery, uAct.idx⟩
    let (i', p) ← s.place a
    ensure (i' = i)
    insertAt data s i (p + 1) ⟨.delivery, uAct.idx⟩
  | _ => none

/-- `apply(U)`. -/
def applyUnary (op : UnaryOp) (data : ProblemData) (s : SSol) (u : Activity) (move : Move) :
    Option (Except Error SSol) :=
  match op with
  | .removeAdjacentDepot => (RemoveAdjacentDepot.apply s u move).map .ok
  | .removeOptionalClient => (RemoveOptionalClient.apply s u).map .ok
  | .replaceGroup => ReplaceGroup.apply data s u move
  | .removeOptionalShipment => (RemoveOptionalShipment.apply s u).map .ok
  | .relocatePickup => RelocatePickup.apply data s u move
  | .relocateDelivery => RelocateDelivery.apply data s u move

/-- `apply(U, V)`. -/
def applyBinary (op : BinaryOp) (data : ProblemData) (s : SSol) (u : Activity) (v : NodeRef)
    (move : Move) : Option (Except Error SSol) :=
  match op with
  | .relocate n => Relocate.apply n data s u v
  | .swap n m => Swap.apply n m data s u v
  | .swapTails => SwapTails.apply data s u v
  | .relocateWithDepot => RelocateWithDepot.apply data s u v move
  | .relocateAlternative => RelocateAlternative.apply data s u v move
  | .insertOptionalClient => InsertOptionalClient.apply data s u v
  | .replaceOptionalClient => ReplaceOptionalClient.apply data s u v
  | .insertOptionalShipment => InsertOptionalShipment.apply data s u v move
  | .replaceOptionalShipment => (ReplaceOptionalShipment.apply s u v).map .ok
  | .relocateShipment => RelocateShipment.apply data s u v move

/-! ## The search space -/

/-- `isPromising` (`SearchSpace.cpp` 76-82). -/
def isPromising (space : SearchSpace) (a : Activity) : Option Bool := do
  ensure (a.type ≠ .depot ∧ a.idx < space.promising.size)
  return space.isPromising a

/-- `markPromising(activity)` (`SearchSpace.cpp` 84-91). -/
def markPromising (space : SearchSpace) (a : Activity) : Option SearchSpace := do
  ensure (a.type ≠ .depot ∧ a.idx < space.promising.size)
  return space.markPromising a

/-- `if (node->isClient() || node->isShipment()) markPromising(node->activity())`. -/
def markIfTask (space : SearchSpace) (n : SNode) : Option SearchSpace :=
  if n.isClient || n.isShipment then markPromising space n.activity else some space

/-- `markPromising(node)` (`SearchSpace.cpp` 93-105), for a node in a route. -/
def markNode (space : SearchSpace) (s : SSol) (at_ : Nat × Nat) : Option SearchSpace := do
  let r ← route s at_.1
  let n ← node r at_.2
  let space ← markIfTask space n
  let space ← if !n.isStartDepot then do markIfTask space (← node r (← minus at_.2 1)) else pure space
  if !n.isEndDepot then markIfTask space (← node r (at_.2 + 1)) else return space

/-! ## `LocalSearch.cpp` -/

section
variable (data : ProblemData) (ce : CostEvaluator)

/-- `searchSpace_.markPromising(node)`, for a node in a route. -/
def mark (st : LState) (at_ : Nat × Nat) : Option LState := do
  return { st with space := ← markNode st.space st.sol at_ }

/-- `if (node->route()) searchSpace_.markPromising(node)`. -/
def markIf (st : LState) : Option (Nat × Nat) → Option LState
  | some node => mark st node
  | none => some st

/-- Whether an activity's data can be read. -/
def present (a : Activity) : Bool :=
  match a.type with
  | .depot => decide (a.idx < data.numDepots)
  | .client => decide (a.idx < data.numClients)
  | .pickup | .delivery => decide (a.idx < data.numShipments)

/-- What `Route::update` reads (`search/Route.cpp` 189-417): the vehicle type, the activities, and the
matrices between their locations. -/
def readable (r : SRoute) : Option Unit := do
  let v ← vehicleType data r.vehicleType
  ensure (v.profile < data.dists.length ∧ v.profile < data.durs.length)
  ensure (2 ≤ r.size)
  ensure (∀ n ∈ r.nodes, present data n.activity ∧ data.locationOf n.activity < data.numLocations)

/-- `update(route)` of a binary operator (`Relocate.h` 193-203, `RelocateWithDepot.cpp` 207-212,
`RelocateAlternative.cpp` 165-170, `RelocateShipment.cpp` 119-124). -/
def updateCache (r : SRoute) (p : BinaryOp × Cache) : Option (BinaryOp × Cache) := do
  ensure (∀ n ∈ r.nodes, ∀ idx ∈ p.1.cacheIdx data n.activity, idx < p.2.length)
  return (p.1, p.1.update data r p.2)

/-- The lambda of `update` (`LocalSearch.cpp` 343-356). -/
def updateRoute (st : LState) (idx : Nat) : Option LState := do
  readable data (← route st.sol idx)
  let sol := st.sol.updateRoute data idx
  let sol := if (sol.route idx).empty then sol.clearRoute data idx else sol
  let r ← route sol idx
  readable data r
  ensure (idx < st.lastUpdate.length)
  return { st with
    sol := sol
    lastUpdate := st.lastUpdate.set idx st.numUpdates
    binary := ← st.binary.mapM (updateCache data r) }

/-- `update(U, V)` (`LocalSearch.cpp` 337-363). -/
def update (st : LState) (u : Option Nat) (v : Nat) : Option LState := do
  let st := { st with numUpdates := st.numUpdates + 1, completed := false }
  let st ← match u with
    | some u => updateRoute data st u
    | none => pure st
  if u ≠ some v then updateRoute data st v else return st

/-- `penalisedCost(solution_)` (`search/Solution.cpp` 410-429). -/
def solutionCost (s : SSol) : Option Int := do
  ensure (data.numClients ≤ s.clients.length ∧ data.numShipments ≤ s.shipments.length)
  let _ ← s.routes.mapM (penalisedCost data ce)
  return ce.penalisedCostSSol data s

/-- `assert(costAfter == costBefore + deltaCost)` (`LocalSearch.cpp` 155 and 201). -/
def settle (before delta : Int) (st : LState) : Option (Except Error (LState × Bool)) := do
  ensure ((← solutionCost data ce st.sol) = before + delta)
  return .ok (st, true)

/-- The loop of `applyUnaryOps` up to the first operator to be applied (`LocalSearch.cpp` 122-125). -/
def findUnary (sol : SSol) (u : Activity) : List UnaryOp → Option (Option (UnaryOp × Verdict))
  | [] => some none
  | op :: rest => do
    let verdict ← evaluateUnary op data ce sol u
    if verdict.apply then return some (op, verdict) else findUnary sol u rest

/-- `applyUnaryOps` (`LocalSearch.cpp` 119-163). -/
def applyUnaryOps (ops : List UnaryOp) (st : LState) (u : Activity) :
    Option (Except Error (LState × Bool)) := do
  match ← findUnary data ce st.sol u ops with
  | none => return .ok (st, false)
  | some (op, verdict) =>
    let node := st.sol.place u
    let st ← markIf st node
    let before ← solutionCost data ce st.sol
    match ← applyUnary op data st.sol u verdict.move with
    | .error e => return .error e
    | .ok sol =>
      let st := { st with sol := sol }
      match node with
      | some (idx, _) => settle data ce before verdict.cost (← update data st (some idx) idx)
      | none =>
        let node ← st.sol.place u
        settle data ce before verdict.cost (← update data (← mark st node) (some node.1) node.1)

/-- The loop of `applyBinaryOps` up to the first operator to be applied (`LocalSearch.cpp` 169-172). -/
def findBinary (sol : SSol) (u : Activity) (v : NodeRef) :
    List (BinaryOp × Cache) → Option (List (BinaryOp × Cache) × Option (BinaryOp × Verdict))
  | [] => some ([], none)
  | (op, cache) :: rest => do
    let (verdict, cache) ← evaluateBinary op data ce sol cache u v
    if verdict.apply then return ((op, cache) :: rest, some (op, verdict))
    else
      let (rest, found) ← findBinary sol u v rest
      return ((op, cache) :: rest, found)

/-- `applyBinaryOps` (`LocalSearch.cpp` 165-209). -/
def applyBinaryOps (st : LState) (u : Activity) (v : NodeRef) :
    Option (Except Error (LState × Bool)) := do
  let (binary, found) ← findBinary data ce st.sol u v st.binary
  let st := { st with binary := binary }
  match found with
  | none => return .ok (st, false)
  | some (op, verdict) =>
    let rU := st.sol.place u
    let rV ← st.sol.find v
    let st ← mark (← markIf st rU) rV
    let before ← solutionCost data ce st.sol
    match ← applyBinary op data st.sol u v verdict.move with
    | .error e => return .error e
    | .ok sol =>
      settle data ce before verdict.cost (← update data { st with sol := sol } (rU.map (·.1)) rV.1)

/-- `lastUpdate_[...]` of a node's route, 0 if it is in none (`LocalSearch.cpp` 90-93). -/
def updateOf (st : LState) : Option (Nat × Nat) → Option Int
  | some (idx, _) => st.lastUpdate[idx]?
  | none => some 0

/-- The body of the loop over neighbours (`LocalSearch.cpp` 81-103). -/
def testNeighbour (lastTest : Int) (st : LState) (u v : Activity) : Option (Except Error LState) := do
  known data v
  match st.sol.place v with
  | none => return .ok st
  | some (idx, pos) =>
    let uUpdate ← updateOf st (st.sol.place u)
    let vUpdate ← updateOf st (some (idx, pos))
    if uUpdate > lastTest || decide (vUpdate > lastTest) then
      match ← applyBinaryOps data ce st u (.task v) with
      | .error e => return .error e
      | .ok (st, true) => return .ok st
      | .ok (st, false) =>
        let prev ← node (← route st.sol idx) (← minus pos 1)
        if prev.isStartDepot then
          match ← applyBinaryOps data ce st u (.start idx) with
          | .error e => return .error e
          | .ok (st, _) => return .ok st
        else return .ok st
    else return .ok st

/-- The loop over neighbours (`LocalSearch.cpp` 81-103). -/
def testNeighbours (lastTest : Int) (u : Activity) (st : LState) :
    List Activity → Option (Except Error LState)
  | [] => some (.ok st)
  | v :: rest => do
    match ← testNeighbour data ce lastTest st u v with
    | .error e => return .error e
    | .ok st => testNeighbours lastTest u st rest

/-- `std::find_if` for an empty route of a vehicle type (`LocalSearch.cpp` 220-223): `empty` of the
routes up to the one that is found. -/
def firstEmpty (s : SSol) (vehType offset : Nat) : Option (Option Nat) := do
  let v ← vehicleType data vehType
  go (List.range' offset v.numAvailable)
where
  go : List Nat → Option (Option Nat)
    | [] => some none
    | i :: rest => do
      if ← empty data (← route s i) then return some i else go rest

/-- `applyEmptyRouteMoves` (`LocalSearch.cpp` 211-228). -/
def applyEmptyRouteMoves (u : Activity) (st : LState) :
    List (Nat × Nat) → Option (Except Error LState)
  | [] => some (.ok st)
  | (vehType, offset) :: rest => do
    match ← firstEmpty data st.sol vehType offset with
    | none => applyEmptyRouteMoves u st rest
    | some idx =>
      match ← applyBinaryOps data ce st u (.start idx) with
      | .error e => return .error e
      | .ok (st, true) => return .ok st
      | .ok (st, false) => applyEmptyRouteMoves u st rest

/-- The body of the loop over activities (`LocalSearch.cpp` 66-106). -/
def testActivity (ops : List UnaryOp) (st : LState) (u : Activity) : Option (Except Error LState) := do
  if !(← isPromising st.space u) then return .ok st
  else
    known data u
    let idx := LState.testIdx data u
    let lastTest ← st.lastTest[idx]?
    let st := { st with lastTest := st.lastTest.set idx st.numUpdates }
    match ← applyUnaryOps data ce ops st u with
    | .error e => return .error e
    | .ok (st, _) =>
      match st.space.neighboursOf u with
      | .error e => return .error e
      | .ok neighbours =>
        match ← testNeighbours data ce lastTest u st neighbours with
        | .error e => return .error e
        | .ok st => applyEmptyRouteMoves data ce u st st.space.vehTypeOrder

/-- The loop over activities (`LocalSearch.cpp` 64-107). -/
def testAll (ops : List UnaryOp) (st : LState) : List Activity → Option (Except Error LState)
  | [] => some (.ok st)
  | u :: rest => do
    match ← testActivity data ce ops st u with
    | .error e => return .error e
    | .ok st => testAll ops st rest

/-- The outer loop of `search` (`LocalSearch.cpp` 58-107), for at most `fuel` rounds. -/
def searchLoop (ops : List UnaryOp) : Nat → LState → Option (Except Error (Option LState))
  | 0, st => some (.ok (if st.completed then some st else none))
  | fuel + 1, st => do
    if st.completed then return .ok (some st)
    else
      match ← testAll data ce ops { st with completed := true } st.space.activityOrder with
      | .error e => return .error e
      | .ok st => searchLoop ops fuel st

/-- `search` (`LocalSearch.cpp` 54-108). -/
def search (ops : List UnaryOp) (fuel : Nat) (st : LState) : Option (Except Error (Option LState)) :=
  if ops.isEmpty && st.binary.isEmpty then some (.ok (some st))
  else searchLoop data ce ops fuel { st with completed := false }

end
end PyVRP.Checked
