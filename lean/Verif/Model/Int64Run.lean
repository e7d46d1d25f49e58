import Verif.Model.CheckedRun
import Verif.Model.Int64Operators
/-!
# A call of the local search on 64-bit integers

As in `Model/Int64Operators.lean`, the result `none` means that a signed integer overflows, that an array is
read outside of its bounds, or that an assertion fails. The assertion about the costs before and after a
move (`LocalSearch.cpp` 135-137, 149-156, 183-185 and 195-202) is left out: its sums over all routes are
computed in debug builds only, see C53. Counters of updates are unbounded. Constructing the returned
solution is the subject of C55.
-/
namespace PyVRP.Checked64
open Checked

section
variable (data : ProblemData) (ce : CostEvaluator)

/-! ## Updating routes -/

/-- `routes[idx].update()`. -/
def updated (s : SSol) (idx : Nat) : Option SSol := do
  return s.setRoute idx (← I64.update data (← route s idx))

/-- `routes[idx].clear()` (`search/Route.cpp` 62-86), without the assertion at its end. -/
def cleared (s : SSol) (idx : Nat) : Option SSol := do
  let r ← route s idx
  if r.nodes.length = 2 then return s
  else
    let r' ← I64.update data { r with nodes := SRoute.emptyNodes data r.vehicleType }
    return (SSol.unassignNodes idx s r.nodes).setRoute idx r'

/-- The lambda of `update` (`LocalSearch.cpp` 343-356). -/
def updateRoute (st : LState) (idx : Nat) : Option LState := do
  readable data (← route st.sol idx)
  let sol ← updated data st.sol idx
  let sol ← if (sol.route idx).empty then cleared data sol idx else pure sol
  let r ← route sol idx
  readable data r
  ensure (idx < st.lastUpdate.length)
  return { st with
    sol := sol
    lastUpdate := st.lastUpdate.set idx st.numUpdates
    binary := ← st.binary.mapM (updateCache data r) }

/-- `update(U, V)` (`LocalSearch.cpp` 337-363). -/
def update (st : LState) (u : Option Nat) (v : Nat) : Option LState := do
  let st := { st with numUpdates := st.numUpdates + 1, completed := false }
  let st ← match u with
    | some u => updateRoute data st u
    | none => pure st
  if u ≠ some v then updateRoute data st v else return st

/-! ## `LocalSearch::search` -/

/-- The loop of `applyUnaryOps` up to the first operator to be applied (`LocalSearch.cpp` 122-125). -/
def findUnary (sol : SSol) (u : Activity) : List UnaryOp → Option (Option (UnaryOp × Verdict))
  | [] => some none
  | op :: rest => do
    let verdict ← evaluateUnary op data ce sol u
    if verdict.apply then return some (op, verdict) else findUnary sol u rest

/-- `applyUnaryOps` (`LocalSearch.cpp` 119-163). -/
def applyUnaryOps (ops : List UnaryOp) (st : LState) (u : Activity) :
    Option (Except Error (LState × Bool)) := do
  match ← findUnary data ce st.sol u ops with
  | none => return .ok (st, false)
  | some (op, verdict) =>
    let node := st.sol.place u
    let st ← markIf st node
    match ← applyUnary op data st.sol u verdict.move with
    | .error e => return .error e
    | .ok sol =>
      let st := { st with sol := sol }
      match node with
      | some (idx, _) => return .ok (← update data st (some idx) idx, true)
      | none =>
        let node ← st.sol.place u
        return .ok (← update data (← mark st node) (some node.1) node.1, true)

/-- The loop of `applyBinaryOps` up to the first operator to be applied (`LocalSearch.cpp` 169-172). -/
def findBinary (sol : SSol) (u : Activity) (v : NodeRef) :
    List (BinaryOp × Cache) → Option (List (BinaryOp × Cache) × Option (BinaryOp × Verdict))
  | [] => some ([], none)
  | (op, cache) :: rest => do
    let (verdict, cache) ← evaluateBinary op data ce sol cache u v
    if verdict.apply then return ((op, cache) :: rest, some (op, verdict))
    else
      let (rest, found) ← findBinary sol u v rest
      return ((op, cache) :: rest, found)

/-- `applyBinaryOps` (`LocalSearch.cpp` 165-209). -/
def applyBinaryOps (st : LState) (u : Activity) (v : NodeRef) :
    Option (Except Error (LState × Bool)) := do
  let (binary, found) ← findBinary data ce st.sol u v st.binary
  let st := { st with binary := binary }
  match found with
  | none => return .ok (st, false)
  | some (op, verdict) =>
    let rU := st.sol.place u
    let rV ← st.sol.find v
    let st ← mark (← markIf st rU) rV
    match ← applyBinary op data st.sol u v verdict.move with
    | .error e => return .error e
    | .ok sol => return .ok (← update data { st with sol := sol } (rU.map (·.1)) rV.1, true)

/-- The body of the loop over neighbours (`LocalSearch.cpp` 81-103). -/
def testNeighbour (lastTest : Int) (st : LState) (u v : Activity) : Option (Except Error LState) := do
  known data v
  match st.sol.place v with
  | none => return .ok st
  | some (idx, pos) =>
    let uUpdate ← updateOf st (st.sol.place u)
    let vUpdate ← updateOf st (some (idx, pos))
    if uUpdate > lastTest || decide (vUpdate > lastTest) then
      match ← applyBinaryOps data ce st u (.task v) with
      | .error e => return .error e
      | .ok (st, true) => return .ok st
      | .ok (st, false) =>
        let prev ← node (← route st.sol idx) (← minus pos 1)
        if prev.isStartDepot then
          match ← applyBinaryOps data ce st u (.start idx) with
          | .error e => return .error e
          | .ok (st, _) => return .ok st
        else return .ok st
    else return .ok st

/-- The loop over neighbours (`LocalSearch.cpp` 81-103). -/
def testNeighbours (lastTest : Int) (u : Activity) (st : LState) :
    List Activity → Option (Except Error LState)
  | [] => some (.ok st)
  | v :: rest => do
    match ← testNeighbour data ce lastTest st u v with
    | .error e => return .error e
    | .ok st => testNeighbours lastTest u st rest

/-- `applyEmptyRouteMoves` (`LocalSearch.cpp` 211-228). -/
def applyEmptyRouteMoves (u : Activity) (st : LState) :
    List (Nat × Nat) → Option (Except Error LState)
  | [] => some (.ok st)
  | (vehType, offset) :: rest => do
    match ← firstEmpty data st.sol vehType offset with
    | none => applyEmptyRouteMoves u st rest
    | some idx =>
      match ← applyBinaryOps data ce st u (.start idx) with
      | .error e => return .error e
      | .ok (st, true) => return .ok st
      | .ok (st, false) => applyEmptyRouteMoves u st rest

/-- The body of the loop over activities (`LocalSearch.cpp` 66-106). -/
def testActivity (ops : List UnaryOp) (st : LState) (u : Activity) : Option (Except Error LState) := do
  if !(← isPromising st.space u) then return .ok st
  else
    known data u
    let idx := LState.testIdx data u
    let lastTest ← st.lastTest[idx]?
    let st := { st with lastTest := st.lastTest.set idx st.numUpdates }
    match ← applyUnaryOps data ce ops st u with
    | .error e => return .error e
    | .ok (st, _) =>
      match st.space.neighboursOf u with
      | .error e => return .error e
      | .ok neighbours =>
        match ← testNeighbours data ce lastTest u st neighbours with
        | .error e => return .error e
        | .ok st => applyEmptyRouteMoves data ce u st st.space.vehTypeOrder

/-- The loop over activities (`LocalSearch.cpp` 64-107). -/
def testAll (ops : List UnaryOp) (st : LState) : List Activity → Option (Except Error LState)
  | [] => some (.ok st)
  | u :: rest => do
    match ← testActivity data ce ops st u with
    | .error e => return .error e
    | .ok st => testAll ops st rest

/-- The outer loop of `search` (`LocalSearch.cpp` 58-107), for at most `fuel` rounds. -/
def searchLoop (ops : List UnaryOp) : Nat → LState → Option (Except Error (Option LState))
  | 0, st => some (.ok (if st.completed then some st else none))
  | fuel + 1, st => do
    if st.completed then return .ok (some st)
    else
      match ← testAll data ce ops { st with completed := true } st.space.activityOrder with
      | .error e => return .error e
      | .ok st => searchLoop ops fuel st

/-- `search` (`LocalSearch.cpp` 54-108). -/
def search (ops : List UnaryOp) (fuel : Nat) (st : LState) : Option (Except Error (Option LState)) :=
  if ops.isEmpty && st.binary.isEmpty then some (.ok (some st))
  else searchLoop data ce ops fuel { st with completed := false }

/-! ## Inserting clients and shipments -/

/-- The constructor of `IncrementalSegmentBetween` (`search/Solution.cpp` 44-54). -/
def IncBetween.new (r : SRoute) (pos : Nat) : Option IncBetween := do
  let _ ← Checked.IncBetween.new data r pos
  let segment := I64.between data r pos pos
  return { start := pos
           finish := pos
           duration := ← segment.duration (profile data r)
           loads := ← (List.range data.numLoadDimensions).mapM segment.load }

/-- `operator++` (`search/Solution.cpp` 56-81). -/
def IncBetween.next (r : SRoute) (b : IncBetween) : Option IncBetween := do
  let _ ← Checked.IncBetween.next data r b
  let item := I64.between data r (b.finish + 1) (b.finish + 1)
  return { start := b.start
           finish := b.finish + 1
           duration := ← I64.merge
             (data.dur (profile data r) (r.locations.getD b.finish 0) item.plain.frontLoc) b.duration
             (← item.duration (profile data r))
           loads := ← (List.range b.loads.length).mapM
             (fun dim => do I64.mergeLoad (b.loads.getD dim {}) (← item.load dim)) }

/-- The segment (`search/Solution.cpp` 83-94). -/
def IncBetween.seg (r : SRoute) (b : IncBetween) : WSeg :=
  { base := Checked.IncBetween.seg data r b
    wide := { plain := b.seg data r
              distance := (I64.between data r b.start b.finish).distance
              duration := fun _ => some b.duration
              load := fun dim => some (b.loads.getD dim {}) } }

/-- `insertCost` (`search/Solution.cpp` 96-115). -/
def insertCost (s : SSol) (c : Nat) (at_ : Nat × Nat) : Option Int := do
  let r ← route s at_.1
  let cl ← client data c
  let p ← propose (← before data r at_.2) [← clientSeg data c, ← after data r (at_.2 + 1)]
  deltaCost true data ce (← I64.neg cl.prize) p

/-- The loop over neighbours in `insert` (`search/Solution.cpp` 249-263). -/
def clientNeighbours (s : SSol) (c : Nat) : List Activity → SSol.ClientSpot → Option SSol.ClientSpot
  | [], best => some best
  | v :: rest, best => do
    known data v
    match s.place v with
    | none => clientNeighbours s c rest best
    | some at_ =>
      let cost ← insertCost data ce s c at_
      clientNeighbours s c rest (if cost < best.cost then ⟨at_, cost⟩ else best)

/-- The loop over vehicle types in `insert` (`search/Solution.cpp` 267-284). -/
def clientEmpty (s : SSol) (c : Nat) : List (Nat × Nat) → SSol.ClientSpot → Option SSol.ClientSpot
  | [], best => some best
  | (vehType, offset) :: rest, best => do
    match ← firstEmpty data s vehType offset with
    | none => clientEmpty s c rest best
    | some idx =>
      let cost ← insertCost data ce s c (idx, 0)
      if cost < best.cost then return ⟨(idx, 0), cost⟩ else clientEmpty s c rest best

/-- `insert(U, searchSpace, costEvaluator, required)` (`search/Solution.cpp` 237-294). -/
def insertClient (space : SearchSpace) (s : SSol) (c : Nat) (required : Bool) :
    Option (Except Error (SSol × Bool)) := do
  known data ⟨.client, c⟩
  let _ ← node (← route s 0) 0
  let cost ← insertCost data ce s c (0, 0)
  match space.neighboursOf ⟨.client, c⟩ with
  | .error e => return .error e
  | .ok neighbours =>
    let best ← clientNeighbours data ce s c neighbours ⟨(0, 0), cost⟩
    let best ← clientEmpty data ce s c space.vehTypeOrder best
    if required || decide (best.cost < 0) then
      match ← insertAt data s best.node.1 (best.node.2 + 1) ⟨.client, c⟩ with
      | .error e => return .error e
      | .ok s => return .ok (s, true)
    else return .ok (s, false)

/-- The delivery directly after the pickup (`search/Solution.cpp` 329-342, 374-388). -/
def shipmentDirect (s : SSol) (k idx pos : Nat) : Option SSol.ShipmentSpot := do
  let r ← route s idx
  let sh ← shipment data k
  let p ← propose (← before data r pos)
    [← pickupSeg data k, ← deliverySeg data k, ← after data r (pos + 1)]
  return ⟨idx, pos, pos + 1, ← deltaCost true data ce (← I64.neg sh.prize) p⟩

/-- The loop over the nodes after which to deliver (`search/Solution.cpp` 344-362). There is always a
next node: the route's last one is a depot. -/
def shipmentLater (s : SSol) (k idx pos : Nat) :
    List SNode → Nat → IncBetween → SSol.ShipmentSpot → Option SSol.ShipmentSpot
  | [], _, _, _ => none
  | n :: nodes, next, b, best => do
    if n.isDepot then return best
    else
      let r ← route s idx
      let sh ← shipment data k
      let p ← propose (← before data r pos) [← pickupSeg data k, IncBetween.seg data r b,
        ← deliverySeg data k, ← after data r (next + 1)]
      let cost ← deltaCost true data ce (← I64.neg sh.prize) p
      shipmentLater s k idx pos nodes (next + 1) (← IncBetween.next data r b)
        (SSol.ShipmentSpot.better ⟨idx, pos, next + 1, cost⟩ best)

/-- The body of the loop over `p(neighbour)` and `neighbour` (`search/Solution.cpp` 326-363). -/
def shipmentAfter (s : SSol) (k idx pos : Nat) (best : SSol.ShipmentSpot) :
    Option SSol.ShipmentSpot := do
  let r ← route s idx
  let _ ← node r pos
  let direct ← shipmentDirect data ce s k idx pos
  shipmentLater data ce s k idx pos (r.nodes.drop (pos + 1)) (pos + 1)
    (← IncBetween.new data r (pos + 1)) (SSol.ShipmentSpot.better direct best)

/-- The loop over neighbours (`search/Solution.cpp` 315-364). -/
def shipmentNeighbours (s : SSol) (k : Nat) :
    List Activity → SSol.ShipmentSpot → Option SSol.ShipmentSpot
  | [], best => some best
  | v :: rest, best => do
    known data v
    match s.place v with
    | none => shipmentNeighbours s k rest best
    | some (idx, pos) =>
      let prev ← minus pos 1
      let best ← shipmentAfter data ce s k idx prev best
      let best ← shipmentAfter data ce s k idx pos best
      shipmentNeighbours s k rest best

/-- The loop over vehicle types (`search/Solution.cpp` 368-390). -/
def shipmentEmpty (s : SSol) (k : Nat) :
    List (Nat × Nat) → SSol.ShipmentSpot → Option SSol.ShipmentSpot
  | [], best => some best
  | (vehType, offset) :: rest, best => do
    match ← firstEmpty data s vehType offset with
    | none => shipmentEmpty s k rest best
    | some idx =>
      let spot ← shipmentDirect data ce s k idx 0
      if spot.cost < best.cost then return spot else shipmentEmpty s k rest best

/-- `insert(pickup, delivery, searchSpace, costEvaluator, required)` (`search/Solution.cpp` 296-401).
The positions are read again after inserting the delivery: the node after which the pickup comes is
before the delivery, so its position is the same. -/
def insertShipment (space : SearchSpace) (s : SSol) (k : Nat) (required : Bool) :
    Option (Except Error (SSol × Bool)) := do
  known data ⟨.pickup, k⟩
  ensure (s.place ⟨.pickup, k⟩ = none ∧ s.place ⟨.delivery, k⟩ = none)
  let _ ← shipment data k
  let _ ← node (← route s 0) 0
  match space.neighboursOf ⟨.pickup, k⟩ with
  | .error e => return .error e
  | .ok neighbours =>
    let best ← shipmentNeighbours data ce s k neighbours ⟨0, 0, 1, MAX⟩
    let best ← shipmentEmpty data ce s k space.vehTypeOrder best
    if required || decide (best.cost < 0) then
      ensure (best.pickupAfter < best.deliveryPos)
      match ← insertAt data s best.route best.deliveryPos ⟨.delivery, k⟩ with
      | .error e => return .error e
      | .ok s =>
        match ← insertAt data s best.route (best.pickupAfter + 1) ⟨.pickup, k⟩ with
        | .error e => return .error e
        | .ok s => return .ok (s, true)
    else return .ok (s, false)

/-! ## Perturbing -/

/-- `routes[idx].update()`, with its bounds checks. -/
def refresh (s : SSol) (idx : Nat) : Option SSol := do
  let r ← route s idx
  readable data r
  updated data s idx

/-- The lambda `insert` of `perturb` (`PerturbationManager.cpp` 50-74). -/
def perturbInsert (st : PerturbationManager.State) (a : Activity) :
    Option (Except Error PerturbationManager.State) := do
  ensure (a.isClient ∨ a.isPickup)
  ensure (st.sol.place a = none)
  if a.isClient then
    match ← insertClient data ce st.space st.sol a.idx true with
    | .error e => return .error e
    | .ok (sol, _) =>
      let at_ ← sol.place a
      let sol ← refresh data sol at_.1
      return .ok ⟨sol, ← markNode st.space sol at_⟩
  else
    match ← insertShipment data ce st.space st.sol a.idx true with
    | .error e => return .error e
    | .ok (sol, _) =>
      let at_ ← sol.place ⟨.pickup, a.idx⟩
      let at' ← sol.place ⟨.delivery, a.idx⟩
      ensure (at'.1 = at_.1)
      let sol ← refresh data sol at_.1
      let space ← markNode st.space sol at_
      return .ok ⟨sol, ← markNode space sol at'⟩

/-- The lambda `remove` of `perturb` (`PerturbationManager.cpp` 76-96). -/
def perturbRemove (st : PerturbationManager.State) (a : Activity) :
    Option (Except Error PerturbationManager.State) := do
  ensure (a.isClient ∨ a.isPickup)
  let at_ ← st.sol.place a
  let space ← markNode st.space st.sol at_
  let sol ← removeAt st.sol at_.1 at_.2
  if a.isPickup then
    let at' ← sol.place ⟨.delivery, a.idx⟩
    ensure (at'.1 = at_.1)
    let space ← markNode space sol at'
    let sol ← removeAt sol at_.1 at'.2
    return .ok ⟨← refresh data sol at_.1, space⟩
  else return .ok ⟨← refresh data sol at_.1, space⟩

/-- The loop over the nodes of one group (`PerturbationManager.cpp` 144-154). -/
def applyNodes (r : Option Nat) (st : PerturbationManager.State) :
    Nat → List Activity → Option (Except Error (PerturbationManager.State × Nat))
  | 0, _ => some (.ok (st, 0))
  | movesLeft, [] => some (.ok (st, movesLeft))
  | movesLeft + 1, a :: rest => do
    match ← (if r.isSome then perturbRemove data st a else perturbInsert data ce st a) with
    | .error e => return .error e
    | .ok st => applyNodes r st movesLeft rest

/-- The loop over groups (`PerturbationManager.cpp` 143-154). -/
def applyGroups (st : PerturbationManager.State) (movesLeft : Nat) :
    PerturbationManager.Groups → Option (Except Error (PerturbationManager.State × Nat))
  | [] => some (.ok (st, movesLeft))
  | (r, nodes) :: rest => do
    match ← applyNodes data ce r st movesLeft nodes with
    | .error e => return .error e
    | .ok (st, movesLeft) => applyGroups st movesLeft rest

/-- The outer loop of `perturb` (`PerturbationManager.cpp` 129-155). -/
def perturbLoop (st : PerturbationManager.State) (perturbed : Bitset) :
    Nat → List Activity → Option (Except Error PerturbationManager.State)
  | 0, _ => some (.ok st)
  | _, [] => some (.ok st)
  | movesLeft, u :: rest => do
    let (perturbed, groups) ← perturbGroup data st.sol perturbed [] u
    match st.space.neighboursOf u with
    | .error e => return .error e
    | .ok neighbours =>
      let (perturbed, groups) ← groupAll data st.sol perturbed groups neighbours
      match ← applyGroups data ce st movesLeft groups with
      | .error e => return .error e
      | .ok (st, movesLeft) => perturbLoop st perturbed movesLeft rest

/-- `perturb(solution, searchSpace, costEvaluator)` (`PerturbationManager.cpp` 39-156). -/
def perturb (m : PerturbationManager) (sol : SSol) (space : SearchSpace) :
    Option (Except Error PerturbationManager.State) :=
  if m.numPerturbations = 0 then some (.ok ⟨sol, space⟩)
  else
    let space := space.unmarkAllPromising
    perturbLoop data ce ⟨sol, space⟩ (Bitset.new (sol.clients.length + sol.shipments.length))
      m.numPerturbations space.activityOrder

/-! ## Repairing -/

/-- `solution_.insert(&node, ..., true); update(...); markPromising(&node)` for a client
(`LocalSearch.cpp` 255-257, 269-271). -/
def repairClient (st : LState) (c : Nat) : Option (Except Error LState) := do
  match ← insertClient data ce st.space st.sol c true with
  | .error e => return .error e
  | .ok (sol, _) =>
    let at_ ← sol.place ⟨.client, c⟩
    let st ← update data { st with sol := sol } (some at_.1) at_.1
    let at_ ← st.sol.place ⟨.client, c⟩
    return .ok (← mark st at_)

/-- The same for a shipment (`LocalSearch.cpp` 297-301). -/
def repairShipment (st : LState) (k : Nat) : Option (Except Error LState) := do
  match ← insertShipment data ce st.space st.sol k true with
  | .error e => return .error e
  | .ok (sol, _) =>
    let at_ ← sol.place ⟨.pickup, k⟩
    let at' ← sol.place ⟨.delivery, k⟩
    let st ← update data { st with sol := sol } (some at_.1) at'.1
    let at_ ← st.sol.place ⟨.pickup, k⟩
    let at' ← st.sol.place ⟨.delivery, k⟩
    let st ← mark st at_
    return .ok (← mark st at')

/-- The second part of the case for clients (`LocalSearch.cpp` 261-284). -/
def repairGroup (st : LState) (counts : List Nat) (c g : Nat) :
    Option (Except Error (LState × List Nat)) := do
  let grp ← group data g
  let count ← counts[g]?
  if grp.required && count == 0 then
    ensure (st.sol.place ⟨.client, c⟩ = none)
    match ← repairClient data ce st c with
    | .error e => return .error e
    | .ok st => return .ok (st, counts.modify g (· + 1))
  else
    match st.sol.place ⟨.client, c⟩ with
    | none => return .ok (st, counts)
    | some at_ =>
      if count > 1 then
        let st ← mark st at_
        let sol ← removeAt st.sol at_.1 at_.2
        let st ← update data { st with sol := sol } (some at_.1) at_.1
        return .ok (st, counts.modify g (· - 1))
      else return .ok (st, counts)

/-- The body of the loop over activities (`LocalSearch.cpp` 244-310). -/
def repair (st : LState) (counts : List Nat) (a : Activity) : Option (Except Error (LState × List Nat)) := do
  match a.type with
  | .client =>
    known data a
    let cl ← client data a.idx
    if (st.sol.place a).isNone && cl.required then
      match ← repairClient data ce st a.idx with
      | .error e => return .error e
      | .ok st => return .ok (st, counts)
    else
      match cl.group with
      | none => return .ok (st, counts)
      | some g => repairGroup data ce st counts a.idx g
  | .pickup =>
    known data a
    let sh ← shipment data a.idx
    if (st.sol.place a).isNone && sh.required then
      match ← repairShipment data ce st a.idx with
      | .error e => return .error e
      | .ok st => return .ok (st, counts)
    else return .ok (st, counts)
  | _ => return .ok (st, counts)

/-- The loop over activities (`LocalSearch.cpp` 244-310). -/
def repairAll (st : LState) (counts : List Nat) :
    List Activity → Option (Except Error (LState × List Nat))
  | [] => some (.ok (st, counts))
  | a :: rest => do
    match ← repair data ce st counts a with
    | .error e => return .error e
    | .ok (st, counts) => repairAll st counts rest

/-- `ensureStructuralFeasibility` (`LocalSearch.cpp` 230-335). -/
def ensureStructuralFeasibility (st : LState) : Option (Except Error LState) := do
  ensure (data.groups.all (fun g => g.clients.all (fun c => decide (c < st.sol.clients.length))))
  match ← repairAll data ce st (LState.groupCounts data st.sol) st.space.activityOrder with
  | .error e => return .error e
  | .ok (st, counts) =>
    repaired data st.sol counts
    return .ok st

/-! ## Loading -/

/-- `clear()` of the route at `idx` (`search/Route.cpp` 63-88), with the assertion at its end. -/
def clearRoute (s : SSol) (idx : Nat) : Option SSol := do
  let r ← route s idx
  if r.nodes.length = 2 then return s
  else
    let _ ← vehicleType data r.vehicleType
    let s ← cleared data s idx
    let r ← route s idx
    readable data r
    ensure (r.nodes.length = 2)
    ensure (← empty data r)
    return s

/-- The body of the first loop of `load` (`search/Solution.cpp` 175-197). -/
def loadRoute (s : SSol) (idx : Nat) (solRoute : Route) : Option (Except Error SSol) := do
  let r ← route s idx
  fresh data r
  if SSol.sameRoute solRoute r then return .ok s
  else
    let s ← clearRoute data s idx
    ensure (2 ≤ solRoute.schedule.length)
    match ← pushAll data idx s (solRoute.schedule.map (·.activity)).tail.dropLast with
    | .error e => return .error e
    | .ok s => return .ok (← refresh data s idx)

/-- The first loop of `load` (`search/Solution.cpp` 169-198). -/
def loadRoutes (s : SSol) (offsets : List Nat) : List Route → Option (Except Error (SSol × List Nat))
  | [] => some (.ok (s, offsets))
  | r :: rest => do
    match ← loadRoute data s (← offsets[r.vehicleType]?) r with
    | .error e => return .error e
    | .ok s => loadRoutes s (offsets.modify r.vehicleType (· + 1)) rest

/-- The loop over indices in the last part of `load` (`search/Solution.cpp` 207-208). -/
def clearAll (s : SSol) : List Nat → Option SSol
  | [] => some s
  | idx :: rest => do clearAll (← clearRoute data s idx) rest

/-- The loop over vehicle types in `load` (`search/Solution.cpp` 202-211). -/
def clearUnused (s : SSol) (firstOfType : Nat) : List VehicleType → List Nat → Option SSol
  | [], _ => some s
  | _ :: _, [] => none
  | v :: types, offset :: offsets => do
    let firstOfNextType := firstOfType + v.numAvailable
    let s ← clearAll data s (List.range' offset (← minus firstOfNextType offset))
    clearUnused s firstOfNextType types offsets

/-- `load` (`search/Solution.cpp` 159-212). -/
def load (s : SSol) (sol : Solution) : Option (Except Error SSol) := do
  match ← loadRoutes data s (SSol.loadOffsets data.vehicleTypes 0) sol.routes with
  | .error e => return .error e
  | .ok (s, offsets) => return .ok (← clearUnused data s 0 data.vehicleTypes offsets)

/-! ## The whole search -/

/-- The state from which the search starts improving (`LocalSearch.cpp` 24-41). -/
def prepare (ls : LocalSearch) (solution : Solution) (exhaustive : Bool) : Option (Except Error LState) := do
  match ← load data ls.sol solution with
  | .error e => return .error e
  | .ok sol =>
    let st := ls.start data sol
    match ← (if exhaustive then some (.ok ⟨st.sol, st.space.markAllPromising⟩)
        else perturb data ce ls.manager st.sol st.space) with
    | .error e => return .error e
    | .ok p => ensureStructuralFeasibility data ce { st with sol := p.sol, space := p.space }

/-- `operator()` (`LocalSearch.cpp` 17-52), for at most `fuel` rounds of the search. -/
def run (ls : LocalSearch) (solution : Solution) (exhaustive : Bool) (fuel : Nat) :
    Option (Except Error (Option (Solution × LocalSearch))) := do
  match ← prepare data ce ls solution exhaustive with
  | .error e => return .error e
  | .ok st =>
    match ← search data ce ls.unaryOps fuel st with
    | .error e => return .error e
    | .ok none => return .ok none
    | .ok (some st) =>
      match ← unload data st.sol with
      | .error e => return .error e
      | .ok solution => return .ok (some (solution, { ls with space := st.space, sol := st.sol }))

end
end PyVRP.Checked64
