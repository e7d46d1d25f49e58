import Verif.Model.CheckedSearch
/-!
# Assertions and array accesses of the local search: loading, perturbing and repairing a solution

As in `Model/Checked.lean`, `none` stands for a failed assertion, for an access outside an array, or for
a null pointer that is dereferenced.
-/
namespace PyVRP.Checked

/-! ## Inserting clients and shipments -/

/-- The constructor of `IncrementalSegmentBetween` (`search/Solution.cpp` 44-54). -/
def IncBetween.new (data : ProblemData) (r : SRoute) (pos : Nat) : Option IncBetween := do
  let c ← between data r pos pos
  ensure (c.durationOk (profile data r))
  ensure ((List.range data.numLoadDimensions).all c.loadOk)
  return PyVRP.IncBetween.new data r pos

/-- `operator++` (`search/Solution.cpp` 56-81). -/
def IncBetween.next (data : ProblemData) (r : SRoute) (b : IncBetween) : Option IncBetween := do
  let last ← minus r.size 1
  ensure (b.finish ≠ last)
  let n ← node r (b.finish + 1)
  let first ← node r b.start
  let diff ← minus n.trip first.trip
  ensure (diff ≤ SRoute.one n.isDepot)
  let c ← «at» data r (b.finish + 1)
  ensure ((List.range b.loads.length).all c.loadOk)
  ensure (profile data r < data.durs.length)
  ensure (b.finish < r.locations.length ∧ r.locations.getD b.finish 0 < data.numLocations
    ∧ c.seg.frontLoc < data.numLocations)
  ensure (c.durationOk (profile data r))
  return b.next data r

/-- The segment (`search/Solution.cpp` 83-94). -/
def IncBetween.seg (data : ProblemData) (r : SRoute) (b : IncBetween) : CSeg :=
  { seg := b.seg data r, route := some r
    distanceOk := fun p => p != profile data r && decide (b.finish < r.locations.length)
      || decide (b.finish < r.cumDist.length
          ∧ r.cumDist.getD b.start 0 ≤ r.cumDist.getD b.finish 0)
    durationOk := fun p => p == profile data r
    loadOk := fun dim => decide (dim < b.loads.length) }

section
variable (data : ProblemData) (ce : CostEvaluator)

/-- `insertCost` (`search/Solution.cpp` 96-115). -/
def insertCost (s : SSol) (c : Nat) (at_ : Nat × Nat) : Option Int := do
  let r ← route s at_.1
  let cl ← client data c
  let p ← propose (← before data r at_.2) [← clientSeg data c, ← after data r (at_.2 + 1)]
  deltaCost true data ce (-cl.prize) p

/-- The loop over neighbours in `insert` (`search/Solution.cpp` 249-263). -/
def clientNeighbours (s : SSol) (c : Nat) : List Activity → SSol.ClientSpot → Option SSol.ClientSpot
  | [], best => some best
  | v :: rest, best => do
    known data v
    match s.place v with
    | none => clientNeighbours s c rest best
    | some at_ =>
      let cost ← insertCost data ce s c at_
      clientNeighbours s c rest (if cost < best.cost then ⟨at_, cost⟩ else best)

/-- The loop over vehicle types in `insert` (`search/Solution.cpp` 267-284). -/
def clientEmpty (s : SSol) (c : Nat) : List (Nat × Nat) → SSol.ClientSpot → Option SSol.ClientSpot
  | [], best => some best
  | (vehType, offset) :: rest, best => do
    match ← firstEmpty data s vehType offset with
    | none => clientEmpty s c rest best
    | some idx =>
      let cost ← insertCost data ce s c (idx, 0)
      if cost < best.cost then return ⟨(idx, 0), cost⟩ else clientEmpty s c rest best

/-- `insert(U, searchSpace, costEvaluator, required)` (`search/Solution.cpp` 237-294). -/
def insertClient (space : SearchSpace) (s : SSol) (c : Nat) (required : Bool) :
    Option (Except Error (SSol × Bool)) := do
  known data ⟨.client, c⟩
  let _ ← node (← route s 0) 0
  let cost ← insertCost data ce s c (0, 0)
  match space.neighboursOf ⟨.client, c⟩ with
  | .error e => return .error e
  | .ok neighbours =>
    let best ← clientNeighbours data ce s c neighbours ⟨(0, 0), cost⟩
    let best ← clientEmpty data ce s c space.vehTypeOrder best
    if required || decide (best.cost < 0) then
      match ← insertAt data s best.node.1 (best.node.2 + 1) ⟨.client, c⟩ with
      | .error e => return .error e
      | .ok s => return .ok (s, true)
    else return .ok (s, false)

/-- The delivery directly after the pickup (`search/Solution.cpp` 329-342, 374-388). -/
def shipmentDirect (s : SSol) (k idx pos : Nat) : Option SSol.ShipmentSpot := do
  let r ← route s idx
  let sh ← shipment data k
  let p ← propose (← before data r pos)
    [← pickupSeg data k, ← deliverySeg data k, ← after data r (pos + 1)]
  return ⟨idx, pos, pos + 1, ← deltaCost true data ce (-sh.prize) p⟩

/-- The loop over the nodes after which to deliver (`search/Solution.cpp` 344-362). There is always a
next node: the route's last one is a depot. -/
def shipmentLater (s : SSol) (k idx pos : Nat) :
    List SNode → Nat → IncBetween → SSol.ShipmentSpot → Option SSol.ShipmentSpot
  | [], _, _, _ => none
  | n :: nodes, next, b, best => do
    if n.isDepot then return best
    else
      let r ← route s idx
      let sh ← shipment data k
      let p ← propose (← before data r pos) [← pickupSeg data k, IncBetween.seg data r b,
        ← deliverySeg data k, ← after data r (next + 1)]
      let cost ← deltaCost true data ce (-sh.prize) p
      shipmentLater s k idx pos nodes (next + 1) (← IncBetween.next data r b)
        (SSol.ShipmentSpot.better ⟨idx, pos, next + 1, cost⟩ best)

/-- The body of the loop over `p(neighbour)` and `neighbour` (`search/Solution.cpp` 326-363). -/
def shipmentAfter (s : SSol) (k idx pos : Nat) (best : SSol.ShipmentSpot) :
    Option SSol.ShipmentSpot := do
  let r ← route s idx
  let _ ← node r pos
  let direct ← shipmentDirect data ce s k idx pos
  shipmentLater data ce s k idx pos (r.nodes.drop (pos + 1)) (pos + 1)
    (← IncBetween.new data r (pos + 1)) (SSol.ShipmentSpot.better direct best)

/-- The loop over neighbours (`search/Solution.cpp` 315-364). -/
def shipmentNeighbours (s : SSol) (k : Nat) :
    List Activity → SSol.ShipmentSpot → Option SSol.ShipmentSpot
  | [], best => some best
  | v :: rest, best => do
    known data v
    match s.place v with
    | none => shipmentNeighbours s k rest best
    | some (idx, pos) =>
      let prev ← minus pos 1
      let best ← shipmentAfter data ce s k idx prev best
      let best ← shipmentAfter data ce s k idx pos best
      shipmentNeighbours s k rest best

/-- The loop over vehicle types (`search/Solution.cpp` 368-390). -/
def shipmentEmpty (s : SSol) (k : Nat) :
    List (Nat × Nat) → SSol.ShipmentSpot → Option SSol.ShipmentSpot
  | [], best => some best
  | (vehType, offset) :: rest, best => do
    match ← firstEmpty data s vehType offset with
    | none => shipmentEmpty s k rest best
    | some idx =>
      let spot ← shipmentDirect data ce s k idx 0
      if spot.cost < best.cost then return spot else shipmentEmpty s k rest best

/-- `insert(pickup, delivery, searchSpace, costEvaluator, required)` (`search/Solution.cpp` 296-401).
The positions are read again after inserting the delivery: the node after which the pickup comes is
before the delivery, so its position is the same. -/
def insertShipment (space : SearchSpace) (s : SSol) (k : Nat) (required : Bool) :
    Option (Except Error (SSol × Bool)) := do
  known data ⟨.pickup, k⟩
  ensure (s.place ⟨.pickup, k⟩ = none ∧ s.place ⟨.delivery, k⟩ = none)
  let _ ← shipment data k
  let _ ← node (← route s 0) 0
  match space.neighboursOf ⟨.pickup, k⟩ with
  | .error e => return .error e
  | .ok neighbours =>
    let best ← shipmentNeighbours data ce s k neighbours ⟨0, 0, 1, MAX⟩
    let best ← shipmentEmpty data ce s k space.vehTypeOrder best
    if required || decide (best.cost < 0) then
      ensure (best.pickupAfter < best.deliveryPos)
      match ← insertAt data s best.route best.deliveryPos ⟨.delivery, k⟩ with
      | .error e => return .error e
      | .ok s =>
        match ← insertAt data s best.route (best.pickupAfter + 1) ⟨.pickup, k⟩ with
        | .error e => return .error e
        | .ok s => return .ok (s, true)
    else return .ok (s, false)

/-! ## Perturbing -/

/-- `routes[idx].update()`. -/
def refresh (s : SSol) (idx : Nat) : Option SSol := do
  let r ← route s idx
  readable data r
  return s.updateRoute data idx

/-- The lambda `insert` of `perturb` (`PerturbationManager.cpp` 50-74). -/
def perturbInsert (st : PerturbationManager.State) (a : Activity) :
    Option (Except Error PerturbationManager.State) := do
  ensure (a.isClient ∨ a.isPickup)
  ensure (st.sol.place a = none)
  if a.isClient then
    match ← insertClient data ce st.space st.sol a.idx true with
    | .error e => return .error e
    | .ok (sol, _) =>
      let at_ ← sol.place a
      let sol ← refresh data sol at_.1
      return .ok ⟨sol, ← markNode st.space sol at_⟩
  else
    match ← insertShipment data ce st.space st.sol a.idx true with
    | .error e => return .error e
    | .ok (sol, _) =>
      let at_ ← sol.place ⟨.pickup, a.idx⟩
      let at' ← sol.place ⟨.delivery, a.idx⟩
      ensure (at'.1 = at_.1)
      let sol ← refresh data sol at_.1
      let space ← markNode st.space sol at_
      return .ok ⟨sol, ← markNode space sol at'⟩

/-- The lambda `remove` of `perturb` (`PerturbationManager.cpp` 76-96). -/
def perturbRemove (st : PerturbationManager.State) (a : Activity) :
    Option (Except Error PerturbationManager.State) := do
  ensure (a.isClient ∨ a.isPickup)
  let at_ ← st.sol.place a
  let space ← markNode st.space st.sol at_
  let sol ← removeAt st.sol at_.1 at_.2
  if a.isPickup then
    let at' ← sol.place ⟨.delivery, a.idx⟩
    ensure (at'.1 = at_.1)
    let space ← markNode space sol at'
    let sol ← removeAt sol at_.1 at'.2
    return .ok ⟨← refresh data sol at_.1, space⟩
  else return .ok ⟨← refresh data sol at_.1, space⟩

/-- The lambda `group` (`PerturbationManager.cpp` 102-124). -/
def perturbGroup (s : SSol) (perturbed : Bitset) (groups : PerturbationManager.Groups) (a : Activity) :
    Option (Bitset × PerturbationManager.Groups) := do
  known data a
  ensure (a.isClient ∨ a.isPickup)
  ensure ((if a.isClient then a.idx else s.clients.length + a.idx) < perturbed.size)
  return PerturbationManager.group s perturbed groups a

/-- The loop over neighbours (`PerturbationManager.cpp` 137-141). -/
def groupAll (s : SSol) (perturbed : Bitset) (groups : PerturbationManager.Groups) :
    List Activity → Option (Bitset × PerturbationManager.Groups)
  | [] => some (perturbed, groups)
  | v :: rest => do
    known data v
    let (perturbed, groups) ←
      perturbGroup data s perturbed groups (if v.isDelivery then ⟨.pickup, v.idx⟩ else v)
    groupAll s perturbed groups rest

/-- The loop over the nodes of one group (`PerturbationManager.cpp` 144-154). -/
def applyNodes (r : Option Nat) (st : PerturbationManager.State) :
    Nat → List Activity → Option (Except Error (PerturbationManager.State × Nat))
  | 0, _ => some (.ok (st, 0))
  | movesLeft, [] => some (.ok (st, movesLeft))
  | movesLeft + 1, a :: rest => do
    match ← (if r.isSome then perturbRemove data st a else perturbInsert data ce st a) with
    | .error e => return .error e
    | .ok st => applyNodes r st movesLeft rest

/-- The loop over groups (`PerturbationManager.cpp` 143-154). -/
def applyGroups (st : PerturbationManager.State) (movesLeft : Nat) :
    PerturbationManager.Groups → Option (Except Error (PerturbationManager.State × Nat))
  | [] => some (.ok (st, movesLeft))
  | (r, nodes) :: rest => do
    match ← applyNodes data ce r st movesLeft nodes with
    | .error e => return .error e
    | .ok (st, movesLeft) => applyGroups st movesLeft rest

/-- The outer loop of `perturb` (`PerturbationManager.cpp` 129-155). -/
def perturbLoop (st : PerturbationManager.State) (perturbed : Bitset) :
    Nat → List Activity → Option (Except Error PerturbationManager.State)
  | 0, _ => some (.ok st)
  | _, [] => some (.ok st)
  | movesLeft, u :: rest => do
    let (perturbed, groups) ← perturbGroup data st.sol perturbed [] u
    match st.space.neighboursOf u with
    | .error e => return .error e
    | .ok neighbours =>
      let (perturbed, groups) ← groupAll data st.sol perturbed groups neighbours
      match ← applyGroups data ce st movesLeft groups with
      | .error e => return .error e
      | .ok (st, movesLeft) => perturbLoop st perturbed movesLeft rest

/-- `perturb(solution, searchSpace, costEvaluator)` (`PerturbationManager.cpp` 39-156). -/
def perturb (m : PerturbationManager) (sol : SSol) (space : SearchSpace) :
    Option (Except Error PerturbationManager.State) :=
  if m.numPerturbations = 0 then some (.ok ⟨sol, space⟩)
  else
    let space := space.unmarkAllPromising
    perturbLoop data ce ⟨sol, space⟩ (Bitset.new (sol.clients.length + sol.shipments.length))
      m.numPerturbations space.activityOrder

/-! ## Repairing -/

/-- `solution_.insert(&node, ..., true); update(...); markPromising(&node)` for a client
(`LocalSearch.cpp` 255-257, 269-271). -/
def repairClient (st : LState) (c : Nat) : Option (Except Error LState) := do
  match ← insertClient data ce st.space st.sol c true with
  | .error e => return .error e
  | .ok (sol, _) =>
    let at_ ← sol.place ⟨.client, c⟩
    let st ← update data { st with sol := sol } (some at_.1) at_.1
    let at_ ← st.sol.place ⟨.client, c⟩
    return .ok (← mark st at_)

/-- The same for a shipment (`LocalSearch.cpp` 297-301). -/
def repairShipment (st : LState) (k : Nat) : Option (Except Error LState) := do
  match ← insertShipment data ce st.space st.sol k true with
  | .error e => return .error e
  | .ok (sol, _) =>
    let at_ ← sol.place ⟨.pickup, k⟩
    let at' ← sol.place ⟨.delivery, k⟩
    let st ← update data { st with sol := sol } (some at_.1) at'.1
    let at_ ← st.sol.place ⟨.pickup, k⟩
    let at' ← st.sol.place ⟨.delivery, k⟩
    let st ← mark st at_
    return .ok (← mark st at')

/-- The second part of the case for clients (`LocalSearch.cpp` 261-284). -/
def repairGroup (st : LState) (counts : List Nat) (c g : Nat) :
    Option (Except Error (LState × List Nat)) := do
  let grp ← group data g
  let count ← counts[g]?
  if grp.required && count == 0 then
    ensure (st.sol.place ⟨.client, c⟩ = none)
    match ← repairClient data ce st c with
    | .error e => return .error e
    | .ok st => return .ok (st, counts.modify g (· + 1))
  else
    match st.sol.place ⟨.client, c⟩ with
    | none => return .ok (st, counts)
    | some at_ =>
      if count > 1 then
        let st ← mark st at_
        let sol ← removeAt st.sol at_.1 at_.2
        let st ← update data { st with sol := sol } (some at_.1) at_.1
        return .ok (st, counts.modify g (· - 1))
      else return .ok (st, counts)

/-- The body of the loop over activities (`LocalSearch.cpp` 244-310). -/
def repair (st : LState) (counts : List Nat) (a : Activity) : Option (Except Error (LState × List Nat)) := do
  match a.type with
  | .client =>
    known data a
    let cl ← client data a.idx
    if (st.sol.place a).isNone && cl.required then
      match ← repairClient data ce st a.idx with
      | .error e => return .error e
      | .ok st => return .ok (st, counts)
    else
      match cl.group with
      | none => return .ok (st, counts)
      | some g => repairGroup data ce st counts a.idx g
  | .pickup =>
    known data a
    let sh ← shipment data a.idx
    if (st.sol.place a).isNone && sh.required then
      match ← repairShipment data ce st a.idx with
      | .error e => return .error e
      | .ok st => return .ok (st, counts)
    else return .ok (st, counts)
  | _ => return .ok (st, counts)

/-- The loop over activities (`LocalSearch.cpp` 244-310). -/
def repairAll (st : LState) (counts : List Nat) :
    List Activity → Option (Except Error (LState × List Nat))
  | [] => some (.ok (st, counts))
  | a :: rest => do
    match ← repair data ce st counts a with
    | .error e => return .error e
    | .ok (st, counts) => repairAll st counts rest

/-- The checks at the end (`LocalSearch.cpp` 312-334): `counts` are the `groupCount`. -/
def repaired (s : SSol) (counts : List Nat) : Option Unit := do
  ensure (data.numClients ≤ s.clients.length ∧ data.numShipments ≤ s.shipments.length)
  ensure ((List.range data.numClients).all (fun i =>
    (s.owner ⟨.client, i⟩).isSome || !(data.client i).required))
  ensure (counts.length = data.groups.length)
  ensure ((List.range data.groups.length).all (fun g =>
    if (data.group g).required then counts.getD g 0 == 1 else decide (counts.getD g 0 ≤ 1)))
  ensure ((List.range data.numShipments).all (fun k =>
    s.owner ⟨.pickup, k⟩ == s.owner ⟨.delivery, k⟩
      && ((s.owner ⟨.pickup, k⟩).isSome || !(data.shipment k).required)))

/-- `ensureStructuralFeasibility` (`LocalSearch.cpp` 230-335). -/
def ensureStructuralFeasibility (st : LState) : Option (Except Error LState) := do
  ensure (data.groups.all (fun g => g.clients.all (fun c => decide (c < st.sol.clients.length))))
  match ← repairAll data ce st (LState.groupCounts data st.sol) st.space.activityOrder with
  | .error e => return .error e
  | .ok (st, counts) =>
    repaired data st.sol counts
    return .ok st

/-! ## Loading and unloading -/

/-- `clear()` of the route at `idx` (`search/Route.cpp` 63-88), with the assertion at its end. -/
def clearRoute (s : SSol) (idx : Nat) : Option SSol := do
  let r ← route s idx
  if r.nodes.length = 2 then return s
  else
    let _ ← vehicleType data r.vehicleType
    let s := s.clearRoute data idx
    let r ← route s idx
    readable data r
    ensure (r.nodes.length = 2)
    ensure (← empty data r)
    return s

/-- The loop over the activities of a route in `load` (`search/Solution.cpp` 184-195). -/
def pushAll (idx : Nat) (s : SSol) : List Activity → Option (Except Error SSol)
  | [] => some (.ok s)
  | a :: rest => do
    if a.type ≠ .depot then known data a
    let r ← route s idx
    match ← insertAt data s idx (← minus r.nodes.length 1) a with
    | .error e => return .error e
    | .ok s => pushAll idx s rest

/-- The body of the first loop of `load` (`search/Solution.cpp` 175-197). -/
def loadRoute (s : SSol) (idx : Nat) (solRoute : Route) : Option (Except Error SSol) := do
  let r ← route s idx
  fresh data r
  if SSol.sameRoute solRoute r then return .ok s
  else
    let s ← clearRoute data s idx
    ensure (2 ≤ solRoute.schedule.length)
    match ← pushAll data idx s (solRoute.schedule.map (·.activity)).tail.dropLast with
    | .error e => return .error e
    | .ok s => return .ok (← refresh data s idx)

/-- The first loop of `load` (`search/Solution.cpp` 169-198). -/
def loadRoutes (s : SSol) (offsets : List Nat) : List Route → Option (Except Error (SSol × List Nat))
  | [] => some (.ok (s, offsets))
  | r :: rest => do
    match ← loadRoute data s (← offsets[r.vehicleType]?) r with
    | .error e => return .error e
    | .ok s => loadRoutes s (offsets.modify r.vehicleType (· + 1)) rest

/-- The loop over indices in the last part of `load` (`search/Solution.cpp` 207-208). -/
def clearAll (s : SSol) : List Nat → Option SSol
  | [] => some s
  | idx :: rest => do clearAll (← clearRoute data s idx) rest

/-- The loop over vehicle types in `load` (`search/Solution.cpp` 202-211). -/
def clearUnused (s : SSol) (firstOfType : Nat) : List VehicleType → List Nat → Option SSol
  | [], _ => some s
  | _ :: _, [] => none
  | v :: types, offset :: offsets => do
    let firstOfNextType := firstOfType + v.numAvailable
    let s ← clearAll data s (List.range' offset (← minus firstOfNextType offset))
    clearUnused s firstOfNextType types offsets

/-- `load` (`search/Solution.cpp` 159-212). -/
def load (s : SSol) (sol : Solution) : Option (Except Error SSol) := do
  match ← loadRoutes data s (SSol.loadOffsets data.vehicleTypes 0) sol.routes with
  | .error e => return .error e
  | .ok (s, offsets) => return .ok (← clearUnused data s 0 data.vehicleTypes offsets)

/-- `unload` (`search/Solution.cpp` 214-235). -/
def unload (s : SSol) : Option (Except Error Solution) := do
  let _ ← s.routes.mapM (fun r => do
    let _ ← empty data r
    ensure (2 ≤ r.size))
  return s.unload data

/-! ## The whole search -/

/-- The state from which the search starts improving (`LocalSearch.cpp` 24-41). -/
def prepare (ls : LocalSearch) (solution : Solution) (exhaustive : Bool) : Option (Except Error LState) := do
  match ← load data ls.sol solution with
  | .error e => return .error e
  | .ok sol =>
    let st := ls.start data sol
    match ← (if exhaustive then some (.ok ⟨st.sol, st.space.markAllPromising⟩)
        else perturb data ce ls.manager st.sol st.space) with
    | .error e => return .error e
    | .ok p => ensureStructuralFeasibility data ce { st with sol := p.sol, space := p.space }

/-- `operator()` (`LocalSearch.cpp` 17-52), for at most `fuel` rounds of the search. -/
def run (ls : LocalSearch) (solution : Solution) (exhaustive : Bool) (fuel : Nat) :
    Option (Except Error (Option (Solution × LocalSearch))) := do
  match ← prepare data ce ls solution exhaustive with
  | .error e => return .error e
  | .ok st =>
    match ← search data ce ls.unaryOps fuel st with
    | .error e => return .error e
    | .ok none => return .ok none
    | .ok (some st) =>
      match ← unload data st.sol with
      | .error e => return .error e
      | .ok solution => return .ok (some (solution, { ls with space := st.space, sol := st.sol }))

end
end PyVRP.Checked
