import Verif.Model.Proposal
import Verif.Model.SearchSolution
import Verif.Model.SearchSpace
/-!
# `pyvrp/cpp/search/Solution.cpp`: inserting clients and shipments

A node is named by the index of its route and its position there.
-/
namespace PyVRP

/-- `IncrementalSegmentBetween` (`search/Solution.cpp` 26-42): the positions it covers, and the stored
duration and load segments. -/
structure IncBetween where
  start : Nat
  finish : Nat
  duration : DurSeg
  loads : List LoadSeg

namespace IncBetween

/-- The constructor (`search/Solution.cpp` 44-54). -/
def new (data : ProblemData) (r : SRoute) (pos : Nat) : IncBetween :=
  let segment := r.between data pos pos
  { start := pos
    finish := pos
    duration := segment.duration (data.vehicleType r.vehicleType).profile
    loads := (List.range data.numLoadDimensions).map segment.load }

/-- `operator++` (`search/Solution.cpp` 56-81). -/
def next (data : ProblemData) (r : SRoute) (b : IncBetween) : IncBetween :=
  let profile := (data.vehicleType r.vehicleType).profile
  let last := b.finish + 1
  let item := r.at data last
  { start := b.start
    finish := last
    duration := DurSeg.merge (data.dur profile (r.locations.getD b.finish 0) item.frontLoc)
      b.duration (item.duration profile)
    loads := (List.range b.loads.length).map
      (fun dim => LoadSeg.merge (b.loads.getD dim {}) (item.load dim)) }

/-- The segment (`search/Solution.cpp` 83-94): as `SegmentBetween`, but with the stored duration and
load segments. -/
def seg (data : ProblemData) (r : SRoute) (b : IncBetween) : Seg :=
  let segment := r.between data b.start b.finish
  { frontActivity := segment.frontActivity
    frontLoc := segment.frontLoc
    backActivity := segment.backActivity
    backLoc := segment.backLoc
    size := segment.size
    numClients := segment.numClients
    numPickups := segment.numPickups
    startsAtReloadDepot := segment.startsAtReloadDepot
    endsAtReloadDepot := segment.endsAtReloadDepot
    distance := segment.distance
    duration := fun _ => b.duration
    load := fun dim => b.loads.getD dim {} }

end IncBetween

namespace SSol

/-- `solution[activity]->route()` and `solution[activity]->pos()`: the route and position of the
node of a client, pickup or delivery, if it is in a route. -/
def place (s : SSol) (a : Activity) : Option (Nat × Nat) :=
  match s.owner a with
  | none => none
  | some idx =>
    some (idx, (((s.route idx).nodes.find? (fun n => n.activity == a)).getD default).pos)

/-- `insertCost` (`search/Solution.cpp` 96-115): the client is inserted after the node at `node`. -/
def insertCost (data : ProblemData) (ce : CostEvaluator) (s : SSol) (client : Nat)
    (node : Nat × Nat) : Int :=
  let r := s.route node.1
  (ce.deltaCost true data (-(data.client client).prize)
    ⟨r, r.before node.2, [Seg.client data client, r.after (node.2 + 1)]⟩).1

/-- A place to insert a client, and its cost: `UAfter` and `bestCost` in `insert`. -/
structure ClientSpot where
  node : Nat × Nat
  cost : Int
deriving DecidableEq, Repr

/-- The loop over neighbours in `insert` (`search/Solution.cpp` 249-263). -/
def clientNeighbours (data : ProblemData) (ce : CostEvaluator) (s : SSol) (client : Nat) :
    List Activity → ClientSpot → ClientSpot
  | [], best => best
  | v :: rest, best =>
    match s.place v with
    | none => clientNeighbours data ce s client rest best
    | some node =>
      let cost := s.insertCost data ce client node
      clientNeighbours data ce s client rest (if cost < best.cost then ⟨node, cost⟩ else best)

/-- `std::find_if` for an empty route of a vehicle type (`search/Solution.cpp` 269-275). -/
def firstEmpty (data : ProblemData) (s : SSol) (vehType offset : Nat) : Option Nat :=
  (List.range' offset (data.vehicleType vehType).numAvailable).find? (fun i => (s.route i).empty)

/-- The loop over vehicle types in `insert` (`search/Solution.cpp` 267-284): stops at the first
improvement. -/
def clientEmpty (data : ProblemData) (ce : CostEvaluator) (s : SSol) (client : Nat) :
    List (Nat × Nat) → ClientSpot → ClientSpot
  | [], best => best
  | (vehType, offset) :: rest, best =>
    match s.firstEmpty data vehType offset with
    | none => clientEmpty data ce s client rest best
    | some idx =>
      let cost := s.insertCost data ce client (idx, 0)
      if cost < best.cost then ⟨(idx, 0), cost⟩ else clientEmpty data ce s client rest best

/-- `insert(U, searchSpace, costEvaluator, required)` for a client (`search/Solution.cpp` 237-294):
the new solution and the returned value. -/
def insertClient (data : ProblemData) (ce : CostEvaluator) (space : SearchSpace) (s : SSol)
    (client : Nat) (required : Bool) : Except Error (SSol × Bool) :=
  match space.neighboursOf ⟨.client, client⟩ with
  | .error e => .error e
  | .ok neighbours =>
    let best : ClientSpot := ⟨(0, 0), s.insertCost data ce client (0, 0)⟩
    let best := s.clientNeighbours data ce client neighbours best
    let best := s.clientEmpty data ce client space.vehTypeOrder best
    if required || decide (best.cost < 0) then
      match s.insertAt data best.node.1 (best.node.2 + 1) ⟨.client, client⟩ with
      | .error e => .error e
      | .ok s => .ok (s, true)
    else .ok (s, false)

/-- A place to insert a shipment, and its cost: the pickup comes after `pickupAfter`, and the delivery
at `deliveryPos`, before the pickup is inserted. -/
structure ShipmentSpot where
  route : Nat
  pickupAfter : Nat
  deliveryPos : Nat
  cost : Int
deriving DecidableEq, Repr

/-- `if (deltaCost < bestCost) {...}` (`search/Solution.cpp` 337-342, 355-361, 382-388). -/
def ShipmentSpot.better (new best : ShipmentSpot) : ShipmentSpot :=
  if new.cost < best.cost then new else best

/-- The delivery directly after the pickup, which comes after the node at `(idx, pos)`
(`search/Solution.cpp` 329-342, 374-388). -/
def shipmentDirect (data : ProblemData) (ce : CostEvaluator) (s : SSol) (shipment idx pos : Nat) :
    ShipmentSpot :=
  let r := s.route idx
  { route := idx, pickupAfter := pos, deliveryPos := pos + 1
    cost := (ce.deltaCost true data (-(data.shipment shipment).prize)
      ⟨r, r.before pos, [Seg.pickup data shipment, Seg.delivery data shipment, r.after (pos + 1)]⟩).1 }

/-- The loop over the nodes after which to deliver (`search/Solution.cpp` 344-362); `nodes` are the
nodes of the route from the current one on, and `next` is the current one's position. -/
def shipmentLater (data : ProblemData) (ce : CostEvaluator) (s : SSol) (shipment idx pos : Nat) :
    List SNode → Nat → IncBetween → ShipmentSpot → ShipmentSpot
  | [], _, _, best => best
  | n :: nodes, next, between, best =>
    if n.isDepot then best
    else
      let r := s.route idx
      let cost := (ce.deltaCost true data (-(data.shipment shipment).prize)
        ⟨r, r.before pos, [Seg.pickup data shipment, between.seg data r,
          Seg.delivery data shipment, r.after (next + 1)]⟩).1
      shipmentLater data ce s shipment idx pos nodes (next + 1) (between.next data r)
        (ShipmentSpot.better ⟨idx, pos, next + 1, cost⟩ best)

/-- The body of the loop over `p(neighbour)` and `neighbour` (`search/Solution.cpp` 326-363): the
pickup comes after the node at `(idx, pos)`. -/
def shipmentAfter (data : ProblemData) (ce : CostEvaluator) (s : SSol) (shipment idx pos : Nat)
    (best : ShipmentSpot) : ShipmentSpot :=
  let r := s.route idx
  let best := ShipmentSpot.better (s.shipmentDirect data ce shipment idx pos) best
  s.shipmentLater data ce shipment idx pos (r.nodes.drop (pos + 1)) (pos + 1)
    (IncBetween.new data r (pos + 1)) best

/-- The loop over neighbours (`search/Solution.cpp` 315-364). -/
def shipmentNeighbours (data : ProblemData) (ce : CostEvaluator) (s : SSol) (shipment : Nat) :
    List Activity → ShipmentSpot → ShipmentSpot
  | [], best => best
  | v :: rest, best =>
    match s.place v with
    | none => shipmentNeighbours data ce s shipment rest best
    | some (idx, pos) =>
      let best := s.shipmentAfter data ce shipment idx (pos - 1) best
      let best := s.shipmentAfter data ce shipment idx pos best
      shipmentNeighbours data ce s shipment rest best

/-- The loop over vehicle types (`search/Solution.cpp` 368-390): stops at the first improvement. -/
def shipmentEmpty (data : ProblemData) (ce : CostEvaluator) (s : SSol) (shipment : Nat) :
    List (Nat × Nat) → ShipmentSpot → ShipmentSpot
  | [], best => best
  | (vehType, offset) :: rest, best =>
    match s.firstEmpty data vehType offset with
    | none => shipmentEmpty data ce s shipment rest best
    | some idx =>
      let spot := s.shipmentDirect data ce shipment idx 0
      if spot.cost < best.cost then spot else shipmentEmpty data ce s shipment rest best

/-- `insert(pickup, delivery, searchSpace, costEvaluator, required)` (`search/Solution.cpp` 296-401). -/
def insertShipment (data : ProblemData) (ce : CostEvaluator) (space : SearchSpace) (s : SSol)
    (shipment : Nat) (required : Bool) : Except Error (SSol × Bool) :=
  match space.neighboursOf ⟨.pickup, shipment⟩ with
  | .error e => .error e
  | .ok neighbours =>
    let best : ShipmentSpot := ⟨0, 0, 1, MAX⟩
    let best := s.shipmentNeighbours data ce shipment neighbours best
    let best := s.shipmentEmpty data ce shipment space.vehTypeOrder best
    if required || decide (best.cost < 0) then
      match s.insertAt data best.route best.deliveryPos ⟨.delivery, shipment⟩ with
      | .error e => .error e
      | .ok s =>
        match s.insertAt data best.route (best.pickupAfter + 1) ⟨.pickup, shipment⟩ with
        | .error e => .error e
        | .ok s => .ok (s, true)
    else .ok (s, false)

/-- `penalisedCost` of a search solution (`search/Solution.cpp` 410-429). -/
def _root_.PyVRP.CostEvaluator.penalisedCostSSol (ce : CostEvaluator) (data : ProblemData) (s : SSol) :
    Int :=
  ((List.range data.numClients).map (fun i =>
      if s.owner ⟨.client, i⟩ = none then (data.client i).prize else 0)).sum
    + ((List.range data.numShipments).map (fun i =>
      if s.owner ⟨.pickup, i⟩ = none then (data.shipment i).prize else 0)).sum
    + (s.routes.map (ce.penalisedCostSearch data)).sum

end SSol
end PyVRP
