import Verif.Model.Route
import Verif.Model.CostEvaluator
/-!
# `pyvrp/cpp/search/Route.h` and `Route.cpp`: routes of the local search

Nodes are values here: a node is an activity with its position and trip, and says whether it is
`depots_[0]` (the start depot), `depots_[1]` (the end depot), or any other node. In the code a
route holds pointers to nodes, and a node points back to its route; a node that is in the list of a
route has its `route_` set to that route.
-/
namespace PyVRP

/-- Which node it is: the comparisons with `&depots_[0]` and `&depots_[1]` in `isStartDepot` and
`isEndDepot` (`search/Route.h` 709-717). -/
inductive Role where
  | start | finish | inner
deriving DecidableEq, Repr, Inhabited

/-- `Route::Node` (`search/Route.h` 134-223). -/
structure SNode where
  activity : Activity
  role : Role := .inner
  pos : Nat := 0
  trip : Nat := 0
deriving DecidableEq, Repr, Inhabited

namespace SNode

def isClient (n : SNode) : Bool := n.activity.isClient
def isDepot (n : SNode) : Bool := n.activity.isDepot
def isPickup (n : SNode) : Bool := n.activity.isPickup
def isDelivery (n : SNode) : Bool := n.activity.isDelivery
def isShipment (n : SNode) : Bool := n.activity.isShipment

/-- `isStartDepot` (`search/Route.h` 709-712). -/
def isStartDepot (n : SNode) : Bool := n.role == .start

/-- `isEndDepot` (`search/Route.h` 714-717). -/
def isEndDepot (n : SNode) : Bool := n.role == .finish

/-- `isReloadDepot` (`search/Route.h` 719-722). -/
def isReloadDepot (n : SNode) : Bool := n.isDepot && !n.isStartDepot && !n.isEndDepot

end SNode

/-- A loop `for (idx = 1; idx != size; ++idx) arr[idx] = f(nodes[idx - 1], arr[idx - 1],
nodes[idx])`, where `arr[0] = b`, and `n` is the node at index 0. -/
def scanNodes {β : Type} (f : SNode → β → SNode → β) (n : SNode) (b : β) : List SNode → List β
  | [] => [b]
  | m :: rest => b :: scanNodes f m (f n b m) rest

/-- A loop `for (next = size - 1; next != 0; --next) arr[next - 1] = f(nodes[next - 1],
nodes[next], arr[next])`, where `last` gives the value at the last index. -/
def scanNodesBack {β : Type} [Inhabited β] (f : SNode → SNode → β → β) (last : SNode → β) :
    List SNode → List β
  | [] => []
  | [n] => [last n]
  | n :: m :: rest =>
    let tail := scanNodesBack f last (m :: rest)
    f n m (tail.headD default) :: tail

instance : Inhabited DurSeg := ⟨{}⟩
instance : Inhabited LoadSeg := ⟨{}⟩

/-- `search::Route` (`search/Route.h` 319-366): the vehicle type's index, the nodes, and the cached
statistics. The matrices `loadAt`, `loadAfter`, `loadBefore` are lists of rows, one for each load
dimension. `depots_` consists of those nodes that are depots. -/
structure SRoute where
  vehicleType : Nat
  nodes : List SNode
  locations : List Nat := []
  numClients_ : List Nat := []
  numPickups_ : List Nat := []
  numDeliveries_ : List Nat := []
  cumDist : List Int := []
  durAt : List DurSeg := []
  durAfter : List DurSeg := []
  durBefore : List DurSeg := []
  loadAt : List (List LoadSeg) := []
  loadAfter : List (List LoadSeg) := []
  loadBefore : List (List LoadSeg) := []
  load_ : List Int := []
  excessLoad_ : List Int := []
  distance_ : Int := 0
  distanceCost_ : Int := 0
  excessDistance_ : Int := 0
  duration_ : Int := 0
  durationCost_ : Int := 0
  timeWarp_ : Int := 0
deriving DecidableEq, Repr

namespace SRoute

/-! ## The loops of `update` -/

/-- Counters `numClients_`, `numPickups_` and `numDeliveries_` (`search/Route.cpp` 218-235). -/
def counts (p : SNode → Bool) : List SNode → List Nat
  | [] => []
  | n :: rest => scanNodes (fun _ c m => c + if p m then 1 else 0) n 0 rest

/-- `cumDist` (`search/Route.cpp` 237-244). -/
def cumDists (data : ProblemData) (v : VehicleType) : List SNode → List Int
  | [] => []
  | n :: rest =>
    scanNodes (fun prev d m => d + data.dist v.profile (data.locationOf prev.activity)
      (data.locationOf m.activity)) n 0 rest

/-- `durAt[idx]` (`search/Route.cpp` 246-280). -/
def durAtOf (data : ProblemData) (v : VehicleType) (n : SNode) : DurSeg :=
  match n.role with
  | .start =>
    let start := data.depot v.startDepot
    DurSeg.merge 0 (DurSeg.ofVehicle v v.startLate) (DurSeg.ofDepot start start.serviceDuration)
  | .finish =>
    DurSeg.merge 0 (DurSeg.ofDepot (data.depot v.endDepot) 0) (DurSeg.ofVehicle v v.twLate)
  | .inner =>
    match n.activity.type with
    | .depot => DurSeg.ofDepot (data.depot n.activity.idx) 0
    | .client => DurSeg.ofClient (data.client n.activity.idx)
    | .pickup => DurSeg.ofStep (data.shipment n.activity.idx).pickup
    | .delivery => DurSeg.ofStep (data.shipment n.activity.idx).delivery

/-- `durBefore[idx]` given `durBefore[idx - 1]` (`search/Route.cpp` 286-303). -/
def durBeforeStep (data : ProblemData) (v : VehicleType) (prev : SNode) (before : DurSeg)
    (n : SNode) : DurSeg :=
  let before := if prev.isReloadDepot then before.finaliseBack else before
  let before :=
    if prev.isReloadDepot then
      DurSeg.merge 0 before { duration_ := (data.depot prev.activity.idx).serviceDuration }
    else before
  let edgeDur := data.dur v.profile (data.locationOf prev.activity) (data.locationOf n.activity)
  DurSeg.merge edgeDur before (durAtOf data v n)

/-- `durBefore` (`search/Route.cpp` 284-303). -/
def durBefores (data : ProblemData) (v : VehicleType) : List SNode → List DurSeg
  | [] => []
  | n :: rest => scanNodes (durBeforeStep data v) n (durAtOf data v n) rest

/-- `durAfter[idx]` given `durAfter[next]` (`search/Route.cpp` 307-326). -/
def durAfterStep (data : ProblemData) (v : VehicleType) (n next : SNode) (after : DurSeg) :
    DurSeg :=
  let after := if next.isReloadDepot then after.finaliseFront else after
  let after :=
    if n.isReloadDepot then
      DurSeg.merge 0 { duration_ := (data.depot n.activity.idx).serviceDuration } after
    else after
  let edgeDur := data.dur v.profile (data.locationOf n.activity) (data.locationOf next.activity)
  DurSeg.merge edgeDur (durAtOf data v n) after

/-- `durAfter` (`search/Route.cpp` 305-326). -/
def durAfters (data : ProblemData) (v : VehicleType) (nodes : List SNode) : List DurSeg :=
  scanNodesBack (durAfterStep data v) (durAtOf data v) nodes

/-- `loadAt[dim][pos]` (`search/Route.cpp` 333-356). -/
def loadAtOf (data : ProblemData) (v : VehicleType) (dim : Nat) (n : SNode) : LoadSeg :=
  match n.role with
  | .start => LoadSeg.ofVehicle v dim
  | .finish => {}
  | .inner =>
    match n.activity.type with
    | .depot => {}
    | .client => LoadSeg.ofClient (data.client n.activity.idx) dim
    | .pickup => LoadSeg.ofShipment (data.shipment n.activity.idx) .pickup dim
    | .delivery => LoadSeg.ofShipment (data.shipment n.activity.idx) .delivery dim

/-- `loadBefore[dim][idx]` given the value at `idx - 1` (`search/Route.cpp` 360-369). -/
def loadBeforeStep (data : ProblemData) (v : VehicleType) (dim : Nat) (prev : SNode)
    (before : LoadSeg) (n : SNode) : LoadSeg :=
  if prev.isReloadDepot then
    LoadSeg.merge (before.finalise (v.capacity.getD dim 0)) (loadAtOf data v dim n)
  else LoadSeg.merge before (loadAtOf data v dim n)

/-- `loadBefore[dim]` (`search/Route.cpp` 358-369). -/
def loadBefores (data : ProblemData) (v : VehicleType) (dim : Nat) : List SNode → List LoadSeg
  | [] => []
  | n :: rest => scanNodes (loadBeforeStep data v dim) n (loadAtOf data v dim n) rest

/-- `loadAfter[dim][prev]` given the value at `idx` (`search/Route.cpp` 379-388). -/
def loadAfterStep (data : ProblemData) (v : VehicleType) (dim : Nat) (n next : SNode)
    (after : LoadSeg) : LoadSeg :=
  if next.isReloadDepot then
    LoadSeg.merge (loadAtOf data v dim n) (after.finalise (v.capacity.getD dim 0))
  else LoadSeg.merge (loadAtOf data v dim n) after

/-- `loadAfter[dim]` (`search/Route.cpp` 377-388). -/
def loadAfters (data : ProblemData) (v : VehicleType) (dim : Nat) (nodes : List SNode) :
    List LoadSeg :=
  scanNodesBack (loadAfterStep data v dim) (loadAtOf data v dim) nodes

/-- `load_[dim]` (`search/Route.cpp` 371-375): the loads of `loadBefore` at all depots but the
start depot. -/
def loadSum (nodes : List SNode) (before : List LoadSeg) : Int :=
  ((nodes.zip before).filter (fun p => p.1.isDepot && !p.1.isStartDepot)).foldl
    (fun acc p => acc + p.2.load) 0

/-- `update` (`search/Route.cpp` 189-407). -/
def update (data : ProblemData) (r : SRoute) : SRoute :=
  let v := data.vehicleType r.vehicleType
  let nodes := r.nodes
  let dims := List.range data.numLoadDimensions
  let cumDist := cumDists data v nodes
  let durAfter := durAfters data v nodes
  let loadBefore := dims.map (fun dim => loadBefores data v dim nodes)
  let distance := cumDist.getLastD 0
  let first := durAfter.headD {}
  let duration := first.duration
  { vehicleType := r.vehicleType
    nodes := nodes
    locations := nodes.map (fun n => data.locationOf n.activity)
    numClients_ := counts SNode.isClient nodes
    numPickups_ := counts SNode.isPickup nodes
    numDeliveries_ := counts SNode.isDelivery nodes
    cumDist := cumDist
    durAt := nodes.map (durAtOf data v)
    durAfter := durAfter
    durBefore := durBefores data v nodes
    loadAt := dims.map (fun dim => nodes.map (loadAtOf data v dim))
    loadAfter := dims.map (fun dim => loadAfters data v dim nodes)
    loadBefore := loadBefore
    load_ := loadBefore.map (loadSum nodes)
    excessLoad_ := dims.map (fun dim =>
      ((loadBefore.getD dim []).getLastD {}).excessLoad (v.capacity.getD dim 0))
    distance_ := distance
    distanceCost_ := v.unitDistanceCost * distance
    excessDistance_ := max (distance - v.maxDistance) 0
    duration_ := duration
    durationCost_ := v.unitDurationCost * duration
      + v.unitOvertimeCost * max (duration - v.shiftDuration) 0
    timeWarp_ := first.timeWarp v.maxDuration }

/-! ## Changing the nodes -/

/-- The nodes of an empty route (`search/Route.cpp` 72-82). -/
def emptyNodes (data : ProblemData) (vehicleType : Nat) : List SNode :=
  let v := data.vehicleType vehicleType
  [ { activity := { type := .depot, idx := v.startDepot }, role := .start, pos := 0, trip := 0 },
    { activity := { type := .depot, idx := v.endDepot }, role := .finish, pos := 1, trip := 1 } ]

/-- `Route(data, vehicleType)` (`search/Route.cpp` 32-43). -/
def new (data : ProblemData) (vehicleType : Nat) : SRoute :=
  update data { vehicleType := vehicleType, nodes := emptyNodes data vehicleType }

/-- `clear` (`search/Route.cpp` 62-86). -/
def clear (data : ProblemData) (r : SRoute) : SRoute :=
  if r.nodes.length = 2 then r
  else update data { r with nodes := emptyNodes data r.vehicleType }

/-- `numTrips` (`search/Route.h`): `depots_.size() - 1`. -/
def numTrips (r : SRoute) : Nat := (r.nodes.filter SNode.isDepot).length - 1

/-- The loop that renumbers the nodes from `pos` on (`search/Route.cpp` 119-124 and 153-158). -/
def renumber (trip : Nat → Nat) (pos : Nat) : List SNode → List SNode
  | [] => []
  | n :: rest => { n with pos := pos, trip := trip n.trip } :: renumber trip (pos + 1) rest

/-- `insert(idx, node)` (`search/Route.cpp` 90-129). The code asserts `0 < idx < size`. When the
exception is thrown, the code has already appended to `depots_`; the route is not used after the
exception here. -/
def insert (data : ProblemData) (r : SRoute) (idx : Nat) (a : Activity) : Except Error SRoute :=
  let depots := (r.nodes.filter SNode.isDepot).length + if a.isDepot then 1 else 0
  if depots - 1 > (data.vehicleType r.vehicleType).maxTrips then
    .error (.invalidArgument "Vehicle cannot perform this many trips.")
  else
    let node : SNode := { activity := a, pos := idx, trip := (r.nodes.getD (idx - 1) default).trip }
    .ok { r with
      nodes := r.nodes.take idx
        ++ renumber (fun t => if a.isDepot then t + 1 else t) idx (node :: r.nodes.drop idx) }

/-- `push_back(node)` (`search/Route.cpp` 131). -/
def pushBack (data : ProblemData) (r : SRoute) (a : Activity) : Except Error SRoute :=
  r.insert data (r.nodes.length - 1) a

/-- `remove(idx)` (`search/Route.cpp` 133-163). The code asserts `0 < idx < size - 1`. -/
def remove (r : SRoute) (idx : Nat) : SRoute :=
  let isDepot := (r.nodes.getD idx default).isReloadDepot
  { r with
    nodes := r.nodes.take idx
      ++ renumber (fun t => if isDepot then t - 1 else t) idx (r.nodes.drop (idx + 1)) }

/-- One half of `swap(first, second)` (`search/Route.cpp` 165-187): the node at position `idx` of
this route is replaced by a node with activity `a`, which takes over the position and trip. The
other half does the same in the other route (or the same route). -/
def put (r : SRoute) (idx : Nat) (a : Activity) : SRoute :=
  { r with nodes := r.nodes.modify idx (fun n => { n with activity := a }) }

/-- `swap(first, second)` for two nodes of the same route, at positions `i` and `j`
(`search/Route.cpp` 165-187). -/
def swap (r : SRoute) (i j : Nat) : SRoute :=
  (r.put i (r.nodes.getD j default).activity).put j (r.nodes.getD i default).activity

/-! ## Accessors (`search/Route.h` 955-1135) -/

/-- `size`. -/
def size (r : SRoute) : Nat := r.nodes.length
/-- `operator[]`. -/
def node (r : SRoute) (idx : Nat) : SNode := r.nodes.getD idx default
/-- `numClients`. -/
def numClients (r : SRoute) : Nat := r.numClients_.getLastD 0
/-- `numShipments`, `numPickups`. -/
def numShipments (r : SRoute) : Nat := r.numPickups_.getLastD 0
/-- `empty`. -/
def empty (r : SRoute) : Bool := r.numClients == 0 && r.numShipments == 0
/-- `numDepots`. -/
def numDepots (r : SRoute) : Nat := (r.nodes.filter SNode.isDepot).length
/-- `hasExcessLoad`. -/
def hasExcessLoad (r : SRoute) : Bool := r.excessLoad_.any (fun x => decide (x > 0))
/-- `hasExcessDistance`. -/
def hasExcessDistance (r : SRoute) : Bool := decide (r.excessDistance_ > 0)
/-- `hasTimeWarp`. -/
def hasTimeWarp (r : SRoute) : Bool := decide (r.timeWarp_ > 0)
/-- `isFeasible`. -/
def isFeasible (r : SRoute) : Bool := !r.hasExcessLoad && !r.hasTimeWarp && !r.hasExcessDistance
/-- `overtime`. -/
def overtime (data : ProblemData) (r : SRoute) : Int :=
  max (r.duration_ - (data.vehicleType r.vehicleType).shiftDuration) 0

/-- `hasDistanceCost` (`search/Route.h` 1036-1040). -/
def hasDistanceCost (data : ProblemData) (r : SRoute) : Bool :=
  let v := data.vehicleType r.vehicleType
  v.unitDistanceCost != 0 || v.maxDistance != MAX

/-- `hasDurationCost` (`search/Route.h` 1064-1073). -/
def hasDurationCost (data : ProblemData) (r : SRoute) : Bool :=
  let v := data.vehicleType r.vehicleType
  data.hasTimeWindows || v.unitDurationCost != 0 || (v.unitOvertimeCost != 0 && v.maxOvertime != 0)
    || v.maxDuration != MAX

end SRoute

/-- `CostEvaluator::penalisedCost(search::Route)` (`search/Route.h` 1340-1357). -/
def CostEvaluator.penalisedCostSearch (ce : CostEvaluator) (data : ProblemData) (r : SRoute) : Int :=
  if r.empty then 0
  else r.distanceCost_ + r.durationCost_ + (data.vehicleType r.vehicleType).fixedCost
    + ce.excessLoadPenalties r.excessLoad_ + ce.twPenalty r.timeWarp_
    + ce.distPenalty r.excessDistance_ 0

end PyVRP
