import Verif.Model.SearchRoute
import Verif.Model.Solution
/-!
# `pyvrp/cpp/search/Solution.h` and `Solution.cpp`: solutions of the local search

The code has one node for each client, and two for each shipment. A node has a pointer `route_` to
the route it is in, if any, and each route has a list of pointers to its nodes. Here a client's or
shipment's node is named by its activity; `clients` and `shipments` store the `route_` of these
nodes as an index into `routes`. The position and trip of a node are stored in the route's list of
nodes, see `Model/SearchRoute.lean`.
-/
namespace PyVRP

/-- `search::Solution` (`search/Solution.h` 32-46). -/
structure SSol where
  clients : List (Option Nat)
  shipments : List (Option Nat × Option Nat)
  routes : List SRoute
deriving DecidableEq, Repr

namespace SSol

/-- `solution[activity]->route()` (`search/Solution.h` 79-95). There is no such node for a depot. -/
def owner (s : SSol) (a : Activity) : Option Nat :=
  match a.type with
  | .depot => none
  | .client => s.clients.getD a.idx none
  | .pickup => (s.shipments.getD a.idx (none, none)).1
  | .delivery => (s.shipments.getD a.idx (none, none)).2

/-- `solution[activity]->route_ = route`: the effect of `assign` (`search/Route.cpp` 18-23) and
`unassign` (`search/Route.cpp` 25-30) on `route_`. -/
def setOwner (s : SSol) (a : Activity) (route : Option Nat) : SSol :=
  match a.type with
  | .depot => s
  | .client => { s with clients := s.clients.set a.idx route }
  | .pickup => { s with shipments := s.shipments.modify a.idx (fun p => (route, p.2)) }
  | .delivery => { s with shipments := s.shipments.modify a.idx (fun p => (p.1, route)) }

/-- `routes[idx]`. -/
def route (s : SSol) (idx : Nat) : SRoute := s.routes.getD idx { vehicleType := 0, nodes := [] }

/-- A change of `routes[idx]`. -/
def setRoute (s : SSol) (idx : Nat) (r : SRoute) : SSol := { s with routes := s.routes.set idx r }

/-- `Solution(data)` (`search/Solution.cpp` 139-157). -/
def new (data : ProblemData) : SSol :=
  { clients := List.replicate data.numClients none
    shipments := List.replicate data.numShipments (none, none)
    routes := (List.range data.numVehicleTypes).flatMap (fun vehType =>
      List.replicate (data.vehicleType vehType).numAvailable (SRoute.new data vehType)) }

/-- The loop over nodes in `Route::clear` (`search/Route.cpp` 67-69), for the route at `idx`. The
depots are not nodes of the solution; the loop unassigns them, too, but they are then deleted. -/
def unassignNodes (idx : Nat) (s : SSol) : List SNode → SSol
  | [] => s
  | n :: rest =>
    unassignNodes idx (if s.owner n.activity = some idx then s.setOwner n.activity none else s) rest

/-- `routes[idx].clear()` (`search/Route.cpp` 62-86). -/
def clearRoute (data : ProblemData) (s : SSol) (idx : Nat) : SSol :=
  let r := s.route idx
  if r.nodes.length = 2 then s
  else (unassignNodes idx s r.nodes).setRoute idx (r.clear data)

/-- `routes[idx].insert(pos, node)` (`search/Route.cpp` 90-129). -/
def insertAt (data : ProblemData) (s : SSol) (idx pos : Nat) (a : Activity) : Except Error SSol :=
  match (s.route idx).insert data pos a with
  | .error e => .error e
  | .ok r => .ok ((s.setOwner a (some idx)).setRoute idx r)

/-- `routes[idx].remove(pos)` (`search/Route.cpp` 133-163). -/
def removeAt (s : SSol) (idx pos : Nat) : SSol :=
  let r := s.route idx
  (s.setOwner (r.node pos).activity none).setRoute idx (r.remove pos)

/-- `routes[idx].update()`. -/
def updateRoute (data : ProblemData) (s : SSol) (idx : Nat) : SSol :=
  s.setRoute idx ((s.route idx).update data)

/-- The comparison of a route with one of the local search (`search/Solution.cpp` 117-136). -/
def sameRoute (r : Route) (s : SRoute) : Bool :=
  r.distance == s.distance_ && r.duration == s.duration_ && r.timeWarp == s.timeWarp_
    && r.vehicleType == s.vehicleType && r.size == s.size
    && r.schedule.map (·.activity) == s.nodes.map (·.activity)

/-- The initial `vehicleOffset` (`search/Solution.cpp` 161-167): each type's offset is that of the
previous type plus the number of vehicles of the previous type. -/
def loadOffsets : List VehicleType → Nat → List Nat
  | [], _ => []
  | v :: rest, offset => offset :: loadOffsets rest (offset + v.numAvailable)

/-- The loop over the activities of a route in `load` (`search/Solution.cpp` 184-195). -/
def pushAll (data : ProblemData) (idx : Nat) (s : SSol) : List Activity → Except Error SSol
  | [] => .ok s
  | a :: rest =>
    match s.insertAt data idx ((s.route idx).nodes.length - 1) a with
    | .error e => .error e
    | .ok s => pushAll data idx s rest

/-- The body of the first loop of `load` (`search/Solution.cpp` 175-197), for the route at `idx`. -/
def loadRoute (data : ProblemData) (s : SSol) (idx : Nat) (solRoute : Route) : Except Error SSol :=
  if sameRoute solRoute (s.route idx) then .ok s
  else
    match pushAll data idx (s.clearRoute data idx)
        ((solRoute.schedule.map (·.activity)).tail.dropLast) with
    | .error e => .error e
    | .ok s => .ok (s.updateRoute data idx)

/-- The first loop of `load` (`search/Solution.cpp` 169-198). `vehicleOffset[vehType]` out of range
is undefined behaviour in C++. -/
def loadRoutes (data : ProblemData) (s : SSol) (offsets : List Nat) :
    List Route → Except Error (SSol × List Nat)
  | [] => .ok (s, offsets)
  | r :: rest =>
    match loadRoute data s (offsets.getD r.vehicleType 0) r with
    | .error e => .error e
    | .ok s => loadRoutes data s (offsets.modify r.vehicleType (· + 1)) rest

/-- The loop over vehicle types in `load` (`search/Solution.cpp` 202-211). The loop over indices
from `vehicleOffset[vehType]` until `firstOfNextType` does not end if it starts beyond that. -/
def clearUnused (data : ProblemData) (s : SSol) (firstOfType : Nat) :
    List VehicleType → List Nat → SSol
  | v :: types, offset :: offsets =>
    let firstOfNextType := firstOfType + v.numAvailable
    let s := (List.range' offset (firstOfNextType - offset)).foldl (clearRoute data) s
    clearUnused data s firstOfNextType types offsets
  | _, _ => s

/-- `load` (`search/Solution.cpp` 159-212). -/
def load (data : ProblemData) (s : SSol) (sol : Solution) : Except Error SSol :=
  match loadRoutes data s (loadOffsets data.vehicleTypes 0) sol.routes with
  | .error e => .error e
  | .ok (s, offsets) => .ok (clearUnused data s 0 data.vehicleTypes offsets)

/-- The loop of `unload` (`search/Solution.cpp` 219-232). -/
def unloadRoutes (data : ProblemData) : List SRoute → Except Error (List Route)
  | [] => .ok []
  | r :: rest =>
    if r.empty then unloadRoutes data rest
    else
      match Route.make data ((r.nodes.map (·.activity)).tail.dropLast) r.vehicleType with
      | .error e => .error e
      | .ok route =>
        match unloadRoutes data rest with
        | .error e => .error e
        | .ok routes => .ok (route :: routes)

/-- `unload` (`search/Solution.cpp` 214-235). -/
def unload (data : ProblemData) (s : SSol) : Except Error Solution :=
  match unloadRoutes data s.routes with
  | .error e => .error e
  | .ok routes => Solution.make data routes

end SSol
end PyVRP
