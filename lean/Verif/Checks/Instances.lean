import Verif.Model.Read
import Verif.Model.LocalSearch

/-!
# Instances of the test suite

The instances of `/repo/tests/data` that the checks in this directory use, as `vrplib` parses them,
and short ways of building objects with the default arguments of the Python constructors. The checks
compare values computed by the model with the values that the test suite of the project expects of
the code. They are tests of the model, not theorems about it: they show that the model does what the
code does in these cases.
-/
namespace PyVRP.Checks

/-- The value of a call which does not raise. -/
def get {α : Type} [Inhabited α] : Except Error α → α
  | .ok x => x
  | .error _ => default

def C (idx : Nat) : Activity := ⟨.client, idx⟩
def D (idx : Nat) : Activity := ⟨.depot, idx⟩
def L (idx : Nat) : Activity := ⟨.pickup, idx⟩
def U (idx : Nat) : Activity := ⟨.delivery, idx⟩

/-- `Client(location, ...)`. -/
def client (location : Nat) (delivery : List Int := []) (pickup : List Int := [])
    (twEarly : Int := 0) (twLate : Int := MAX) (releaseTime : Int := 0) (prize : Int := 0)
    (required : Bool := true) (group : Option Nat := none) : Client :=
  get (Client.make ⟨location, delivery, pickup, 0, twEarly, twLate, releaseTime, prize, required, group, ""⟩)

/-- `Depot(location, ...)`. -/
def depot (location : Nat) (serviceDuration : Int := 0) : Depot :=
  get (Depot.make ⟨location, 0, MAX, serviceDuration, ""⟩)

/-- `VehicleType(...)`. -/
def vehicleType (a : VehicleTypeArgs) : VehicleType := get (VehicleType.make a)

/-- A matrix from its rows. -/
def matrix (rows : List (List Int)) : Matrix := ⟨rows.length, rows.length, rows.flatten⟩

/-- `np.zeros((n, n), dtype=int)`. -/
def zeros (n : Nat) : Matrix := ⟨n, n, List.replicate (n * n) 0⟩

/-- `np.where(np.eye(n), 0, x)`. -/
def off (n : Nat) (x : Int) : Matrix :=
  matrix ((List.range n).map fun i => (List.range n).map fun j => if i = j then 0 else x)

/-- `ProblemData(...)`, where all locations are at the origin. -/
def problem (locations : Nat) (clients : List Client) (depots : List Depot) (types : List VehicleType)
    (dist dur : Matrix) (groups : List ClientGroup := []) : ProblemData :=
  get (ProblemData.make ⟨List.replicate locations ⟨0, 0, ""⟩, clients, depots, types, [dist], [dur], groups, []⟩)

/-- `CostEvaluator(load_penalties, tw_penalty, dist_penalty)`. -/
def cost (load : List Int) (tw dist : Int) : CostEvaluator := ⟨load.map (· * ·), (tw * ·), (dist * ·)⟩

/-- `tests/data/OkSmall.txt`. -/
def okSmallFile : Vrplib :=
  { dimension := 5
    depot := some [0]
    vehicles := some 3
    capacity := some (.one 10)
    nodeCoord := some [(2334, 726), (226, 1297), (590, 530), (435, 718), (1191, 639)]
    edgeWeight := [[0, 1544, 1944, 1931, 1476], [1726, 0, 1992, 1427, 1593], [1965, 1975, 0, 621, 1090],
      [2063, 1433, 647, 0, 818], [1475, 1594, 1090, 828, 0]]
    demand := some (.flat [0, 5, 5, 3, 5])
    timeWindow := some [(0, 45000), (15600, 22500), (12000, 19500), (8400, 15300), (12000, 19500)]
    serviceTime := some (.many [0, 360, 360, 420, 360]) }

/-- `tests/data/SmallShipments.txt`. -/
def smallShipmentsFile : Vrplib :=
  { dimension := 9
    type := "PDPTW"
    depot := some [0]
    vehicles := some 2
    capacity := some (.one 50)
    nodeCoord := some [(70, 70), (33, 78), (59, 52), (10, 137), (4, 28), (25, 26), (86, 37), (1, 109), (6, 135)]
    edgeWeight := [
      [0, 3785, 2109, 8993, 7823, 6293, 3667, 7925, 9122],
      [3785, 0, 3677, 6332, 5780, 5261, 6700, 4455, 6307],
      [2109, 3677, 0, 9811, 6000, 4280, 3088, 8132, 9847],
      [8993, 6332, 9811, 0, 10916, 11200, 12560, 2941, 447],
      [7823, 5780, 6000, 10916, 0, 2109, 8249, 8105, 10701],
      [6293, 5261, 4280, 11200, 2109, 0, 6198, 8640, 11064],
      [3667, 6700, 3088, 12560, 8249, 6198, 0, 11139, 12650],
      [7925, 4455, 8132, 2941, 8105, 8640, 11139, 0, 2647],
      [9122, 6307, 9847, 447, 10701, 11064, 12650, 2647, 0]]
    pickupDelivery := some [⟨0, 0, 135100, 0, 0, 0⟩, ⟨-20, 7500, 80900, 900, 3, 0⟩, ⟨20, 12800, 17900, 900, 0, 2⟩,
      ⟨30, 14700, 21900, 900, 0, 5⟩, ⟨-30, 61600, 66100, 900, 4, 0⟩, ⟨20, 47800, 53100, 900, 0, 7⟩,
      ⟨-20, 55300, 60200, 900, 6, 0⟩, ⟨-20, 61600, 68000, 900, 9, 0⟩, ⟨20, 35100, 38600, 900, 0, 8⟩] }

/-- `read(where)` with the default rounding function. -/
def read (file : Vrplib) : ProblemData := (get (Read.read file)).1

def okSmall : ProblemData := read okSmallFile

/-- `tests/data/OkSmallMultipleTrips.txt`. -/
def okSmallMultipleTrips : ProblemData :=
  read { okSmallFile with maxReloads := some [1, 1, 1], reloadDepot := some (.rows [[1], [], [1]]) }

/-- `tests/data/OkSmallWaitTime.txt`. -/
def okSmallWaitTime : ProblemData :=
  read { okSmallFile with
    timeWindow := some [(0, 45000), (15600, 22500), (12000, 15000), (8400, 15300), (18000, 19500)] }

/-- `tests/data/OkSmallReleaseTimes.txt`. -/
def okSmallReleaseTimes : ProblemData :=
  read { okSmallFile with releaseTime := some (.many [0, 20000, 5000, 5000, 1000]) }

/-- `tests/data/OkSmallPrizes.txt`. -/
def okSmallPrizes : ProblemData := read { okSmallFile with prize := some [0, 0, 15, 10, 10] }

/-- `tests/data/OkSmallMutuallyExclusiveGroups.txt`. -/
def okSmallGroups : ProblemData := read { okSmallFile with groups := some (.rows [[2, 3, 4], [5]]) }

/-- `tests/data/OkSmallMultipleDepots.txt`. -/
def okSmallMultipleDepots : ProblemData :=
  read { okSmallFile with
    depot := some [0, 1]
    demand := some (.flat [0, 0, 5, 3, 5])
    timeWindow := some [(0, 45000), (5000, 20000), (12000, 19500), (8400, 15300), (12000, 19500)]
    serviceTime := some (.many [0, 0, 360, 420, 360])
    vehiclesDepot := some [1, 1, 2] }

/-- `tests/data/OkSmallMultipleLoad.txt`. -/
def okSmallMultipleLoad : ProblemData :=
  read { okSmallFile with
    demand := some (.rows [[0, 0], [5, 1], [5, 1], [3, 1], [5, 2]])
    capacity := some (.table (.rows [[10, 2], [10, 2], [10, 2]])) }

def smallShipments : ProblemData := read smallShipmentsFile

/-- `ok_small_overtime` (`tests/conftest.py` 147-162). -/
def okSmallOvertime : ProblemData :=
  get (okSmall.replace { vehicleTypes := some [get ((okSmall.vehicleType 0).replace {
    shiftDuration := some 5000, maxOvertime := some 1000, unitDistanceCost := some 0
    unitDurationCost := some 1, unitOvertimeCost := some 10 })] })

/-- `ok_small_two_profiles` (`tests/conftest.py` 127-143). -/
def okSmallTwoProfiles : ProblemData :=
  let twice : Matrix → Matrix := fun m => { m with data := m.data.map (2 * ·) }
  get (okSmall.replace {
    durs := some (okSmall.durs ++ okSmall.durs.map twice)
    dists := some (okSmall.dists ++ okSmall.dists.map twice)
    vehicleTypes := some [vehicleType { numAvailable := 3, capacity := [10], profile := 0 },
      vehicleType { numAvailable := 3, capacity := [10], profile := 1 }] })

/-- `small_optional_shipments` (`tests/conftest.py` 173-198). -/
def smallOptionalShipments : ProblemData :=
  let shipments := (smallShipments.shipments.zip [10000, 2000, 10000, 1000]).map fun p =>
    get (Shipment.make { p.1 with prize := p.2, required := false })
  get (smallShipments.replace { shipments := some shipments })

/-- Other vehicle types (`data.replace(vehicle_types=...)`). -/
def withTypes (data : ProblemData) (types : List VehicleTypeArgs) : ProblemData :=
  get (data.replace { vehicleTypes := some (types.map vehicleType) })

/-- The first vehicle type changed (`data.vehicle_type(0).replace(...)`). -/
def withType (data : ProblemData) (r : VehicleTypeReplace) : ProblemData :=
  get (data.replace { vehicleTypes := some [get ((data.vehicleType 0).replace r)] })

/-- Other clients (`data.replace(clients=...)`). -/
def withClients (data : ProblemData) (clients : List Client) : ProblemData :=
  get (data.replace { clients := some clients })

/-! ## Solutions of the local search -/

/-- A solution with the given activities in routes (`make_search_route` in `tests/helpers.py`). -/
def routes (data : ProblemData) (rs : List (Nat × List Activity)) : SSol :=
  rs.foldl (fun s p =>
    match s.pushAll data p.1 p.2 with
    | .ok s => s.updateRoute data p.1
    | .error _ => s) (SSol.new data)

/-- Consecutive routes. -/
def sol (data : ProblemData) (rs : List (List Activity)) : SSol :=
  routes data (rs.zipIdx.map fun p => (p.2, p.1))

/-- The activities of a route between its depots. -/
def acts (s : SSol) (idx : Nat) : List Activity := ((s.route idx).nodes.map (·.activity)).tail.dropLast

def distance (s : SSol) (idx : Nat) : Int := (s.route idx).distance_

/-- `op.evaluate(U, V, cost_eval)`. -/
def eval (op : BinaryOp) (data : ProblemData) (ce : CostEvaluator) (s : SSol) (u : Activity) (v : NodeRef) :
    Int × Bool :=
  let r := (op.evaluate data ce s (op.init data) u v).1
  (r.cost, r.apply)

/-- `op.evaluate(U, V, cost_eval)`, `op.apply(U, V)` and `route.update()` for each route. -/
def applied (op : BinaryOp) (data : ProblemData) (ce : CostEvaluator) (s : SSol) (u : Activity) (v : NodeRef) :
    SSol :=
  let r := (op.evaluate data ce s (op.init data) u v).1
  match op.apply data s u v r.move with
  | .ok s => (List.range s.routes.length).foldl (·.updateRoute data ·) s
  | .error _ => SSol.new data

/-- `op.evaluate(U, cost_eval)`. -/
def eval1 (op : UnaryOp) (data : ProblemData) (ce : CostEvaluator) (s : SSol) (u : Activity) : Int × Bool :=
  let r := op.evaluate data ce s u
  (r.cost, r.apply)

/-- `op.evaluate(U, cost_eval)`, `op.apply(U)` and `route.update()` for each route. -/
def applied1 (op : UnaryOp) (data : ProblemData) (ce : CostEvaluator) (s : SSol) (u : Activity) : SSol :=
  let r := op.evaluate data ce s u
  match op.apply data s u r.move with
  | .ok s => (List.range s.routes.length).foldl (·.updateRoute data ·) s
  | .error _ => SSol.new data

end PyVRP.Checks
