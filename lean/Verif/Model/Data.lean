import Verif.Model.Measure
import Verif.Model.Activity
/-!
# Problem data: `Client`, `Depot`, `Shipment`, `ClientGroup`, `VehicleType`, `Matrix`, `ProblemData`

Constructors that may throw return `Except Error _`.  The free-form `name` fields
are kept (they take part in equality); memory management of the names is not
modelled.
-/
namespace PyVRP

/-- The exception classes thrown by the C++ constructors
(`std::invalid_argument` is `ValueError`, `std::out_of_range` is `IndexError` in
Python, `std::runtime_error` is `RuntimeError`). -/
inductive Error where
  | invalidArgument (msg : String)
  | outOfRange (msg : String)
  | runtimeError (msg : String)
deriving DecidableEq, Repr

deriving instance DecidableEq for Except

/-- One guarded `throw`: `if (cond) throw err;`. -/
def throwIf (cond : Prop) [Decidable cond] (err : Error) : Option Error :=
  if cond then some err else none

/-- The end of a constructor body: the object, unless one of the checks threw. -/
def checked {α : Type} (err : Option Error) (x : α) : Except Error α :=
  match err with
  | some e => .error e
  | none => .ok x

/-- `isNegative` / `any_of` over a load vector (`Client.cpp` 29, 57). -/
def anyNegative (l : List Int) : Bool := l.any (fun x => decide (x < 0))

/-- `pad` (`Client.cpp` 22-27, `VehicleType.cpp` 21-26): resize the first vector
to the size of the larger one, filling with zeroes. -/
def pad (v1 v2 : List Int) : List Int := v1 ++ List.replicate (v2.length - v1.length) 0

/-- `Location` (`Location.h` 40-57). -/
structure Location where
  x : Int
  y : Int
  name : String := ""
deriving DecidableEq, Repr, Inhabited

/-- `Client` fields (`Client.h`). -/
structure Client where
  location : Nat
  delivery : List Int
  pickup : List Int
  serviceDuration : Int
  twEarly : Int
  twLate : Int
  releaseTime : Int
  prize : Int
  required : Bool
  group : Option Nat
  name : String
deriving DecidableEq, Repr, Inhabited

/-- `Client::Client` (`Client.cpp` 32-80).  The arguments are passed as an
(unchecked) `Client`; the result has padded load vectors. -/
def Client.make (a : Client) : Except Error Client :=
  -- `pad` mutates its first argument, so the second call sees the padded vector.
  let delivery := pad a.delivery a.pickup
  let pickup := pad a.pickup delivery
  checked (
    throwIf (anyNegative delivery) (.invalidArgument "delivery amounts must be >= 0.")
    <|> throwIf (anyNegative pickup) (.invalidArgument "pickup amounts must be >= 0.")
    <|> throwIf (a.serviceDuration < 0) (.invalidArgument "service_duration must be >= 0.")
    <|> throwIf (a.twEarly > a.twLate) (.invalidArgument "tw_early must be <= tw_late.")
    <|> throwIf (a.twEarly < 0) (.invalidArgument "tw_early must be >= 0.")
    <|> throwIf (a.releaseTime > a.twLate) (.invalidArgument "release_time must be <= tw_late")
    <|> throwIf (a.releaseTime < 0) (.invalidArgument "release_time must be >= 0.")
    <|> throwIf (a.prize < 0) (.invalidArgument "prize must be >= 0."))
    { a with delivery := delivery, pickup := pickup }

/-- `Depot` fields (`Depot.h`). -/
structure Depot where
  location : Nat
  twEarly : Int
  twLate : Int
  serviceDuration : Int
  name : String
deriving DecidableEq, Repr, Inhabited

/-- `Depot::Depot` (`Depot.cpp` 22-41). -/
def Depot.make (a : Depot) : Except Error Depot :=
  checked (
    throwIf (a.serviceDuration < 0) (.invalidArgument "service_duration must be >= 0.")
    <|> throwIf (a.twEarly > a.twLate) (.invalidArgument "tw_early must be <= tw_late.")
    <|> throwIf (a.twEarly < 0) (.invalidArgument "tw_early must be >= 0."))
    a

/-- `Shipment::Step` fields (`Shipment.h`). -/
structure Step where
  location : Nat
  twEarly : Int
  twLate : Int
  serviceDuration : Int
deriving DecidableEq, Repr, Inhabited

/-- `Shipment::Step::Step` (`Shipment.cpp` 26-43). -/
def Step.make (a : Step) : Except Error Step :=
  checked (
    throwIf (a.serviceDuration < 0) (.invalidArgument "service_duration must be >= 0.")
    <|> throwIf (a.twEarly > a.twLate) (.invalidArgument "tw_early must be <= tw_late.")
    <|> throwIf (a.twEarly < 0) (.invalidArgument "tw_early must be >= 0."))
    a

/-- `Shipment` fields (`Shipment.h`). -/
structure Shipment where
  pickup : Step
  delivery : Step
  amount : List Int
  prize : Int
  required : Bool
  name : String
deriving DecidableEq, Repr, Inhabited

/-- `Shipment::Shipment` (`Shipment.cpp` 45-77): the two steps are constructed
(and checked) first. -/
def Shipment.make (a : Shipment) : Except Error Shipment :=
  match Step.make a.pickup with
  | .error e => .error e
  | .ok pickup =>
    match Step.make a.delivery with
    | .error e => .error e
    | .ok delivery =>
      checked (
        throwIf (delivery.twLate < pickup.twEarly)
          (.invalidArgument "delivery_tw_late must be >= pickup_tw_early.")
        <|> throwIf (anyNegative a.amount) (.invalidArgument "shipment amounts must be >= 0.")
        <|> throwIf (a.prize < 0) (.invalidArgument "prize must be >= 0."))
        { a with pickup := pickup, delivery := delivery }

/-- `ClientGroup` (`ClientGroup.h` 54-61).  `mutuallyExclusive` is the constant
`true`. -/
structure ClientGroup where
  clients : List Nat
  required : Bool
  name : String
deriving DecidableEq, Repr, Inhabited

/-- `ClientGroup::mutuallyExclusive` (`ClientGroup.h` 60). -/
def ClientGroup.mutuallyExclusive (_ : ClientGroup) : Bool := true

/-- `ClientGroup::addClient` (`ClientGroup.cpp` 74-80). -/
def ClientGroup.addClient (g : ClientGroup) (client : Nat) : Except Error ClientGroup :=
  if client ∈ g.clients then .error (.invalidArgument "Client already in group.")
  else .ok { g with clients := g.clients ++ [client] }

/-- The loop of the constructor, over an already filled group. -/
def ClientGroup.addAll (g : ClientGroup) : List Nat → Except Error ClientGroup
  | [] => .ok g
  | c :: cs =>
    match g.addClient c with
    | .error e => .error e
    | .ok g' => g'.addAll cs

/-- `ClientGroup::ClientGroup` (`ClientGroup.cpp` 22-29). -/
def ClientGroup.make (a : ClientGroup) : Except Error ClientGroup :=
  ClientGroup.addAll { a with clients := [] } a.clients

/-- `VehicleType` fields (`VehicleType.h` 150-171). -/
structure VehicleType where
  numAvailable : Nat
  startDepot : Nat
  endDepot : Nat
  capacity : List Int
  twEarly : Int
  twLate : Int
  shiftDuration : Int
  maxDistance : Int
  fixedCost : Int
  unitDistanceCost : Int
  unitDurationCost : Int
  profile : Nat
  startLate : Int
  initialLoad : List Int
  reloadDepots : List Nat
  maxReloads : Nat
  maxOvertime : Int
  unitOvertimeCost : Int
  maxDuration : Int
  name : String
deriving DecidableEq, Repr, Inhabited

/-- Arguments of the `VehicleType` constructor (`VehicleType.cpp` 31-49); the
defaults are those of the Python signature (`bindings.cpp` 506-530,
`VehicleType.h` 173-195). -/
structure VehicleTypeArgs where
  numAvailable : Nat := 1
  capacity : List Int := []
  startDepot : Nat := 0
  endDepot : Nat := 0
  fixedCost : Int := 0
  twEarly : Int := 0
  twLate : Int := MAX
  shiftDuration : Int := MAX
  maxDistance : Int := MAX
  unitDistanceCost : Int := 1
  unitDurationCost : Int := 0
  profile : Nat := 0
  startLate : Option Int := none
  initialLoad : List Int := []
  reloadDepots : List Nat := []
  maxReloads : Nat := 18446744073709551615
  maxOvertime : Int := 0
  unitOvertimeCost : Int := 0
  name : String := ""
deriving DecidableEq, Repr, Inhabited

/-- Initialisation of `maxDuration` (`VehicleType.cpp` 71-75). -/
def VehicleType.computeMaxDuration (shiftDuration maxOvertime : Int) : Int :=
  if shiftDuration ≥ 0 ∧ maxOvertime ≥ 0 ∧ maxOvertime < MAX - shiftDuration then
    shiftDuration + maxOvertime
  else MAX

/-- `VehicleType::VehicleType` (`VehicleType.cpp` 31-117). The loop at 108-110
compares the padded vectors (`pad` works in place on the constructor arguments). -/
def VehicleType.make (a : VehicleTypeArgs) : Except Error VehicleType :=
  let capacity := pad a.capacity a.initialLoad
  let startLate := a.startLate.getD a.twLate
  let initialLoad := pad a.initialLoad capacity
  checked (
    throwIf (a.numAvailable = 0) (.invalidArgument "num_available must be > 0.")
    <|> throwIf (anyNegative capacity) (.invalidArgument "capacity amounts must be >= 0.")
    <|> throwIf (a.twEarly > startLate) (.invalidArgument "tw_early must be <= start_late.")
    <|> throwIf (startLate > a.twLate) (.invalidArgument "start_late must be <= tw_late.")
    <|> throwIf (a.twEarly < 0) (.invalidArgument "tw_early must be >= 0.")
    <|> throwIf (a.shiftDuration < 0) (.invalidArgument "shift_duration must be >= 0.")
    <|> throwIf (a.maxDistance < 0) (.invalidArgument "max_distance must be >= 0.")
    <|> throwIf (a.unitDistanceCost < 0) (.invalidArgument "unit_distance_cost must be >= 0.")
    <|> throwIf (a.unitDurationCost < 0) (.invalidArgument "unit_duration_cost must be >= 0.")
    <|> throwIf (anyNegative initialLoad) (.invalidArgument "initial load amounts must be >= 0.")
    <|> throwIf ((initialLoad.zip capacity).any (fun p => decide (p.1 > p.2)))
        (.invalidArgument "initial load exceeds capacity.")
    <|> throwIf (a.maxOvertime < 0) (.invalidArgument "max_overtime must be >= 0.")
    <|> throwIf (a.unitOvertimeCost < 0) (.invalidArgument "unit_overtime_cost must be >= 0."))
    {
      numAvailable := a.numAvailable
      startDepot := a.startDepot
      endDepot := a.endDepot
      capacity := capacity
      twEarly := a.twEarly
      twLate := a.twLate
      shiftDuration := a.shiftDuration
      maxDistance := a.maxDistance
      fixedCost := a.fixedCost
      unitDistanceCost := a.unitDistanceCost
      unitDurationCost := a.unitDurationCost
      profile := a.profile
      startLate := startLate
      initialLoad := initialLoad
      reloadDepots := a.reloadDepots
      maxReloads := a.maxReloads
      maxOvertime := a.maxOvertime
      unitOvertimeCost := a.unitOvertimeCost
      maxDuration := computeMaxDuration a.shiftDuration a.maxOvertime
      name := a.name }

/-- Optional arguments of `VehicleType::replace` (`VehicleType.cpp` 171-189). -/
structure VehicleTypeReplace where
  numAvailable : Option Nat := none
  capacity : Option (List Int) := none
  startDepot : Option Nat := none
  endDepot : Option Nat := none
  fixedCost : Option Int := none
  twEarly : Option Int := none
  twLate : Option Int := none
  shiftDuration : Option Int := none
  maxDistance : Option Int := none
  unitDistanceCost : Option Int := none
  unitDurationCost : Option Int := none
  profile : Option Nat := none
  startLate : Option Int := none
  initialLoad : Option (List Int) := none
  reloadDepots : Option (List Nat) := none
  maxReloads : Option Nat := none
  maxOvertime : Option Int := none
  unitOvertimeCost : Option Int := none
  name : Option String := none
deriving DecidableEq, Repr, Inhabited

/-- `VehicleType::replace` (`VehicleType.cpp` 170-210). -/
def VehicleType.replace (v : VehicleType) (r : VehicleTypeReplace) : Except Error VehicleType :=
  VehicleType.make {
    numAvailable := r.numAvailable.getD v.numAvailable
    capacity := r.capacity.getD v.capacity
    startDepot := r.startDepot.getD v.startDepot
    endDepot := r.endDepot.getD v.endDepot
    fixedCost := r.fixedCost.getD v.fixedCost
    twEarly := r.twEarly.getD v.twEarly
    twLate := r.twLate.getD v.twLate
    shiftDuration := r.shiftDuration.getD v.shiftDuration
    maxDistance := r.maxDistance.getD v.maxDistance
    unitDistanceCost := r.unitDistanceCost.getD v.unitDistanceCost
    unitDurationCost := r.unitDurationCost.getD v.unitDurationCost
    profile := r.profile.getD v.profile
    startLate := some (r.startLate.getD v.startLate)
    initialLoad := r.initialLoad.getD v.initialLoad
    reloadDepots := r.reloadDepots.getD v.reloadDepots
    maxReloads := r.maxReloads.getD v.maxReloads
    maxOvertime := r.maxOvertime.getD v.maxOvertime
    unitOvertimeCost := r.unitOvertimeCost.getD v.unitOvertimeCost
    name := r.name.getD v.name }

/-- `VehicleType::maxTrips` (`VehicleType.cpp` 212-217), with the `size_t`
wrap-around of `maxReloads + 1`. -/
def VehicleType.maxTrips (v : VehicleType) : Nat :=
  if v.reloadDepots = [] then 1
  else max v.maxReloads ((v.maxReloads + 1) % 18446744073709551616)

/-- `Matrix<T>` (`Matrix.h`). -/
structure Matrix where
  rows : Nat
  cols : Nat
  data : List Int
deriving DecidableEq, Repr, Inhabited

/-- `Matrix::operator()` (`Matrix.h` 81-85).  Reading outside `data` is undefined
behaviour in C++; it does not happen for validated problem data, and yields 0
here. -/
def Matrix.get (m : Matrix) (row col : Nat) : Int := m.data.getD (m.cols * row + col) 0

/-- `ProblemData` (`ProblemData.h`): the constructor arguments and the derived fields
`numVehicles_`, `numLoadDimensions_`, `hasTimeWindows_` are functions below. -/
structure ProblemData where
  locations : List Location
  clients : List Client
  depots : List Depot
  vehicleTypes : List VehicleType
  dists : List Matrix
  durs : List Matrix
  groups : List ClientGroup
  shipments : List Shipment
deriving DecidableEq, Repr, Inhabited

namespace ProblemData

def numLocations (d : ProblemData) : Nat := d.locations.length
def numClients (d : ProblemData) : Nat := d.clients.length
def numDepots (d : ProblemData) : Nat := d.depots.length
def numGroups (d : ProblemData) : Nat := d.groups.length
def numShipments (d : ProblemData) : Nat := d.shipments.length
def numVehicleTypes (d : ProblemData) : Nat := d.vehicleTypes.length

/-- Element access (`ProblemData.h` 340-360, `ProblemData.cpp` 72-88).  Out of
range access is undefined behaviour in C++ (only an `assert`); here it yields a
default element. Users of these functions check the range first. -/
def client (d : ProblemData) (i : Nat) : Client := d.clients.getD i default
def depot (d : ProblemData) (i : Nat) : Depot := d.depots.getD i default
def shipment (d : ProblemData) (i : Nat) : Shipment := d.shipments.getD i default
def group (d : ProblemData) (i : Nat) : ClientGroup := d.groups.getD i default
def vehicleType (d : ProblemData) (i : Nat) : VehicleType := d.vehicleTypes.getD i default
/-- `distanceMatrix(profile)` / `durationMatrix(profile)` (`ProblemData.h`). -/
def dist (d : ProblemData) (profile i j : Nat) : Int := (d.dists.getD profile default).get i j
def dur (d : ProblemData) (profile i j : Nat) : Int := (d.durs.getD profile default).get i j

/-- `numVehicles_` (`ProblemData.cpp` 306-310). The accumulation type is `int`
in the code; overflow of `int` is not modelled. -/
def numVehicles (d : ProblemData) : Nat := (d.vehicleTypes.map (·.numAvailable)).sum

/-- `numLoadDimensions_` (`ProblemData.cpp` 311-319). -/
def numLoadDimensions (d : ProblemData) : Nat :=
  match d.vehicleTypes with
  | v :: _ => v.capacity.length
  | [] =>
    match d.clients with
    | c :: _ => c.delivery.length
    | [] =>
      match d.shipments with
      | s :: _ => s.amount.length
      | [] => 0

/-- `hasTimeWindow` for anything with a window only (`ProblemData.cpp` 29-38). -/
def hasTw (early late : Int) : Bool := early != 0 || late != MAX

/-- `hasTimeWindows_` (`ProblemData.cpp` 320-331). -/
def hasTimeWindows (d : ProblemData) : Bool :=
  d.clients.any (fun c => hasTw c.twEarly c.twLate)
  || d.depots.any (fun c => hasTw c.twEarly c.twLate)
  || d.vehicleTypes.any (fun v => hasTw v.twEarly v.twLate || v.startLate != MAX)
  || d.shipments.any (fun s =>
      hasTw s.pickup.twEarly s.pickup.twLate || hasTw s.delivery.twEarly s.delivery.twLate)

/-- `hasTimeOverlap` (`ProblemData.cpp` 23-27). -/
def hasTimeOverlap (e1 l1 e2 l2 : Int) : Bool := decide (e1 ≤ l2) && decide (l1 ≥ e2)

/-- Client checks, one iteration (`ProblemData.cpp` 117-151). -/
def clientError (d : ProblemData) (idx : Nat) (client : Client) : Option Error :=
  throwIf (client.location ≥ d.numLocations) (.outOfRange "Client references invalid location.")
  <|> throwIf (client.delivery.length ≠ d.numLoadDimensions)
      (.invalidArgument "Client has inconsistent delivery size.")
  <|> throwIf (client.pickup.length ≠ d.numLoadDimensions)
      (.invalidArgument "Client has inconsistent pickup size.")
  <|> (match client.group with
      | none => none
      | some g =>
        throwIf (g ≥ d.numGroups) (.outOfRange "Client references invalid group.")
        <|> throwIf (idx ∉ (d.group g).clients)
            (.invalidArgument "Client not in the group it references.")
        <|> throwIf (client.required = true ∧ (d.group g).mutuallyExclusive = true)
            (.invalidArgument "Required client in mutually exclusive group."))

/-- Group checks, one member (`ProblemData.cpp` 170-181). -/
def memberError (d : ProblemData) (idx client : Nat) : Option Error :=
  throwIf (client ≥ d.numClients) (.outOfRange "Group references invalid client.")
  <|> throwIf ((d.client client).group ≠ some idx)
      (.invalidArgument "Group references client not in group.")

/-- Group checks, one group (`ProblemData.cpp` 163-182). -/
def groupError (d : ProblemData) (idx : Nat) (group : ClientGroup) : Option Error :=
  throwIf (group.clients = []) (.invalidArgument "Empty client group not understood.")
  <|> group.clients.findSome? (d.memberError idx)

/-- Shipment checks (`ProblemData.cpp` 185-198). -/
def shipmentError (d : ProblemData) (s : Shipment) : Option Error :=
  throwIf (s.pickup.location ≥ d.numLocations)
      (.outOfRange "Shipment pickup references invalid location.")
  <|> throwIf (s.delivery.location ≥ d.numLocations)
      (.outOfRange "Shipment delivery references invalid location.")
  <|> throwIf (s.amount.length ≠ d.numLoadDimensions)
      (.invalidArgument "Shipment has inconsistent amount size.")

/-- Vehicle type checks (`ProblemData.cpp` 204-232). -/
def vehicleTypeError (d : ProblemData) (v : VehicleType) : Option Error :=
  throwIf (v.capacity.length ≠ d.numLoadDimensions)
      (.invalidArgument "Vehicle type has inconsistent capacity size.")
  <|> throwIf (v.startDepot ≥ d.numDepots) (.outOfRange "Vehicle type has invalid start depot.")
  <|> throwIf (v.endDepot ≥ d.numDepots) (.outOfRange "Vehicle type has invalid end depot.")
  <|> throwIf (v.profile ≥ d.dists.length) (.outOfRange "Vehicle type has invalid profile.")
  <|> throwIf (hasTimeOverlap (d.depot v.startDepot).twEarly (d.depot v.startDepot).twLate
        v.twEarly v.twLate = false)
      (.invalidArgument "Vehicle and its start depot have no overlapping time windows.")
  <|> throwIf (hasTimeOverlap (d.depot v.endDepot).twEarly (d.depot v.endDepot).twLate
        v.twEarly v.twLate = false)
      (.invalidArgument "Vehicle and its end depot have no overlapping time windows.")
  <|> v.reloadDepots.findSome? (fun depot =>
      throwIf (depot ≥ d.numDepots) (.outOfRange "Vehicle has invalid reload depot."))

/-- Diagonal checks of one pair of matrices (`ProblemData.cpp` 257-266). -/
def diagonalError (dist dur : Matrix) (loc : Nat) : Option Error :=
  throwIf (dist.get loc loc ≠ 0) (.invalidArgument "Distance matrix diagonals must be all zero.")
  <|> throwIf (dur.get loc loc ≠ 0) (.invalidArgument "Duration matrix diagonals must be all zero.")

/-- Checks of one pair of matrices (`ProblemData.cpp` 243-267). -/
def matrixError (d : ProblemData) (p : Matrix × Matrix) : Option Error :=
  throwIf (p.1.rows ≠ d.numLocations ∨ p.1.cols ≠ d.numLocations)
      (.invalidArgument "Distance matrix shape does not match the problem size.")
  <|> throwIf (p.2.rows ≠ d.numLocations ∨ p.2.cols ≠ d.numLocations)
      (.invalidArgument "Duration matrix shape does not match the problem size.")
  <|> (List.range d.numLocations).findSome? (diagonalError p.1 p.2)

/-- `ProblemData::validate` (`ProblemData.cpp` 112-268): the first error. -/
def validate (d : ProblemData) : Option Error :=
  d.clients.zipIdx.findSome? (fun p => d.clientError p.2 p.1)
  <|> throwIf (d.depots = []) (.invalidArgument "Expected at least one depot.")
  <|> d.depots.findSome? (fun depot =>
      throwIf (depot.location ≥ d.numLocations) (.outOfRange "Depot references invalid location."))
  <|> d.groups.zipIdx.findSome? (fun p => d.groupError p.2 p.1)
  <|> d.shipments.findSome? d.shipmentError
  <|> throwIf (d.vehicleTypes = []) (.invalidArgument "Expected at least one vehicle type.")
  <|> d.vehicleTypes.findSome? d.vehicleTypeError
  <|> throwIf (d.dists = [] ∨ d.durs = [])
      (.invalidArgument "Need at least one distance and duration matrix.")
  <|> throwIf (d.dists.length ≠ d.durs.length)
      (.invalidArgument "Inconsistent number of distance and duration matrices.")
  <|> (d.dists.zip d.durs).findSome? d.matrixError

/-- `ProblemData::ProblemData` (`ProblemData.cpp` 290-334). -/
def make (a : ProblemData) : Except Error ProblemData :=
  checked a.validate a

/-- Optional arguments of `ProblemData::replace`. -/
structure Replace where
  locations : Option (List Location) := none
  clients : Option (List Client) := none
  depots : Option (List Depot) := none
  vehicleTypes : Option (List VehicleType) := none
  dists : Option (List Matrix) := none
  durs : Option (List Matrix) := none
  groups : Option (List ClientGroup) := none
  shipments : Option (List Shipment) := none

/-- `ProblemData::replace` (`ProblemData.cpp` 270-288). -/
def replace (d : ProblemData) (r : Replace) : Except Error ProblemData :=
  make {
    locations := r.locations.getD d.locations
    clients := r.clients.getD d.clients
    depots := r.depots.getD d.depots
    vehicleTypes := r.vehicleTypes.getD d.vehicleTypes
    dists := r.dists.getD d.dists
    durs := r.durs.getD d.durs
    groups := r.groups.getD d.groups
    shipments := r.shipments.getD d.shipments }

end ProblemData
end PyVRP
