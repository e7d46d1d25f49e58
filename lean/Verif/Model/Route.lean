import Verif.Model.DurationSegment
import Verif.Model.LoadSegment
/-!
# `pyvrp/cpp/Route.cpp`, and the segment constructors of `DurationSegment.cpp`
-/
namespace PyVRP

namespace DurSeg

/-- `DurationSegment(client)` (`DurationSegment.cpp` 21-27). -/
def ofClient (c : Client) : DurSeg :=
  { duration_ := c.serviceDuration, startEarly_ := c.twEarly, startLate_ := c.twLate
    releaseTime_ := c.releaseTime }

/-- `DurationSegment(depot, serviceDuration)` (`DurationSegment.cpp` 29-35). -/
def ofDepot (d : Depot) (serviceDuration : Int) : DurSeg :=
  { duration_ := serviceDuration, startEarly_ := d.twEarly, startLate_ := d.twLate }

/-- `DurationSegment(step)` (`DurationSegment.cpp` 37-42). -/
def ofStep (s : Step) : DurSeg :=
  { duration_ := s.serviceDuration, startEarly_ := s.twEarly, startLate_ := s.twLate }

/-- `DurationSegment(vehicleType, twLate)` (`DurationSegment.cpp` 44-48). -/
def ofVehicle (v : VehicleType) (twLate : Int) : DurSeg :=
  { startEarly_ := v.twEarly, startLate_ := twLate }

end DurSeg

/-- `Route::ScheduledActivity` (`Route.h` 43-74, `Route.cpp` 18-50). -/
structure ScheduledActivity where
  activity : Activity
  trip : Nat
  startTime : Int
  endTime : Int
  waitDuration : Int
  timeWarp : Int
deriving DecidableEq, Repr

/-- `ScheduledActivity::duration` (`Route.cpp` 40-43). -/
def ScheduledActivity.duration (s : ScheduledActivity) : Int := s.endTime - s.startTime

/-- `Route` (`Route.h` 82-105). -/
structure Route where
  schedule : List ScheduledActivity
  distance : Int
  distanceCost : Int
  excessDistance : Int
  delivery : List Int
  pickup : List Int
  excessLoad : List Int
  duration : Int
  overtime : Int
  durationCost : Int
  timeWarp : Int
  travelDuration : Int
  serviceDuration : Int
  startTime : Int
  releaseTime : Int
  slack : Int
  prizes : Int
  fixedVehicleCost : Int
  vehicleType : Nat
  numShipments : Nat
deriving DecidableEq, Repr

/-- The location of an activity: the `switch` in `Route::setDistance`
(`Route.cpp` 342-359) and the `location` fields used in `setSchedule`. -/
def ProblemData.locationOf (data : ProblemData) (a : Activity) : Nat :=
  match a.type with
  | .depot => (data.depot a.idx).location
  | .client => (data.client a.idx).location
  | .pickup => (data.shipment a.idx).pickup.location
  | .delivery => (data.shipment a.idx).delivery.location

namespace Route

/-! ## `Route::validate` -/

/-- Local variables of `Route::validate` (`Route.cpp` 57-59). The bitsets are
lists of Booleans. -/
structure VState where
  numTrips : Nat
  pickupVisited : List Bool
  deliveryVisited : List Bool
deriving DecidableEq, Repr

/-- One iteration of the loop in `Route::validate` (`Route.cpp` 60-125).  Error
messages drop the printed activity.  The `if`s on the (mutually exclusive)
activity types are a `match` here. -/
def validateStep (data : ProblemData) (st : VState) (a : Activity) : Except Error VState :=
  match a.type with
  | .depot =>
    if a.idx ≥ data.numDepots then .error (.invalidArgument "Depot is not understood.")
    else if st.pickupVisited ≠ st.deliveryVisited then
      .error (.invalidArgument "A shipment must be fully serviced in the same trip.")
    else .ok { st with numTrips := st.numTrips + 1 }
  | .client =>
    if a.idx ≥ data.numClients then .error (.invalidArgument "Client is not understood.")
    else .ok st
  | .pickup =>
    if a.idx ≥ data.numShipments then .error (.invalidArgument "Shipment is not understood.")
    else if st.pickupVisited.getD a.idx false then
      .error (.invalidArgument "Pickup visited more than once.")
    else .ok { st with pickupVisited := st.pickupVisited.set a.idx true }
  | .delivery =>
    if a.idx ≥ data.numShipments then .error (.invalidArgument "Shipment is not understood.")
    else if ¬ st.pickupVisited.getD a.idx false then
      .error (.invalidArgument "Delivery must follow after pickup.")
    else if st.deliveryVisited.getD a.idx false then
      .error (.invalidArgument "Delivery visited more than once.")
    else .ok { st with deliveryVisited := st.deliveryVisited.set a.idx true }

/-- The loop of `Route::validate`. -/
def validateLoop (data : ProblemData) (st : VState) : List Activity → Except Error VState
  | [] => .ok st
  | a :: rest =>
    match validateStep data st a with
    | .error e => .error e
    | .ok st' => validateLoop data st' rest

/-- `Route::validate` (`Route.cpp` 52-137). -/
def validate (data : ProblemData) (vehicleType : Nat) (activities : List Activity) :
    Except Error Unit :=
  let st0 : VState :=
    { numTrips := 1
      pickupVisited := List.replicate data.numShipments false
      deliveryVisited := List.replicate data.numShipments false }
  match validateLoop data st0 activities with
  | .error e => .error e
  | .ok st =>
    if (List.range data.numShipments).any
        (fun i => st.pickupVisited.getD i false != st.deliveryVisited.getD i false) then
      .error (.invalidArgument "Shipment has unpaired pickup and delivery.")
    else if st.numTrips > (data.vehicleType vehicleType).maxTrips then
      .error (.invalidArgument "Vehicle cannot perform this many trips.")
    else .ok ()

/-! ## `Route::setSchedule`, backward part -/

/-- Locals of the backward loop (`Route.cpp` 146-150) and the two accumulating
fields `service_` and `travel_`. -/
structure Back where
  ds : DurSeg
  nextLoc : Nat
  service : Int
  travel : Int
  releaseTimes : List Int

/-- One iteration of the backward loop (`Route.cpp` 151-210). -/
def backStep (data : ProblemData) (profile : Nat) (a : Activity) (b : Back) : Back :=
  match a.type with
  | .depot =>
    let depot := data.depot a.idx
    let edgeDur := data.dur profile depot.location b.nextLoc
    let ds := DurSeg.merge edgeDur (DurSeg.ofDepot depot depot.serviceDuration) b.ds
    { ds := ds.finaliseFront
      nextLoc := depot.location
      service := b.service + depot.serviceDuration
      travel := b.travel + edgeDur
      releaseTimes := ds.releaseTime_ :: b.releaseTimes }
  | .client =>
    let client := data.client a.idx
    let edgeDur := data.dur profile client.location b.nextLoc
    { ds := DurSeg.merge edgeDur (DurSeg.ofClient client) b.ds
      nextLoc := client.location
      service := b.service + client.serviceDuration
      travel := b.travel + edgeDur
      releaseTimes := b.releaseTimes }
  | .pickup =>
    let pickup := (data.shipment a.idx).pickup
    let edgeDur := data.dur profile pickup.location b.nextLoc
    { ds := DurSeg.merge edgeDur (DurSeg.ofStep pickup) b.ds
      nextLoc := pickup.location
      service := b.service + pickup.serviceDuration
      travel := b.travel + edgeDur
      releaseTimes := b.releaseTimes }
  | .delivery =>
    let delivery := (data.shipment a.idx).delivery
    let edgeDur := data.dur profile delivery.location b.nextLoc
    { ds := DurSeg.merge edgeDur (DurSeg.ofStep delivery) b.ds
      nextLoc := delivery.location
      service := b.service + delivery.serviceDuration
      travel := b.travel + edgeDur
      releaseTimes := b.releaseTimes }

/-- Initial values of the backward loop (`Route.cpp` 146-150). -/
def backInit (data : ProblemData) (v : VehicleType) : Back :=
  let endDepot := data.depot v.endDepot
  { ds := DurSeg.merge 0 (DurSeg.ofDepot endDepot 0) (DurSeg.ofVehicle v v.twLate)
    nextLoc := endDepot.location
    service := 0
    travel := 0
    releaseTimes := [] }

/-- Backward loop, and the start depot and vehicle (`Route.cpp` 148-221). -/
def backward (data : ProblemData) (v : VehicleType) (activities : List Activity) : Back :=
  let b := activities.foldr (backStep data v.profile) (backInit data v)
  let start := data.depot v.startDepot
  let edgeDur := data.dur v.profile start.location b.nextLoc
  let ds := DurSeg.merge edgeDur (DurSeg.ofDepot start start.serviceDuration) b.ds
  let ds := DurSeg.merge 0 (DurSeg.ofVehicle v v.startLate) ds
  { ds := ds
    nextLoc := start.location
    service := b.service + start.serviceDuration
    travel := b.travel + edgeDur
    releaseTimes := ds.releaseTime_ :: b.releaseTimes }

/-! ## `Route::setSchedule`, forward part -/

/-- The lambda `handle` (`Route.cpp` 233-248): the new schedule entry and the new
value of `now`. -/
def handle (now : Int) (a : Activity) (trip : Nat) (early late service : Int) :
    ScheduledActivity × Int :=
  let wait := max (early - now) 0
  let tw := max (now - late) 0
  let now := now + wait
  let now := now - tw
  ({ activity := a, trip := trip, startTime := now, endTime := now + service
     waitDuration := wait, timeWarp := tw }, now + service)

/-- Arguments `early`, `late`, `service` of `handle` for an activity in the forward
loop (`Route.cpp` 257-321); `releaseTime` is that of the trip that starts at this
activity, in case it is a depot. -/
def handleArgs (data : ProblemData) (a : Activity) (releaseTime : Int) : Int × Int × Int :=
  match a.type with
  | .depot =>
    let depot := data.depot a.idx
    (max depot.twEarly (min releaseTime depot.twLate), depot.twLate, depot.serviceDuration)
  | .client =>
    let client := data.client a.idx
    (client.twEarly, client.twLate, client.serviceDuration)
  | .pickup =>
    let pickup := (data.shipment a.idx).pickup
    (pickup.twEarly, pickup.twLate, pickup.serviceDuration)
  | .delivery =>
    let delivery := (data.shipment a.idx).delivery
    (delivery.twEarly, delivery.twLate, delivery.serviceDuration)

/-- The forward loop and the end depot (`Route.cpp` 256-328): the schedule from
the first activity after the start depot on. -/
def forward (data : ProblemData) (v : VehicleType) (releaseTimes : List Int)
    (now : Int) (prevLoc : Nat) (tripIdx : Nat) : List Activity → List ScheduledActivity
  | [] =>
    let endDepot := data.depot v.endDepot
    let now := now + data.dur v.profile prevLoc endDepot.location
    [(handle now { type := .depot, idx := v.endDepot } releaseTimes.length
        endDepot.twEarly endDepot.twLate 0).1]
  | a :: rest =>
    let tripIdx := if a.isDepot then tripIdx + 1 else tripIdx
    let loc := data.locationOf a
    let now := now + data.dur v.profile prevLoc loc
    -- `releaseTimes[++tripIdx]` is read for depots only, and then in range
    let args := handleArgs data a (releaseTimes.getD tripIdx 0)
    let r := handle now a tripIdx args.1 args.2.1 args.2.2
    r.1 :: forward data v releaseTimes r.2 loc tripIdx rest

/-- The schedule (`Route.cpp` 232-328). -/
def mkSchedule (data : ProblemData) (v : VehicleType) (releaseTimes : List Int)
    (startTime releaseTime : Int) (activities : List Activity) : List ScheduledActivity :=
  let start := data.depot v.startDepot
  let r := handle startTime { type := .depot, idx := v.startDepot } 0
    (max start.twEarly (min releaseTime start.twLate))
    (min start.twLate v.startLate) start.serviceDuration
  r.1 :: forward data v releaseTimes r.2 start.location 0 activities

/-! ## `Route::setDistance`, `setLoad`, `setOtherStatistics` -/

/-- The loop of `Route::setDistance` (`Route.cpp` 336-363). -/
def distanceLoop (data : ProblemData) (profile : Nat) (frmLoc : Nat) (acc : Int) :
    List ScheduledActivity → Int
  | [] => acc
  | s :: rest =>
    let toLoc := data.locationOf s.activity
    distanceLoop data profile toLoc (acc + data.dist profile frmLoc toLoc) rest

/-- Locals of the loop of `Route::setLoad` for one dimension. -/
structure LState where
  ls : LoadSeg
  delivery : Int
  pickup : Int

/-- One iteration of the inner loop of `Route::setLoad` (`Route.cpp` 383-410). -/
def loadStep (data : ProblemData) (v : VehicleType) (dim : Nat) (st : LState)
    (s : ScheduledActivity) : LState :=
  match s.activity.type with
  | .depot => { st with ls := st.ls.finalise (v.capacity.getD dim 0) }
  | .client =>
    let client := data.client s.activity.idx
    { ls := LoadSeg.merge st.ls (LoadSeg.ofClient client dim)
      delivery := st.delivery + client.delivery.getD dim 0
      pickup := st.pickup + client.pickup.getD dim 0 }
  | .pickup =>
    { st with ls := LoadSeg.merge st.ls (LoadSeg.ofShipment (data.shipment s.activity.idx) .pickup dim) }
  | .delivery =>
    { st with ls := LoadSeg.merge st.ls (LoadSeg.ofShipment (data.shipment s.activity.idx) .delivery dim) }

/-- The state before the inner loop of `Route::setLoad` (`Route.cpp` 375-381). -/
def loadInit (v : VehicleType) (dim : Nat) : LState :=
  if v.initialLoad.getD dim 0 > 0 then
    { ls := LoadSeg.ofVehicle v dim, delivery := 0, pickup := v.initialLoad.getD dim 0 }
  else { ls := {}, delivery := 0, pickup := 0 }

/-- `Route::setLoad` for one dimension (`Route.cpp` 373-413): delivery, pickup
and excess load. -/
def loadDim (data : ProblemData) (v : VehicleType) (schedule : List ScheduledActivity)
    (dim : Nat) : Int × Int × Int :=
  let st := (schedule.drop 1).foldl (loadStep data v dim) (loadInit v dim)
  (st.delivery, st.pickup, st.ls.excessLoad (v.capacity.getD dim 0))

/-- The loop of `setOtherStatistics` (`Route.cpp` 421-431): prizes. -/
def prizesOf (data : ProblemData) (schedule : List ScheduledActivity) : Int :=
  schedule.foldl (fun acc s =>
    let acc := if s.activity.isClient then acc + (data.client s.activity.idx).prize else acc
    if s.activity.isPickup then acc + (data.shipment s.activity.idx).prize else acc) 0

/-- The loop of `setOtherStatistics` (`Route.cpp` 421-431): shipments. -/
def numShipmentsOf (schedule : List ScheduledActivity) : Nat :=
  schedule.foldl (fun n s => if s.activity.isPickup then n + 1 else n) 0

/-- The statistics of a route that passed validation (`Route.cpp` 139-432). -/
def build (data : ProblemData) (activities : List Activity) (vehicleType : Nat) : Route :=
  let v := data.vehicleType vehicleType
  let b := backward data v activities
  let duration := b.ds.duration
  let overtime := max (duration - v.shiftDuration) 0
  let startTime := b.ds.startEarly
  let releaseTime := b.ds.releaseTime_
  let schedule := mkSchedule data v b.releaseTimes startTime releaseTime activities
  let distance := distanceLoop data v.profile (data.depot v.startDepot).location 0 (schedule.drop 1)
  let dims := List.range data.numLoadDimensions
  let loads := dims.map (loadDim data v schedule)
  { schedule := schedule
    distance := distance
    distanceCost := v.unitDistanceCost * distance
    excessDistance := max (distance - v.maxDistance) 0
    delivery := loads.map (·.1)
    pickup := loads.map (·.2.1)
    excessLoad := loads.map (·.2.2)
    duration := duration
    overtime := overtime
    durationCost := v.unitDurationCost * duration + v.unitOvertimeCost * overtime
    timeWarp := b.ds.timeWarp v.maxDuration
    travelDuration := b.travel
    serviceDuration := b.service
    startTime := startTime
    releaseTime := releaseTime
    slack := b.ds.slack
    prizes := prizesOf data schedule
    fixedVehicleCost := v.fixedCost
    vehicleType := vehicleType
    numShipments := numShipmentsOf schedule }

/-- `Route::Route(data, activities, vehicleType)` (`Route.cpp` 447-460).  Passing a
`vehicleType` that does not exist is undefined behaviour in C++
(`ProblemData::vehicleType` only asserts). -/
def make (data : ProblemData) (activities : List Activity) (vehicleType : Nat) :
    Except Error Route :=
  match validate data vehicleType activities with
  | .error e => .error e
  | .ok () => .ok (build data activities vehicleType)

/-- `Route::Route(data, visits, vehicleType)` (`Route.cpp` 434-445). -/
def makeVisits (data : ProblemData) (visits : List Nat) (vehicleType : Nat) :
    Except Error Route :=
  make data (visits.map fun c => { type := .client, idx := c }) vehicleType

/-! ## Accessors (`Route.cpp` 503-620) -/

/-- `Route::size` (`Route.cpp` 505). -/
def size (r : Route) : Nat := r.schedule.length

/-- `Route::numTrips` (`Route.cpp` 518). `schedule_` is never empty. -/
def numTrips (r : Route) : Nat := (r.schedule.getLast?.map (·.trip)).getD 0

/-- `Route::numDepots` (`Route.cpp` 516). -/
def numDepots (r : Route) : Nat := r.numTrips + 1

/-- `Route::numClients` (`Route.cpp` 507-512), on `size_t`: the subtraction would
wrap around if it went below zero, here it is on `Int`. -/
def numClientsInt (r : Route) : Int := (r.size : Int) - 2 * r.numShipments - r.numDepots

/-- `Route::numClients` as a natural number, see `numClientsInt`. -/
def numClients (r : Route) : Nat := r.numClientsInt.toNat

/-- `Route::empty` (`Route.cpp` 503). -/
def empty (r : Route) : Bool := r.numClientsInt == 0 && r.numShipments == 0

/-- `Route::operator[]` (`Route.cpp` 520-526). -/
def get (r : Route) (idx : Nat) : Except Error ScheduledActivity :=
  if idx ≥ r.size then .error (.outOfRange "Index out of range.")
  else match r.schedule[idx]? with
    | some s => .ok s
    | none => .error (.outOfRange "unreachable")

/-- `Route::waitDuration` (`Route.cpp` 561). -/
def waitDuration (r : Route) : Int := r.duration - r.travelDuration - r.serviceDuration

/-- `Route::endTime` (`Route.cpp` 567). -/
def endTime (r : Route) : Int := r.startTime + r.duration - r.timeWarp

/-- `Route::startDepot` (`Route.cpp` 577-583). -/
def startDepot (r : Route) : Nat := (r.schedule.head?.map (·.activity.idx)).getD 0

/-- `Route::endDepot` (`Route.cpp` 585-591). -/
def endDepot (r : Route) : Nat := (r.schedule.getLast?.map (·.activity.idx)).getD 0

/-- `Route::hasExcessLoad` (`Route.cpp` 598-603). -/
def hasExcessLoad (r : Route) : Bool := r.excessLoad.any (fun x => decide (x > 0))

/-- `Route::hasExcessDistance` (`Route.cpp` 605). -/
def hasExcessDistance (r : Route) : Bool := decide (r.excessDistance > 0)

/-- `Route::hasTimeWarp` (`Route.cpp` 607). -/
def hasTimeWarp (r : Route) : Bool := decide (r.timeWarp > 0)

/-- `Route::isFeasible` (`Route.cpp` 593-596). -/
def isFeasible (r : Route) : Bool := !r.hasExcessLoad && !r.hasTimeWarp && !r.hasExcessDistance

/-- `Route::operator==` (`Route.cpp` 609-620). `ScheduledActivity` equality is
the defaulted memberwise one (`Route.h` 72). -/
def eq (r s : Route) : Bool :=
  r.distance == s.distance && r.duration == s.duration && r.timeWarp == s.timeWarp
    && r.vehicleType == s.vehicleType && r.schedule == s.schedule

end Route
end PyVRP
