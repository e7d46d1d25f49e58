import Verif.Model.CostEvaluator
/-!
# Pickling: `__getstate__` and `__setstate__` in `pyvrp/cpp/bindings.cpp`

The state is the tuple of the code; objects inside the tuple are pickled themselves. What Python
does with integers, strings, Booleans, `None` and lists of those is not modelled: it gives them
back unchanged. A constructor that throws gives `Except.error`.
-/
namespace PyVRP

/-- `Except` over a list, from the left (the casts of lists of objects). -/
def listOk {α β : Type} (f : α → Except Error β) : List α → Except Error (List β)
  | [] => .ok []
  | x :: xs =>
    match f x with
    | .error e => .error e
    | .ok y =>
      match listOk f xs with
      | .error e => .error e
      | .ok ys => .ok (y :: ys)

/-! ## Activities and routes -/

/-- `bindings.cpp` 92-94. -/
def Activity.getState (a : Activity) : ActivityType × Nat := (a.type, a.idx)

/-- `bindings.cpp` 95-99. -/
def Activity.setState : ActivityType × Nat → Activity
  | (t0, t1) => ⟨t0, t1⟩

abbrev ScheduledActivity.State := (ActivityType × Nat) × Nat × Int × Int × Int × Int

/-- `bindings.cpp` 835-842. -/
def ScheduledActivity.getState (a : ScheduledActivity) : ScheduledActivity.State :=
  (Activity.getState ⟨a.activity.type, a.activity.idx⟩, a.trip, a.startTime, a.endTime,
    a.waitDuration, a.timeWarp)

/-- `bindings.cpp` 843-853; the constructor is at `Route.cpp` 18-30. -/
def ScheduledActivity.setState : ScheduledActivity.State → ScheduledActivity
  | (t0, t1, t2, t3, t4, t5) => ⟨Activity.setState t0, t1, t2, t3, t4, t5⟩

abbrev Route.State := List ScheduledActivity.State × Int × Int × Int × List Int × List Int × List Int
  × Int × Int × Int × Int × Int × Int × Int × Int × Int × Int × Nat × Nat

/-- `bindings.cpp` 959-981. -/
def Route.getState (r : Route) : Route.State :=
  (r.schedule.map ScheduledActivity.getState, r.distance, r.distanceCost, r.excessDistance,
    r.delivery, r.pickup, r.excessLoad, r.duration, r.overtime, r.durationCost, r.timeWarp,
    r.travelDuration, r.serviceDuration, r.startTime, r.releaseTime, r.slack, r.prizes,
    r.vehicleType, r.numShipments)

/-- `Route(schedule, distance, ...)` (`Route.cpp` 462-501); `fixedVehicleCost_` keeps its default
of 0 (`Route.h` 102). -/
def Route.ofFields (schedule : List ScheduledActivity) (distance distanceCost excessDistance : Int)
    (delivery pickup excessLoad : List Int) (duration overtime durationCost timeWarp travel service
    startTime releaseTime slack prizes : Int) (vehicleType numShipments : Nat) : Route :=
  { schedule := schedule, distance := distance, distanceCost := distanceCost
    excessDistance := excessDistance, delivery := delivery, pickup := pickup
    excessLoad := excessLoad, duration := duration, overtime := overtime
    durationCost := durationCost, timeWarp := timeWarp, travelDuration := travel
    serviceDuration := service, startTime := startTime, releaseTime := releaseTime, slack := slack
    prizes := prizes, fixedVehicleCost := 0, vehicleType := vehicleType
    numShipments := numShipments }

/-- `bindings.cpp` 982-1006. -/
def Route.setState : Route.State → Route
  | (t0, t1, t2, t3, t4, t5, t6, t7, t8, t9, t10, t11, t12, t13, t14, t15, t16, t17, t18) =>
    Route.ofFields (t0.map ScheduledActivity.setState) t1 t2 t3 t4 t5 t6 t7 t8 t9 t10 t11 t12 t13
      t14 t15 t16 t17 t18

abbrev Solution.State := Nat × Nat × Nat × Nat × Nat × Int × Int × Int × Int × Int × Int × List Int
  × Int × Int × Int × Int × List Route.State

/-- `bindings.cpp` 1116-1135. -/
def Solution.getState (s : Solution) : Solution.State :=
  (s.numClients, s.numShipments, s.numMissingClients, s.numMissingGroups, s.numMissingShipments,
    s.distance, s.distanceCost, s.duration, s.overtime, s.durationCost, s.excessDistance,
    s.excessLoad, s.fixedVehicleCost, s.prizes, s.uncollectedPrizes, s.timeWarp,
    s.routes.map Route.getState)

/-- `bindings.cpp` 1136-1159 and `Solution(numClients, ...)` (`Solution.cpp` 368-403);
`unplanned_` keeps its default, the empty vector. -/
def Solution.setState : Solution.State → Solution
  | (t0, t1, t2, t3, t4, t5, t6, t7, t8, t9, t10, t11, t12, t13, t14, t15, t16) =>
    { numClients := t0, numShipments := t1, numMissingClients := t2, numMissingGroups := t3
      numMissingShipments := t4, distance := t5, distanceCost := t6, duration := t7, overtime := t8
      durationCost := t9, excessDistance := t10, excessLoad := t11, fixedVehicleCost := t12
      prizes := t13, uncollectedPrizes := t14, timeWarp := t15
      routes := t16.map Route.setState, unplanned := [] }

/-! ## Problem data -/

/-- `bindings.cpp` 211-213. -/
def Location.getState (l : Location) : Int × Int × String := (l.x, l.y, l.name)

/-- `bindings.cpp` 214-220. -/
def Location.setState : Int × Int × String → Location
  | (t0, t1, t2) => ⟨t0, t1, t2⟩

abbrev Client.State := Nat × List Int × List Int × Int × Int × Int × Int × Int × Bool × Option Nat
  × String

/-- `bindings.cpp` 269-281. -/
def Client.getState (c : Client) : Client.State :=
  (c.location, c.delivery, c.pickup, c.serviceDuration, c.twEarly, c.twLate, c.releaseTime,
    c.prize, c.required, c.group, c.name)

/-- `bindings.cpp` 282-297. -/
def Client.setState : Client.State → Except Error Client
  | (t0, t1, t2, t3, t4, t5, t6, t7, t8, t9, t10) =>
    Client.make ⟨t0, t1, t2, t3, t4, t5, t6, t7, t8, t9, t10⟩

/-- `bindings.cpp` 324-330. -/
def Depot.getState (d : Depot) : Nat × Int × Int × Int × String :=
  (d.location, d.twEarly, d.twLate, d.serviceDuration, d.name)

/-- `bindings.cpp` 331-339. -/
def Depot.setState : Nat × Int × Int × Int × String → Except Error Depot
  | (t0, t1, t2, t3, t4) => Depot.make ⟨t0, t1, t2, t3, t4⟩

/-- `bindings.cpp` 360-366. -/
def Step.getState (s : Step) : Nat × Int × Int × Int :=
  (s.location, s.twEarly, s.twLate, s.serviceDuration)

/-- `bindings.cpp` 367-375. -/
def Step.setState : Nat × Int × Int × Int → Except Error Step
  | (t0, t1, t2, t3) => Step.make ⟨t0, t1, t2, t3⟩

abbrev Shipment.State := (Nat × Int × Int × Int) × (Nat × Int × Int × Int) × List Int × Int × Bool
  × String

/-- `bindings.cpp` 421-429. -/
def Shipment.getState (s : Shipment) : Shipment.State :=
  (s.pickup.getState, s.delivery.getState, s.amount, s.prize, s.required, s.name)

/-- `bindings.cpp` 430-441. -/
def Shipment.setState : Shipment.State → Except Error Shipment
  | (t0, t1, t2, t3, t4, t5) =>
    match Step.setState t0, Step.setState t1 with
    | .ok p, .ok d => Shipment.make ⟨p, d, t2, t3, t4, t5⟩
    | .error e, _ => .error e
    | _, .error e => .error e

/-- `bindings.cpp` 464-467. -/
def ClientGroup.getState (g : ClientGroup) : List Nat × Bool × String :=
  (g.clients, g.required, g.name)

/-- `bindings.cpp` 468-474. -/
def ClientGroup.setState : List Nat × Bool × String → Except Error ClientGroup
  | (t0, t1, t2) => ClientGroup.make ⟨t0, t1, t2⟩

abbrev VehicleType.State := Nat × List Int × Nat × Nat × Int × Int × Int × Int × Int × Int × Int
  × Nat × Int × List Int × List Nat × Nat × Int × Int × String

/-- `bindings.cpp` 582-602. -/
def VehicleType.getState (v : VehicleType) : VehicleType.State :=
  (v.numAvailable, v.capacity, v.startDepot, v.endDepot, v.fixedCost, v.twEarly, v.twLate,
    v.shiftDuration, v.maxDistance, v.unitDistanceCost, v.unitDurationCost, v.profile,
    v.startLate, v.initialLoad, v.reloadDepots, v.maxReloads, v.maxOvertime, v.unitOvertimeCost,
    v.name)

/-- `bindings.cpp` 603-626. -/
def VehicleType.setState : VehicleType.State → Except Error VehicleType
  | (t0, t1, t2, t3, t4, t5, t6, t7, t8, t9, t10, t11, t12, t13, t14, t15, t16, t17, t18) =>
    VehicleType.make
      { numAvailable := t0, capacity := t1, startDepot := t2, endDepot := t3, fixedCost := t4
        twEarly := t5, twLate := t6, shiftDuration := t7, maxDistance := t8
        unitDistanceCost := t9, unitDurationCost := t10, profile := t11, startLate := some t12
        initialLoad := t13, reloadDepots := t14, maxReloads := t15, maxOvertime := t16
        unitOvertimeCost := t17, name := t18 }

abbrev ProblemData.State := List (Int × Int × String) × List Client.State
  × List (Nat × Int × Int × Int × String) × List VehicleType.State × List Matrix × List Matrix
  × List (List Nat × Bool × String) × List Shipment.State

/-- `bindings.cpp` 792-801. Matrices are NumPy arrays, not modelled further. -/
def ProblemData.getState (d : ProblemData) : ProblemData.State :=
  (d.locations.map Location.getState, d.clients.map Client.getState, d.depots.map Depot.getState,
    d.vehicleTypes.map VehicleType.getState, d.dists, d.durs, d.groups.map ClientGroup.getState,
    d.shipments.map Shipment.getState)

/-- `bindings.cpp` 802-822. -/
def ProblemData.setState : ProblemData.State → Except Error ProblemData
  | (t0, t1, t2, t3, t4, t5, t6, t7) =>
    match listOk Client.setState t1 with
    | .error e => .error e
    | .ok clients =>
    match listOk Depot.setState t2 with
    | .error e => .error e
    | .ok depots =>
    match listOk VehicleType.setState t3 with
    | .error e => .error e
    | .ok vehicleTypes =>
    match listOk ClientGroup.setState t6 with
    | .error e => .error e
    | .ok groups =>
    match listOk Shipment.setState t7 with
    | .error e => .error e
    | .ok shipments =>
      ProblemData.make
        { locations := t0.map Location.setState, clients := clients, depots := depots
          vehicleTypes := vehicleTypes, dists := t4, durs := t5, groups := groups
          shipments := shipments }

end PyVRP
