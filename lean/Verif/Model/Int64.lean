import Verif.Model.CostEvaluator
/-!
# The same computations on 64-bit integers

`Distance`, `Duration`, `Load` and `Cost` are `int64_t` in the code. The other files of the model
compute with unbounded integers. This file repeats the computations of routes, solutions and costs
with every sum, difference and product checked: the result is `none` if one of them does not fit
into 64 bits. In debug builds that is a failing assertion (`Measure.h` 101-218), and in release builds it is
undefined behaviour.
-/
namespace PyVRP.I64

/-- The value, if it is one of `int64_t`. -/
def chk (x : Int) : Option Int := if -MAX - 1 ≤ x ∧ x ≤ MAX then some x else none

/-- `operator+` and `operator+=` (`Measure.h` 102-114, 167-178). -/
def add (a b : Int) : Option Int := chk (a + b)

/-- `operator-` and `operator-=` (`Measure.h` 116-128, 186-197). -/
def sub (a b : Int) : Option Int := chk (a - b)

/-- `operator*` (`Measure.h` 205-216). -/
def mul (a b : Int) : Option Int := chk (a * b)

/-- Unary `operator-` (`Measure.h` 199-203). -/
def neg (a : Int) : Option Int := chk (-a)

/-- `c ? m : y`, where only `m` needs to be computed. -/
def ternary (c : Prop) [Decidable c] (m : Option Int) (y : Int) : Option Int :=
  if c then m else some y

/-! ## `DurationSegment` -/

/-- `DurationSegment::merge` (`DurationSegment.h` 190-226), see `DurSeg.merge`. -/
def merge (edge : Int) (first second : DurSeg) : Option DurSeg := do
  let atSecond ← add (← sub first.duration_ first.timeWarp_) edge
  let arrival ← add first.startEarly_ atSecond
  let diffTw ← ternary (arrival > second.startLate_) (sub arrival second.startLate_) 0
  let opens ← sub second.startEarly_ atSecond
  let diffWait ← ternary (opens > first.startLate_) (sub opens first.startLate_) 0
  let bound ← sub second.startLate_ MAX
  let secondLate ← ternary (atSecond > bound) (sub second.startLate_ atSecond) second.startLate_
  some
    { duration_ := ← add (← add (← add first.duration_ second.duration_) edge) diffWait
      timeWarp_ := ← add (← add first.timeWarp_ second.timeWarp_) diffTw
      startEarly_ := ← sub (max first.startEarly_ opens) diffWait
      startLate_ := ← add (min first.startLate_ secondLate) diffTw
      releaseTime_ := max first.releaseTime_ second.releaseTime_
      cumDuration_ := ← add first.cumDuration_ second.cumDuration_
      cumTimeWarp_ := ← add first.cumTimeWarp_ second.cumTimeWarp_
      prevEndLate_ := first.prevEndLate_ }

/-- `duration()` (`DurationSegment.h` 266-270). -/
def duration (s : DurSeg) : Option Int := do
  let duration ← add s.cumDuration_ s.duration_
  add duration (max (← sub s.startEarly s.prevEndLate_) 0)

/-- `timeWarp(maxDuration)` (`DurationSegment.h` 272-283). -/
def timeWarp (s : DurSeg) (maxDuration : Int := MAX) : Option Int := do
  let timeWarp ← add s.cumTimeWarp_ s.timeWarp_
  let netDuration ← sub (← duration s) timeWarp
  let late ← sub s.releaseTime_ s.startLate_
  let excess ← ternary (netDuration > maxDuration) (sub netDuration maxDuration) 0
  add (← add timeWarp (max late 0)) excess

/-- `endEarly()` (`DurationSegment.h` 299-304). -/
def endEarly (s : DurSeg) : Option Int := do
  let tripDuration ← sub (← duration s) s.cumDuration_
  let tripTimeWarp ← sub (← timeWarp s) s.cumTimeWarp_
  sub (← add s.startEarly tripDuration) tripTimeWarp

/-- `endLate()` (`DurationSegment.h` 306-314). -/
def endLate (s : DurSeg) : Option Int := do
  let tripDuration ← sub (← duration s) s.cumDuration_
  let tripTimeWarp ← sub (← timeWarp s) s.cumTimeWarp_
  let netDuration ← sub tripDuration tripTimeWarp
  let room ← sub MAX s.startLate
  ternary (¬ netDuration > room) (add s.startLate netDuration) MAX

/-- `slack()` (`DurationSegment.cpp` 12-19). -/
def slack (s : DurSeg) : Option Int := do
  let prevSlack ← sub s.prevEndLate_ s.releaseTime_
  let diff ← sub s.startLate s.startEarly
  some (min diff (max prevSlack 0))

/-- `finaliseFront()` (`DurationSegment.h` 258-264). -/
def finaliseFront (s : DurSeg) : Option DurSeg :=
  merge 0 { startEarly_ := s.startEarly, startLate_ := s.startLate }
    { duration_ := s.duration_, timeWarp_ := s.timeWarp_
      startEarly_ := s.startEarly_, startLate_ := s.startLate_ }

/-- `finaliseBack()` (`DurationSegment.h` 234-256). -/
def finaliseBack (s : DurSeg) : Option DurSeg := do
  let finalised ← merge 0 { startLate_ := s.prevEndLate_ } (← finaliseFront s)
  some
    { duration_ := 0
      timeWarp_ := 0
      startEarly_ := ← endEarly finalised
      startLate_ := MAX
      releaseTime_ := ← endEarly finalised
      cumDuration_ := ← add s.cumDuration_ (← duration finalised)
      cumTimeWarp_ := ← add s.cumTimeWarp_ (← timeWarp finalised)
      prevEndLate_ := ← endLate finalised }

/-! ## `LoadSegment` -/

/-- `LoadSegment::merge` (`LoadSegment.h` 111-121). -/
def mergeLoad (first second : LoadSeg) : Option LoadSeg := do
  some
    { initial_ := ← add first.initial_ second.initial_
      delta_ := ← add first.delta_ second.delta_
      increase_ := max first.increase_ (← add first.delta_ second.increase_)
      excessLoad_ := ← add first.excessLoad_ second.excessLoad_ }

/-- `load()` (`LoadSegment.h` 123). -/
def load (s : LoadSeg) : Option Int := add s.initial_ s.increase_

/-- `excessLoad(capacity)` (`LoadSegment.h` 125-128). -/
def excessLoad (s : LoadSeg) (capacity : Int) : Option Int := do
  add s.excessLoad_ (max (← sub (← load s) capacity) 0)

/-- `finalise(capacity)` (`LoadSegment.h` 130-133). -/
def finalise (s : LoadSeg) (capacity : Int) : Option LoadSeg := do
  some { initial_ := 0, delta_ := 0, increase_ := 0, excessLoad_ := ← excessLoad s capacity }

/-- `LoadSegment(client, dimension)` (`LoadSegment.cpp` 16-21). -/
def loadOfClient (c : Client) (dim : Nat) : Option LoadSeg := do
  let delta ← sub (c.pickup.getD dim 0) (c.delivery.getD dim 0)
  some { initial_ := c.delivery.getD dim 0, delta_ := delta, increase_ := max 0 delta }

/-- `LoadSegment(shipment, type, dimension)` (`LoadSegment.cpp` 23-33). -/
def loadOfShipment (s : Shipment) (type : ActivityType) (dim : Nat) : Option LoadSeg := do
  let delta ← ternary (¬ type = .pickup) (neg (s.amount.getD dim 0)) (s.amount.getD dim 0)
  some { delta_ := delta, increase_ := max 0 delta }

/-! ## `Route` -/

/-- One iteration of the backward loop of `Route::setSchedule` (`Route.cpp` 151-210), see
`Route.backStep`. -/
def backStep (data : ProblemData) (profile : Nat) (a : Activity) (b : Route.Back) :
    Option Route.Back :=
  match a.type with
  | .depot => do
    let depot := data.depot a.idx
    let edgeDur := data.dur profile depot.location b.nextLoc
    let ds ← merge edgeDur (DurSeg.ofDepot depot depot.serviceDuration) b.ds
    some
      { ds := ← finaliseFront ds
        nextLoc := depot.location
        service := ← add b.service depot.serviceDuration
        travel := ← add b.travel edgeDur
        releaseTimes := ds.releaseTime_ :: b.releaseTimes }
  | .client => do
    let client := data.client a.idx
    let edgeDur := data.dur profile client.location b.nextLoc
    some
      { ds := ← merge edgeDur (DurSeg.ofClient client) b.ds
        nextLoc := client.location
        service := ← add b.service client.serviceDuration
        travel := ← add b.travel edgeDur
        releaseTimes := b.releaseTimes }
  | .pickup => do
    let pickup := (data.shipment a.idx).pickup
    let edgeDur := data.dur profile pickup.location b.nextLoc
    some
      { ds := ← merge edgeDur (DurSeg.ofStep pickup) b.ds
        nextLoc := pickup.location
        service := ← add b.service pickup.serviceDuration
        travel := ← add b.travel edgeDur
        releaseTimes := b.releaseTimes }
  | .delivery => do
    let delivery := (data.shipment a.idx).delivery
    let edgeDur := data.dur profile delivery.location b.nextLoc
    some
      { ds := ← merge edgeDur (DurSeg.ofStep delivery) b.ds
        nextLoc := delivery.location
        service := ← add b.service delivery.serviceDuration
        travel := ← add b.travel edgeDur
        releaseTimes := b.releaseTimes }

/-- Initial values of the backward loop (`Route.cpp` 146-150). -/
def backInit (data : ProblemData) (v : VehicleType) : Option Route.Back := do
  let endDepot := data.depot v.endDepot
  some
    { ds := ← merge 0 (DurSeg.ofDepot endDepot 0) (DurSeg.ofVehicle v v.twLate)
      nextLoc := endDepot.location
      service := 0
      travel := 0
      releaseTimes := [] }

/-- The backward loop (`Route.cpp` 151-210): it begins with the last activity. -/
def backLoop (data : ProblemData) (v : VehicleType) : List Activity → Option Route.Back
  | [] => backInit data v
  | a :: rest => do backStep data v.profile a (← backLoop data v rest)

/-- Backward loop, and the start depot and vehicle (`Route.cpp` 148-221). -/
def backward (data : ProblemData) (v : VehicleType) (activities : List Activity) :
    Option Route.Back := do
  let b ← backLoop data v activities
  let start := data.depot v.startDepot
  let edgeDur := data.dur v.profile start.location b.nextLoc
  let ds ← merge edgeDur (DurSeg.ofDepot start start.serviceDuration) b.ds
  let ds ← merge 0 (DurSeg.ofVehicle v v.startLate) ds
  some
    { ds := ds
      nextLoc := start.location
      service := ← add b.service start.serviceDuration
      travel := ← add b.travel edgeDur
      releaseTimes := ds.releaseTime_ :: b.releaseTimes }

/-- The constructor of `ScheduledActivity` (`Route.cpp` 18-32) asserts that the activity does not
end before it starts. -/
def scheduled (s : ScheduledActivity) : Option ScheduledActivity :=
  if s.startTime ≤ s.endTime then some s else none

/-- The lambda `handle` (`Route.cpp` 233-248). -/
def handle (now : Int) (a : Activity) (trip : Nat) (early late service : Int) :
    Option (ScheduledActivity × Int) := do
  let wait := max (← sub early now) 0
  let tw := max (← sub now late) 0
  let now ← add now wait
  let now ← sub now tw
  let entry ← scheduled
    { activity := a, trip := trip, startTime := now, endTime := ← add now service
      waitDuration := wait, timeWarp := tw }
  some (entry, ← add now service)

/-- The forward loop and the end depot (`Route.cpp` 256-328), see `Route.forward`. -/
def forward (data : ProblemData) (v : VehicleType) (releaseTimes : List Int)
    (now : Int) (prevLoc : Nat) (tripIdx : Nat) : List Activity → Option (List ScheduledActivity)
  | [] => do
    let endDepot := data.depot v.endDepot
    let now ← add now (data.dur v.profile prevLoc endDepot.location)
    let r ← handle now { type := .depot, idx := v.endDepot } releaseTimes.length
      endDepot.twEarly endDepot.twLate 0
    some [r.1]
  | a :: rest => do
    let trip := if a.isDepot then tripIdx + 1 else tripIdx
    let loc := data.locationOf a
    let now ← add now (data.dur v.profile prevLoc loc)
    let args := Route.handleArgs data a (releaseTimes.getD trip 0)
    let r ← handle now a trip args.1 args.2.1 args.2.2
    let tail ← forward data v releaseTimes r.2 loc trip rest
    some (r.1 :: tail)

/-- The schedule (`Route.cpp` 232-328). -/
def mkSchedule (data : ProblemData) (v : VehicleType) (releaseTimes : List Int)
    (startTime releaseTime : Int) (activities : List Activity) :
    Option (List ScheduledActivity) := do
  let start := data.depot v.startDepot
  let r ← handle startTime { type := .depot, idx := v.startDepot } 0
    (max start.twEarly (min releaseTime start.twLate))
    (min start.twLate v.startLate) start.serviceDuration
  let tail ← forward data v releaseTimes r.2 start.location 0 activities
  some (r.1 :: tail)

/-- The loop of `Route::setDistance` (`Route.cpp` 336-363). -/
def distanceLoop (data : ProblemData) (profile : Nat) (frmLoc : Nat) (acc : Int) :
    List ScheduledActivity → Option Int
  | [] => some acc
  | s :: rest => do
    let toLoc := data.locationOf s.activity
    distanceLoop data profile toLoc (← add acc (data.dist profile frmLoc toLoc)) rest

/-- One iteration of the inner loop of `Route::setLoad` (`Route.cpp` 383-410). -/
def loadStep (data : ProblemData) (v : VehicleType) (dim : Nat) (st : Route.LState)
    (s : ScheduledActivity) : Option Route.LState :=
  match s.activity.type with
  | .depot => do some { st with ls := ← finalise st.ls (v.capacity.getD dim 0) }
  | .client => do
    let client := data.client s.activity.idx
    some
      { ls := ← mergeLoad st.ls (← loadOfClient client dim)
        delivery := ← add st.delivery (client.delivery.getD dim 0)
        pickup := ← add st.pickup (client.pickup.getD dim 0) }
  | .pickup => do
    let atom ← loadOfShipment (data.shipment s.activity.idx) .pickup dim
    some { st with ls := ← mergeLoad st.ls atom }
  | .delivery => do
    let atom ← loadOfShipment (data.shipment s.activity.idx) .delivery dim
    some { st with ls := ← mergeLoad st.ls atom }

/-- The inner loop of `Route::setLoad` (`Route.cpp` 383-410). -/
def loadLoop (data : ProblemData) (v : VehicleType) (dim : Nat) (st : Route.LState) :
    List ScheduledActivity → Option Route.LState
  | [] => some st
  | s :: rest => do loadLoop data v dim (← loadStep data v dim st s) rest

/-- `Route::setLoad` for one dimension (`Route.cpp` 373-413). -/
def loadDim (data : ProblemData) (v : VehicleType) (schedule : List ScheduledActivity)
    (dim : Nat) : Option (Int × Int × Int) := do
  let st ← loadLoop data v dim (Route.loadInit v dim) (schedule.drop 1)
  some (st.delivery, st.pickup, ← excessLoad st.ls (v.capacity.getD dim 0))

/-- A loop that computes something for each element of a list. -/
def each {α β : Type} (f : α → Option β) : List α → Option (List β)
  | [] => some []
  | a :: rest => do
    let b ← f a
    let bs ← each f rest
    some (b :: bs)

/-- The loop of `setOtherStatistics` (`Route.cpp` 421-431): prizes. -/
def prizesLoop (data : ProblemData) (acc : Int) : List ScheduledActivity → Option Int
  | [] => some acc
  | s :: rest => do
    let acc ← ternary (s.activity.isClient = true) (add acc (data.client s.activity.idx).prize) acc
    let acc ← ternary (s.activity.isPickup = true) (add acc (data.shipment s.activity.idx).prize) acc
    prizesLoop data acc rest

/-- The statistics of a route that passed validation (`Route.cpp` 139-432). -/
def build (data : ProblemData) (activities : List Activity) (vehicleType : Nat) :
    Option Route := do
  let v := data.vehicleType vehicleType
  let b ← backward data v activities
  let duration ← duration b.ds
  let overtime := max (← sub duration v.shiftDuration) 0
  let durationCost ← add (← mul v.unitDurationCost duration) (← mul v.unitOvertimeCost overtime)
  let startTime := b.ds.startEarly
  let releaseTime := b.ds.releaseTime_
  let slack ← slack b.ds
  let timeWarp ← timeWarp b.ds v.maxDuration
  let schedule ← mkSchedule data v b.releaseTimes startTime releaseTime activities
  let distance ←
    distanceLoop data v.profile (data.depot v.startDepot).location 0 (schedule.drop 1)
  let distanceCost ← mul v.unitDistanceCost distance
  let excessDistance := max (← sub distance v.maxDistance) 0
  let loads ← each (loadDim data v schedule) (List.range data.numLoadDimensions)
  let prizes ← prizesLoop data 0 schedule
  some
    { schedule := schedule
      distance := distance
      distanceCost := distanceCost
      excessDistance := excessDistance
      delivery := loads.map (·.1)
      pickup := loads.map (·.2.1)
      excessLoad := loads.map (·.2.2)
      duration := duration
      overtime := overtime
      durationCost := durationCost
      timeWarp := timeWarp
      travelDuration := b.travel
      serviceDuration := b.service
      startTime := startTime
      releaseTime := releaseTime
      slack := slack
      prizes := prizes
      fixedVehicleCost := v.fixedCost
      vehicleType := vehicleType
      numShipments := Route.numShipmentsOf schedule }

/-- `Route::Route(data, activities, vehicleType)` (`Route.cpp` 447-460). -/
def makeRoute (data : ProblemData) (activities : List Activity) (vehicleType : Nat) :
    Option (Except Error Route) :=
  match Route.validate data vehicleType activities with
  | .error e => some (.error e)
  | .ok () => do
    let r ← build data activities vehicleType
    some (.ok r)

/-- `Route::waitDuration` (`Route.cpp` 561). -/
def waitDuration (r : Route) : Option Int := do
  sub (← sub r.duration r.travelDuration) r.serviceDuration

/-- `Route::endTime` (`Route.cpp` 567). -/
def endTime (r : Route) : Option Int := do
  sub (← add r.startTime r.duration) r.timeWarp

/-! ## `Solution` -/

/-- One iteration of the loop of `evaluate` (`Solution.cpp` 29-47), see `Solution.addRoute`. -/
def addRoute (data : ProblemData) (sol : Solution) (r : Route) : Option Solution := do
  let prizes ← add sol.prizes r.prizes
  let distance ← add sol.distance r.distance
  let distanceCost ← add sol.distanceCost r.distanceCost
  let duration ← add sol.duration r.duration
  let overtime ← add sol.overtime r.overtime
  let durationCost ← add sol.durationCost r.durationCost
  let excessDistance ← add sol.excessDistance r.excessDistance
  let timeWarp ← add sol.timeWarp r.timeWarp
  let fixedVehicleCost ← add sol.fixedVehicleCost r.fixedVehicleCost
  let excessLoad ← each (fun dim => add (sol.excessLoad.getD dim 0) (r.excessLoad.getD dim 0))
    (List.range data.numLoadDimensions)
  some
    { sol with
      numClients := sol.numClients + r.numClients
      numShipments := sol.numShipments + r.numShipments
      prizes := prizes
      distance := distance
      distanceCost := distanceCost
      duration := duration
      overtime := overtime
      durationCost := durationCost
      excessDistance := excessDistance
      timeWarp := timeWarp
      fixedVehicleCost := fixedVehicleCost
      excessLoad := excessLoad }

/-- The loop of `evaluate`. -/
def addRoutes (data : ProblemData) (sol : Solution) : List Route → Option Solution
  | [] => some sol
  | r :: rest => do addRoutes data (← addRoute data sol r) rest

/-- A loop that adds up numbers. -/
def sum (acc : Int) : List Int → Option Int
  | [] => some acc
  | x :: rest => do sum (← add acc x) rest

/-- `allPrizes` (`Solution.cpp` 21-26). -/
def allPrizes (data : ProblemData) : Option Int := do
  sum (← sum 0 (data.clients.map (·.prize))) (data.shipments.map (·.prize))

/-- `evaluate` (`Solution.cpp` 19-50). -/
def evaluate (data : ProblemData) (sol : Solution) : Option Solution := do
  let all ← allPrizes data
  let sol ← addRoutes data { sol with excessLoad := List.replicate data.numLoadDimensions 0 }
    sol.routes
  let uncollected ← sub all sol.prizes
  some { sol with uncollectedPrizes := uncollected }

/-- `Solution::Solution(data, routes)` (`Solution.cpp` 257-366), see `Solution.make`. -/
def makeSolution (data : ProblemData) (routes : List Route) : Option (Except Error Solution) :=
  if routes.length > data.numVehicles then
    some (.error (.runtimeError "Number of routes must not exceed number of vehicles."))
  else
    let st0 : Solution.SState :=
      { clientVisited := List.replicate data.numClients false
        shipmentVisited := List.replicate data.numShipments false
        usedVehicles := List.replicate data.numVehicleTypes 0 }
    match Solution.routeLoop st0 routes with
    | .error e => some (.error e)
    | .ok st =>
      let sol : Solution := { routes := routes }
      let sol := (List.range data.numClients).foldl (Solution.missingClient data st) sol
      let sol := (List.range data.numShipments).foldl (Solution.missingShipment data st) sol
      match Solution.groupLoop st sol data.groups with
      | .error e => some (.error e)
      | .ok sol =>
        match Solution.vehicleLoop data st (List.range data.numVehicleTypes) with
        | .error e => some (.error e)
        | .ok () => do
          let sol ← evaluate data sol
          some (.ok sol)

/-! ## `CostEvaluator` -/

/-- `excessLoadPenalties` (`CostEvaluator.h` 175-185). The code asserts that there are as many
excess loads as penalties. A product with a penalty is converted from `double` to `int64_t`, which is
undefined if it does not fit. -/
def excessLoadPenalties (ce : CostEvaluator) (excessLoads : List Int) : Option Int :=
  if excessLoads.length = ce.loadPenalties.length then do
    let penalties ← each (fun p => chk (p.1 p.2)) (ce.loadPenalties.zip excessLoads)
    sum 0 penalties
  else none

/-- `twPenalty` (`CostEvaluator.h` 196-199). -/
def twPenalty (ce : CostEvaluator) (timeWarp : Int) : Option Int := chk (ce.twPenalty_ timeWarp)

/-- `distPenalty` (`CostEvaluator.h` 201-210). -/
def distPenalty (ce : CostEvaluator) (distance maxDistance : Int) : Option Int := do
  chk (ce.distPenalty_ (max (← sub distance maxDistance) 0))

/-- `penalisedCost(route)` for a route that is not empty (`Route.cpp` 627-634). -/
def penalisedCostNonEmpty (ce : CostEvaluator) (r : Route) : Option Int := do
  let cost ← add r.distanceCost r.durationCost
  let cost ← add cost r.fixedVehicleCost
  let cost ← add cost (← excessLoadPenalties ce r.excessLoad)
  let cost ← add cost (← twPenalty ce r.timeWarp)
  add cost (← distPenalty ce r.excessDistance 0)

/-- `penalisedCost(route)` (`Route.cpp` 622-635). -/
def penalisedCostRoute (ce : CostEvaluator) (r : Route) : Option Int :=
  ternary (¬ r.empty = true) (penalisedCostNonEmpty ce r) 0

/-- The loop of `penalisedCost(solution)` (`Solution.cpp` 409-410). -/
def costLoop (ce : CostEvaluator) (cost : Int) : List Route → Option Int
  | [] => some cost
  | r :: rest => do costLoop ce (← add cost (← penalisedCostRoute ce r)) rest

/-- `penalisedCost(solution)` (`Solution.cpp` 405-413). -/
def penalisedCost (ce : CostEvaluator) (s : Solution) : Option Int :=
  costLoop ce s.uncollectedPrizes s.routes

/-- `cost(solution)` (`CostEvaluator.h` 212-218). -/
def cost (ce : CostEvaluator) (s : Solution) : Option Int :=
  ternary (s.isFeasible = true) (penalisedCost ce s) MAX

end PyVRP.I64
