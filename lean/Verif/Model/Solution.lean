import Verif.Model.Route
import Verif.Model.Rng
/-!
# `pyvrp/cpp/Solution.h` and `Solution.cpp`
-/
namespace PyVRP

/-- `Solution` (`Solution.h` 45-70). -/
structure Solution where
  numClients : Nat := 0
  numShipments : Nat := 0
  numMissingClients : Nat := 0
  numMissingGroups : Nat := 0
  numMissingShipments : Nat := 0
  distance : Int := 0
  distanceCost : Int := 0
  duration : Int := 0
  overtime : Int := 0
  durationCost : Int := 0
  excessDistance : Int := 0
  excessLoad : List Int := []
  fixedVehicleCost : Int := 0
  prizes : Int := 0
  uncollectedPrizes : Int := 0
  timeWarp : Int := 0
  routes : List Route
  unplanned : List Activity := []
deriving DecidableEq, Repr

namespace Solution

/-! ## The validating constructor -/

/-- Locals of the constructor (`Solution.cpp` 266-268). -/
structure SState where
  clientVisited : List Bool
  shipmentVisited : List Bool
  usedVehicles : List Nat
deriving DecidableEq, Repr

/-- One activity (`Solution.cpp` 277-313). -/
def visitStep (st : SState) (a : Activity) : Except Error SState :=
  match a.type with
  | .client =>
    if st.clientVisited.getD a.idx false then
      .error (.runtimeError "Client is visited more than once.")
    else .ok { st with clientVisited := st.clientVisited.set a.idx true }
  | .pickup =>
    if st.shipmentVisited.getD a.idx false then
      .error (.runtimeError "Shipment is visited more than once.")
    else .ok { st with shipmentVisited := st.shipmentVisited.set a.idx true }
  | _ => .ok st

/-- All activities of a route. -/
def visitLoop (st : SState) : List Activity → Except Error SState
  | [] => .ok st
  | a :: rest =>
    match visitStep st a with
    | .error e => .error e
    | .ok st' => visitLoop st' rest

/-- One route (`Solution.cpp` 269-314). Incrementing `usedVehicles` outside its range is
undefined behaviour in C++. -/
def routeStep (st : SState) (r : Route) : Except Error SState :=
  if r.empty then .error (.runtimeError "Solution should not have empty routes.")
  else
    visitLoop
      { st with usedVehicles := st.usedVehicles.modify r.vehicleType (· + 1) }
      (r.schedule.map (·.activity))

/-- All routes. -/
def routeLoop (st : SState) : List Route → Except Error SState
  | [] => .ok st
  | r :: rest =>
    match routeStep st r with
    | .error e => .error e
    | .ok st' => routeLoop st' rest

/-- One iteration of the loop over clients (`Solution.cpp` 316-323). -/
def missingClient (data : ProblemData) (st : SState) (sol : Solution) (client : Nat) : Solution :=
  if !st.clientVisited.getD client false then
    { sol with
      numMissingClients := sol.numMissingClients + (data.client client).required.toNat
      unplanned := sol.unplanned ++ [⟨.client, client⟩] }
  else sol

/-- One iteration of the loop over shipments (`Solution.cpp` 325-335). -/
def missingShipment (data : ProblemData) (st : SState) (sol : Solution) (s : Nat) : Solution :=
  if !st.shipmentVisited.getD s false then
    { sol with
      numMissingShipments := sol.numMissingShipments + (data.shipment s).required.toNat
      unplanned := sol.unplanned ++ [⟨.pickup, s⟩] ++ [⟨.delivery, s⟩] }
  else sol

/-- The loop over groups (`Solution.cpp` 337-353). -/
def groupLoop (st : SState) (sol : Solution) : List ClientGroup → Except Error Solution
  | [] => .ok sol
  | group :: rest =>
    let count := group.clients.countP (fun c => st.clientVisited.getD c false)
    if count > 1 then .error (.runtimeError "Group is visited more than once.")
    else if group.required && count == 0 then
      groupLoop st { sol with numMissingGroups := sol.numMissingGroups + 1 } rest
    else groupLoop st sol rest

/-- The loop over vehicle types (`Solution.cpp` 355-363). -/
def vehicleLoop (data : ProblemData) (st : SState) : List Nat → Except Error Unit
  | [] => .ok ()
  | v :: rest =>
    if st.usedVehicles.getD v 0 > (data.vehicleType v).numAvailable then
      .error (.runtimeError "Used more vehicles than available.")
    else vehicleLoop data st rest

/-- One iteration of the loop of `evaluate` (`Solution.cpp` 29-47). -/
def addRoute (data : ProblemData) (sol : Solution) (r : Route) : Solution :=
  { sol with
    numClients := sol.numClients + r.numClients
    numShipments := sol.numShipments + r.numShipments
    prizes := sol.prizes + r.prizes
    distance := sol.distance + r.distance
    distanceCost := sol.distanceCost + r.distanceCost
    duration := sol.duration + r.duration
    overtime := sol.overtime + r.overtime
    durationCost := sol.durationCost + r.durationCost
    excessDistance := sol.excessDistance + r.excessDistance
    timeWarp := sol.timeWarp + r.timeWarp
    fixedVehicleCost := sol.fixedVehicleCost + r.fixedVehicleCost
    excessLoad := (List.range data.numLoadDimensions).map
      (fun dim => sol.excessLoad.getD dim 0 + r.excessLoad.getD dim 0) }

/-- `allPrizes` (`Solution.cpp` 21-26). -/
def allPrizes (data : ProblemData) : Int :=
  data.shipments.foldl (fun acc s => acc + s.prize)
    (data.clients.foldl (fun acc c => acc + c.prize) 0)

/-- `evaluate` (`Solution.cpp` 19-50). -/
def evaluate (data : ProblemData) (sol : Solution) : Solution :=
  let sol := { sol with excessLoad := List.replicate data.numLoadDimensions 0 }
  let sol := sol.routes.foldl (addRoute data) sol
  { sol with uncollectedPrizes := allPrizes data - sol.prizes }

/-- `Solution::Solution(data, routes)` (`Solution.cpp` 257-366). -/
def make (data : ProblemData) (routes : List Route) : Except Error Solution :=
  if routes.length > data.numVehicles then
    .error (.runtimeError "Number of routes must not exceed number of vehicles.")
  else
    let st0 : SState :=
      { clientVisited := List.replicate data.numClients false
        shipmentVisited := List.replicate data.numShipments false
        usedVehicles := List.replicate data.numVehicleTypes 0 }
    match routeLoop st0 routes with
    | .error e => .error e
    | .ok st =>
      let sol : Solution := { routes := routes }
      let sol := (List.range data.numClients).foldl (missingClient data st) sol
      let sol := (List.range data.numShipments).foldl (missingShipment data st) sol
      match groupLoop st sol data.groups with
      | .error e => .error e
      | .ok sol =>
        match vehicleLoop data st (List.range data.numVehicleTypes) with
        | .error e => .error e
        | .ok () => .ok (evaluate data sol)

/-- The routes of `Solution::Solution(data, visits)` (`Solution.cpp` 249-252). -/
def visitRoutes (data : ProblemData) : List (List Nat) → Except Error (List Route)
  | [] => .ok []
  | visits :: rest =>
    match Route.makeVisits data visits 0 with
    | .error e => .error e
    | .ok r =>
      match visitRoutes data rest with
      | .error e => .error e
      | .ok rs => .ok (r :: rs)

/-- `Solution::Solution(data, visits)` (`Solution.cpp` 246-255). -/
def makeVisits (data : ProblemData) (visits : List (List Nat)) : Except Error Solution :=
  match visitRoutes data visits with
  | .error e => .error e
  | .ok rs => make data rs

/-! ## Queries (`Solution.cpp` 52-155) -/

/-- `empty` (`Solution.cpp` 52-55). -/
def empty (s : Solution) : Bool := s.numClients == 0 && s.numShipments == 0 && s.routes.length == 0

/-- `numRoutes` (`Solution.cpp` 57). -/
def numRoutes (s : Solution) : Nat := s.routes.length

/-- `numTrips` (`Solution.cpp` 59-66). -/
def numTrips (s : Solution) : Nat := s.routes.foldl (fun count r => count + r.numTrips) 0

/-- `isComplete` (`Solution.cpp` 92-99). -/
def isComplete (s : Solution) : Bool :=
  s.numMissingClients == 0 && s.numMissingGroups == 0 && s.numMissingShipments == 0

/-- `hasExcessLoad` (`Solution.cpp` 101-106). -/
def hasExcessLoad (s : Solution) : Bool := s.excessLoad.any (fun x => decide (x > 0))

/-- `hasExcessDistance` (`Solution.cpp` 108). -/
def hasExcessDistance (s : Solution) : Bool := decide (s.excessDistance > 0)

/-- `hasTimeWarp` (`Solution.cpp` 110). -/
def hasTimeWarp (s : Solution) : Bool := decide (s.timeWarp > 0)

/-- `isFeasible` (`Solution.cpp` 82-90). -/
def isFeasible (s : Solution) : Bool :=
  !s.hasExcessLoad && !s.hasTimeWarp && !s.hasExcessDistance && s.isComplete

/-- `std::is_permutation` on routes: the same number of elements, and each element occurs (up to
`==`) equally often in both. -/
def isPermutation (a b : List Route) : Bool :=
  a.length == b.length && a.all (fun x => a.countP (Route.eq x) == b.countP (Route.eq x))

/-- `operator==` (`Solution.cpp` 134-155). -/
def eq (s t : Solution) : Bool :=
  s.distance == t.distance && s.duration == t.duration && s.distanceCost == t.distanceCost
    && s.durationCost == t.durationCost && s.timeWarp == t.timeWarp
    && s.numClients == t.numClients && s.numShipments == t.numShipments
    && isPermutation s.routes t.routes

/-- `std::hash<Solution>` (`Solution.h` 292-309) for a given hash of `int64_t` values. -/
def hash (hashInt : Int → Nat) (s : Solution) : Nat :=
  let m := 2 ^ 64
  let h := s.numRoutes
  let h := (h * 257 + hashInt s.uncollectedPrizes) % m
  let h := (h * 257 + hashInt s.distance) % m
  let h := (h * 257 + hashInt s.duration) % m
  (h * 257 + hashInt s.timeWarp) % m

/-! ## Random solutions -/

section Random
variable {σ : Type} (next : σ → Nat × σ)

/-- `x || rng.rand() < 0.5`: a random number is drawn only if `x` does not hold. -/
def requiredOr (required : Bool) (s : σ) : Bool × σ :=
  if required then (true, s) else (randBelowHalf (next s).1, (next s).2)

/-- The loop over groups (`Solution.cpp` 165-172). `randint(0)` for a group without members is
undefined behaviour in C++; problem data has no such groups. -/
def randomGroups (s : σ) : List ClientGroup → List Activity × σ
  | [] => ([], s)
  | group :: rest =>
    let b := requiredOr next group.required s
    if b.1 then
      let idx := randint (next b.2).1 group.clients.length
      let r := randomGroups (next b.2).2 rest
      (⟨.client, group.clients.getD idx 0⟩ :: r.1, r.2)
    else randomGroups b.2 rest

/-- The loop over clients (`Solution.cpp` 174-182). -/
def randomClients (data : ProblemData) (s : σ) : List Nat → List Activity × σ
  | [] => ([], s)
  | idx :: rest =>
    let client := data.client idx
    if client.group.isSome then randomClients data s rest
    else
      let b := requiredOr next client.required s
      let r := randomClients data b.2 rest
      (if b.1 then ⟨.client, idx⟩ :: r.1 else r.1, r.2)

/-- The loop over shipments (`Solution.cpp` 184-190). -/
def randomShipments (data : ProblemData) (s : σ) : List Nat → List Activity × σ
  | [] => ([], s)
  | idx :: rest =>
    let b := requiredOr next (data.shipment idx).required s
    let r := randomShipments data b.2 rest
    (if b.1 then ⟨.pickup, idx⟩ :: r.1 else r.1, r.2)

/-- The selected activities, shuffled (`Solution.cpp` 162-193). -/
def randomActivities (data : ProblemData) (s : σ) : List Activity × σ :=
  let g := randomGroups next s data.groups
  let c := randomClients next data g.2 (List.range data.numClients)
  let p := randomShipments next data c.2 (List.range data.numShipments)
  shuffle next p.2 (g.1 ++ c.1 ++ p.1)

/-- `perRoute` (`Solution.cpp` 200-203). -/
def perRoute (numActivities numVehicles : Nat) : Nat :=
  max (numActivities / numVehicles) 1
    + (if numActivities > numVehicles ∧ numActivities % numVehicles ≠ 0 then 1 else 0)

/-- `numRoutes` (`Solution.cpp` 204). -/
def randomNumRoutes (numActivities perRoute : Nat) : Nat :=
  (numActivities + perRoute - 1) / perRoute

/-- Adding one activity to a route (`Solution.cpp` 212-221). -/
def addActivity (s : σ) (route : List Activity) (a : Activity) : List Activity × σ :=
  if a.isClient then (route ++ [a], s)
  else if a.isPickup then
    let pos := randint (next s).1 (route.length + 1)
    (route.insertIdx pos a ++ [⟨.delivery, a.idx⟩], (next s).2)
  else (route, s)

/-- The loop over activities (`Solution.cpp` 207-222), from index `idx` on. -/
def distribute (perRoute : Nat) (s : σ) (routes : List (List Activity)) (idx : Nat) :
    List Activity → List (List Activity) × σ
  | [] => (routes, s)
  | a :: rest =>
    let r := addActivity next s (routes.getD (idx / perRoute) []) a
    distribute perRoute r.2 (routes.set (idx / perRoute) r.1) (idx + 1) rest

/-- `vehTypes` before shuffling (`Solution.cpp` 224-230). -/
def allVehTypes (data : ProblemData) : List Nat :=
  (List.range data.numVehicleTypes).flatMap
    (fun v => List.replicate (data.vehicleType v).numAvailable v)

/-- Construction of the routes (`Solution.cpp` 239-241). -/
def buildRoutes (data : ProblemData) : List (List Activity × Nat) → Except Error (List Route)
  | [] => .ok []
  | (acts, v) :: rest =>
    match Route.make data acts v with
    | .error e => .error e
    | .ok r =>
      match buildRoutes data rest with
      | .error e => .error e
      | .ok rs => .ok (r :: rs)

/-- The routes' activities and vehicle types, and the final generator state
(`Solution.cpp` 159-237). -/
def randomPlan (data : ProblemData) (s : σ) : List (List Activity) × List Nat × σ :=
  let acts := randomActivities next data s
  let per := perRoute acts.1.length data.numVehicles
  let num := randomNumRoutes acts.1.length per
  let routes := distribute next per acts.2 (List.replicate num []) 0 acts.1
  let types :=
    if data.numVehicleTypes > 1 then shuffle next routes.2 (allVehTypes data)
    else (allVehTypes data, routes.2)
  (routes.1, types.1, types.2)

/-- `Solution::Solution(data, rng)` (`Solution.cpp` 157-244). Reading `vehTypes[idx]` out of range
is undefined behaviour in C++; `List.zip` stops there. -/
def makeRandom (data : ProblemData) (s : σ) : Except Error Solution :=
  let plan := randomPlan next data s
  match buildRoutes data (plan.1.zip plan.2.1) with
  | .error e => .error e
  | .ok rs => make data rs

end Random
end Solution
end PyVRP
