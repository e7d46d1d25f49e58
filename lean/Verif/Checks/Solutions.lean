import Verif.Checks.Instances
import Verif.Model.CostEvaluator

/-!
# Routes, solutions and costs in the cases of the test suite

Checks of `/repo/tests/test_Route.py`, `test_Solution.py`, `test_CostEvaluator.py` and
`test_Statistics.py`.
-/
namespace PyVRP.Checks

/-- `Route(data, activities, vehicle_type)`. -/
def route (data : ProblemData) (activities : List Activity) (vehicleType : Nat := 0) : Route :=
  match Route.make data activities vehicleType with
  | .ok r => r
  | .error _ => Route.build data [] 0

/-- `Route(data, visits, vehicle_type)`. -/
def visits (data : ProblemData) (clients : List Nat) (vehicleType : Nat := 0) : Route :=
  route data (clients.map C) vehicleType

/-- Whether a constructor raises. -/
def raises {α : Type} : Except Error α → Bool
  | .ok _ => false
  | .error _ => true

/-- The solution that a constructor returns. -/
def solution? : Except Error Solution → Solution
  | .ok s => s
  | .error _ => { routes := [] }

/-- `Solution(data, visits)`. -/
def solution (data : ProblemData) (clients : List (List Nat)) : Solution :=
  solution? (Solution.makeVisits data clients)

/-! ## `test_Route.py` -/

/-- `test_route_depot_accessors`. -/
example : (visits okSmallMultipleDepots [0]).startDepot = 0 ∧ (visits okSmallMultipleDepots [0]).endDepot = 0
    ∧ (visits okSmallMultipleDepots [1, 2] 1).startDepot = 1
    ∧ (visits okSmallMultipleDepots [1, 2] 1).endDepot = 1 := by
  decide +kernel

/-- The instance of `test_route_eq`. -/
def twoCapacities (n : Nat) (first : Int := 10) (second : Int := 20) (m : Nat := 1) : ProblemData :=
  withTypes okSmall [{ numAvailable := n, capacity := [first] }, { numAvailable := m, capacity := [second] }]

/-- `test_route_eq`. -/
example :
    let data := twoCapacities 1 (m := 2)
    (visits data [1, 2]).eq (visits data [1, 2]) = true ∧ (visits data [1, 2]).eq (visits data [1, 2] 1) = false
      ∧ (visits data [1, 2]).eq (visits data [2, 1]) = false := by
  decide +kernel

/-- `test_route_access_methods`. -/
example :
    let r0 := visits okSmall [0, 2]
    let r1 := visits okSmall [1, 3]
    r0.excessLoad = [0] ∧ r1.excessLoad = [0] ∧ r0.delivery = [5 + 3] ∧ r1.delivery = [5 + 5]
      ∧ r0.pickup = [0] ∧ r1.pickup = [0] ∧ r0.isFeasible = false ∧ r1.isFeasible = true
      ∧ r0.serviceDuration = 360 + 420 ∧ r1.serviceDuration = 360 + 360 := by
  decide +kernel

/-- `test_access_multiple_trips`. -/
example : (route okSmallMultipleTrips [C 0, C 1, D 0, C 2]).schedule.map (·.activity)
    = [D 0, C 0, C 1, D 0, C 2, D 0] := by
  decide +kernel

/-- `test_route_time_warp_calculations`. -/
example : (visits okSmall [0, 2]).timeWarp = 15600 + 360 + 1427 - 15300 ∧ (visits okSmall [1, 3]).timeWarp = 0 := by
  decide +kernel

/-- `test_route_wait_time_calculations`. -/
example :
    let r1 := visits okSmallWaitTime [1, 3]
    let r := visits okSmallWaitTime [0, 1, 3]
    r1.waitDuration = 1550 ∧ r1.slack = 0 ∧ r1.startTime = 13056
      ∧ r.timeWarp = 2952 ∧ r.waitDuration = 1550 ∧ r.slack = 0 := by
  decide +kernel

/-- `test_route_start_and_end_time_calculations`. -/
example :
    let r0 := visits okSmall [0, 2]
    let r1 := visits okSmall [1, 3]
    r0.hasTimeWarp = true ∧ r0.slack = 0 ∧ r0.startTime = 15600 - 1544
      ∧ r0.endTime = 15600 - 1544 + r0.duration - r0.timeWarp
      ∧ r1.hasTimeWarp = false ∧ r1.waitDuration = 0 ∧ r1.startTime = 10056 ∧ r1.slack = 16106 - 10056
      ∧ r1.duration = 5229 ∧ r1.endTime = 10056 + 5229 := by
  decide +kernel

/-- `test_route_release_time`. -/
example :
    let r0 := visits okSmallReleaseTimes [0, 2]
    let r1 := visits okSmallReleaseTimes [1, 3]
    r0.releaseTime = 20000 ∧ r1.releaseTime = 5000 ∧ r1.hasTimeWarp = false ∧ r1.startTime > r1.releaseTime := by
  decide +kernel

/-- `test_release_time_and_shift_duration`. -/
example :
    let r := visits (withTypes okSmallReleaseTimes [{ numAvailable := 3, capacity := [10], shiftDuration := 5000 }]) [1, 2, 3]
    r.releaseTime = 5000 ∧ r.startTime = 10056 ∧ r.endTime = 15056 ∧ r.duration = 5998
      ∧ r.serviceDuration = 1140 ∧ r.timeWarp = 998 := by
  decide +kernel

/-- `test_release_time_and_service_duration`. -/
example :
    let r := visits (get (okSmallReleaseTimes.replace { depots := some [depot 0 6000] })) [1, 2, 3]
    r.releaseTime = 5000 ∧ r.startTime = 5000 ∧ r.duration = 6000 + 5998 ∧ r.serviceDuration = 6000 + 1140
      ∧ r.timeWarp = 0 := by
  decide +kernel

/-- `test_route_shift_duration`. -/
example : ∀ p ∈ [(0, 0, 0, 20277), (0, 10000, 20000, 277), (0, 20000, 20000, 277), (0, 20277, 20277, 0),
      (15000, 15000, 20000, 1221), (10000, 20000, 20000, 277)],
    (visits (withTypes okSmall [{ numAvailable := 2, capacity := [10], twEarly := p.1, startLate := some p.2.1, twLate := p.2.2.1 }])
      [0, 1]).timeWarp = p.2.2.2 := by
  decide +kernel

/-- The instance of `test_distance_duration_cost_calculations`. -/
def twoUnitCosts : ProblemData :=
  withTypes okSmall [{ capacity := [10], unitDistanceCost := 5, unitDurationCost := 1 },
    { capacity := [10], unitDistanceCost := 1, unitDurationCost := 5 }]

/-- `test_distance_duration_cost_calculations`. -/
example :
    let r0 := visits twoUnitCosts [0, 1]
    let r1 := visits twoUnitCosts [2, 3] 1
    r0.distanceCost = 5 * r0.distance ∧ r0.durationCost = 1 * r0.duration
      ∧ r1.distanceCost = 1 * r1.distance ∧ r1.durationCost = 5 * r1.duration := by
  decide +kernel

/-- `test_start_end_depot_not_same_on_empty_route`. -/
example :
    let r := route (withTypes okSmallMultipleDepots [{ numAvailable := 3, capacity := [10], startDepot := 0, endDepot := 1 }]) []
    r.startDepot = 0 ∧ r.endDepot = 1 ∧ r.distance = 1544 ∧ r.duration = 1544 := by
  decide +kernel

/-- `test_bug_start_time_before_release_time`. -/
example :
    let m := matrix [[0, 10], [10, 0]]
    let r := visits (problem 2 [client 1 (releaseTime := 5)] [depot 0] [vehicleType {}] m m) [0]
    r.isFeasible = true ∧ r.startTime = 5 ∧ r.endTime = 25 := by
  decide +kernel

/-- `test_route_schedule`. -/
example : ∀ v ∈ [[0, 1, 2, 3], [1, 0, 2, 3]],
    let r := visits okSmall v
    r.schedule.length = r.size
      ∧ (∀ s ∈ r.schedule, s.duration
          = if s.activity.isDepot then (okSmall.depot s.activity.idx).serviceDuration
            else (okSmall.client s.activity.idx).serviceDuration)
      ∧ (r.schedule.map (·.duration)).sum = r.serviceDuration
      ∧ (r.schedule.map (·.waitDuration)).sum = r.waitDuration
      ∧ (r.schedule.map (·.timeWarp)).sum = r.timeWarp := by
  decide +kernel

/-- `test_route_schedule_wait_duration`. -/
example : ((visits okSmallWaitTime [1, 3]).schedule.map (·.waitDuration)) = [0, 0, 1550, 0] := by
  decide +kernel

/-- `test_initial_load_calculation`. -/
example : (visits okSmall [0, 1]).excessLoad = [0]
    ∧ (visits (withType okSmall { initialLoad := some [5] }) [0, 1]).excessLoad = [5] := by
  decide +kernel

/-- `test_raises_multiple_trips_without_reload_depots`, `test_raises_vehicle_max_reloads`,
`test_raises_invalid_depot_or_client` and `test_raises_invalid_shipment`. -/
example : raises (Route.make okSmall [C 1, C 2, D 0, C 3] 0) = true
    ∧ raises (Route.make okSmallMultipleTrips [C 1, D 0, D 0, C 3] 0) = true
    ∧ raises (Route.make okSmallMultipleTrips [D 1] 0) = true
    ∧ raises (Route.make okSmallMultipleTrips [C 4] 0) = true
    ∧ raises (Route.make okSmallMultipleTrips [C 3, D 0] 0) = false
    ∧ raises (Route.make smallShipments [L 4, U 4] 0) = true := by
  decide +kernel

/-- `test_statistics_with_small_multi_trip_example`. -/
example :
    let r1 := visits okSmallMultipleTrips [0, 1, 2, 3]
    let r2 := route okSmallMultipleTrips [C 0, C 1, D 0, C 2, C 3]
    r1.numTrips = 1 ∧ r2.numTrips = 2 ∧ r2.prizes = r1.prizes ∧ r2.startDepot = r1.startDepot
      ∧ r2.endDepot = r1.endDepot ∧ r1.excessLoad = [8] ∧ r2.excessLoad = [0] ∧ r1.duration = 7950
      ∧ r2.duration = r1.duration + (1965 + 1931 - 621) ∧ r2.waitDuration = r1.waitDuration
      ∧ r2.serviceDuration = r1.serviceDuration := by
  decide +kernel

/-- `test_index_multiple_trips`. -/
example :
    let r := route okSmallMultipleTrips [C 0, D 0, C 2]
    ((r.get 0).map (·.activity)) = .ok (D 0) ∧ ((r.get 1).map (·.activity)) = .ok (C 0)
      ∧ ((r.get 2).map (·.activity)) = .ok (D 0) ∧ ((r.get 3).map (·.activity)) = .ok (C 2)
      ∧ raises (r.get 5) = true := by
  decide +kernel

/-- `test_iter_empty_trips`. -/
example : (route (withType okSmallMultipleTrips { maxReloads := some 2 }) [C 0, C 1, D 0, D 0, C 2, C 3]).numTrips
    = 3 := by
  decide +kernel

/-- The instance of `test_small_example_from_cattaruzza_paper`. -/
def cattaruzza : ProblemData :=
  let c := fun location twEarly twLate =>
    get (Client.make ⟨location, [], [], 5, twEarly, twLate, 0, 0, true, none, ""⟩)
  let m := matrix [[0, 5, 15, 20, 10, 15], [5, 0, 20, 20, 15, 15], [15, 20, 0, 40, 20, 30],
    [20, 20, 40, 0, 30, 10], [10, 15, 20, 30, 0, 20], [15, 15, 30, 10, 20, 0]]
  problem 6 [c 1 100 120, c 2 50 75, c 3 50 75, c 4 50 100, c 5 50 100]
    [get (Depot.make ⟨0, 0, 200, 20, ""⟩)] [vehicleType { reloadDepots := [0] }] m m

/-- `test_small_example_from_cattaruzza_paper`. -/
example :
    let r := route cattaruzza [C 4, C 2, D 0, C 0, D 0, C 3, D 0, C 1]
    r.startTime = 15 ∧ r.endTime = 95 ∧ r.timeWarp = 75 + 55 ∧ r.slack = 0 ∧ r.serviceDuration = 25 + 80
      ∧ r.travelDuration = 105
      ∧ ((r.schedule[5]?).map fun s => (s.startTime, s.duration)) = some (125, 20)
      ∧ ((r.schedule[7]?).map fun s => (s.startTime, s.duration)) = some (115, 20)
      ∧ ((r.schedule[9]?).map fun s => (s.startTime, s.duration)) = some (95, 0) := by
  decide +kernel

/-- The instance of `test_multi_trip_with_release_times`. -/
def tripsWithReleaseTimes : ProblemData :=
  let m := matrix [[0, 30, 20, 40], [0, 0, 10, 0], [5, 0, 0, 0], [10, 0, 0, 0]]
  problem 4 [client 1 (twEarly := 60) (twLate := 100) (releaseTime := 40),
      client 2 (twEarly := 70) (twLate := 90) (releaseTime := 50),
      client 3 (twEarly := 80) (twLate := 150) (releaseTime := 100)]
    [depot 0] [vehicleType { reloadDepots := [0] }] m m

/-- `test_multi_trip_with_release_times`. -/
example :
    let r := route tripsWithReleaseTimes [C 0, C 1, D 0, C 2]
    r.releaseTime = 50 ∧ r.travelDuration = 95 ∧ r.serviceDuration = 0 ∧ r.startTime = 50 ∧ r.duration = 100
      ∧ r.endTime = 150 ∧ r.waitDuration = 5 ∧ r.timeWarp = 0 ∧ r.slack = 0
      ∧ ((r.schedule[0]?).map fun s => (s.startTime, s.endTime)) = some (50, 50)
      ∧ ((r.schedule[3]?).map fun s => (s.startTime, s.endTime, s.waitDuration)) = some (100, 100, 5)
      ∧ ((r.schedule[5]?).map fun s => (s.startTime, s.endTime)) = some (150, 150) ∧ r.size = 6 := by
  decide +kernel

/-- `test_multi_trip_initial_load`. -/
example : (route (withType okSmallMultipleTrips { initialLoad := some [5] }) [C 0, C 1, D 0, C 2, C 3]).excessLoad
    = [5] := by
  decide +kernel

/-- `test_bug_iterating_with_empty_last_trip`. -/
example : (route okSmallMultipleTrips [C 0, C 1, D 0]).schedule.map (·.activity.idx) = [0, 0, 1, 0, 0] := by
  decide +kernel

/-- `test_route_release_time_after_vehicle_start_late`. -/
example :
    let r := visits (withType okSmallReleaseTimes { startLate := some 10000 }) [2, 0]
    r.startTime = 20000 ∧ r.releaseTime = 20000 ∧ r.timeWarp = 10000 ∧ r.duration = 7686
      ∧ (r.schedule.map (·.timeWarp)).sum = r.timeWarp := by
  decide +kernel

/-- `test_fixed_vehicle_cost`. -/
example : ∀ x ∈ [0, 10], (route (withType okSmall { fixedCost := some x }) []).fixedVehicleCost = x := by
  decide +kernel

/-- `test_len` and `test_schedule_trip_count`. -/
example :
    let r := route okSmallMultipleTrips [C 0, D 0, C 1]
    r.size = 5 ∧ r.numClients = 2 ∧ r.numDepots = 3 ∧ r.numTrips = 2
      ∧ (route okSmallMultipleTrips [C 0, D 0]).schedule.map (·.trip) = [0, 0, 1, 2] := by
  decide +kernel

/-- `test_raises_unpaired_shipment`. -/
example : ∀ l ∈ [[L 1], [U 1], [L 1, U 1, U 1], [L 1, L 1], [U 1, L 1]],
    raises (Route.make smallShipments l 0) = true := by
  decide +kernel

/-- `test_route_with_shipments`. -/
example :
    let r := route smallShipments [L 0, L 1, L 2, U 2, U 1, U 0]
    r.numClients = 0 ∧ r.numShipments = 3 ∧ r.distance = 47132 ∧ r.timeWarp = 1611
      ∧ r.duration = 47132 + 6 * 900 + 13800 + 402 ∧ r.excessLoad = [20] := by
  decide +kernel

/-- `test_mixed_clients_and_shipments_with_reloading`. -/
example :
    let data := withType (withClients smallShipments [client 0 [60], client 1 [0]]) { reloadDepots := some [0] }
    let r := route data [L 0, C 0, L 1, L 2, U 0, U 1, U 2, D 0, C 1]
    r.distance = 54938 ∧ r.timeWarp = 2902 + 10549 ∧ r.duration = 54938 + 6 * 900 + 13800 + 959
      ∧ r.excessLoad = [30] := by
  decide +kernel

/-- `test_raises_shipment_crossing_reload_depot`. -/
example : raises (Route.make (withType smallShipments { reloadDepots := some [0] }) [L 0, D 0, U 0] 0) = true := by
  decide +kernel

/-! ## `test_Solution.py` -/

/-- `test_route_constructor_raises_for_empty_routes`. -/
example : ∀ rs ∈ [[[2, 3], [0, 1], []], [[2, 3], [], [0, 1]]], raises (Solution.makeVisits okSmall rs) = true := by
  decide +kernel

/-- `test_random_constructor_cycles_over_routes`. -/
example : ((solution? (Solution.makeRandom Rng.next okSmall (Rng.ofSeed 42))).routes.map (·.numClients)) = [2, 2] := by
  decide +kernel

/-- `test_random_constructor_uses_all_routes`. -/
example : ∀ n ∈ [4, 5],
    ((solution? (Solution.makeRandom Rng.next (withTypes okSmall [{ numAvailable := n, capacity := [10] }])
      (Rng.ofSeed 42))).routes.map (·.numClients)) = [1, 1, 1, 1] := by
  decide +kernel

/-- `test_random_constructor_uses_all_vehicle_types`. -/
example :
    let used := (solution? (Solution.makeRandom Rng.next (twoCapacities 4 10 10 4) (Rng.ofSeed 42))).routes.map
      (·.vehicleType)
    0 ∈ used ∧ 1 ∈ used := by
  decide +kernel

/-- `test_route_constructor_raises_too_many_vehicles` and
`tests_that_not_specifying_the_vehicle_type_assumes_a_default`. -/
example :
    let data := twoCapacities 2
    raises (Solution.makeVisits okSmall [[0, 1], [3, 2]]) = false
      ∧ raises (Solution.makeVisits okSmall [[0, 1], [3], [2]]) = false
      ∧ raises (Solution.makeVisits okSmall [[0], [1], [2], [3]]) = true
      ∧ raises (Solution.makeVisits data [[0, 1], [3, 2]]) = false
      ∧ raises (Solution.make data [visits data [0, 1] 0, visits data [3, 2] 1]) = false
      ∧ raises (Solution.make data [visits data [0] 0, visits data [1] 0, visits data [3, 2] 1]) = false
      ∧ raises (Solution.make data [visits data [0, 1] 1, visits data [3, 2] 1]) = true
      ∧ raises (Solution.make data [visits data [0] 0, visits data [1] 1, visits data [2, 3] 1]) = true
      ∧ raises (Solution.makeVisits data [[0, 1], [3], [2]]) = true := by
  decide +kernel

/-- `test_route_constructor_raises_for_multiple_visits`. -/
example : raises (Solution.makeVisits okSmall [[0, 1], [0, 2, 3]]) = true
    ∧ raises (Solution.makeVisits okSmall [[0, 1], [0, 2, 3], [0]]) = true := by
  decide +kernel

/-- `test_route_constructor_allows_incomplete_solutions`. -/
example :
    let s := solution okSmallPrizes
    ((s [[1], [2, 3]]).isComplete, (s [[1], [2, 3]]).isFeasible) = (false, false)
      ∧ ((s [[0], [1, 2, 3]]).isComplete, (s [[0], [1, 2, 3]]).isFeasible) = (true, false)
      ∧ ((s [[0]]).isComplete, (s [[0]]).isFeasible) = (true, true) := by
  decide +kernel

/-- `test_feasibility`. -/
example :
    let s := solution okSmall [[0, 1, 2, 3]]
    let t := solution okSmall [[0, 1], [2], [3]]
    (s.isFeasible, s.hasExcessLoad, s.hasTimeWarp) = (false, true, true)
      ∧ (t.isFeasible, t.hasExcessLoad, t.hasTimeWarp) = (true, false, false) := by
  decide +kernel

/-- `test_feasibility_release_times`. -/
example :
    let s := solution okSmallReleaseTimes [[0, 1], [2], [3]]
    s.isFeasible = false ∧ s.timeWarp = 4396
      ∧ (solution okSmallReleaseTimes [[0], [1, 2], [3]]).isFeasible = true := by
  decide +kernel

/-- `test_feasibility_shift_duration`. -/
example :
    let s := solution (withTypes okSmall [{ numAvailable := 4, capacity := [10], shiftDuration := 3000 }]) [[0, 1], [2, 3]]
    s.routes.map (·.duration) = [6221, 5004] ∧ s.timeWarp = 5225 ∧ s.routes.map (·.isFeasible) = [false, false]
      ∧ s.isFeasible = false ∧ (solution okSmall [[0, 1], [2, 3]]).isFeasible = true := by
  decide +kernel

/-- `test_feasibility_max_distance`. -/
example :
    let s := solution (withTypes okSmall [{ numAvailable := 4, capacity := [10], maxDistance := 5000 }]) [[0, 1], [2, 3]]
    s.routes.map (fun r => (r.distance, r.excessDistance, r.hasTimeWarp, r.isFeasible))
        = [(5501, 501, false, false), (4224, 0, false, true)]
      ∧ s.excessDistance = 501 ∧ s.isFeasible = false := by
  decide +kernel

/-- `test_distance_calculation`. -/
example :
    let s := solution okSmall [[0, 1], [2], [3]]
    s.isFeasible = true ∧ s.routes.map (·.distance) = [1544 + 1992 + 1965, 1931 + 2063, 1476 + 1475]
      ∧ s.distance = 1544 + 1992 + 1965 + (1931 + 2063) + (1476 + 1475) := by
  decide +kernel

/-- `test_excess_load_calculation`. -/
example :
    let s := solution okSmall [[3, 2, 0, 1]]
    s.hasTimeWarp = false ∧ s.excessLoad = [18 - 10] := by
  decide +kernel

/-- `test_excess_load_calculation_with_multiple_load_dimensions`. -/
example : ∀ p ∈ [([10, 1], [1, 10], [5, 5], [6, 6]), ([1, 10], [10, 1], [5, 5], [6, 6]), ([10, 10], [1, 1], [5, 5], [6, 6]),
      ([10, 1], [1, 10], [11, 5], [0, 6]), ([10, 1], [1, 10], [5, 11], [6, 0])],
    let m := matrix [[0, 1, 2], [1, 0, 1], [2, 1, 0]]
    (solution (problem 3 [client 1 p.1, client 2 p.2.1] [depot 0] [vehicleType { capacity := p.2.2.1 }] m m)
      [[0, 1]]).excessLoad = p.2.2.2 := by
  decide +kernel

/-- `test_time_warp_for_a_very_constrained_problem`. -/
example : ∀ x ∈ [100, 1, 1000],
    let data := problem 3 [client 1 (twLate := 5), client 2 (twLate := 5)] [depot 0]
      [vehicleType { numAvailable := 2, twLate := 10 }] (off 3 x) (matrix [[0, 1, 10], [1, 0, 1], [1, 1, 0]])
    let s := solution data [[0], [1]]
    let t := solution data [[0, 1]]
    (s.hasTimeWarp, s.hasExcessLoad, s.isFeasible) = (true, false, false)
      ∧ (t.hasTimeWarp, t.hasExcessLoad, t.isFeasible) = (false, false, true) ∧ t.distance = 3 * x := by
  decide +kernel

/-- `test_time_warp_return_to_depot`. -/
example :
    let s := solution (problem 2 [client 1] [depot 0] [vehicleType { twLate := 1 }] (zeros 2) (off 2 1)) [[0]]
    s.routes.map (·.duration) = [2] ∧ s.timeWarp = 1 := by
  decide +kernel

/-- `test_eq` and `test_eq_with_multiple_vehicle_types`. -/
example :
    let s := solution okSmall
    let data := twoCapacities 2 20 30
    let t := fun a b => solution? (Solution.make data [visits data [0, 1] a, visits data [2, 3] b])
    (s [[0, 1, 2, 3]]).eq (s [[0, 1, 2, 3]]) = true ∧ (s [[0, 1, 2, 3]]).eq (s [[0, 1], [2], [3]]) = false
      ∧ (s [[0, 1, 2], [3]]).eq (s [[3], [0, 1, 2]]) = true
      ∧ (t 0 1).eq (solution? (Solution.make data [visits data [2, 3] 1, visits data [0, 1] 0])) = true
      ∧ (t 0 1).eq (t 1 0) = false
      ∧ (solution data [[0, 1, 2, 3]]).eq (solution? (Solution.make data [visits data [0, 1, 2, 3] 0])) = true
      ∧ (solution data [[0, 1, 2, 3]]).eq (solution? (Solution.make data [visits data [0, 1, 2, 3] 1])) = false := by
  decide +kernel

/-- `test_eq_unassigned`. -/
example :
    let data := problem 3 [client 1 (required := false), client 2 (required := false)] [depot 0]
      [vehicleType { numAvailable := 2 }] (off 3 1) (off 3 1)
    (solution data [[0]]).eq (solution data [[0]]) = true
      ∧ (solution data [[0]]).eq (solution data [[1]]) = false := by
  decide +kernel

/-- `test_fixed_vehicle_cost`. -/
example : ∀ p ∈ [(0, 0, 0), (0, 1, 10), (1, 1, 20)],
    let data := withTypes okSmall [{ numAvailable := 2, capacity := [10], fixedCost := 0 },
      { numAvailable := 2, capacity := [10], fixedCost := 10 }]
    (solution? (Solution.make data [visits data [0, 1] p.1, visits data [2, 3] p.2.1])).fixedVehicleCost = p.2.2 := by
  decide +kernel

/-- The instance of `test_solution_feasibility_with_mutually_exclusive_groups`. -/
def oneGroup (required : Bool) : ProblemData :=
  get (okSmall.replace {
    clients := some ([client 1 [0] (required := false) (group := some 0),
      client 2 [0] (required := false) (group := some 0)] ++ okSmall.clients.drop 2)
    groups := some [{ clients := [0, 1], required := required, name := "" }] })

/-- `test_solution_feasibility_with_mutually_exclusive_groups` and
`test_optional_mutually_exclusive_group`. -/
example : (∀ p ∈ [([[0], [2, 3]], true), ([[1], [2, 3]], true), ([[2, 3]], false)],
      let s := solution (oneGroup true) p.1
      s.isFeasible = p.2 ∧ s.numMissingGroups = if p.2 then 0 else 1)
    ∧ (solution (oneGroup false) [[2, 3]]).isFeasible = true
    ∧ (solution (oneGroup false) [[2, 3]]).numMissingGroups = 0 := by
  decide +kernel

/-- `test_distance_duration_cost_calculations`. -/
example :
    let rs := [visits twoUnitCosts [0, 1], visits twoUnitCosts [2, 3] 1]
    let s := solution? (Solution.make twoUnitCosts rs)
    s.distance = (rs.map (·.distance)).sum ∧ s.distanceCost = (rs.map (·.distanceCost)).sum
      ∧ s.duration = (rs.map (·.duration)).sum ∧ s.durationCost = (rs.map (·.durationCost)).sum := by
  decide +kernel

/-- `test_overtime`. -/
example :
    let r := visits okSmallOvertime [1, 3]
    let s := solution okSmallOvertime [[1, 3]]
    r.hasTimeWarp = false ∧ r.duration = 5229 ∧ r.overtime = 229 ∧ r.durationCost = 1 * 5229 + 10 * 229
      ∧ s.hasTimeWarp = false ∧ s.overtime = 229 ∧ s.duration = 5229 ∧ s.durationCost = r.durationCost := by
  decide +kernel

/-- `test_raises_duplicate_group` and `test_is_complete`. -/
example : raises (Solution.makeVisits okSmallGroups [[1, 2]]) = true
    ∧ raises (Solution.makeVisits okSmallGroups [[1]]) = false
    ∧ raises (Solution.makeVisits okSmallGroups [[2]]) = false
    ∧ (solution okSmallGroups [[0, 3]]).isComplete = true ∧ (solution okSmallGroups [[0]]).isComplete = false
    ∧ (solution okSmallGroups [[3]]).isComplete = false := by
  decide +kernel

/-- `test_make_random` and `test_random_sol_with_shipments`. -/
example : ∀ seed ∈ List.range 10,
    (solution? (Solution.makeRandom Rng.next okSmallGroups (Rng.ofSeed (.ofNat 32 seed)))).isComplete = true
      ∧ (solution? (Solution.makeRandom Rng.next smallShipments (Rng.ofSeed (.ofNat 32 seed)))).isComplete = true
      ∧ (solution? (Solution.makeRandom Rng.next smallShipments (Rng.ofSeed (.ofNat 32 seed)))).numShipments = 4 := by
  decide +kernel

/-- `test_unplanned`. -/
example : ∀ p ∈ [([0, 1], [C 2, C 3]), ([1, 2], [C 0, C 3]), ([0, 1, 2, 3], [])],
    let s := solution okSmall [p.1]
    s.numMissingClients = p.2.length ∧ s.unplanned = p.2 := by
  decide +kernel

/-- `test_shipments`. -/
example :
    let s := solution? (Solution.make smallShipments [route smallShipments [L 1, U 1], route smallShipments [L 2, U 2]])
    s.numClients = 0 ∧ s.numShipments = 2 ∧ s.numMissingShipments = 2 ∧ s.isComplete = false
      ∧ s.isFeasible = false ∧ s.unplanned = [L 0, U 0, L 3, U 3] := by
  decide +kernel

/-- `test_shipment_prizes`. -/
example :
    let s := solution? (Solution.make smallOptionalShipments [])
    let t := solution? (Solution.make smallOptionalShipments [route smallOptionalShipments [L 0, U 0]])
    s.prizes = 0 ∧ s.uncollectedPrizes = 23000 ∧ t.prizes = 10000 ∧ t.uncollectedPrizes = 13000 := by
  decide +kernel

/-- `test_raises_multiple_shipment_visits`. -/
example :
    let r := route smallShipments [L 0, U 0]
    r.isFeasible = true ∧ raises (Solution.make smallShipments [r, r]) = true := by
  decide +kernel

/-! ## `test_CostEvaluator.py` and `test_Statistics.py` -/

/-- `test_load_penalty`. -/
example : ∀ p ∈ [2, 4], [0, 1, 2, 3].map (fun x => (cost [p] 1 0).loadPenalty x 1 0) = [0, 0, p, 2 * p] := by
  decide +kernel

/-- `test_load_penalty_multiple_dimensions`. -/
example : [0, 1].map (fun dim => [0, 1, 2, 3].map fun x => (cost [1, 2] 0 0).loadPenalty x 1 dim)
    = [[0, 0, 1, 2], [0, 0, 2, 4]] := by
  decide +kernel

/-- `test_tw_penalty` and `test_dist_penalty`. -/
example : ∀ p ∈ [2, 4], [0, 1, 2].map (cost [1] p 0).twPenalty = [0, p, 2 * p]
    ∧ [-1, 0, 1, 2].map (fun x => (cost [1] 1 p).distPenalty x 0) = [0, 0, p, 2 * p] := by
  decide +kernel

/-- `test_cost`. -/
example : ∀ ce ∈ [cost [0] 0 0, cost [20] 6 0],
    let s := solution okSmall [[0, 1], [2], [3]]
    ce.cost s = s.distance ∧ ce.cost (solution okSmall [[0, 1, 2, 3]]) = MAX := by
  intro ce h
  rcases List.mem_cons.1 h with rfl | h
  · decide +kernel
  · rcases List.mem_cons.1 h with rfl | h
    · decide +kernel
    · cases h

/-- `test_data_point_matches_collect` in `test_Statistics.py`. -/
example :
    let ce := cost [20] 6 6
    let curr := solution okSmall [[0, 1, 2, 3]]
    let cand := solution okSmall [[1, 0], [3, 2]]
    let best := solution okSmall [[0, 1], [2, 3]]
    (ce.penalisedCost curr, curr.isFeasible) = (28408, false)
      ∧ (ce.penalisedCost cand, cand.isFeasible) = (10012, true)
      ∧ (ce.penalisedCost best, best.isFeasible) = (9725, true) := by
  decide +kernel

end PyVRP.Checks
