import Verif.Checks.Instances
import Verif.Model.Solve

/-!
# The operators in the cases of the test suite

Each check cites the test in `/repo/tests/search` with the expected values. Not included are tests on
objects that the local search never passes to the operators (such as a depot as the first
node), tests that only ask for names, and tests on large instances.
-/
namespace PyVRP.Checks

/-! ## `test_Swap.py` -/

def durationLimit (x : Int) : ProblemData :=
  withTypes okSmall [{ numAvailable := 2, capacity := [10], shiftDuration := x }]

/-- `test_swap_with_duration_constraint`. -/
example : ∀ p ∈ [(0, -693), (5000, -596)],
    let s := sol (durationLimit p.1) [[C 1, C 3], [C 0, C 2]]
    (s.route 0).duration_ = 5229 ∧ (s.route 1).duration_ = 5814
      ∧ eval (.swap 2 1) (durationLimit p.1) (cost [1] 1 0) s (C 1) (.task (C 0)) = (p.2, true) := by
  decide +kernel

/-- The instance of `test_swap_within_route_simultaneous_pickup_and_delivery`. -/
def pickupAndDelivery : ProblemData :=
  problem 4 [client 1 [] [5], client 2 [] [0], client 3 [5]] [depot 0] [vehicleType { capacity := [5] }]
    (off 4 1) (zeros 4)

/-- `test_swap_within_route_simultaneous_pickup_and_delivery`. -/
example :
    let s := sol pickupAndDelivery [[C 0, C 1, C 2]]
    (s.route 0).load_ = [10] ∧ (s.route 0).excessLoad_ = [5]
      ∧ eval (.swap 1 1) pickupAndDelivery (cost [1] 1 0) s (C 0) (.task (C 2)) = (-5, true) := by
  decide +kernel

def distanceLimit (x : Int) : ProblemData :=
  withTypes okSmall [{ numAvailable := 2, capacity := [10], maxDistance := x }]

/-- `test_swap_max_distance`. -/
example : ∀ p ∈ [(5000, -5222), (2500, -6072), (0, -6072)],
    let data := distanceLimit p.1
    let s := sol data [[C 0, C 1], [C 2]]
    let t := applied (.swap 1 1) data (cost [0] 0 10) s (C 1) (.task (C 2))
    eval (.swap 1 1) data (cost [0] 0 10) s (C 1) (.task (C 2)) = (p.2, true)
      ∧ (distance s 0, distance s 1, distance t 0, distance t 1) = (5501, 3994, 5034, 3909)
      ∧ ((s.route 0).excessDistance_, (s.route 1).excessDistance_) = (max (5501 - p.1) 0, max (3994 - p.1) 0)
      ∧ ((t.route 0).excessDistance_, (t.route 1).excessDistance_) = (max (5034 - p.1) 0, max (3909 - p.1) 0) := by
  decide +kernel

/-- `test_swap_with_different_profiles`: the routes are the first of each type. -/
example :
    let s := routes okSmallTwoProfiles [(0, [C 2]), (3, [C 3])]
    let dist := okSmallTwoProfiles.dist
    eval (.swap 1 1) okSmallTwoProfiles (cost [0] 0 0) s (C 2) (.task (C 3))
      = (dist 0 0 4 + dist 0 4 0 + dist 1 0 3 + dist 1 3 0 - distance s 0 - distance s 3, false) := by
  decide +kernel

/-- `test_swap_does_not_swap_depots`. -/
example : eval (.swap 2 1) okSmallMultipleTrips (cost [0] 0 0)
    (sol okSmallMultipleTrips [[C 0, C 1, D 0, C 2, C 3]]) (C 1) (.task (C 2)) = (0, false) := by
  decide +kernel

/-- `test_bug_evaluating_move_with_initial_load`. -/
example :
    let data := problem 4 [client 1 [1], client 2 [1], client 3 [0]] [depot 0]
      [vehicleType { numAvailable := 2, capacity := [5], initialLoad := [5] }] (zeros 4) (zeros 4)
    eval (.swap 2 1) data (cost [1] 0 0) (sol data [[C 1, C 2], [C 0]]) (C 1) (.task (C 0)) = (0, false) := by
  decide +kernel

/-- `test_supports_shipments`. -/
example : (BinaryOp.swap 2 2).supports smallShipments = true ∧ (BinaryOp.swap 1 1).supports smallShipments = false
    ∧ (BinaryOp.swap 2 1).supports smallShipments = false := by decide +kernel

/-- `test_skip_unassigned_clients`. -/
example : eval (.swap 1 1) okSmall (cost [0] 0 0) (sol okSmall [[C 0, C 1]]) (C 2) (.start 0) = (0, false) := by
  decide +kernel

def allShipments : List Activity := [L 1, U 1, L 0, U 0, L 2, U 2, L 3, U 3]

/-- `test_swap_shipment`, and the moves that cannot be done as far as the first node is a pickup. -/
example :
    let s := sol smallShipments [allShipments]
    let t := applied (.swap 2 2) smallShipments (cost [0] 0 0) s (L 0) (.task (L 3))
    distance s 0 = 64267
      ∧ eval (.swap 2 2) smallShipments (cost [0] 0 0) s (U 1) (.start 0) = (0, false)
      ∧ eval (.swap 2 2) smallShipments (cost [0] 0 0) s (L 0) (.task (L 3)) = (-5622, true)
      ∧ distance t 0 = 58645 ∧ acts t 0 = [L 1, U 1, L 3, U 3, L 2, U 2, L 0, U 0] := by
  decide +kernel

/-! ## `test_SwapTails.py` -/

/-- The instance of `test_move_involving_empty_routes`. -/
def twoFixedCosts (required : Bool := true) : ProblemData :=
  problem 3 [client 1 (required := required), client 2 (required := required)] [depot 0]
    [vehicleType { fixedCost := 10 }, vehicleType { fixedCost := 100 }] (zeros 3) (zeros 3)

/-- `test_move_involving_empty_routes`. -/
example :
    let s := sol twoFixedCosts [[C 0, C 1]]
    let t := sol twoFixedCosts [[], [C 0, C 1]]
    eval .swapTails twoFixedCosts (cost [] 0 0) s (C 1) (.start 1) = (0, false)
      ∧ eval .swapTails twoFixedCosts (cost [] 0 0) s (C 0) (.start 1) = (100, false)
      ∧ eval .swapTails twoFixedCosts (cost [] 0 0) t (C 1) (.start 0) = (0, false)
      ∧ eval .swapTails twoFixedCosts (cost [] 0 0) t (C 0) (.start 0) = (10, false) := by
  decide +kernel

/-- `test_move_involving_multiple_depots`. -/
example :
    let data := problem 4 [client 2, client 3] [depot 0, depot 1]
      [vehicleType { startDepot := 0, endDepot := 0 }, vehicleType { startDepot := 1, endDepot := 1 }]
      (matrix [[0, 10, 2, 8], [10, 0, 8, 2], [2, 8, 0, 6], [8, 2, 6, 0]]) (zeros 4)
    let s := sol data [[C 1], [C 0]]
    distance s 0 = 16 ∧ distance s 1 = 16
      ∧ eval .swapTails data (cost [] 1 0) s (C 1) (.task (C 0)) = (0, false)
      ∧ eval .swapTails data (cost [] 1 0) s (C 1) (.start 1) = (-16, true) := by
  decide +kernel

/-- `test_move_with_different_profiles`. -/
example :
    let s := routes okSmallTwoProfiles [(0, [C 2]), (3, [C 1])]
    let dist := okSmallTwoProfiles.dist
    distance s 0 = dist 0 0 3 + dist 0 3 0 ∧ distance s 3 = dist 1 0 2 + dist 1 2 0
      ∧ eval .swapTails okSmallTwoProfiles (cost [0] 0 0) s (C 2) (.start 3)
        = (dist 0 3 2 + dist 0 2 0 - dist 0 3 0 - distance s 3, true) := by
  decide +kernel

/-- `test_skips_move_if_shipment_is_split_between_routes`. -/
example :
    let data := withClients smallShipments [client 0 [0]]
    BinaryOp.swapTails.supports data = true
      ∧ eval .swapTails data (cost [0] 0 0) (sol data [[L 0, U 0], [L 1, U 1]]) (L 0) (.task (U 1))
        = (0, false) := by
  decide +kernel

/-- `test_supports`. -/
example : BinaryOp.swapTails.supports okSmall = true ∧ BinaryOp.swapTails.supports smallShipments = false := by
  decide +kernel

/-! ## `test_Relocate.py` -/

/-- `test_relocate_after_depot_should_work`. -/
example :
    let s := sol okSmall [[C 0, C 1, C 2]]
    let t := applied (.relocate 1) okSmall (cost [20] 6 0) s (C 2) (.start 1)
    (eval (.relocate 1) okSmall (cost [20] 6 0) s (C 2) (.start 1)).1 < 0
      ∧ (eval (.relocate 1) okSmall (cost [20] 6 0) s (C 2) (.start 1)).2 = true
      ∧ acts t 0 = [C 0, C 1] ∧ acts t 1 = [C 2] ∧ t.owner (C 2) = some 1 := by
  decide +kernel

/-- `test_relocate_fixed_vehicle_cost`. -/
example : ∀ p ∈ [(1, 2346, 0), (1, 2346, 100), (2, 1417, 0), (2, 1417, 9), (3, 135, 53), (3, 135, 997)],
    let data := withTypes okSmall [{ numAvailable := 2, capacity := [10], fixedCost := p.2.2 }]
    eval (.relocate p.1) data (cost [1] 1 0) (sol data [[C 1, C 3, C 0, C 2]]) (C 1) (.start 1)
      = (p.2.1 + p.2.2, false) := by
  decide +kernel

/-- `test_relocate_with_duration_constraint`. -/
example : ∀ p ∈ [(0, -4044), (5000, 956)],
    eval (.relocate 2) (durationLimit p.1) (cost [1] 1 0) (sol (durationLimit p.1) [[C 1, C 3], [C 0, C 2]])
      (C 1) (.task (C 0)) = (p.2, decide (p.2 < 0)) := by
  decide +kernel

/-- `test_within_route_simultaneous_pickup_and_delivery`. -/
example : eval (.relocate 1) pickupAndDelivery (cost [1] 1 0) (sol pickupAndDelivery [[C 0, C 1, C 2]])
    (C 0) (.task (C 2)) = (-5, true) := by
  decide +kernel

/-- `test_relocate_max_distance`. -/
example : ∀ p ∈ [(5000, -3332), (2500, -6542), (0, 18458)],
    let data := distanceLimit p.1
    let s := sol data [[C 0, C 1]]
    let t := applied (.relocate 1) data (cost [0] 0 10) s (C 1) (.start 1)
    eval (.relocate 1) data (cost [0] 0 10) s (C 1) (.start 1) = (p.2, decide (p.2 < 0))
      ∧ (distance t 0, distance t 1) = (3270, 3909)
      ∧ ((t.route 0).excessDistance_, (t.route 1).excessDistance_) = (max (3270 - p.1) 0, max (3909 - p.1) 0) := by
  decide +kernel

/-- `test_supports_shipments`. -/
example : (BinaryOp.relocate 2).supports smallShipments = true
    ∧ (BinaryOp.relocate 1).supports smallShipments = false := by decide +kernel

/-- `test_bug_release_time_shift_time_windows`. -/
example :
    let data := problem 1 [client 0 (twEarly := 2) (releaseTime := 2), client 0 (twEarly := 2) (releaseTime := 2)]
      [depot 0] [vehicleType {}, vehicleType { twLate := 1 }] (zeros 1) (zeros 1)
    let s := sol data [[C 0], [C 1]]
    (s.route 0).timeWarp_ = 0 ∧ (s.route 1).timeWarp_ = 2
      ∧ eval (.relocate 1) data (cost [] 1 0) s (C 0) (.start 1) = (0, false) := by
  decide +kernel

/-- `test_empty_route_delta_cost_bug`. -/
example :
    let mat := matrix [[0, 5, 0], [5, 0, 0], [0, 0, 0]]
    let data := problem 3 [client 2] [depot 0, depot 1]
      [vehicleType {}, vehicleType { startDepot := 0, endDepot := 1, shiftDuration := 0 }] mat mat
    eval (.relocate 1) data (cost [] 1 1) (sol data [[C 0]]) (C 0) (.start 1) = (0, false) := by
  decide +kernel

/-- `test_relocate_overtime`. -/
example :
    let s := sol okSmallOvertime [[C 0, C 2]]
    (s.route 0).duration_ = 5814
      ∧ eval (.relocate 1) okSmallOvertime (cost [0] 0 0) s (C 2) (.start 1)
        = (3630 + 4414 - (5814 + 10 * 814), true) := by
  decide +kernel

/-- `test_skip_unassigned_clients`. -/
example : eval (.relocate 1) okSmall (cost [0] 0 0) (sol okSmall [[C 0, C 1]]) (C 2) (.start 0) = (0, false) := by
  decide +kernel

/-- `test_relocate_shipment`. -/
example :
    let s := sol smallShipments [allShipments]
    let t := applied (.relocate 2) smallShipments (cost [0] 0 0) s (L 3) (.start 0)
    (∀ u ∈ [U 1, U 0, U 2], eval (.relocate 2) smallShipments (cost [0] 0 0) s u (.start 0) = (0, false))
      ∧ eval (.relocate 2) smallShipments (cost [0] 0 0) s (L 3) (.start 0) = (-13838, true)
      ∧ distance t 0 = 50429 ∧ acts t 0 = [L 3, U 3, L 1, U 1, L 0, U 0, L 2, U 2] := by
  decide +kernel

/-- `test_relocate_shipment_fixed_cost`. -/
example :
    let data := withType smallShipments { fixedCost := some 10000 }
    let s := sol data [[L 0, U 0], [L 3, U 3]]
    let t := applied (.relocate 2) data (cost [0] 0 0) s (L 0) (.task (U 3))
    distance s 0 + distance s 1 = 29265
      ∧ eval (.relocate 2) data (cost [0] 0 0) s (L 0) (.task (U 3)) = (-11902, true)
      ∧ distance t 0 = 0 ∧ distance t 1 = 29265 - 1902 ∧ acts t 0 = [] ∧ acts t 1 = [L 3, U 3, L 0, U 0] := by
  decide +kernel

/-! ## `test_RelocateWithDepot.py` -/

/-- `test_inserts_depot_single_route`. -/
example :
    let data := okSmallMultipleTrips
    let s := sol data [[C 0, C 1, C 2, C 3]]
    let t := applied .relocateWithDepot data (cost [500] 0 0) s (C 1) (.task (C 2))
    (s.route 0).numTrips = 1 ∧ (s.route 0).excessLoad_ = [8]
      ∧ eval .relocateWithDepot data (cost [500] 0 0) s (C 1) (.task (C 2)) = (-907, true)
      ∧ (t.route 0).numTrips = 2 ∧ (t.route 0).excessLoad_ = [0] ∧ acts t 0 = [C 0, C 2, D 0, C 1, C 3] := by
  decide +kernel

/-- `test_inserts_depot_across_routes`. -/
example :
    let data := okSmallMultipleTrips
    let s := sol data [[C 2], [C 0, C 1, C 3]]
    let t := applied .relocateWithDepot data (cost [500] 0 0) s (C 2) (.task (C 0))
    eval .relocateWithDepot data (cost [500] 0 0) s (C 2) (.task (C 0)) = (-3052, true)
      ∧ acts t 0 = [] ∧ acts t 1 = [C 0, C 2, D 0, C 1, C 3] := by
  decide +kernel

/-- `test_reload_depot_before_or_after_relocate`. -/
example : ∀ p ∈ [(1000, -3897, [C 1, C 0, D 0, C 2, C 3]), (300, -54, [C 1, D 0, C 0, C 2, C 3])],
    let data := okSmallMultipleTrips
    let s := sol data [[C 0, C 1, C 2, C 3]]
    (eval .relocateWithDepot data (cost [p.1] 1 0) s (C 0) (.task (C 1))).1 = p.2.1
      ∧ acts (applied .relocateWithDepot data (cost [p.1] 1 0) s (C 0) (.task (C 1))) 0 = p.2.2 := by
  decide +kernel

/-- `test_inserts_best_reload_depot`. -/
example :
    let mat := matrix [[0, 0, 100, 100], [0, 0, 0, 0], [100, 0, 0, 0], [100, 0, 0, 0]]
    let data := problem 4 [client 2 [5], client 3 [5]] [depot 0, depot 1]
      [vehicleType { capacity := [5], reloadDepots := [0, 1] }] mat mat
    let s := sol data [[C 0, C 1]]
    let t := applied .relocateWithDepot data (cost [500] 0 0) s (C 0) (.task (C 1))
    (s.route 0).excessLoad_ = [5]
      ∧ eval .relocateWithDepot data (cost [500] 0 0) s (C 0) (.task (C 1)) = (-2500, true)
      ∧ (t.route 0).excessLoad_ = [0] ∧ acts t 0 = [C 1, D 1, C 0] := by
  decide +kernel

/-- `test_fixed_vehicle_cost`. -/
example :
    let data := problem 1 [client 0 [5], client 0 [4]] [depot 0]
      [vehicleType { numAvailable := 2, capacity := [4], fixedCost := 2000, reloadDepots := [0], maxReloads := 1 }]
      (zeros 1) (zeros 1)
    eval .relocateWithDepot data (cost [0] 0 0) (sol data [[C 0], [C 1]]) (C 0) (.task (C 1)) = (-2000, true) := by
  decide +kernel

/-- `test_does_not_evaluate_if_already_max_trips`. -/
example :
    let data := okSmallMultipleTrips
    let s := sol data [[C 2, D 0, C 0, C 1, C 3]]
    (s.route 0).excessLoad_ = [5]
      ∧ eval .relocateWithDepot data (cost [10000] 0 0) s (C 0) (.task (C 1)) = (0, false) := by
  decide +kernel

/-- `test_can_insert_reload_after_start_depot`. -/
example :
    let data := problem 1 [client 0 [1], client 0 [1]] [depot 0]
      [vehicleType { capacity := [5], initialLoad := [5], reloadDepots := [0] }] (zeros 1) (zeros 1)
    let s := sol data [[C 0, C 1]]
    eval .relocateWithDepot data (cost [1] 0 0) s (C 1) (.start 0) = (-2, true)
      ∧ acts (applied .relocateWithDepot data (cost [1] 0 0) s (C 1) (.start 0)) 0 = [D 0, C 1, C 0] := by
  decide +kernel

/-- `test_can_insert_reload_before_end_depot`. -/
example :
    let data := problem 4 [client 2, client 3] [depot 0, depot 1] [vehicleType { reloadDepots := [0, 1] }]
      (matrix [[0, 0, 0, 0], [0, 0, 0, 0], [10, 0, 0, 0], [10, 0, 0, 0]]) (zeros 4)
    let s := sol data [[C 0, C 1]]
    eval .relocateWithDepot data (cost [] 0 0) s (C 0) (.task (C 1)) = (-10, true)
      ∧ acts (applied .relocateWithDepot data (cost [] 0 0) s (C 0) (.task (C 1))) 0 = [C 1, C 0, D 1] := by
  decide +kernel

/-- `test_supports`. -/
example : BinaryOp.relocateWithDepot.supports okSmall = false
    ∧ BinaryOp.relocateWithDepot.supports okSmallMultipleTrips = true := by decide +kernel

/-- `test_depot_service_duration`. -/
example :
    let data := get ((withType okSmallMultipleTrips { unitDurationCost := some 1 }).replace {
      depots := some [depot 0 200], dists := some [zeros 5], durs := some [zeros 5] })
    let s := sol data [[C 2, C 1, C 3, C 0]]
    let t := applied .relocateWithDepot data (cost [1000] 0 0) s (C 2) (.task (C 3))
    (s.route 0).excessLoad_ = [8] ∧ (s.route 0).duration_ = 200 + 360 + 360 + 360 + 420 ∧ (s.route 0).timeWarp_ = 0
      ∧ eval .relocateWithDepot data (cost [1000] 0 0) s (C 2) (.task (C 3)) = (-7800, true)
      ∧ acts t 0 = [C 1, C 3, D 0, C 2, C 0] ∧ (t.route 0).excessLoad_ = [0]
      ∧ (t.route 0).duration_ = 2 * 200 + 360 + 360 + 360 + 420 ∧ (t.route 0).timeWarp_ = 0 := by
  decide +kernel

/-- `test_does_not_insert_depot_in_between_shipments`. -/
example :
    let data := get (okSmallMultipleTrips.replace {
      shipments := some [⟨⟨0, 0, MAX, 0⟩, ⟨2, 0, MAX, 0⟩, [0], 0, true, ""⟩] })
    let s := sol data [[C 2], [L 0, U 0, C 0, C 1, C 3]]
    let t := sol data [[C 2], [L 0, C 0, U 0, C 1, C 3]]
    eval .relocateWithDepot data (cost [500] 0 0) s (C 2) (.task (U 0)) = (-1741, true)
      ∧ eval .relocateWithDepot data (cost [500] 0 0) s (C 2) (.task (C 0)) = (-3052, true)
      ∧ eval .relocateWithDepot data (cost [500] 0 0) t (C 2) (.task (C 0)) = (0, false) := by
  decide +kernel

/-! ## `test_RemoveAdjacentDepot.py` -/

/-- `test_removes_best_adjacent_depot`. -/
example :
    let data := withType okSmallMultipleTrips { maxReloads := some 2 }
    let s := sol data [[C 0, D 0, C 1, D 0, C 2]]
    eval1 .removeAdjacentDepot data (cost [0] 0 0) s (C 0) = (-1678, true)
      ∧ eval1 .removeAdjacentDepot data (cost [0] 0 0) s (C 1) = (-3275, true)
      ∧ eval1 .removeAdjacentDepot data (cost [0] 0 0) s (C 2) = (-3275, true)
      ∧ acts (applied1 .removeAdjacentDepot data (cost [0] 0 0) s (C 2)) 0 = [C 0, D 0, C 1, C 2] := by
  decide +kernel

/-- `test_removes_consecutive_depots`. -/
example :
    let data := withType okSmallMultipleTrips { maxReloads := some 2 }
    eval1 .removeAdjacentDepot data (cost [0] 0 0) (sol data [[C 0, D 0, D 0, C 1]]) (C 0) = (0, true) := by
  decide +kernel

/-- `test_remove_reload_depot`. -/
example :
    let data := okSmallMultipleTrips
    eval1 .removeAdjacentDepot data (cost [1000] 0 0) (sol data [[C 0, C 1, D 0, C 2, C 3]]) (C 1)
      = (8000 - 3275, false) := by
  decide +kernel

/-- `test_remove_reload_depots_service_duration`. -/
example :
    let data := get ((withType okSmallMultipleTrips { maxReloads := some 2, unitDurationCost := some 1 }).replace {
      depots := some [depot 0 90] })
    let s := sol data [[C 0, C 1, D 0, D 0, C 2, C 3]]
    eval1 .removeAdjacentDepot data (cost [0] 0 0) s (C 1) = (-90, true)
      ∧ eval1 .removeAdjacentDepot data (cost [0] 0 0) s (C 2) = (-90, true) := by
  decide +kernel

/-- `test_evaluate_unassigned_client` and `test_supports`. -/
example : eval1 .removeAdjacentDepot okSmallMultipleTrips (cost [1] 1 1) (sol okSmallMultipleTrips []) (C 0)
      = (0, false)
    ∧ UnaryOp.removeAdjacentDepot.supports okSmall = false
    ∧ UnaryOp.removeAdjacentDepot.supports okSmallMultipleTrips = true := by decide +kernel

/-! ## `test_RemoveOptionalClient.py` -/

/-- `test_does_not_remove_required_clients`. -/
example :
    let data := problem 3 [client 1 [100], client 2 [0] (required := false)] [depot 0]
      [vehicleType { capacity := [50] }] (off 3 10) (zeros 3)
    let s := sol data [[C 0, C 1]]
    eval1 .removeOptionalClient data (cost [100] 100 0) s (C 0) = (0, false)
      ∧ eval1 .removeOptionalClient data (cost [100] 100 0) s (C 1) = (-10, true)
      ∧ acts (applied1 .removeOptionalClient data (cost [100] 100 0) s (C 1)) 0 = [C 0] := by
  decide +kernel

/-- The instance in `test_supports`, with one optional group. -/
def optionalGroup : ProblemData :=
  problem 1 [client 0 (group := some 0) (required := false)] [depot 0] [vehicleType {}] (zeros 1) (zeros 1)
    [⟨[0], false, ""⟩]

/-- `test_supports`. -/
example : UnaryOp.removeOptionalClient.supports okSmall = false
    ∧ UnaryOp.removeOptionalClient.supports okSmallPrizes = true
    ∧ UnaryOp.removeOptionalClient.supports okSmallGroups = false
    ∧ optionalGroup.numClients = 1 ∧ UnaryOp.removeOptionalClient.supports optionalGroup = true := by
  decide +kernel

/-- `test_fixed_vehicle_cost`, with other costs. -/
example : eval1 .removeOptionalClient (twoFixedCosts false) (cost [] 0 0) (sol (twoFixedCosts false) [[C 0]]) (C 0)
      = (-10, true)
    ∧ eval1 .removeOptionalClient (twoFixedCosts false) (cost [] 0 0) (sol (twoFixedCosts false) [[], [C 0]]) (C 0)
      = (-100, true) := by
  decide +kernel

/-- `test_remove`. -/
example : eval1 .removeOptionalClient okSmallPrizes (cost [1] 1 0) (sol okSmallPrizes [[C 0, C 1]]) (C 1)
    = (-2216, true) := by
  decide +kernel

/-- `test_empty_route_delta_cost_bug`. -/
example :
    let mat := matrix [[0, 5, 1], [5, 0, 1], [1, 1, 0]]
    let data := problem 3 [client 2 (required := false)] [depot 0, depot 1]
      [vehicleType { startDepot := 0, endDepot := 1, shiftDuration := 0 }] mat mat
    eval1 .removeOptionalClient data (cost [] 1 1) (sol data [[C 0]]) (C 0) = (-4, true) := by
  decide +kernel

/-- `test_cannot_remove_required_group`. -/
example :
    let data := problem 3 [client 1 (group := some 0) (required := false), client 2 (group := some 1) (required := false)]
      [depot 0] [vehicleType {}] (off 3 1) (off 3 1) [⟨[0], false, ""⟩, ⟨[1], true, ""⟩]
    let s := sol data [[C 0, C 1]]
    UnaryOp.removeOptionalClient.supports data = true
      ∧ eval1 .removeOptionalClient data (cost [] 1 1) s (C 0) = (-1, true)
      ∧ eval1 .removeOptionalClient data (cost [] 1 1) s (C 1) = (0, false) := by
  decide +kernel

/-- `test_removing_last_client_in_route_with_reload_depots_and_service`. -/
example :
    let data := problem 1 [client 0 (required := false)] [depot 0 50]
      [vehicleType { unitDurationCost := 1, reloadDepots := [0] }] (zeros 1) (zeros 1)
    eval1 .removeOptionalClient data (cost [] 0 0) (sol data [[C 0, D 0]]) (C 0) = (-100, true) := by
  decide +kernel

/-! ## `test_InsertOptionalClient.py` -/

/-- `test_skips_assigned_or_missing`. -/
example :
    let s := sol okSmallPrizes [[C 0, C 1]]
    eval .insertOptionalClient okSmallPrizes (cost [0] 0 0) s (C 0) (.task (C 1)) = (0, false)
      ∧ eval .insertOptionalClient okSmallPrizes (cost [0] 0 0) s (C 2) (.task (C 3)) = (0, false) := by
  decide +kernel

/-- `test_supports`. -/
example : BinaryOp.insertOptionalClient.supports okSmall = false
    ∧ BinaryOp.insertOptionalClient.supports okSmallPrizes = true
    ∧ BinaryOp.insertOptionalClient.supports okSmallGroups = false
    ∧ BinaryOp.insertOptionalClient.supports optionalGroup = true := by decide +kernel

/-- `test_group_skip_required`. -/
example : eval .insertOptionalClient okSmallGroups (cost [0] 0 0) (sol okSmallGroups []) (C 0) (.start 0)
    = (0, false) := by decide +kernel

/-- `test_group_skip_duplicates`. -/
example :
    let data := problem 1 [client 0 (prize := 1) (required := false) (group := some 0),
      client 0 (prize := 1) (required := false) (group := some 0)] [depot 0] [vehicleType {}] (zeros 1) (zeros 1)
      [⟨[0, 1], false, ""⟩]
    let s := sol data []
    let t := applied .insertOptionalClient data (cost [] 0 0) s (C 0) (.start 0)
    eval .insertOptionalClient data (cost [] 0 0) s (C 0) (.start 0) = (-1, true)
      ∧ acts t 0 = [C 0]
      ∧ eval .insertOptionalClient data (cost [] 0 0) t (C 1) (.start 0) = (0, false) := by
  decide +kernel

/-- `test_insert_in_empty_routes_considers_fixed_vehicle_cost`, with other costs. -/
example :
    let s := sol (twoFixedCosts false) []
    eval .insertOptionalClient (twoFixedCosts false) (cost [] 0 0) s (C 0) (.start 0) = (10, false)
      ∧ eval .insertOptionalClient (twoFixedCosts false) (cost [] 0 0) s (C 0) (.start 1) = (100, false) := by
  decide +kernel

/-! ## `test_ReplaceOptionalClient.py` -/

/-- The instance of `test_replacing_optional_client` and `test_skips_replacing_required_client`. -/
def replaceable (required : Bool) : ProblemData :=
  problem 1 [client 0 (twLate := 1) (prize := 1) (required := required), client 0 (twLate := 1) (prize := 5) (required := false)]
    [depot 0] [vehicleType {}] (zeros 1) (zeros 1)

/-- `test_replacing_optional_client` and `test_skips_replacing_required_client`. -/
example :
    let s := sol (replaceable false) [[C 0]]
    eval .replaceOptionalClient (replaceable false) (cost [] 0 0) s (C 1) (.task (C 0)) = (-4, true)
      ∧ acts (applied .replaceOptionalClient (replaceable false) (cost [] 0 0) s (C 1) (.task (C 0))) 0 = [C 1]
      ∧ eval .replaceOptionalClient (replaceable true) (cost [] 0 0) (sol (replaceable true) [[C 0]]) (C 1) (.task (C 0))
        = (0, false) := by
  decide +kernel

/-- `test_skips_assigned_depot_or_missing_other`. -/
example :
    let s := sol okSmallPrizes [[C 0, C 1]]
    eval .replaceOptionalClient okSmallPrizes (cost [0] 0 0) s (C 0) (.task (C 1)) = (0, false)
      ∧ eval .replaceOptionalClient okSmallPrizes (cost [0] 0 0) s (C 2) (.task (C 3)) = (0, false)
      ∧ eval .replaceOptionalClient okSmallPrizes (cost [0] 0 0) s (C 0) (.start 0) = (0, false) := by
  decide +kernel

/-- `test_supports`. -/
example : BinaryOp.replaceOptionalClient.supports okSmall = false
    ∧ BinaryOp.replaceOptionalClient.supports okSmallGroups = false
    ∧ BinaryOp.replaceOptionalClient.supports okSmallPrizes = true := by decide +kernel

/-! ## `test_ReplaceGroup.py` and `test_RelocateAlternative.py` -/

/-- `test_replace`. -/
example :
    let s := sol okSmallGroups [[C 0, C 3]]
    eval1 .replaceGroup okSmallGroups (cost [0] 0 0) s (C 1) = (-103, true)
      ∧ acts (applied1 .replaceGroup okSmallGroups (cost [0] 0 0) s (C 1)) 0 = [C 1, C 3] := by
  decide +kernel

/-- `test_replace_accounts_for_prizes`. -/
example :
    let data := problem 1 [client 0 (prize := 1) (required := false) (group := some 0),
      client 0 (prize := 5) (required := false) (group := some 0)] [depot 0] [vehicleType {}] (zeros 1) (zeros 1)
      [⟨[0, 1], true, ""⟩]
    eval1 .replaceGroup data (cost [] 0 0) (sol data [[C 0]]) (C 1) = (-4, true) := by
  decide +kernel

/-- `test_supports` of both operators. -/
example : (∀ data ∈ [okSmall, okSmallPrizes], UnaryOp.replaceGroup.supports data = false
      ∧ BinaryOp.relocateAlternative.supports data = false)
    ∧ UnaryOp.replaceGroup.supports okSmallGroups = true
    ∧ BinaryOp.relocateAlternative.supports okSmallGroups = true := by decide +kernel

/-- `test_relocate_alternative_within_route`. -/
example :
    let s := sol okSmallGroups [[C 0, C 3]]
    eval .relocateAlternative okSmallGroups (cost [0] 0 0) s (C 0) (.task (C 3)) = (-81, true)
      ∧ acts (applied .relocateAlternative okSmallGroups (cost [0] 0 0) s (C 0) (.task (C 3))) 0 = [C 3, C 1] := by
  decide +kernel

/-- `test_relocate_alternative_between_routes`. -/
example :
    let s := sol okSmallGroups [[C 0], [C 3]]
    let t := applied .relocateAlternative okSmallGroups (cost [0] 0 0) s (C 0) (.task (C 3))
    eval .relocateAlternative okSmallGroups (cost [0] 0 0) s (C 0) (.task (C 3)) = (-1690, true)
      ∧ acts t 0 = [] ∧ acts t 1 = [C 3, C 1] := by
  decide +kernel

/-- `test_accounts_for_prizes_and_fixed_vehicle_costs`. -/
example :
    let data := problem 1 [client 0 (prize := 100) (required := false) (group := some 0),
      client 0 (prize := 250) (required := false) (group := some 0), client 0] [depot 0]
      [vehicleType { numAvailable := 2, fixedCost := 100 }] (zeros 1) (zeros 1) [⟨[0, 1], true, ""⟩]
    eval .relocateAlternative data (cost [] 0 0) (sol data [[C 0], [C 2]]) (C 0) (.task (C 2)) = (-250, true)
      ∧ eval .relocateAlternative data (cost [] 0 0) (sol data [[C 0, C 2]]) (C 0) (.start 1) = (-50, true) := by
  decide +kernel

/-- `test_skips_client_not_in_group`. -/
example : eval .relocateAlternative okSmallGroups (cost [0] 0 0) (sol okSmallGroups [[C 3, C 0]]) (C 3) (.task (C 0))
    = (0, false) := by decide +kernel

/-! ## `test_RelocatePickup.py` and `test_RelocateDelivery.py` -/

/-- `test_relocate_just_before_delivery`. -/
example :
    let s := sol smallShipments [[L 2, L 0, U 0, L 1, U 1, U 2]]
    let t := applied1 .relocatePickup smallShipments (cost [0] 0 0) s (L 2)
    distance s 0 = 43414 ∧ eval1 .relocatePickup smallShipments (cost [0] 0 0) s (L 2) = (-8406, true)
      ∧ distance t 0 = 43414 - 8406 ∧ acts t 0 = [L 0, U 0, L 1, U 1, L 2, U 2] := by
  decide +kernel

/-- `test_relocate_just_after_depot`. -/
example :
    let data := withClients smallShipments [client 1 [0]]
    let s := sol data [[C 0, L 0, U 0]]
    let t := applied1 .relocatePickup data (cost [0] 0 0) s (L 0)
    distance s 0 = 14924 ∧ eval1 .relocatePickup data (cost [0] 0 0) s (L 0) = (-5353, true)
      ∧ distance t 0 = 14924 - 5353 ∧ acts t 0 = [L 0, C 0, U 0] := by
  decide +kernel

/-- The instance of both tests `test_reload_depot`. -/
def shipmentsWithReloads : ProblemData :=
  withType (withClients smallShipments [client 2 [0], client 1 [0]]) { reloadDepots := some [0] }

/-- `test_reload_depot` of both operators. -/
example : eval1 .relocatePickup shipmentsWithReloads (cost [0] 0 0)
      (sol shipmentsWithReloads [[C 0, C 1, D 0, L 0, U 0]]) (L 0) = (MAX, false)
    ∧ eval1 .relocateDelivery shipmentsWithReloads (cost [0] 0 0)
      (sol shipmentsWithReloads [[L 0, U 0, D 0, C 0, C 1]]) (L 0) = (MAX, false) := by
  decide +kernel

/-- `test_relocate_skips_unassigned_nodes`, `test_relocate_skips_non_pickup_nodes` and
`test_cannot_improve_singleton_route` of both operators. -/
example :
    let data := withClients smallShipments [client 0 [0]]
    ∀ op ∈ [UnaryOp.relocatePickup, .relocateDelivery],
      eval1 op smallShipments (cost [0] 0 0) (sol smallShipments []) (L 0) = (0, false)
      ∧ eval1 op data (cost [0] 0 0) (sol data [[C 0, L 0, U 0]]) (C 0) = (0, false)
      ∧ eval1 op data (cost [0] 0 0) (sol data [[C 0, L 0, U 0]]) (U 0) = (0, false)
      ∧ eval1 op smallShipments (cost [0] 0 0) (sol smallShipments [[L 0, U 0]]) (L 0) = (MAX, false)
      ∧ op.supports data = true ∧ op.supports smallShipments = true ∧ op.supports okSmall = false
      ∧ op.supports smallOptionalShipments = true := by
  decide +kernel

/-- `test_relocate_just_after_pickup`. -/
example :
    let s := sol smallShipments [[L 0, U 0, L 1, L 2, U 2, U 1]]
    let t := applied1 .relocateDelivery smallShipments (cost [0] 0 0) s (L 1)
    distance s 0 = 45588 ∧ eval1 .relocateDelivery smallShipments (cost [0] 0 0) s (L 1) = (-10580, true)
      ∧ distance t 0 = 45588 - 10580 ∧ acts t 0 = [L 0, U 0, L 1, U 1, L 2, U 2] := by
  decide +kernel

/-- `test_relocate_just_before_depot`. -/
example :
    let data := withClients smallShipments [client 2 [0]]
    let s := sol data [[L 0, U 0, C 0]]
    let t := applied1 .relocateDelivery data (cost [0] 0 0) s (L 0)
    distance s 0 = 11572 ∧ eval1 .relocateDelivery data (cost [0] 0 0) s (L 0) = (-2001, true)
      ∧ distance t 0 = 11572 - 2001 ∧ acts t 0 = [L 0, C 0, U 0] := by
  decide +kernel

/-! ## `test_RelocateShipment.py` -/

/-- `test_skip_same_route` and `test_skip_unassigned`. -/
example : eval .relocateShipment smallShipments (cost [0] 0 0) (sol smallShipments [[L 0, U 0, L 1, U 1]]) (L 0) (.task (L 1))
      = (0, false)
    ∧ eval .relocateShipment smallShipments (cost [0] 0 0) (sol smallShipments []) (L 0) (.start 0) = (0, false) := by
  decide +kernel

/-- `test_skip_non_pickup` and `test_fixed_cost_when_emptying_a_route`. -/
example :
    let data := withType (withClients smallShipments [client 2 [0]]) { fixedCost := some 10000 }
    let s := sol data [[C 0], [L 0, U 0]]
    let t := applied .relocateShipment data (cost [0] 0 0) s (L 0) (.task (C 0))
    eval .relocateShipment data (cost [0] 0 0) s (C 0) (.task (L 0)) = (0, false)
      ∧ distance s 0 + distance s 1 = 13789
      ∧ eval .relocateShipment data (cost [0] 0 0) s (L 0) (.task (C 0)) = (-14218, true)
      ∧ distance t 0 + distance t 1 = 13789 - 4218 ∧ acts t 0 = [C 0, L 0, U 0] ∧ acts t 1 = [] := by
  decide +kernel

/-- `test_fixed_cost_relocating_into_empty_route`. -/
example :
    let data := withType smallShipments { fixedCost := some 1000 }
    let s := sol data [[L 1, U 1, L 0, U 0, L 2, U 2]]
    let t := applied .relocateShipment data (cost [0] 0 0) s (L 0) (.start 1)
    distance s 0 = 44712 ∧ eval .relocateShipment data (cost [0] 0 0) s (L 0) (.start 1) = (-2258, true)
      ∧ distance t 0 + distance t 1 = 44712 - 3258 ∧ acts t 0 = [L 1, U 1, L 2, U 2] ∧ acts t 1 = [L 0, U 0] := by
  decide +kernel

/-- `test_relocate_non_adjacent_to_direct_sequence`. -/
example :
    let s := sol smallShipments [[L 1, U 1], [L 0, L 2, U 2, U 0]]
    let t := applied .relocateShipment smallShipments (cost [0] 0 0) s (L 0) (.task (U 1))
    distance s 0 + distance s 1 = 50804
      ∧ eval .relocateShipment smallShipments (cost [0] 0 0) s (L 0) (.task (U 1)) = (-1275, true)
      ∧ distance t 0 + distance t 1 = 50804 - 1275 ∧ acts t 0 = [L 1, U 1, L 0, U 0] ∧ acts t 1 = [L 2, U 2] := by
  decide +kernel

/-- `test_relocate_non_adjacent_delivery`. -/
example :
    let s := sol smallShipments [[L 2, U 2], [L 0, U 0, L 1, U 1]]
    let t := applied .relocateShipment smallShipments (cost [0] 0 0) s (L 2) (.task (U 0))
    distance s 0 + distance s 1 = 47015
      ∧ eval .relocateShipment smallShipments (cost [0] 0 0) s (L 2) (.task (U 0)) = (-1936, true)
      ∧ distance t 0 + distance t 1 = 47015 - 1936 ∧ acts t 0 = [] ∧ acts t 1 = [L 0, U 0, L 2, L 1, U 1, U 2] := by
  decide +kernel

/-- `test_supports`. -/
example : BinaryOp.relocateShipment.supports okSmall = false
    ∧ BinaryOp.relocateShipment.supports smallShipments = true
    ∧ BinaryOp.relocateShipment.supports smallOptionalShipments = true
    ∧ BinaryOp.relocateShipment.supports (withTypes smallShipments [{ capacity := [0] }]) = false := by
  decide +kernel

/-! ## `test_InsertOptionalShipment.py`, `test_RemoveOptionalShipment.py`, `test_ReplaceOptionalShipment.py` -/

/-- `test_insert_non_adjacent_delivery`. -/
example :
    let s := sol smallOptionalShipments [[L 0, U 0, L 1, U 1]]
    let t := applied .insertOptionalShipment smallOptionalShipments (cost [0] 0 0) s (L 2) (.task (L 1))
    distance s 0 = 30857
      ∧ eval .insertOptionalShipment smallOptionalShipments (cost [0] 0 0) s (L 2) (.task (L 1)) = (-3514, true)
      ∧ distance t 0 = 37343 ∧ acts t 0 = [L 0, U 0, L 1, L 2, U 1, U 2] := by
  decide +kernel

/-- `test_insert_into_empty_route` and `test_fixed_cost_empty_routes`. -/
example :
    let data := withType smallOptionalShipments { fixedCost := some 250 }
    eval .insertOptionalShipment smallOptionalShipments (cost [0] 0 0) (sol smallOptionalShipments []) (L 0) (.start 0)
      = (-429, true)
    ∧ eval .insertOptionalShipment data (cost [0] 0 0) (sol data []) (L 0) (.start 0) = (-179, true) := by
  decide +kernel

/-- `test_insert_delivery_in_first_improving_place` and `test_skips_deliveries`. -/
example :
    let s := sol smallOptionalShipments [[L 1, U 1]]
    let t := applied .insertOptionalShipment smallOptionalShipments (cost [0] 0 0) s (L 0) (.start 0)
    distance s 0 = 27732
      ∧ eval .insertOptionalShipment smallOptionalShipments (cost [0] 0 0) s (L 0) (.start 0) = (-6875, true)
      ∧ distance t 0 = 30857 ∧ acts t 0 = [L 0, U 0, L 1, U 1]
      ∧ eval .insertOptionalShipment smallOptionalShipments (cost [0] 0 0) s (U 0) (.task (L 1)) = (0, false)
      ∧ eval .insertOptionalShipment smallOptionalShipments (cost [0] 0 0) s (L 0) (.task (L 1)) = (-1648, true) := by
  decide +kernel

/-- `test_skip_if_shipment_already_in_route`. -/
example : eval .insertOptionalShipment smallShipments (cost [10] 0 0) (sol smallShipments [[L 0, U 0, L 1, U 1]])
    (L 0) (.task (L 1)) = (0, false) := by decide +kernel

/-- `test_does_not_insert_across_depots`. -/
example :
    let data := withType smallOptionalShipments { reloadDepots := some [0] }
    let s := sol data [[L 1, U 1, D 0, L 2, U 2]]
    eval .insertOptionalShipment data (cost [0] 0 0) s (L 0) (.task (U 1)) = (-4361, true)
      ∧ acts (applied .insertOptionalShipment data (cost [0] 0 0) s (L 0) (.task (U 1))) 0
        = [L 1, U 1, L 0, U 0, D 0, L 2, U 2] := by
  decide +kernel

/-- `test_remove_shipment`, `test_fixed_cost_empty_routes`, `test_cannot_remove_required_shipment` and
`test_skips_deliveries`. -/
example :
    let s := sol smallOptionalShipments [[L 1, U 1]]
    let data := withType smallOptionalShipments { fixedCost := some 10000 }
    let t := applied1 .removeOptionalShipment smallOptionalShipments (cost [0] 0 0) s (L 1)
    eval1 .removeOptionalShipment smallOptionalShipments (cost [0] 0 0) s (L 1) = (-25732, true)
      ∧ distance t 0 = 0 ∧ acts t 0 = []
      ∧ eval1 .removeOptionalShipment data (cost [0] 0 0) (sol data [[L 1, U 1]]) (L 1) = (-35732, true)
      ∧ eval1 .removeOptionalShipment smallShipments (cost [0] 0 0) (sol smallShipments [[L 1, U 1]]) (L 1) = (0, false)
      ∧ eval1 .removeOptionalShipment smallOptionalShipments (cost [0] 0 0) s (U 1) = (0, false) := by
  decide +kernel

/-- `test_remove_non_adjacent` and `test_replace_non_adjacent`. -/
example :
    let s := sol smallOptionalShipments [[L 1, L 2, U 2, U 1]]
    let t := applied1 .removeOptionalShipment smallOptionalShipments (cost [0] 0 0) s (L 1)
    let r := applied .replaceOptionalShipment smallOptionalShipments (cost [0] 0 0) s (L 0) (.task (L 1))
    distance s 0 = 42463
      ∧ eval1 .removeOptionalShipment smallOptionalShipments (cost [0] 0 0) s (L 1) = (-24305, true)
      ∧ distance t 0 = 42463 - 24305 - 2000 ∧ acts t 0 = [L 2, U 2]
      ∧ eval .replaceOptionalShipment smallOptionalShipments (cost [0] 0 0) s (L 0) (.task (L 1)) = (-27391, true)
      ∧ distance r 0 = 42463 - 27391 + 8000 ∧ acts r 0 = [L 0, L 2, U 2, U 0] := by
  decide +kernel

/-- `test_replace_shipment`, `test_skips_deliveries` and `test_cannot_replace_required_shipment`. -/
example :
    let s := sol smallOptionalShipments [[L 1, U 1]]
    let t := applied .replaceOptionalShipment smallOptionalShipments (cost [0] 0 0) s (L 0) (.task (U 1))
    eval .replaceOptionalShipment smallOptionalShipments (cost [0] 0 0) s (L 0) (.task (L 1)) = (-26161, true)
      ∧ eval .replaceOptionalShipment smallOptionalShipments (cost [0] 0 0) s (L 0) (.task (U 1)) = (-26161, true)
      ∧ eval .replaceOptionalShipment smallOptionalShipments (cost [0] 0 0) s (U 0) (.task (L 1)) = (0, false)
      ∧ distance t 0 = 9571 ∧ acts t 0 = [L 0, U 0]
      ∧ eval .replaceOptionalShipment smallShipments (cost [0] 0 0) (sol smallShipments [[L 1, U 1]]) (L 0) (.task (L 1))
        = (0, false) := by
  decide +kernel

/-- `test_supports` of the three operators. -/
example : BinaryOp.insertOptionalShipment.supports smallOptionalShipments = true
    ∧ BinaryOp.insertOptionalShipment.supports smallShipments = false
    ∧ UnaryOp.removeOptionalShipment.supports okSmall = false
    ∧ UnaryOp.removeOptionalShipment.supports smallShipments = false
    ∧ UnaryOp.removeOptionalShipment.supports smallOptionalShipments = true
    ∧ BinaryOp.replaceOptionalShipment.supports okSmall = false
    ∧ BinaryOp.replaceOptionalShipment.supports smallShipments = false
    ∧ BinaryOp.replaceOptionalShipment.supports smallOptionalShipments = true := by decide +kernel

end PyVRP.Checks
