import Verif.Checks.Solutions
import Verif.Model.Solve

/-!
# Neighbourhoods, perturbation and local search in the cases of the test suite

Checks of `/repo/tests/search/test_neighbourhood.py`, `test_PerturbationManager.py` and
`test_LocalSearch.py`, except those on large instances.
-/
namespace PyVRP.Checks

/-- `compute_neighbours(data, params)`, without rounding errors. -/
def neighbours (data : ProblemData) (params : NeighbourhoodParams := {}) : Neighbours :=
  Neighbourhood.computeNeighbours id data params

/-- The neighbours of an activity; `none` if it is not a key. -/
def of (n : Neighbours) (a : Activity) : Option (List Activity) := (n.find? (·.1 == a)).map (·.2)

/-! ## `test_neighbourhood.py` -/

/-- `test_proximity_with_mutually_exclusive_groups`. -/
example :
    let n := neighbours okSmallGroups { weightWaitTime := 0, numNeighbours := 1 }
    ∀ i ∈ [0, 1, 2], ∀ j ∈ [0, 1, 2], C j ∉ (of n (C i)).getD [] := by
  decide +kernel

/-- `test_multiple_routing_profiles`. -/
example :
    let data := get (okSmall.replace {
      vehicleTypes := some (vehicleType { capacity := [10], profile := 1 } :: okSmall.vehicleTypes)
      dists := some (off 5 10000 :: okSmall.dists)
      durs := some (off 5 10000 :: okSmall.durs) })
    neighbours data = neighbours okSmall := by
  decide +kernel

/-- `test_zero_clients_or_shipments`. -/
example : neighbours (problem 1 [] [depot 0] [vehicleType {}] (zeros 1) (zeros 1)) = [] := by decide +kernel

/-- `test_shipments_exclude_either_activity_in_neighbourhood`. -/
example :
    let n := neighbours smallShipments
    ∀ i ∈ List.range 4, of n (U i) = none
      ∧ ∃ l, of n (L i) = some l ∧ L i ∉ l ∧ U i ∉ l ∧ l.length = 2 * 4 - 2 := by
  intro n i hi
  refine ⟨?_, (of n (L i)).getD [], ?_⟩
  · revert i; decide +kernel
  · revert i; decide +kernel

/-- The instance of `test_shipment_proximity_uses_pickup_and_delivery`. -/
def twoClientsAndAShipment : ProblemData :=
  let m := matrix [[0, 100, 100, 100, 100], [100, 0, 100, 10, 100], [100, 100, 0, 100, 1], [100, 10, 100, 0, 100],
    [100, 100, 1, 100, 0]]
  get (ProblemData.make ⟨List.replicate 5 ⟨0, 0, ""⟩, [client 1, client 2], [depot 0], [vehicleType {}], [m], [m], [],
    [get (Shipment.make { pickup := ⟨3, 0, MAX, 0⟩, delivery := ⟨4, 0, MAX, 0⟩, amount := [], prize := 0, required := true, name := "" })]⟩)

/-- `test_shipment_proximity_uses_pickup_and_delivery`. -/
example : of (neighbours twoClientsAndAShipment { weightWaitTime := 0, numNeighbours := 1 }) (L 0) = some [C 1] := by
  decide +kernel

/-- `test_mixed_client_shipments`. -/
example :
    let n := neighbours (withClients smallShipments [client 2 [0], client 5 [1]])
    n.length = 6 ∧ ((of n (C 0)).bind (·.head?)) = some (L 0) ∧ ((of n (L 0)).bind (·.head?)) = some (C 0)
      ∧ ((of n (C 0)).map (·.length)) = some 7 := by
  decide +kernel

/-! ## `test_PerturbationManager.py` -/

/-- `test_raises_max_smaller_than_min`. -/
example : raises (PerturbationParams.make ⟨1, 0⟩) = true ∧ raises (PerturbationParams.make ⟨0, 0⟩) = false := by
  decide +kernel

/-- Some calls of `shuffle`: the numbers of perturbations. -/
def drawn (m : PerturbationManager) (rng : Rng) : Nat → List Nat
  | 0 => []
  | n + 1 =>
    let (m, rng) := m.shuffle Rng.next rng
    m.numPerturbations :: drawn m rng n

/-- `test_shuffle`. -/
example : (∀ n ∈ drawn (PerturbationManager.new ⟨1, 10⟩) (Rng.ofSeed 42) 10, 1 ≤ n ∧ n ≤ 10)
    ∧ ∀ n ∈ drawn (PerturbationManager.new ⟨0, 0⟩) (Rng.ofSeed 42) 10, n = 0 := by
  decide +kernel

/-- `test_num_perturbations_randomness`: the mean of 1000 draws is within 0.05 of 5.5. -/
example :
    let sample := drawn (PerturbationManager.new ⟨1, 10⟩) (Rng.ofSeed 42) 1000
    1 ∈ sample ∧ 10 ∈ sample ∧ (∀ n ∈ sample, 1 ≤ n ∧ n ≤ 10) ∧ 5450 ≤ sample.sum ∧ sample.sum ≤ 5550 := by
  decide +kernel

/-- The solution after `sol.load(solution)`, `perturbation.perturb(...)` and `sol.unload()`. -/
def perturbed (data : ProblemData) (params : PerturbationParams) (n : Neighbours) (ce : CostEvaluator)
    (solution : Solution) : Solution :=
  solution? (do
    let space ← SearchSpace.make data n
    let sol ← (SSol.new data).load data solution
    let st ← (PerturbationManager.new params).perturb data ce sol space
    st.sol.unload data)

/-- The empty solution. -/
def emptySolution (data : ProblemData) : Solution := solution? (Solution.make data [])

/-- No neighbours for any client. -/
def noNeighbours (data : ProblemData) : Neighbours := (List.range data.numClients).map fun i => (C i, [])

/-- `test_perturb_inserts_clients`. -/
example : (perturbed okSmall ⟨4, 4⟩ (neighbours okSmall) (cost [20] 6 0) (emptySolution okSmall)).numClients = 4 := by
  decide +kernel

/-- `test_perturb_removes_clients`. -/
example :
    let s := solution okSmall [[0, 1], [2, 3]]
    s.numClients = 4 ∧ (perturbed okSmall ⟨4, 4⟩ (neighbours okSmall) (cost [20] 6 0) s).numClients = 0
      ∧ (perturbed okSmall ⟨4, 4⟩ (neighbours okSmall) (cost [20] 6 0) s).unplanned.length = 4 := by
  decide +kernel

/-- `test_perturb_groups_neighbours_by_route`. -/
example :
    let s := solution? (Solution.make smallShipments
      [route smallShipments [L 0, U 0, L 1, U 1], route smallShipments [L 3, U 3]])
    let t := perturbed smallShipments ⟨3, 3⟩ [(L 0, [U 2, U 3, U 1]), (L 1, []), (L 2, []), (L 3, [])] (cost [1] 1 0) s
    t.numShipments = 2 ∧ (t.unplanned.filter (·.type == .pickup)).map (·.idx) = [0, 1] := by
  decide +kernel

/-- `test_perturb_inserts_into_new_routes`. -/
example :
    let data := withType okSmall { capacity := some [5] }
    (perturbed data ⟨3, 3⟩ (noNeighbours data) (cost [2000] 0 0) (emptySolution data)).numRoutes = 3 := by
  decide +kernel

/-- A random solution. -/
def random (data : ProblemData) (seed : BitVec 32) : Solution := solution? (Solution.makeRandom Rng.next data (Rng.ofSeed seed))

/-- `test_perturb_shipments_remove`. -/
example :
    let s := random smallShipments 42
    let t := perturbed smallShipments {} (neighbours smallShipments) (cost [1] 1 0) s
    s.isComplete = true ∧ s.numShipments = 4 ∧ (PerturbationManager.new {}).numPerturbations = 1
      ∧ t.isComplete = false ∧ t.numShipments = 3 := by
  decide +kernel

/-- `test_perturb_shipments_insert`. -/
example :
    let s := solution? (Solution.make smallShipments [route smallShipments [L 1, U 1]])
    let t := perturbed smallShipments ⟨1, 1⟩ (neighbours smallShipments) (cost [1] 1 0) s
    t.numShipments = 2 ∧ L 0 ∉ t.unplanned ∧ L 2 ∈ t.unplanned := by
  decide +kernel

/-- `test_perturb_shipment_empty_route`. -/
example :
    let t := perturbed smallShipments { minPerturbations := 4 } (neighbours smallShipments) (cost [1] 1 0)
      (emptySolution smallShipments)
    t.numShipments = 4 ∧ t.isComplete = true := by
  decide +kernel

/-! ## `test_LocalSearch.py` -/

/-- The generator after `Solution.make_random(data, rng)`. -/
def afterRandom (data : ProblemData) (seed : BitVec 32) : Rng :=
  (Solution.randomPlan Rng.next data (Rng.ofSeed seed)).2.2

/-- `LocalSearch(data, rng, neighbours, perturbation)` with the operators, then
`ls(solution, cost_evaluator, exhaustive)`. -/
def improve (data : ProblemData) (ops : List Operator) (n : Neighbours) (ce : CostEvaluator) (rng : Rng)
    (solution : Solution) (exhaustive : Bool) (params : PerturbationParams := {}) : Solution :=
  match LocalSearch.make data n (PerturbationManager.new params) with
  | .error _ => { routes := [] }
  | .ok ls =>
    match (ops.foldl (·.add ·) ls).call Rng.next data ce rng solution exhaustive 50 with
    | .ok (some (s, _, _)) => s
    | _ => { routes := [] }

/-- `cpp_LocalSearch(data, neighbours)` with the operators, then `ls(solution, cost_evaluator, exhaustive)`:
nothing is shuffled. -/
def improveInOrder (data : ProblemData) (ops : List Operator) (n : Neighbours) (ce : CostEvaluator)
    (solution : Solution) (exhaustive : Bool) : Solution :=
  match LocalSearch.make data n (PerturbationManager.new {}) with
  | .error _ => { routes := [] }
  | .ok ls =>
    match (ops.foldl (·.add ·) ls).run data ce solution exhaustive 50 with
    | .ok (some (s, _)) => s
    | _ => { routes := [] }

def relocate1 : Operator := .binary (.relocate 1)
def swap11 : Operator := .binary (.swap 1 1)

/-- The activities of the routes of a solution, without the start and end depots. -/
def plan (s : Solution) : List (List Activity) := s.routes.map fun r => (r.schedule.map (·.activity)).tail.dropLast

/-- `test_local_search_returns_same_solution_with_empty_neighbourhood`. -/
example : (improve okSmall [relocate1, swap11] (noNeighbours okSmall) (cost [20] 6 0) (afterRandom okSmall 42)
    (random okSmall 42) true).eq (random okSmall 42) = true := by
  decide +kernel

/-- `test_local_search_call_perturbs_solution`. -/
example : (improve okSmall [] (neighbours okSmall) (cost [1] 1 0) (afterRandom okSmall 42)
    (random okSmall 42) false).eq (random okSmall 42) = false := by
  decide +kernel

/-- `test_reoptimize_changed_objective_timewarp_OkSmall`. -/
example :
    let n : Neighbours := [(C 0, [C 1]), (C 1, []), (C 2, []), (C 3, [])]
    let s := solution okSmall [[0, 1, 2, 3]]
    let ce := cost [0] 1000 0
    (improve okSmall [relocate1] n (cost [0] 0 0) (Rng.ofSeed 42) s true).eq s = true
      ∧ ce.penalisedCost (improve okSmall [relocate1] n ce (Rng.ofSeed 42) s true) < ce.penalisedCost s := by
  decide +kernel

/-- `test_bugfix_vehicle_type_offsets`. -/
example :
    let data := twoCapacities 1 10 10 2
    let ce := cost [1] 1 0
    let s := solution? (Solution.make data [visits data [0, 2] 1, visits data [1, 3] 1])
    let t := improveInOrder data [relocate1] (neighbours data) ce s true
    t.numClients = 4 ∧ ce.penalisedCost t ≤ ce.penalisedCost s := by
  decide +kernel

/-- `test_no_op_results_in_same_solution`. -/
example : ∀ exhaustive : Bool, (improve okSmall [] (neighbours okSmall) (cost [1] 1 0) (afterRandom okSmall 42)
    (random okSmall 42) exhaustive ⟨0, 0⟩).eq (random okSmall 42) = true := by
  decide +kernel

/-- `test_local_search_completes_incomplete_solutions`. -/
example :
    let s := solution okSmallPrizes [[1], [2, 3]]
    s.isComplete = false ∧ (improve okSmallPrizes [relocate1] (neighbours okSmallPrizes) (cost [1] 1 0)
      (Rng.ofSeed 42) s true).isComplete = true := by
  decide +kernel

/-- `test_mutually_exclusive_group_not_in_solution`. -/
example :
    let s := solution okSmallGroups [[3]]
    s.numMissingGroups = 1 ∧ (improve okSmallGroups [.binary .insertOptionalClient] (neighbours okSmallGroups)
      (cost [20] 6 0) (Rng.ofSeed 42) s false).numMissingGroups = 0 := by
  decide +kernel

/-- `test_swap_if_improving_mutually_exclusive_group`. -/
example :
    let s := solution okSmallGroups [[0, 3]]
    let ce := cost [20] 6 0
    let t := improve okSmallGroups [.unary .replaceGroup] (neighbours okSmallGroups) ce (Rng.ofSeed 42) s true ⟨0, 0⟩
    ce.penalisedCost t < ce.penalisedCost s ∧ plan t = [[C 2, C 3]] := by
  decide +kernel

/-- `test_no_op_multi_trip_instance`. -/
example :
    let s := solution? (Solution.make okSmallMultipleTrips [route okSmallMultipleTrips [C 0, C 1, D 0, C 2, C 3]])
    s.numClients = 4 ∧ (improve okSmallMultipleTrips [] (noNeighbours okSmallMultipleTrips) (cost [20] 6 0)
      (Rng.ofSeed 42) s false ⟨0, 0⟩).eq s = true := by
  decide +kernel

/-- `test_local_search_inserts_reload_depots`. -/
example :
    let s := solution okSmallMultipleTrips [[0, 1, 2, 3]]
    let ce := cost [1000] 0 0
    let t := improve okSmallMultipleTrips [.binary .relocateWithDepot] (neighbours okSmallMultipleTrips) ce
      (Rng.ofSeed 2) s false
    s.hasExcessLoad = true ∧ t.hasExcessLoad = false ∧ ce.penalisedCost t < ce.penalisedCost s
      ∧ t.numRoutes = 1 ∧ t.numTrips = 2 := by
  decide +kernel

/-- `test_local_search_removes_useless_reload_depots`. -/
example :
    let data := okSmallMultipleTrips
    let s := solution? (Solution.make data [route data [C 0, D 0, C 2], route data [C 1, C 3]])
    let ce := cost [1000] 0 0
    let t := improve data [.unary .removeAdjacentDepot] (neighbours data) ce (Rng.ofSeed 2) s true ⟨0, 0⟩
    ce.penalisedCost t < ce.penalisedCost s ∧ plan t = [[C 0, C 2], [C 1, C 3]] := by
  decide +kernel

/-- `test_inserts_required_missing`. -/
example : ∀ p ∈ [(okSmall, [0, 1, 2, 3]), (okSmallGroups, [2, 3])],
    let t := improve p.1 [relocate1] (neighbours p.1) (cost [20] 6 0) (Rng.ofSeed 42) (emptySolution p.1) false ⟨1, 1⟩
    t.isComplete = true ∧ ∀ i ∈ List.range 4, C i ∈ (plan t).flatten ↔ i ∈ p.2 := by
  decide +kernel

/-- `test_local_search_inserts_into_empty_solutions`. -/
example :
    let data := problem 1 [client 0 (prize := 1000) (required := false), client 0 (prize := 1000) (required := false)]
      [depot 0] [vehicleType {}] (zeros 1) (zeros 1)
    let s := emptySolution data
    let t := improve data [.binary .insertOptionalClient] (neighbours data) (cost [] 0 0) (Rng.ofSeed 2) s true
    s.numClients = 0 ∧ s.uncollectedPrizes = 2000 ∧ t.numClients = 2 ∧ t.uncollectedPrizes = 0 := by
  decide +kernel

/-- `test_does_not_insert_optional_groups`. -/
example :
    let data := problem 3 [client 1 (required := false) (group := some 0), client 2 (required := false) (group := some 0)]
      [depot 0] [vehicleType {}] (off 3 1) (off 3 1) [{ clients := [0, 1], required := false, name := "" }]
    let s := solution data [[1]]
    let t := improve data [.binary .insertOptionalClient, .unary .removeOptionalClient] (neighbours data) (cost [] 0 0)
      (Rng.ofSeed 2) s true
    s.numClients = 1 ∧ t.unplanned = [C 0, C 1] := by
  decide +kernel

/-- `test_removes_useless_consecutive_depots`. -/
example :
    let data := withType okSmallMultipleTrips { maxReloads := some 2 }
    let s := solution? (Solution.make data [route data [C 1, D 0, D 0, C 2]])
    let t := improve data [.unary .removeAdjacentDepot] (neighbours data) (cost [1] 1 1) (Rng.ofSeed 2) s true
    plan s = [[C 1, D 0, D 0, C 2]] ∧ t.numClients = 4 ∧ ∀ r ∈ plan t, ¬ [D 0, D 0] <:+: r := by
  decide +kernel

/-- `test_insert_missing_groups_and_clients`. -/
example :
    let s := emptySolution okSmallGroups
    let t := improve okSmallGroups [] (neighbours okSmallGroups) (cost [0] 0 0) (Rng.ofSeed 42) s false
    s.numMissingClients = 1 ∧ s.numMissingGroups = 1 ∧ t.isComplete = true ∧ t.numMissingClients = 0
      ∧ t.numMissingGroups = 0 := by
  decide +kernel

/-- `test_shipment_structural_feasibility`. -/
example :
    let t := improve smallShipments [] (neighbours smallShipments) (cost [0] 0 0) (Rng.ofSeed 42)
      (emptySolution smallShipments) false
    (emptySolution smallShipments).isComplete = false ∧ t.numShipments = 4 ∧ t.isComplete = true := by
  decide +kernel

/-- `test_shipment_improves_over_random`. -/
example :
    let s := random smallShipments 42
    let ce := cost [1] 1 0
    let t := improve smallShipments [.unary .relocatePickup] (neighbours smallShipments) ce (afterRandom smallShipments 42) s false
    t.numShipments = 4 ∧ ce.penalisedCost t < ce.penalisedCost s := by
  decide +kernel

end PyVRP.Checks
