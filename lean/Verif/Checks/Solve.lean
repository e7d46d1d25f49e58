import Verif.Checks.Instances
import Verif.Model.Solve
import Verif.Model.MinimiseFleet

/-!
# `solve` and `minimise_fleet` in the cases of the test suite

Checks of `/repo/tests/test_solve.py` and `test_minimise_fleet.py`, except those on large instances. There
is no rounding: all numbers are exact. The kernel runs the whole solver here, ten iterations each, from the
random number generator to the local search.
-/
namespace PyVRP.Checks

/-! ## `test_solve.py` -/

/-- `solve(data, stop=MaxIterations(n), seed=0)`: the best solution. -/
def solved (data : ProblemData) (n : Nat) : Option Solution :=
  match Solve.solveSeed .exact data {} (.maxIterations n 0) (fun _ => 0) 0 true none (n + 1) 100 with
  | .ok (some r) => some r.best
  | _ => none

/-- `test_negative_fixed_cost_uses_all_vehicles`. -/
example : (solved okSmall 10).map (·.numRoutes) = some 2
    ∧ (solved (withType okSmall { fixedCost := some (-10000) }) 10).map (·.numRoutes) = some 3 := by
  decide +kernel

/-- `test_solve_optional_shipments`. -/
example :
    (solved smallOptionalShipments 10).map (fun best => (best.numShipments, best.isFeasible, best.distanceCost,
      best.unplanned.contains (L 0), best.unplanned.contains (U 0))) = some (1, true, 9571, false, false) := by
  decide +kernel

/-! ## `test_minimise_fleet.py` -/

/-- `minimise_fleet(data, MaxIterations(10))`: the number of vehicles. Each call of `solve` starts with a new
criterion here, which does not matter as the runs end with the first feasible solution. -/
def fleet (data : ProblemData) : Option Nat :=
  let outcome := fun _ data =>
    match Solve.solveSeed .exact data {} (.multipleCriteria [.firstFeasible, .maxIterations 10 0]) (fun _ => 0) 0 false
      none 11 100 with
    | .ok (some r) => (r.best, false)
    | _ => ({ routes := [] }, true)
  match MinimiseFleet.minimiseFleet id outcome 10 data with
  | some (.ok v) => some v.numAvailable
  | _ => none

/-- `test_raises_multiple_vehicle_types`, `test_OkSmall`, `test_OkSmall_multidimensional_load` and
`test_lower_bound_multi_trip_instance`. -/
example : okSmallMultipleDepots.numVehicleTypes = 2 ∧ fleet okSmallMultipleDepots = none ∧ okSmall.numVehicles = 3
    ∧ fleet okSmall = some 2 ∧ fleet okSmallMultipleLoad = some 3
    ∧ fleet (get (okSmallMultipleTrips.replace { vehicleTypes := some [okSmallMultipleTrips.vehicleType 0] })) = some 1 := by
  decide +kernel

/-- The default values in the documentation of `IteratedLocalSearchParams`, `PenaltyParams`,
`NeighbourhoodParams` and `PerturbationParams` (also `test_default_values`). -/
example : ({} : SolveParams).ils = ⟨150000, 300, true⟩
    ∧ ({} : SolveParams).penalty = ⟨500, 15 / 10, 9 / 10, 65 / 100, 5 / 100, 1 / 10, 100000⟩
    ∧ ({} : SolveParams).neighbourhood = ⟨2 / 10, 50, true⟩
    ∧ ({} : SolveParams).perturbation = ⟨1, 25⟩
    ∧ ({} : SolveParams).operators.length = 19 ∧ ({} : SolveParams).operators.Nodup := by
  refine ⟨rfl, by decide +kernel, ?_, rfl, by decide, by decide⟩
  show (⟨1 / 5, 50, true⟩ : NeighbourhoodParams) = _
  congr 1
  decide +kernel

end PyVRP.Checks
