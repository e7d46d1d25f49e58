import Verif.Model.Solution
/-!
# Model of `minimise_fleet.py`

The solver and the stopping criterion are arbitrary: `outcome k data` is the best solution of the
`k`-th call to `solve` and the answer of the stopping criterion after it. `fl` is the rounding of
the floating-point division.
-/
namespace PyVRP
namespace MinimiseFleet

/-- Amount to be packed in one dimension (`minimise_fleet.py` 101-103). -/
def demand (data : ProblemData) (dim : Nat) : Int :=
  max (data.clients.map (fun c => c.delivery.getD dim 0)).sum
    (data.clients.map (fun c => c.pickup.getD dim 0)).sum

/-- Capacity of one vehicle over all its trips (`minimise_fleet.py` 107). -/
def capacity (v : VehicleType) (dim : Nat) : Int := v.capacity.getD dim 0 * v.maxTrips

/-- `int(np.ceil(demand / max(capacity, 1)))` (`minimise_fleet.py` 108). -/
def bins (fl : Rat → Rat) (demand capacity : Int) : Int :=
  (fl ((demand : Rat) / ((max capacity 1 : Int) : Rat))).ceil

/-- `_lower_bound` (`minimise_fleet.py` 89-110). -/
def lowerBound (fl : Rat → Rat) (data : ProblemData) : Int :=
  (List.range data.numLoadDimensions).foldl
    (fun bound dim => max (bins fl (demand data dim) (capacity (data.vehicleType 0) dim)) bound) 0

/-- `data.replace(vehicle_types=[fleet])` (`minimise_fleet.py` 65). -/
def withFleet (data : ProblemData) (fleet : VehicleType) : Except Error ProblemData :=
  data.replace { vehicleTypes := some [fleet] }

/-- `fleet.replace(num_available=n)` (`minimise_fleet.py` 64, 84). -/
def withVehicles (fleet : VehicleType) (n : Nat) : Except Error VehicleType :=
  fleet.replace { numAvailable := some n }

/-- The loop (`minimise_fleet.py` 62-86). `none` when the fuel runs out. -/
def loop (outcome : Nat → ProblemData → Solution × Bool) (bound : Int) :
    Nat → Nat → ProblemData → VehicleType → Option (Except Error VehicleType)
  | 0, _, _, _ => none
  | fuel + 1, k, data, feas =>
    if (feas.numAvailable : Int) > bound then
      match withVehicles feas (feas.numAvailable - 1) with
      | .error e => some (.error e)
      | .ok fleet =>
        match withFleet data fleet with
        | .error e => some (.error e)
        | .ok data =>
          let best := (outcome k data).1
          if (outcome k data).2 || !best.isFeasible then some (.ok feas)
          else if best.numRoutes < data.numVehicles then
            match withVehicles fleet best.numRoutes with
            | .error e => some (.error e)
            | .ok feas => loop outcome bound fuel (k + 1) data feas
          else loop outcome bound fuel (k + 1) data fleet
    else some (.ok feas)

/-- `minimise_fleet` (`minimise_fleet.py` 15-86). -/
def minimiseFleet (fl : Rat → Rat) (outcome : Nat → ProblemData → Solution × Bool) (fuel : Nat)
    (data : ProblemData) : Option (Except Error VehicleType) :=
  if data.numVehicleTypes ≠ 1 then
    some (.error (.invalidArgument "Fleet minimisation does not understand multiple vehicle types."))
  else if data.clients.any (fun c => !c.required) then
    some (.error (.invalidArgument "Fleet minimisation does not work with optional clients."))
  else loop outcome (lowerBound fl data) fuel 0 data (data.vehicleType 0)

end MinimiseFleet
end PyVRP
