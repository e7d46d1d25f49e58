import Verif.Model.Data
import Verif.Model.CostEvaluator
import Verif.Spec.SolutionSpec
/-!
# Specification: instances with small numbers
-/
namespace PyVRP.Spec

/-- `B` bounds what adds up along a route: opening times, release times, service times, travel
times, distances, loads and prizes. `M` bounds the costs of a unit of distance or time, and a vehicle costs
at most `M * B`. Upper limits, such as closing times, capacities, and the limits on a vehicle's distance and
duration, need only be 64-bit integers. -/
structure Small (data : ProblemData) (B M : Nat) : Prop where
  clients : ∀ c ∈ data.clients, c.twEarly ≤ B ∧ c.serviceDuration ≤ B ∧ c.releaseTime ≤ B
  clientLoads : ∀ c ∈ data.clients, (∀ x ∈ c.delivery, 0 ≤ x ∧ x ≤ B) ∧ ∀ x ∈ c.pickup, 0 ≤ x ∧ x ≤ B
  clientPrizes : ∀ c ∈ data.clients, 0 ≤ c.prize ∧ c.prize ≤ B
  depots : ∀ d ∈ data.depots, d.twEarly ≤ B ∧ d.serviceDuration ≤ B
  pickups : ∀ s ∈ data.shipments, s.pickup.twEarly ≤ B ∧ s.pickup.serviceDuration ≤ B
  deliveries : ∀ s ∈ data.shipments, s.delivery.twEarly ≤ B ∧ s.delivery.serviceDuration ≤ B
  shipmentLoads : ∀ s ∈ data.shipments, ∀ x ∈ s.amount, 0 ≤ x ∧ x ≤ B
  shipmentPrizes : ∀ s ∈ data.shipments, 0 ≤ s.prize ∧ s.prize ≤ B
  vehicles : ∀ v ∈ data.vehicleTypes, v.twEarly ≤ B
  initialLoads : ∀ v ∈ data.vehicleTypes, ∀ x ∈ v.initialLoad, x ≤ B
  durations : ∀ m ∈ data.durs, ∀ x ∈ m.data, x ≤ B
  distances : ∀ m ∈ data.dists, ∀ x ∈ m.data, 0 ≤ x ∧ x ≤ B
  unitCosts : ∀ v ∈ data.vehicleTypes,
    v.unitDistanceCost ≤ M ∧ v.unitDurationCost ≤ M ∧ v.unitOvertimeCost ≤ M
  fixedCosts : ∀ v ∈ data.vehicleTypes, -((M * B : Nat) : Int) ≤ v.fixedCost ∧ v.fixedCost ≤ (M * B : Nat)
  limits : ∀ v ∈ data.vehicleTypes, v.maxDistance ≤ MAX ∧ v.shiftDuration ≤ MAX
    ∧ ∀ x ∈ v.capacity, x ≤ MAX

/-- There is room for routes that together make `n` stops: even with all costs added up, the numbers stay
in the range of 64-bit integers. -/
def Room (data : ProblemData) (B M n : Nat) : Prop :=
  (((2 * data.numLoadDimensions + 20) * M * B * n : Nat) : Int) ≤ MAX

/-- The number of stops of the routes of a plan, with the start and the end depots. -/
def numStops (plan : RoutePlan) : Nat := (plan.map fun p => p.2.length + 2).sum

/-- The penalties of a cost evaluator are at most `M` per unit. There is one for each load dimension.
(A penalty is converted from floating point. Numbers above `2 ^ 53` are rounded there, so that for them
`M` must be a little larger than the penalty.) -/
structure SmallPenalties (data : ProblemData) (ce : CostEvaluator) (M : Nat) : Prop where
  dims : ce.loadPenalties.length = data.numLoadDimensions
  loads : ∀ f ∈ ce.loadPenalties, ∀ x, 0 ≤ x → 0 ≤ f x ∧ f x ≤ M * x
  tw : ∀ x, 0 ≤ x → 0 ≤ ce.twPenalty_ x ∧ ce.twPenalty_ x ≤ M * x
  dist : ∀ x, 0 ≤ x → 0 ≤ ce.distPenalty_ x ∧ ce.distPenalty_ x ≤ M * x

end PyVRP.Spec
