import Verif.Model.Measure
import Verif.Model.Route
import Verif.Model.Solution
/-!
# Specification: what a solution is, in terms of the problem data
-/
namespace PyVRP.Spec

/-- The routes of a solution as the user gives them: vehicle type and activities of each. -/
abbrev RoutePlan := List (Nat × List Activity)

/-- Everything done in a plan, apart from leaving the start and returning to the end depots. -/
def visited (plan : RoutePlan) : List Activity := plan.flatMap (·.2)

def clientOf (i : Nat) : Activity := ⟨.client, i⟩

structure ValidPlan (data : ProblemData) (plan : RoutePlan) : Prop where
  /-- No more routes than vehicles. -/
  fleet : plan.length ≤ (data.vehicleTypes.map (·.numAvailable)).sum
  /-- No route without any client or shipment. -/
  nonempty : ∀ p ∈ plan, ∃ a ∈ p.2, a.type ≠ .depot
  clientsOnce : ∀ i, (visited plan).count ⟨.client, i⟩ ≤ 1
  shipmentsOnce : ∀ i, (visited plan).count ⟨.pickup, i⟩ ≤ 1
  /-- Members of a group exclude each other. -/
  groups : ∀ g ∈ data.groups, ∀ i ∈ g.clients, ∀ j ∈ g.clients,
    ⟨.client, i⟩ ∈ visited plan → ⟨.client, j⟩ ∈ visited plan → i = j
  available : ∀ (t : Nat) (v : VehicleType), data.vehicleTypes[t]? = some v →
    plan.countP (fun p => p.1 = t) ≤ v.numAvailable

/-- The routes are those that the `Route` constructor makes of the plan. -/
structure Built (data : ProblemData) (plan : RoutePlan) (routes : List Route) : Prop where
  made : plan.map (fun p => Route.make data p.2 p.1) = routes.map Except.ok
  /-- The vehicle types exist. -/
  types : ∀ p ∈ plan, p.1 < data.vehicleTypes.length
  /-- Limits of `size_t`. -/
  sizes : ∀ p ∈ plan, p.2.length < SIZE_MAX
  reloads : ∀ v ∈ data.vehicleTypes, v.maxReloads ≤ SIZE_MAX

/-- The prize lost by not performing this activity (once per shipment). -/
def prizeOf (data : ProblemData) (a : Activity) : Int :=
  match a.type with
  | .depot => 0
  | .client => (data.client a.idx).prize
  | .pickup => (data.shipment a.idx).prize
  | .delivery => 0

end PyVRP.Spec
