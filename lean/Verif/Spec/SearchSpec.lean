import Verif.Model.LocalSearch
import Verif.Lemmas.Ils
import Verif.Props.C27
import Verif.Lemmas.OpsAll
/-!
# Specification: histories of a local search, and instances on which it is exact
-/
namespace PyVRP
open Spec

namespace Spec

/-- The routes fit in memory. -/
def InMemory (s : SSol) : Prop := ∀ r ∈ s.routes, r.nodes.length ≤ SIZE_MAX

/-- No route that visits each client and shipment at most once can have more stops than fit in memory. -/
def FitsMemory (data : ProblemData) : Prop :=
  ∀ v ∈ data.vehicleTypes, 2 * (data.numClients + data.numShipments) + v.maxTrips + 1 ≤ SIZE_MAX

/-- A local search after any sequence of operations: operators are added, neighbourhoods replaced, it
is shuffled, and it is called on solutions. -/
inductive SearchHistory (data : ProblemData) : LocalSearch → Prop where
  | new {ns : Neighbours} {params : PerturbationParams} {manager : PerturbationManager} {ls : LocalSearch}
      (hns : CompleteNeighbours data ns) (hm : ManagerHistory params manager)
      (hr : params.maxPerturbations - params.minPerturbations < SIZE_MAX)
      (h : LocalSearch.make data ns manager = .ok ls) :
      SearchHistory data ls
  | addUnary {ls : LocalSearch} (op : UnaryOp) (h : SearchHistory data ls) :
      SearchHistory data (ls.addUnary op)
  | addBinary {ls : LocalSearch} (op : BinaryOp) (hop : op.Valid) (h : SearchHistory data ls) :
      SearchHistory data (ls.addBinary op)
  | setNeighbours {ls ls' : LocalSearch} {ns : Neighbours} (hns : CompleteNeighbours data ns)
      (h : SearchHistory data ls) (hs : ls.setNeighbours ns = .ok ls') : SearchHistory data ls'
  | shuffle {ls : LocalSearch} {σ : Type} (next : σ → Nat × σ) (rng : σ) (h : SearchHistory data ls) :
      SearchHistory data (ls.shuffle next rng).1
  | run {ls ls' : LocalSearch} {sol sol' : Solution} (ce : CostEvaluator) (exhaustive : Bool)
      (fuel : Nat) (h : SearchHistory data ls) (hsol : Accepted data sol)
      (hr : ls.run data ce sol exhaustive fuel = .ok (some (sol', ls'))) : SearchHistory data ls'

/-- An instance whose numbers are so small that the times and distances of a route cannot get near the
limits of the number types if a vehicle of type `v` makes at most `trips v` trips, and in which release
times do not meet with both reloads and duration limits. -/
structure ModerateUpTo (data : ProblemData) (B : Nat) (trips : VehicleType → Nat) : Prop where
  pos : 0 < B
  /-- `B` bounds opening times, release times, service times, travel times and distances. -/
  times : ∀ a, InRange data a → earliest data a ≤ B ∧ released data a ≤ B ∧ serviceTime data a ≤ B
  vehicles : ∀ v ∈ data.vehicleTypes, v.twEarly ≤ B
  durations : ∀ m ∈ data.durs, ∀ x ∈ m.data, x ≤ B
  distances : ∀ m ∈ data.dists, ∀ x ∈ m.data, x ≤ B
  /-- The longest possible route still fits. -/
  total : ∀ v ∈ data.vehicleTypes,
    ((3 * B * (data.numClients + 2 * data.numShipments + trips v + 4) : Nat) : Int) ≤ HALF
  /-- There are no release times, or no vehicle that may reload has a limit on the duration of its route
  and no depot closes before a release time. -/
  releases : (∀ c ∈ data.clients, c.releaseTime = 0)
    ∨ ∀ v ∈ data.vehicleTypes, v.reloadDepots = [] ∨ (v.maxDuration = MAX
      ∧ ∀ c ∈ data.clients, ∀ d ∈ data.depots, c.releaseTime ≤ d.twLate)

/-- The same with as many trips as the vehicles may make. -/
abbrev Moderate (data : ProblemData) (B : Nat) : Prop := ModerateUpTo data B VehicleType.maxTrips

/-- Nothing has a negative cost. -/
structure NonnegCosts (data : ProblemData) : Prop where
  distances : ∀ m ∈ data.dists, ∀ x ∈ m.data, 0 ≤ x
  fixed : ∀ v ∈ data.vehicleTypes, 0 ≤ v.fixedCost
  prizes : ∀ c ∈ data.clients, 0 ≤ c.prize
  shipments : ∀ s ∈ data.shipments, 0 ≤ s.prize

/-- How often the routes visit a reload depot. -/
def reloadVisits (s : SSol) : Nat := (s.routes.map (fun r => r.numTrips - 1)).sum

end Spec

end PyVRP
