import Verif.Model.Data
/-!
# Specification: acceptable constructor arguments and consistent problem data

Only the data structures are used here, none of the model's checking functions.
-/
namespace PyVRP.Spec

/-- All amounts non-negative. -/
def Nonneg (l : List Int) : Prop := ∀ x ∈ l, 0 ≤ x

/-- `l'` is `l` extended with zeroes to length `n`. -/
def PaddedTo (l l' : List Int) (n : Nat) : Prop :=
  l'.length = n ∧ ∀ i, i < n → l'.getD i 0 = if i < l.length then l.getD i 0 else 0

structure ClientArgsOk (a : Client) : Prop where
  delivery : Nonneg a.delivery
  pickup : Nonneg a.pickup
  service : 0 ≤ a.serviceDuration
  early : 0 ≤ a.twEarly
  window : a.twEarly ≤ a.twLate
  release : 0 ≤ a.releaseTime ∧ a.releaseTime ≤ a.twLate
  prize : 0 ≤ a.prize

structure DepotArgsOk (a : Depot) : Prop where
  service : 0 ≤ a.serviceDuration
  early : 0 ≤ a.twEarly
  window : a.twEarly ≤ a.twLate

structure StepArgsOk (a : Step) : Prop where
  service : 0 ≤ a.serviceDuration
  early : 0 ≤ a.twEarly
  window : a.twEarly ≤ a.twLate

structure ShipmentArgsOk (a : Shipment) : Prop where
  pickup : StepArgsOk a.pickup
  delivery : StepArgsOk a.delivery
  order : a.pickup.twEarly ≤ a.delivery.twLate
  amount : Nonneg a.amount
  prize : 0 ≤ a.prize

structure VehicleArgsOk (a : VehicleTypeArgs) : Prop where
  available : 0 < a.numAvailable
  capacity : Nonneg a.capacity
  /-- The latest start is the end of the shift if not given. -/
  startLate : ∀ s, a.startLate = some s → a.twEarly ≤ s ∧ s ≤ a.twLate
  window : a.twEarly ≤ a.twLate
  early : 0 ≤ a.twEarly
  shift : 0 ≤ a.shiftDuration
  distance : 0 ≤ a.maxDistance
  unitDistance : 0 ≤ a.unitDistanceCost
  unitDuration : 0 ≤ a.unitDurationCost
  initial : Nonneg a.initialLoad
  /-- Initial load fits; missing capacities count as zero. -/
  fits : ∀ i, a.initialLoad.getD i 0 ≤ a.capacity.getD i 0
  overtime : 0 ≤ a.maxOvertime
  unitOvertime : 0 ≤ a.unitOvertimeCost

/-- Cross references, load dimensions and matrices fit together. -/
structure Consistent (d : ProblemData) : Prop where
  clientLocation : ∀ c ∈ d.clients, c.location < d.locations.length
  depotLocation : ∀ c ∈ d.depots, c.location < d.locations.length
  pickupLocation : ∀ s ∈ d.shipments, s.pickup.location < d.locations.length
  deliveryLocation : ∀ s ∈ d.shipments, s.delivery.location < d.locations.length
  hasDepot : d.depots ≠ []
  hasVehicle : d.vehicleTypes ≠ []
  hasMatrix : d.dists ≠ []
  /-- A client's group exists, lists the client, and the client is optional. -/
  clientGroup : ∀ (i : Nat) (c : Client) (g : Nat), d.clients[i]? = some c → c.group = some g →
    ∃ grp : ClientGroup, d.groups[g]? = some grp ∧ i ∈ grp.clients ∧ c.required = false
  /-- A group is not empty and its members refer to it. -/
  groupClients : ∀ (g : Nat) (grp : ClientGroup), d.groups[g]? = some grp →
    grp.clients ≠ [] ∧ ∀ i ∈ grp.clients, ∃ c : Client, d.clients[i]? = some c ∧ c.group = some g
  /-- One number of load dimensions everywhere. -/
  dimensions : ∃ n, (∀ c ∈ d.clients, c.delivery.length = n ∧ c.pickup.length = n)
    ∧ (∀ s ∈ d.shipments, s.amount.length = n) ∧ (∀ v ∈ d.vehicleTypes, v.capacity.length = n)
  startDepot : ∀ v ∈ d.vehicleTypes, ∃ dep : Depot, d.depots[v.startDepot]? = some dep
    ∧ dep.twEarly ≤ v.twLate ∧ v.twEarly ≤ dep.twLate
  endDepot : ∀ v ∈ d.vehicleTypes, ∃ dep : Depot, d.depots[v.endDepot]? = some dep
    ∧ dep.twEarly ≤ v.twLate ∧ v.twEarly ≤ dep.twLate
  reloadDepots : ∀ v ∈ d.vehicleTypes, ∀ i ∈ v.reloadDepots, i < d.depots.length
  profile : ∀ v ∈ d.vehicleTypes, v.profile < d.dists.length ∧ v.profile < d.durs.length
  sameCount : d.dists.length = d.durs.length
  square : ∀ m ∈ d.dists ++ d.durs, m.rows = d.locations.length ∧ m.cols = d.locations.length
    ∧ ∀ i, i < d.locations.length → m.get i i = 0

end PyVRP.Spec
