import Verif.Spec.File
import Verif.Spec.Valid
/-!
# Well-formed instance files

What a file without a section on pickups and deliveries must look like to be read.
-/
namespace PyVRP.Spec.File
open ModelApi

/-- The number of lines of a section. -/
def lines {α : Type} : Table α → Nat
  | .flat l => l.length
  | .rows l => l.length

/-- The number of values in the line of a place. A section that is not there counts as one of single
zeros. -/
def width (section_ : Option (Table Rat)) (loc : Nat) : Nat :=
  match section_ with
  | some (.rows l) => (l.getD loc []).length
  | _ => 1

/-- The section that has what is to be delivered. -/
def deliveries (inst : Vrplib) : Option (Table Rat) :=
  match inst.demand with
  | some t => some t
  | none => inst.linehaul

/-- The section has one number for all, or one for each. -/
def OneOrEach (n : Int) (section_ : Option Values) : Prop :=
  ∀ l, section_ = some (.many l) → (l.length : Int) = n ∨ l.length = 1

/-- The numbers of a client are acceptable once rounded. -/
structure GoodClient (R : Rat → Rat) (inst : Vrplib) (loc : Nat) : Prop where
  delivery : ∀ d, 0 ≤ Read.trunc (R (delivery inst loc d))
  pickup : ∀ d, 0 ≤ Read.trunc (R (amount inst.backhaul loc d))
  service : 0 ≤ Read.trunc (R (number inst.serviceTime 0 loc))
  release : 0 ≤ Read.trunc (R (number inst.releaseTime 0 loc))
    ∧ Read.trunc (R (number inst.releaseTime 0 loc)) ≤ Read.trunc (window R inst loc).2
  prize : 0 ≤ Read.trunc (R (prize inst loc))

/-- The numbers of a vehicle are acceptable, its depots are depots, and its clients are places. -/
structure GoodVehicle (inst : Vrplib) (a : Read.Attrs) : Prop where
  capacity : ∀ x ∈ a.capacity, 0 ≤ Read.trunc x
  depot : 0 ≤ a.depot ∧ a.depot < numDepots inst
  reloads : ∀ r ∈ a.reloads, 0 ≤ r ∧ r < numDepots inst
  clients : ∀ c ∈ a.clients, 0 ≤ c ∧ c < inst.dimension
  maxReloads : 0 ≤ a.maxReloads ∧ a.maxReloads ≤ SIZE_MAX
  maxDistance : 0 ≤ Read.trunc a.maxDistance
  shiftDuration : 0 ≤ Read.trunc a.shiftDuration
  unitDistanceCost : 0 ≤ Read.trunc a.unitDistanceCost

/-- A well-formed file. -/
structure Good (R : Rat → Rat) (inst : Vrplib) : Prop where
  noShipments : inst.pickupDelivery = none
  /-- There is a depot, the depots are the first places, and there is a vehicle. -/
  depots : ∀ l, inst.depot = some l → l ≠ [] ∧ l = (List.range l.length).map Int.ofNat
  places : numDepots inst ≤ inst.dimension ∧ inst.dimension ≤ SIZE_MAX
  vehicles : 0 < numVehicles inst
  /-- Sections about places have a line for each place. -/
  amounts : ∀ t, deliveries inst = some t ∨ inst.backhaul = some t → lines t = inst.dimension
  coords : ∀ l, inst.nodeCoord = some l → l.length = inst.dimension
  services : ∀ l, inst.serviceTime = some (.many l) → l.length = inst.dimension
  windows : ∀ l, inst.timeWindow = some l → l.length = inst.dimension
  releases : OneOrEach inst.dimension inst.releaseTime
  prizes : ∀ l, inst.prize = some l → l.length = inst.dimension
  /-- Sections about vehicles have a line for each vehicle, or some of them one number for all. -/
  capacities : ∀ t, inst.capacity = some (.table t) → (lines t : Int) = numVehicles inst
  allowed : ∀ t, inst.allowedClients = some t → (lines t : Int) = numVehicles inst
  reloads : ∀ t, inst.reloadDepot = some t → (lines t : Int) = numVehicles inst
  vehiclesDepots : ∀ l, inst.vehiclesDepot = some l → (l.length : Int) = numVehicles inst
  maxDistances : OneOrEach (numVehicles inst) inst.maxDistance
  maxDurations : OneOrEach (numVehicles inst) inst.maxDuration
  maxReloads : ∀ l, inst.maxReloads = some l → (l.length : Int) = numVehicles inst ∨ l.length = 1
  fixedCosts : OneOrEach (numVehicles inst) inst.fixedCost
  unitDistanceCosts : OneOrEach (numVehicles inst) inst.unitDistanceCost
  /-- Time windows are in order, and within the range of integers. -/
  window : ∀ loc, loc < inst.dimension → 0 ≤ Read.trunc (window R inst loc).1
    ∧ Read.trunc (window R inst loc).1 ≤ Read.trunc (window R inst loc).2
    ∧ Read.trunc (window R inst loc).1 ≤ MAX
  client : ∀ loc, numDepots inst ≤ loc → loc < inst.dimension → GoodClient R inst loc
  vehicle : ∀ v : Nat, (v : Int) < numVehicles inst → GoodVehicle inst (vehicle R inst v)
  /-- Clients and vehicles have the same load dimensions. -/
  dimensions : ∃ n, (∀ v : Nat, (v : Int) < numVehicles inst → (File.vehicle R inst v).capacity.length = n)
    ∧ ∀ loc, numDepots inst ≤ loc → loc < inst.dimension →
      max (width (deliveries inst) loc) (width inst.backhaul loc) = n
  /-- Groups consist of clients, and no client is listed twice. -/
  groupLines : ∀ t, inst.groups = some t → lines t ≠ 0
  groups : (groups inst).flatten.Nodup
    ∧ ∀ m ∈ (groups inst).flatten, (numDepots inst : Int) < m ∧ m ≤ inst.dimension
  square : Square inst
  diagonal : ∀ i, i < inst.dimension → Read.trunc (R ((inst.edgeWeight.getD i []).getD i 0)) = 0
  /-- Linehauls and backhauls are single numbers, and no place has both. -/
  vrpb : inst.type = "VRPB" → (∃ l, deliveries inst = some (.flat l)) ∧ ∃ l, inst.backhaul = some (.flat l)
  open_ : ∀ i, ¬ Closed R inst i i

end PyVRP.Spec.File
