import Verif.Model.Read
/-!
# What an instance file says

The sections of a file are looked up place by place and vehicle by vehicle. Places count from zero, with
the depots first; vehicles count from zero. `R` is the rounding function.
-/
namespace PyVRP.Spec.File
open ModelApi

/-- The number of depots. -/
def numDepots (inst : Vrplib) : Nat :=
  match inst.depot with
  | none => 1
  | some l => l.length

/-- The number of clients: all places that are neither a depot nor part of a shipment. -/
def numClients (inst : Vrplib) : Int :=
  match inst.pickupDelivery with
  | none => inst.dimension - numDepots inst
  | some rows => inst.dimension - rows.length

/-- The number of vehicles. -/
def numVehicles (inst : Vrplib) : Int :=
  match inst.vehicles with
  | none => numClients inst
  | some n => n

/-- The `i`-th number of a section; a single number holds for all. -/
def number (section_ : Option Values) (default : Rat) (i : Nat) : Rat :=
  match section_ with
  | none => default
  | some (.one x) => x
  | some (.many [x]) => x
  | some (.many l) => l.getD i 0

/-- The amount of load dimension `dim` at place `loc`. -/
def amount (section_ : Option (Table Rat)) (loc dim : Nat) : Rat :=
  match section_ with
  | none => 0
  | some (.flat l) => if dim = 0 then l.getD loc 0 else 0
  | some (.rows l) => (l.getD loc []).getD dim 0

/-- What is to be delivered: the demand, or the linehaul if there are no demands. -/
def delivery (inst : Vrplib) (loc dim : Nat) : Rat :=
  match inst.demand with
  | some t => amount (some t) loc dim
  | none => amount inst.linehaul loc dim

/-- The line of a section of index lists, counted from zero. -/
def line (t : Table Int) (i : Nat) : List Int :=
  match t with
  | .flat l => [l.getD i 0 - 1]
  | .rows l => (l.getD i []).map (· - 1)

/-- The time window of a place. -/
def window (R : Rat → Rat) (inst : Vrplib) (loc : Nat) : Rat × Rat :=
  match inst.pickupDelivery with
  | some rows => (R (rows.getD loc default).early, R (rows.getD loc default).late)
  | none =>
    match inst.timeWindow with
    | some l => (R (l.getD loc (0, 0)).1, R (l.getD loc (0, 0)).2)
    | none => (0, (MAX : Rat))

/-- The prize of a place. -/
def prize (inst : Vrplib) (loc : Nat) : Rat :=
  match inst.prize with
  | none => 0
  | some l => l.getD loc 0

/-- A limit that is absent if the section is. -/
def limit (R : Rat → Rat) (section_ : Option Values) (v : Nat) : Rat :=
  match section_ with
  | none => (MAX : Rat)
  | some x => R (number (some x) 0 v)

/-- Vehicle `v`. -/
def vehicle (R : Rat → Rat) (inst : Vrplib) (v : Nat) : Read.Attrs where
  capacity :=
    match inst.capacity with
    | none => [(MAX : Rat)]
    | some (.one x) => [R x]
    | some (.table (.flat l)) => [R (l.getD v 0)]
    | some (.table (.rows l)) => (l.getD v []).map R
  clients :=
    match inst.allowedClients with
    | none => (List.range' (numDepots inst) (inst.dimension - numDepots inst)).map Int.ofNat
    | some t => line t v
  reloads :=
    match inst.reloadDepot with
    | none => []
    | some t => line t v
  depot :=
    match inst.vehiclesDepot with
    | none => 0
    | some l => l.getD v 0 - 1
  maxDistance := limit R inst.maxDistance v
  shiftDuration := limit R inst.maxDuration v
  maxReloads :=
    match inst.maxReloads with
    | none => (SIZE_MAX : Int)
    | some [x] => x
    | some l => l.getD v 0
  fixedCost := R (number inst.fixedCost 0 v)
  unitDistanceCost := number inst.unitDistanceCost 1 v

/-- The groups of the file that have several members, as places counted from one. -/
def groups (inst : Vrplib) : List (List Int) :=
  match inst.groups with
  | none => []
  | some (.flat _) => []
  | some (.rows l) => l.filter (1 < ·.length)

/-- Vehicle type `t` is vehicle `a` of the file: its numbers are those of the vehicle, its shift is the
time window of its depot, and everything the file does not mention has its default. -/
structure TypeFits (R : Rat → Rat) (inst : Vrplib) (a : Read.Attrs) (t : VehicleType) : Prop where
  capacity : t.capacity = a.capacity.map Read.trunc
  depot : (t.startDepot : Int) = a.depot ∧ t.endDepot = t.startDepot
  reloads : t.reloadDepots.map Int.ofNat = a.reloads
  maxReloads : (t.maxReloads : Int) = a.maxReloads
  window : t.twEarly = Read.trunc (window R inst t.startDepot).1
    ∧ t.twLate = Read.trunc (window R inst t.startDepot).2 ∧ t.startLate = t.twLate
  shift : t.shiftDuration = Read.trunc a.shiftDuration
  maxDistance : t.maxDistance = Read.trunc a.maxDistance
  costs : t.fixedCost = Read.trunc a.fixedCost ∧ t.unitDistanceCost = Read.trunc a.unitDistanceCost
  unused : t.unitDurationCost = 0 ∧ t.maxOvertime = 0 ∧ t.unitOvertimeCost = 0
    ∧ ∀ d, t.initialLoad.getD d 0 = 0

/-- The edge weights are a square matrix over all places. -/
def Square (inst : Vrplib) : Prop :=
  inst.edgeWeight.length = inst.dimension ∧ ∀ r ∈ inst.edgeWeight, r.length = inst.dimension

/-- The vehicle may visit the place: depots, and what its line lists. -/
def Visits (inst : Vrplib) (a : Read.Attrs) (loc : Nat) : Prop :=
  loc < numDepots inst ∨ (loc : Int) ∈ a.clients

/-- The edge from `i` to `j` is closed because linehauls are served before backhauls. -/
def Closed (R : Rat → Rat) (inst : Vrplib) (i j : Nat) : Prop :=
  inst.type = "VRPB" ∧ ((i = 0 ∧ 0 < R (amount inst.backhaul j 0))
    ∨ (0 < R (amount inst.backhaul i 0) ∧ 0 < R (delivery inst j 0)))

open Classical in
/-- The distance from `i` to `j` for a vehicle. -/
noncomputable def distance (R : Rat → Rat) (inst : Vrplib) (a : Read.Attrs) (i j : Nat) : Rat :=
  if i = j then 0
  else if ¬ Visits inst a i ∨ ¬ Visits inst a j then (MAX_VALUE : Rat)
  else if Closed R inst i j then (MAX_VALUE : Rat)
  else R ((inst.edgeWeight.getD i []).getD j 0)

/-- The line of clients of a vehicle lists clients, none of them twice. -/
def ListsClients (inst : Vrplib) (a : Read.Attrs) : Prop :=
  a.clients.Nodup ∧ ∀ c ∈ a.clients, (numDepots inst : Int) ≤ c ∧ c < inst.dimension

/-- The edge weights are a matrix, and the lines of clients are lists of clients. -/
structure Clear (inst : Vrplib) (a : Read.Attrs) : Prop where
  square : Square inst
  lists : ListsClients inst a
  noShipments : inst.pickupDelivery = none ∨ inst.allowedClients = none

/-- Line `k` of the section on pickups and deliveries. -/
def pdRow (inst : Vrplib) (k : Nat) : PdRow := (inst.pickupDelivery.getD []).getD k default

/-- The lines that are pickups: they have a delivery, and no pickup. -/
def pickups (inst : Vrplib) : List Nat :=
  (List.range (inst.pickupDelivery.getD []).length).filter
    fun k => (pdRow inst k).pick = 0 ∧ 0 < (pdRow inst k).deliv

/-- Shipment `s` is the one picked up at place `k`. Its delivery is at the place that line `k` names, where
the lines count places from one. -/
structure ShipmentFits (R : Rat → Rat) (inst : Vrplib) (k : Nat) (s : Shipment) : Prop where
  pickup : s.pickup = ⟨k, Read.trunc (R (pdRow inst k).early), Read.trunc (R (pdRow inst k).late),
    Read.trunc (R (pdRow inst k).service)⟩
  place : (s.delivery.location : Int) + 1 = (pdRow inst k).deliv
  delivery : s.delivery = ⟨s.delivery.location, Read.trunc (R (pdRow inst s.delivery.location).early),
    Read.trunc (R (pdRow inst s.delivery.location).late),
    Read.trunc (R (pdRow inst s.delivery.location).service)⟩
  amount : s.amount = [Read.trunc (R (pdRow inst k).demand)]
  required : s.required = true ∧ s.prize = 0

/-- The depot is no pickup or delivery, and each pickup is the pickup of its delivery. -/
structure Paired (inst : Vrplib) : Prop where
  depot : (pdRow inst 0).pick = 0 ∧ (pdRow inst 0).deliv = 0
  partner : ∀ k ∈ pickups inst, ∀ j : Nat, (j : Int) + 1 = (pdRow inst k).deliv →
    (pdRow inst j).pick = (k : Int) + 1

end PyVRP.Spec.File
