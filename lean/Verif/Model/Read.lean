import Verif.Model.ModelApi
import Verif.Model.SolutionFile
/-!
# Reading instances: `read` of `pyvrp/read.py`

The text of the file is read by `vrplib.read_instance`, which is not part of the repository. Its result,
a dictionary of sections, is a `Vrplib`; a section that is not in the file is `none`. Numbers are
rational; the rounding function is applied to each of them. Where the code passes a number to C++ that is
not an integer, `int()` truncates it (`bindings.h` 82-103). Numpy arrays are lists, and an index counts
from the end if it is negative. Which exception is raised when several things are wrong is not modelled.
-/
namespace PyVRP
open Csv ModelApi

/-- A section of numbers: one for each line, or several. -/
inductive Table (α : Type) where
  | flat (l : List α)
  | rows (l : List (List α))
deriving DecidableEq, Repr

/-- A section that may be one number for all. -/
inductive Values where
  | one (x : Rat)
  | many (l : List Rat)
deriving DecidableEq, Repr

/-- Capacities: one number for all vehicles, or a section. -/
inductive Capacities where
  | one (x : Rat)
  | table (t : Table Rat)
deriving DecidableEq, Repr

/-- A line of the section on pickups and deliveries: demand, time window, service duration, and the
indices of the pickup and delivery that belong to it (from one; zero if there is none). -/
structure PdRow where
  demand : Rat
  early : Rat
  late : Rat
  service : Rat
  pick : Int
  deliv : Int
deriving DecidableEq, Repr, Inhabited

/-- The dictionary that `vrplib.read_instance` returns. Depots are numbered from zero, all other indices
are those of the file, which count from one. -/
structure Vrplib where
  dimension : Nat
  edgeWeight : List (List Rat)
  type : String := ""
  depot : Option (List Int) := none
  backhaul : Option (Table Rat) := none
  demand : Option (Table Rat) := none
  linehaul : Option (Table Rat) := none
  nodeCoord : Option (List (Rat × Rat)) := none
  serviceTime : Option Values := none
  timeWindow : Option (List (Rat × Rat)) := none
  releaseTime : Option Values := none
  prize : Option (List Rat) := none
  vehicles : Option Nat := none
  capacity : Option Capacities := none
  allowedClients : Option (Table Int) := none
  reloadDepot : Option (Table Int) := none
  vehiclesDepot : Option (List Int) := none
  maxDistance : Option Values := none
  maxDuration : Option Values := none
  maxReloads : Option (List Int) := none
  fixedCost : Option Values := none
  unitDistanceCost : Option Values := none
  groups : Option (Table Int) := none
  pickupDelivery : Option (List PdRow) := none

namespace Read

/-- `int(x)`. -/
def trunc (x : Rat) : Int := if 0 ≤ x then x.floor else -(-x).floor

/-- `np.round(x)`: to the nearest integer, ties to the even one. -/
def nearest (x : Rat) : Int :=
  if x - x.floor < 1 / 2 then x.floor
  else if 1 / 2 < x - x.floor then x.floor + 1
  else if x.floor % 2 = 0 then x.floor else x.floor + 1

/-- `ROUND_FUNCS` (`read.py` 30-36). Rounding errors of the multiplication are not modelled. -/
def roundFunc : String → Option (Rat → Rat)
  | "round" => some fun x => nearest x
  | "trunc" => some fun x => trunc x
  | "dimacs" => some fun x => trunc (10 * x)
  | "exact" => some fun x => nearest (1000 * x)
  | "none" => some fun x => x
  | _ => none

def _root_.PyVRP.Table.map {α β : Type} (f : α → β) : Table α → Table β
  | .flat l => .flat (l.map f)
  | .rows l => .rows (l.map (·.map f))

/-- The lines of a section as lists; `np.atleast_2d(x).T` for a flat one (`read.py` 252-255, 285-288,
338-341). -/
def _root_.PyVRP.Table.toRows {α : Type} : Table α → List (List α)
  | .flat l => l.map ([·])
  | .rows l => l

/-- An integer as an argument of type `size_t`: it must be in the range of that type. -/
def size (i : Int) : Except Error Nat :=
  if 0 ≤ i ∧ i ≤ SIZE_MAX then .ok i.toNat else .error (.invalidArgument "incompatible function arguments")

/-- `np.broadcast_to(values, n)`. -/
def broadcast (n : Nat) : Values → Except Error (List Rat)
  | .one x => .ok (List.replicate n x)
  | .many l =>
    if l.length = n then .ok l
    else if l.length = 1 then .ok (List.replicate n (l.getD 0 0))
    else .error (.invalidArgument "could not broadcast")

/-! ## `_InstanceParser` -/

/-- `num_depots` (`read.py` 166-168). -/
def numDepots (inst : Vrplib) : Nat := (inst.depot.getD [0]).length

/-- `num_shipments` (`read.py` 174-179): the number of pickups and deliveries. -/
def numShipments (inst : Vrplib) : Int :=
  match inst.pickupDelivery with
  | none => 0
  | some rows => rows.length - numDepots inst

/-- `num_clients` (`read.py` 170-172). -/
def numClients (inst : Vrplib) : Int := inst.dimension - numDepots inst - numShipments inst

/-- `num_vehicles` (`read.py` 181-183). -/
def numVehicles (inst : Vrplib) : Int := (inst.vehicles.map Int.ofNat).getD (numClients inst)

/-- `edge_weight` (`read.py` 188-189). -/
def edgeWeight (R : Rat → Rat) (inst : Vrplib) : List (List Rat) := inst.edgeWeight.map (·.map R)

/-- `depot_idcs` (`read.py` 191-192). -/
def depotIdcs (inst : Vrplib) : List Int := inst.depot.getD [0]

/-- `np.zeros((n, 1))`. -/
def zeros (n : Nat) : Table Rat := .rows (List.replicate n [0])

/-- `backhauls` (`read.py` 194-198). -/
def backhauls (R : Rat → Rat) (inst : Vrplib) : Table Rat :=
  match inst.backhaul with
  | none => zeros inst.dimension
  | some t => t.map R

/-- `demands` (`read.py` 200-206). -/
def demands (R : Rat → Rat) (inst : Vrplib) : Table Rat :=
  match inst.demand with
  | some t => t.map R
  | none =>
    match inst.linehaul with
    | some t => t.map R
    | none => zeros inst.dimension

/-- `coords` (`read.py` 208-212). -/
def coords (R : Rat → Rat) (inst : Vrplib) : List (Rat × Rat) :=
  match inst.nodeCoord with
  | none => List.replicate inst.dimension (0, 0)
  | some l => l.map fun p => (R p.1, R p.2)

/-- `service_times` (`read.py` 214-223). -/
def serviceTimes (R : Rat → Rat) (inst : Vrplib) : List Rat :=
  match inst.serviceTime.getD (.one 0) with
  | .one x => (List.range inst.dimension).map fun i => R (if i < numDepots inst then 0 else x)
  | .many l => l.map R

/-- `time_windows` (`read.py` 225-239). -/
def timeWindows (R : Rat → Rat) (inst : Vrplib) : List (Rat × Rat) :=
  match inst.pickupDelivery with
  | some rows => rows.map fun r => (R r.early, R r.late)
  | none =>
    match inst.timeWindow with
    | none => List.replicate inst.dimension (0, (MAX : Rat))
    | some l => l.map fun p => (R p.1, R p.2)

/-- `release_times` (`read.py` 241-244). -/
def releaseTimes (R : Rat → Rat) (inst : Vrplib) : Except Error (List Rat) :=
  (broadcast inst.dimension (inst.releaseTime.getD (.one 0))).map (·.map R)

/-- Lines of indices, from zero; `section[0]` raises if there is none. -/
def indices (t : Table Int) : Except Error (List (List Int)) :=
  if t.toRows = [] then .error (.outOfRange "list index out of range")
  else .ok (t.toRows.map (·.map (· - 1)))

/-- `reload_depots` (`read.py` 246-257). -/
def reloadDepots (inst : Vrplib) : Except Error (List (List Int)) :=
  match inst.reloadDepot with
  | none => .ok (List.replicate (numVehicles inst).toNat [])
  | some t => indices t

/-- `prizes` (`read.py` 259-263). -/
def prizes (R : Rat → Rat) (inst : Vrplib) : List Rat :=
  match inst.prize with
  | none => List.replicate inst.dimension 0
  | some l => l.map R

/-- `capacities` (`read.py` 265-276), with `np.atleast_1d` of each (`read.py` 475). -/
def capacities (R : Rat → Rat) (inst : Vrplib) : List (List Rat) :=
  match inst.capacity with
  | none => List.replicate (numVehicles inst).toNat [(MAX : Rat)]
  | some (.one x) => List.replicate (numVehicles inst).toNat [R x]
  | some (.table t) => (t.map R).toRows

/-- `allowed_clients` (`read.py` 278-292). -/
def allowedClients (inst : Vrplib) : Except Error (List (List Int)) :=
  match inst.allowedClients with
  | none => .ok (List.replicate (numVehicles inst).toNat
      ((List.range' (numDepots inst) (inst.dimension - numDepots inst)).map Int.ofNat))
  | some t => indices t

/-- `vehicles_depots` (`read.py` 294-299). -/
def vehiclesDepots (inst : Vrplib) : Except Error (List Int) :=
  match inst.vehiclesDepot with
  | none => (Py.get (depotIdcs inst) 0).map (List.replicate (numVehicles inst).toNat)
  | some l => .ok (l.map (· - 1))

/-- `max_distances`, `shift_durations` (`read.py` 301-316). -/
def limits (R : Rat → Rat) (inst : Vrplib) : Option Values → Except Error (List Rat)
  | none => .ok (List.replicate (numVehicles inst).toNat (MAX : Rat))
  | some v => (broadcast (numVehicles inst).toNat v).map (·.map R)

/-- `max_reloads` (`read.py` 318-320); one number for all is a list of one. -/
def maxReloads (inst : Vrplib) : Except Error (List Int) :=
  match inst.maxReloads with
  | none => .ok (List.replicate (numVehicles inst).toNat (SIZE_MAX : Int))
  | some l =>
    if l.length = (numVehicles inst).toNat then .ok l
    else if l.length = 1 then .ok (List.replicate (numVehicles inst).toNat (l.getD 0 0))
    else .error (.invalidArgument "could not broadcast")

/-- `fixed_costs` (`read.py` 322-324). -/
def fixedCosts (R : Rat → Rat) (inst : Vrplib) : Except Error (List Rat) :=
  (broadcast (numVehicles inst).toNat (inst.fixedCost.getD (.one 0))).map (·.map R)

/-- `unit_distance_costs` (`read.py` 326-330); not rounded. -/
def unitDistanceCosts (inst : Vrplib) : Except Error (List Rat) :=
  broadcast (numVehicles inst).toNat (inst.unitDistanceCost.getD (.one 1))

/-- `mutually_exclusive_groups` (`read.py` 332-350). -/
def mutuallyExclusiveGroups (inst : Vrplib) : Except Error (List (List Int)) :=
  match inst.groups with
  | none => .ok []
  | some t =>
    if t.toRows = [] then .error (.outOfRange "list index out of range")
    else .ok ((t.toRows.map (·.map (· - numDepots inst - 1))).filter (1 < ·.length))

/-- `shipments` (`read.py` 352-361). The code rounds in place; nothing reads the section after that. -/
def pdRows (R : Rat → Rat) (inst : Vrplib) : List PdRow :=
  (inst.pickupDelivery.getD []).map fun r =>
    { r with demand := R r.demand, early := R r.early, late := R r.late, service := R r.service }

/-! ## `_ProblemDataBuilder` -/

/-- `_locations` (`read.py` 395-400). -/
def locations (R : Rat → Rat) (inst : Vrplib) : List Location :=
  (coords R inst).map fun p => ⟨trunc p.1, trunc p.2, ""⟩

/-- `_depots` (`read.py` 402-414). -/
def depots (inst : Vrplib) : Except Error (List Depot) :=
  if numDepots inst = 0 ∨ depotIdcs inst ≠ (List.range (numDepots inst)).map Int.ofNat then
    .error (.invalidArgument "Source file should contain at least one depot in the contiguous lower indices.")
  else .ok ((List.range (numDepots inst)).map fun idx => ⟨idx, 0, MAX, 0, ""⟩)

/-- `idx2group[client] = group` for the members of one group (`read.py` 423-424). -/
def enter (idx2group : List (Option Nat)) (group : Nat) : List Int → Except Error (List (Option Nat))
  | [] => .ok idx2group
  | client :: rest =>
    match Py.modify idx2group client (fun _ => some group) with
    | .error e => .error e
    | .ok idx2group => enter idx2group group rest

/-- The loop over the groups (`read.py` 422-424), from group `group` on. -/
def enterAll (idx2group : List (Option Nat)) (group : Nat) :
    List (List Int) → Except Error (List (Option Nat))
  | [] => .ok idx2group
  | members :: rest =>
    match enter idx2group group members with
    | .error e => .error e
    | .ok idx2group => enterAll idx2group (group + 1) rest

/-- `np.atleast_1d(table[idx])` (`read.py` 437-438). -/
def row (t : Table Rat) (idx : Nat) : Except Error (List Rat) := Py.get t.toRows idx

/-- The sections that `_clients` needs (`read.py` 420-431). -/
structure ClientSections where
  idx2group : List (Option Nat)
  demands : Table Rat
  backhauls : Table Rat
  serviceDuration : List Rat
  timeWindows : List (Rat × Rat)
  releaseTimes : List Rat
  prizes : List Rat

/-- `np.isclose(prize, 0)` (`read.py` 432). -/
def isZero (prize : Rat) : Bool := decide (-(1 / 100000000) ≤ prize) && decide (prize ≤ 1 / 100000000)

/-- One client (`read.py` 435-446). -/
def client (s : ClientSections) (numDepots idx : Nat) : Except Error Client :=
  match row s.demands idx with
  | .error e => .error e
  | .ok delivery =>
  match row s.backhauls idx with
  | .error e => .error e
  | .ok pickup =>
  match Py.get s.serviceDuration idx with
  | .error e => .error e
  | .ok service =>
  match Py.get s.timeWindows idx with
  | .error e => .error e
  | .ok tw =>
  match Py.get s.releaseTimes idx with
  | .error e => .error e
  | .ok release =>
  match Py.get s.prizes idx with
  | .error e => .error e
  | .ok prize =>
  match Py.get s.idx2group ((idx - numDepots : Nat) : Int) with
  | .error e => .error e
  | .ok group =>
    Client.make
      { location := idx, delivery := delivery.map trunc, pickup := pickup.map trunc
        serviceDuration := trunc service, twEarly := trunc tw.1, twLate := trunc tw.2
        releaseTime := trunc release, prize := trunc prize, required := isZero prize && group.isNone
        group := group, name := "" }

/-- `_clients` (`read.py` 416-448). -/
def clients (R : Rat → Rat) (inst : Vrplib) : Except Error (List Client) :=
  match mutuallyExclusiveGroups inst with
  | .error e => .error e
  | .ok groups =>
  match enterAll (List.replicate (numClients inst).toNat none) 0 groups with
  | .error e => .error e
  | .ok idx2group =>
  match releaseTimes R inst with
  | .error e => .error e
  | .ok releaseTimes =>
    let s : ClientSections :=
      { idx2group := idx2group, demands := demands R inst, backhauls := backhauls R inst
        serviceDuration := serviceTimes R inst, timeWindows := timeWindows R inst
        releaseTimes := releaseTimes, prizes := prizes R inst }
    Py.mapE (client s (numDepots inst)) (List.range' (numDepots inst) (numClients inst).toNat)

/-- The attributes of one vehicle (`read.py` 474-476, 483-493). -/
structure Attrs where
  capacity : List Rat
  clients : List Int
  reloads : List Int
  depot : Int
  maxDistance : Rat
  shiftDuration : Rat
  maxReloads : Int
  fixedCost : Rat
  unitDistanceCost : Rat
deriving DecidableEq, Repr, Inhabited

/-- `vehicles_data` (`read.py` 451-469), vehicle by vehicle. -/
def attributes (R : Rat → Rat) (inst : Vrplib) : Except Error (List Attrs) :=
  match allowedClients inst with
  | .error e => .error e
  | .ok clients =>
  match reloadDepots inst with
  | .error e => .error e
  | .ok reloads =>
  match vehiclesDepots inst with
  | .error e => .error e
  | .ok depots =>
  match limits R inst inst.maxDistance with
  | .error e => .error e
  | .ok distances =>
  match limits R inst inst.maxDuration with
  | .error e => .error e
  | .ok durations =>
  match maxReloads inst with
  | .error e => .error e
  | .ok maxReloads =>
  match fixedCosts R inst with
  | .error e => .error e
  | .ok fixed =>
  match unitDistanceCosts inst with
  | .error e => .error e
  | .ok unit =>
    let n := numVehicles inst
    let caps := capacities R inst
    if (caps.length : Int) ≠ n ∨ (clients.length : Int) ≠ n ∨ (reloads.length : Int) ≠ n
        ∨ (depots.length : Int) ≠ n ∨ (distances.length : Int) ≠ n ∨ (durations.length : Int) ≠ n
        ∨ (maxReloads.length : Int) ≠ n ∨ (fixed.length : Int) ≠ n ∨ (unit.length : Int) ≠ n then
      .error (.invalidArgument "The number of elements in the vehicles data attributes should be equal.")
    else .ok ((List.range n.toNat).map fun v =>
      { capacity := caps.getD v [], clients := clients.getD v [], reloads := reloads.getD v []
        depot := depots.getD v 0, maxDistance := distances.getD v 0, shiftDuration := durations.getD v 0
        maxReloads := maxReloads.getD v 0, fixedCost := fixed.getD v 0, unitDistanceCost := unit.getD v 0 })

/-- `type2idcs[attrs].append(vehicle)` (`read.py` 474-476); the dictionary keeps the order of insertion. -/
def addVehicle (types : List (Attrs × List Nat)) (a : Attrs) (vehicle : Nat) : List (Attrs × List Nat) :=
  match types with
  | [] => [(a, [vehicle])]
  | (b, vehicles) :: rest =>
    if b = a then (b, vehicles ++ [vehicle]) :: rest else (b, vehicles) :: addVehicle rest a vehicle

/-- `type2idcs` (`read.py` 473-476). -/
def type2idcs (attrs : List Attrs) : List (Attrs × List Nat) :=
  attrs.zipIdx.foldl (fun types p => addVehicle types p.1 p.2) []

/-- `_allowed2profile` (`read.py` 603-610): the keys, where the profile is the position. -/
def profiles (allowed : List (List Int)) : List (List Int) :=
  allowed.foldl (fun keys clients => if clients ∈ keys then keys else keys ++ [clients]) []

/-- One vehicle type (`read.py` 495-514). -/
def vehicleType (keys : List (List Int)) (windows : List (Rat × Rat)) (p : Attrs × List Nat) :
    Except Error VehicleType :=
  match Py.get windows p.1.depot with
  | .error e => .error e
  | .ok tw =>
  match size p.1.depot with
  | .error e => .error e
  | .ok depot =>
  match Py.mapE size p.1.reloads with
  | .error e => .error e
  | .ok reloads =>
  match size p.1.maxReloads with
  | .error e => .error e
  | .ok maxReloads =>
    VehicleType.make
      { numAvailable := p.2.length, capacity := p.1.capacity.map trunc, startDepot := depot
        endDepot := depot, fixedCost := trunc p.1.fixedCost, twEarly := trunc tw.1, twLate := trunc tw.2
        shiftDuration := trunc p.1.shiftDuration, maxDistance := trunc p.1.maxDistance
        unitDistanceCost := trunc p.1.unitDistanceCost, profile := keys.idxOf p.1.clients
        reloadDepots := reloads, maxReloads := maxReloads
        name := String.ofList (Py.join [','] (p.2.map decimal)) }

/-- `_vehicle_types` (`read.py` 450-517). -/
def vehicleTypes (R : Rat → Rat) (inst : Vrplib) : Except Error (List VehicleType) :=
  match attributes R inst with
  | .error e => .error e
  | .ok attrs =>
    match allowedClients inst with
    | .error e => .error e
    | .ok allowed =>
      Py.mapE (vehicleType (profiles allowed) (timeWindows R inst)) (type2idcs attrs)

/-- A matrix entry by entry. -/
def mapEntries (f : Nat → Nat → Rat → Rat) (m : List (List Rat)) : List (List Rat) :=
  m.zipIdx.map fun r => r.1.zipIdx.map fun x => f r.2 x.2 x.1

/-- The numbers of a flat section; masks of more dimensions cannot be used as an index of one. -/
def flatOnly : Table Rat → Except Error (List Rat)
  | .flat l => .ok l
  | .rows _ => .error (.outOfRange "too many indices for array")

/-- The matrix has `n` rows and columns. -/
def square (n : Nat) (m : List (List Rat)) : Bool := decide (m.length = n) && m.all (·.length == n)

/-- Linehauls before backhauls (`read.py` 522-531). -/
def vrpb (R : Rat → Rat) (inst : Vrplib) (distances : List (List Rat)) :
    Except Error (List (List Rat)) :=
  match flatOnly (demands R inst) with
  | .error e => .error e
  | .ok linehaul =>
    match flatOnly (backhauls R inst) with
    | .error e => .error e
    | .ok backhaul =>
      if !square linehaul.length distances || !square backhaul.length distances then
        .error (.outOfRange "boolean index did not match indexed array")
      else .ok (mapEntries (fun i j x =>
        if i = 0 ∧ backhaul.getD j 0 > 0 then MAX_VALUE
        else if backhaul.getD i 0 > 0 ∧ linehaul.getD j 0 > 0 then MAX_VALUE else x) distances)

/-- `allowed[list(allowed_clients)] = True` (`read.py` 550). -/
def allow (allowed : List Bool) : List Int → Except Error (List Bool)
  | [] => .ok allowed
  | c :: cs =>
    match Py.modify allowed c (fun _ => true) with
    | .error e => .error e
    | .ok allowed => allow allowed cs

/-- The distances of one profile (`read.py` 537-561). -/
def profileDistances (inst : Vrplib) (distances : List (List Rat)) (clients : List Int) :
    Except Error (List (List Rat)) :=
  if (clients.length : Int) = numClients inst then .ok distances
  else
    match allow ((List.range inst.dimension).map fun i => decide (i < numDepots inst)) clients with
    | .error e => .error e
    | .ok allowed =>
      if !square inst.dimension distances then
        .error (.outOfRange "boolean index did not match indexed array")
      else .ok (mapEntries (fun i j x =>
        if i = j then 0
        else if !allowed.getD i false || !allowed.getD j false then MAX_VALUE else x) distances)

/-- `_distance_matrices` (`read.py` 519-570), without the warning. -/
def distanceMatrices (R : Rat → Rat) (inst : Vrplib) : Except Error (List (List (List Rat))) :=
  match (if inst.type = "VRPB" then vrpb R inst (edgeWeight R inst) else .ok (edgeWeight R inst)) with
  | .error e => .error e
  | .ok distances =>
    match allowedClients inst with
    | .error e => .error e
    | .ok allowed => Py.mapE (profileDistances inst distances) (profiles allowed)

/-- The conversion of a numpy array to a `Matrix` (`bindings.h` 29-51). -/
def matrix (m : List (List Rat)) : Matrix :=
  ⟨m.length, (m.getD 0 []).length, m.flatten.map trunc⟩

/-- Whether there is a warning about large distances (`read.py` 563-568). -/
def warns (ms : List (List (List Rat))) : Bool := ms.any fun m => m.any fun r => r.any fun x =>
  decide ((MAX_VALUE : Rat) < x)

/-- `_groups` (`read.py` 572-574). -/
def groups (inst : Vrplib) : Except Error (List ClientGroup) :=
  match mutuallyExclusiveGroups inst with
  | .error e => .error e
  | .ok groups => Py.mapE (fun members =>
      match Py.mapE size members with
      | .error e => .error e
      | .ok clients => ClientGroup.make ⟨clients, true, ""⟩) groups

/-- One pair of a pickup and a delivery (`read.py` 582-599). -/
def shipment (rows : List PdRow) (numDepots idx : Nat) (pickup : PdRow) : Except Error Shipment :=
  match Py.get rows (pickup.deliv - numDepots) with
  | .error e => .error e
  | .ok delivery =>
    match size (pickup.deliv - numDepots) with
    | .error e => .error e
    | .ok location =>
      Shipment.make
        { pickup := ⟨idx, trunc pickup.early, trunc pickup.late, trunc pickup.service⟩
          delivery := ⟨location, trunc delivery.early, trunc delivery.late, trunc delivery.service⟩
          amount := [trunc pickup.demand], prize := 0, required := true
          name := String.ofList (showInt delivery.pick ++ " -> ".toList ++ showInt pickup.deliv) }

/-- `_shipments` (`read.py` 576-601). -/
def shipments (R : Rat → Rat) (inst : Vrplib) : Except Error (List Shipment) :=
  Py.mapE (fun p => shipment (pdRows R inst) (numDepots inst) p.2 p.1)
    ((pdRows R inst).zipIdx.filter fun p => p.1.pick = 0 ∧ p.1.deliv > 0)

/-- `_ProblemDataBuilder.data` (`read.py` 373-393), with whether there was a warning. -/
def build (R : Rat → Rat) (inst : Vrplib) : Except Error (ProblemData × Bool) :=
  match clients R inst with
  | .error e => .error e
  | .ok clients =>
  match depots inst with
  | .error e => .error e
  | .ok depots =>
  match vehicleTypes R inst with
  | .error e => .error e
  | .ok types =>
  match distanceMatrices R inst with
  | .error e => .error e
  | .ok dists =>
  match groups inst with
  | .error e => .error e
  | .ok groups =>
  match shipments R inst with
  | .error e => .error e
  | .ok shipments =>
    match ProblemData.make
        { locations := locations R inst, clients := clients, depots := depots, vehicleTypes := types
          dists := dists.map matrix, durs := dists.map matrix, groups := groups
          shipments := shipments } with
    | .error e => .error e
    | .ok data => .ok (data, warns dists)

/-- `read` (`read.py` 39-92) with a named rounding function. -/
def read (inst : Vrplib) (round : String := "none") : Except Error (ProblemData × Bool) :=
  match roundFunc round with
  | none => .error (.invalidArgument "round_func is not understood.")
  | some R => build R inst

end Read
end PyVRP
