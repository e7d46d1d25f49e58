import Verif.Model.SearchSpace
/-!
# `pyvrp/cpp/search/neighbourhood.cpp`

Doubles are rational numbers, with a rounding function `fl` applied to the exact result of each
operation. Overflow and NaN, which only absurd weights could give, are not modelled.
-/
namespace PyVRP

/-- `NeighbourhoodParams` (`neighbourhood.h` 40-51). -/
structure NeighbourhoodParams where
  weightWaitTime : Rat := 1 / 5
  numNeighbours : Nat := 50
  symmetricProximity : Bool := true

/-- The constructor (`neighbourhood.cpp` 162-171). -/
def NeighbourhoodParams.make (p : NeighbourhoodParams) : Except Error NeighbourhoodParams :=
  checked (throwIf (p.numNeighbours = 0) (.invalidArgument "num_neighbours == 0 not understood.")) p

namespace Neighbourhood

/-- `std::numeric_limits<double>::max()`. -/
def doubleMax : Rat := ((2 ^ 1024 - 2 ^ 971 : Nat) : Rat)

/-- An entry of the proximity matrix: a finite value, or infinity. -/
inductive Entry where
  | fin (x : Rat)
  | inf
deriving DecidableEq, Repr

/-- `<` on doubles. -/
def Entry.lt : Entry → Entry → Bool
  | .fin x, .fin y => decide (x < y)
  | .fin _, .inf => true
  | .inf, _ => false

/-- The attributes that `arcCost` uses, of a `Client` or a `Shipment::Step`. -/
structure Spot where
  location : Nat
  twEarly : Int
  twLate : Int
  serviceDuration : Int
deriving Inhabited

def clientSpot (c : Client) : Spot := ⟨c.location, c.twEarly, c.twLate, c.serviceDuration⟩

def stepSpot (s : Step) : Spot := ⟨s.location, s.twEarly, s.twLate, s.serviceDuration⟩

/-- `arcCost` (`neighbourhood.cpp` 55-81). -/
def arcCost (fl : Rat → Rat) (data : ProblemData) (params : NeighbourhoodParams) (v : VehicleType)
    (frm to : Spot) : Rat :=
  let frmServ := fl frm.serviceDuration
  let frmEarly := fl frm.twEarly
  let frmLate := fl frm.twLate
  let toEarly := fl to.twEarly
  let toLate := fl to.twLate
  let edgeDur := fl (data.dur v.profile frm.location to.location)
  if fl (fl (frmEarly + frmServ) + edgeDur) > toLate then doubleMax
  else
    let distance := fl (data.dist v.profile frm.location to.location)
    let minWait := fl (fl (fl (toEarly - edgeDur) - frmServ) - frmLate)
    let duration := fl (edgeDur + max minWait 0)
    fl (fl (fl (fl v.unitDistanceCost * distance) + fl (fl v.unitDurationCost * duration))
      + fl (params.weightWaitTime * max minWait 0))

/-- `std::min` (and `<` on doubles). -/
def stdMin (a b : Rat) : Rat := if b < a then b else a

/-- `cost` (`neighbourhood.cpp` 85-92). -/
def cost (fl : Rat → Rat) (data : ProblemData) (params : NeighbourhoodParams) (v : VehicleType)
    (frm to : Spot) : Rat :=
  let value := arcCost fl data params v frm to
  if params.symmetricProximity then stdMin value (arcCost fl data params v to frm) else value

/-- Column `idx` of the matrix: clients, then pickups, then deliveries. -/
def columnSpot (data : ProblemData) (idx : Nat) : Spot :=
  if idx < data.numClients then clientSpot (data.client idx)
  else if idx < data.numClients + data.numShipments then
    stepSpot (data.shipment (idx - data.numClients)).pickup
  else stepSpot (data.shipment (idx - data.numClients - data.numShipments)).delivery

/-- The update of one entry for one vehicle type (`neighbourhood.cpp` 95-154). The loops over the
entries are independent of each other, so each entry is computed by itself here. -/
def update (fl : Rat → Rat) (data : ProblemData) (params : NeighbourhoodParams) (v : VehicleType)
    (frm idx : Nat) (value : Rat) : Rat :=
  let to := columnSpot data idx
  if frm < data.numClients then
    stdMin (cost fl data params v (clientSpot (data.client frm)) to) value
  else
    let shipment := data.shipment (frm - data.numClients)
    stdMin (stdMin (cost fl data params v (stepSpot shipment.pickup) to)
      (cost fl data params v (stepSpot shipment.delivery) to)) value

/-- The key that is remembered for a vehicle type (`neighbourhood.cpp` 42-44). -/
def key (v : VehicleType) : Int × Int × Nat := (v.unitDistanceCost, v.unitDurationCost, v.profile)

/-- `computeProximity` (`neighbourhood.cpp` 30-159), for one entry. -/
def proximityFrom (fl : Rat → Rat) (data : ProblemData) (params : NeighbourhoodParams)
    (frm idx : Nat) : List VehicleType → List (Int × Int × Nat) → Rat → Rat
  | [], _, value => value
  | v :: rest, seen, value =>
    if key v ∈ seen then proximityFrom fl data params frm idx rest seen value
    else proximityFrom fl data params frm idx rest (key v :: seen)
      (update fl data params v frm idx value)

def proximity (fl : Rat → Rat) (data : ProblemData) (params : NeighbourhoodParams)
    (frm idx : Nat) : Rat :=
  proximityFrom fl data params frm idx data.vehicleTypes [] doubleMax

/-- An entry of `prox` when sorting starts (`neighbourhood.cpp` 177-195): infinite for the node itself
and its own delivery, the largest double for members of the same group. -/
def entry (fl : Rat → Rat) (data : ProblemData) (params : NeighbourhoodParams) (row col : Nat) :
    Entry :=
  if row ≥ data.numClients ∧ col = row + data.numShipments then .inf
  else if col = row then .inf
  else if data.groups.any (fun g => g.clients.any (· == row) && g.clients.any (· == col)) then
    .fin doubleMax
  else .fin (proximity fl data params row col)

/-- `numNeighbours` (`neighbourhood.cpp` 202-205). -/
def numNeighbours (data : ProblemData) (params : NeighbourhoodParams) : Nat :=
  min params.numNeighbours ((max data.numClients 1 - 1) + (max (2 * data.numShipments) 2 - 2))

/-- The activity of a column (`neighbourhood.cpp` 227-240). -/
def columnActivity (data : ProblemData) (idx : Nat) : Activity :=
  if idx < data.numClients then ⟨.client, idx⟩
  else if idx < data.numClients + data.numShipments then ⟨.pickup, idx - data.numClients⟩
  else ⟨.delivery, idx - data.numClients - data.numShipments⟩

/-- Insert an element before the first that is not smaller. -/
def insertBy {α : Type} (lt : α → α → Bool) (x : α) : List α → List α
  | [] => [x]
  | y :: ys => if lt y x then y :: insertBy lt x ys else x :: y :: ys

/-- `std::stable_sort`: sorted, and equal elements keep their order. There is only one such result, so
the algorithm does not matter. -/
def stableSort {α : Type} (lt : α → α → Bool) (l : List α) : List α := l.foldr (insertBy lt) []

/-- The sorted indices (`neighbourhood.cpp` 214-219, 248-255). -/
def indices (fl : Rat → Rat) (data : ProblemData) (params : NeighbourhoodParams) (row : Nat) :
    List Nat :=
  stableSort (fun a b => (entry fl data params row a).lt (entry fl data params row b))
    (List.range (data.numClients + 2 * data.numShipments))

/-- The neighbourhood of one row (`neighbourhood.cpp` 221-241, 257-277). -/
def neighbourhood (fl : Rat → Rat) (data : ProblemData) (params : NeighbourhoodParams) (row : Nat) :
    List Activity :=
  ((indices fl data params row).take (numNeighbours data params)).map (columnActivity data)

/-- `computeNeighbours` (`neighbourhood.cpp` 173-281). -/
def computeNeighbours (fl : Rat → Rat) (data : ProblemData) (params : NeighbourhoodParams) :
    Neighbours :=
  (List.range data.numClients).map
    (fun idx => (⟨.client, idx⟩, neighbourhood fl data params idx))
  ++ (List.range data.numShipments).map
    (fun idx => (⟨.pickup, idx⟩, neighbourhood fl data params (data.numClients + idx)))

end Neighbourhood
end PyVRP
