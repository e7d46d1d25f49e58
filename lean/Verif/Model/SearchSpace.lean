import Verif.Model.SearchRoute
import Verif.Model.DynamicBitset
import Verif.Model.Rng
/-!
# `pyvrp/cpp/search/SearchSpace.cpp`
-/
namespace PyVRP

/-- `SearchSpace::Neighbours` (`SearchSpace.h` 27): a map from activities to lists of activities, as a
list of its entries. Keys are distinct in a map, so `find?` finds the one entry there is. -/
abbrev Neighbours := List (Activity × List Activity)

/-- `SearchSpace` (`SearchSpace.h` 29-44). -/
structure SearchSpace where
  neighbours : Neighbours := []
  activityOrder : List Activity := []
  vehTypeOrder : List (Nat × Nat) := []
  promising : Bitset
deriving DecidableEq, Repr

namespace SearchSpace

/-- The loop over the entries in `setNeighbours` (`SearchSpace.cpp` 40-60). The message does not
name the activity here. The map is in no particular order, so neither is which entry is reported. -/
def checkNeighbours : Neighbours → Option Error
  | [] => none
  | (activity, neighbourhood) :: rest =>
    throwIf (!activity.isClient && !activity.isPickup)
      (.runtimeError "Expected neighbourhoods for clients and pickups.")
    <|> throwIf (neighbourhood.any (fun item => item == activity))
      (.runtimeError "Neighbourhood contains itself.")
    <|> checkNeighbours rest

/-- `setNeighbours` (`SearchSpace.cpp` 34-63). -/
def setNeighbours (s : SearchSpace) (neighbours : Neighbours) : Except Error SearchSpace :=
  checked (
    throwIf (!s.neighbours.isEmpty && neighbours.length != s.neighbours.length)
      (.runtimeError "Neighbourhood dimensions do not match.")
    <|> checkNeighbours neighbours)
    { s with neighbours := neighbours }

/-- The loop that fills `vehTypeOrder_` (`SearchSpace.cpp` 26-31). -/
def vehTypeOffsets : List VehicleType → Nat → Nat → List (Nat × Nat)
  | [], _, _ => []
  | v :: rest, vehType, offset =>
    (vehType, offset) :: vehTypeOffsets rest (vehType + 1) (offset + v.numAvailable)

/-- The constructor (`SearchSpace.cpp` 11-32). -/
def make (data : ProblemData) (neighbours : Neighbours) : Except Error SearchSpace :=
  if neighbours.length ≠ data.numClients + data.numShipments then
    .error (.runtimeError "Neighbourhood dimension does not match problem dimension.")
  else
    match setNeighbours { promising := Bitset.new (data.numClients + data.numShipments) } neighbours with
    | .error e => .error e
    | .ok s => .ok { s with
        activityOrder :=
          (List.range data.numClients).map (fun idx => ⟨.client, idx⟩)
          ++ (List.range data.numShipments).map (fun idx => ⟨.pickup, idx⟩)
        vehTypeOrder := vehTypeOffsets data.vehicleTypes 0 0 }

/-- `neighboursOf` (`SearchSpace.cpp` 70-74): `at` throws when there is no such key. -/
def neighboursOf (s : SearchSpace) (activity : Activity) : Except Error (List Activity) :=
  match s.neighbours.find? (fun entry => entry.1 == activity) with
  | some entry => .ok entry.2
  | none => .error (.outOfRange "")

/-- `isPromising` (`SearchSpace.cpp` 76-82). -/
def isPromising (s : SearchSpace) (activity : Activity) : Bool :=
  if activity.isClient then s.promising.get activity.idx
  else s.promising.get (s.promising.size - activity.idx - 1)

/-- `markPromising(activity)` (`SearchSpace.cpp` 84-91). -/
def markPromising (s : SearchSpace) (activity : Activity) : SearchSpace :=
  if activity.isClient then { s with promising := s.promising.put activity.idx true }
  else { s with promising := s.promising.put (s.promising.size - activity.idx - 1) true }

/-- `if (node->isClient() || node->isShipment()) markPromising(node->activity())`. -/
def markIfTask (s : SearchSpace) (n : SNode) : SearchSpace :=
  if n.isClient || n.isShipment then s.markPromising n.activity else s

/-- `markPromising(node)` (`SearchSpace.cpp` 93-105), for the node at position `pos` of route `r`.
`p(node)` and `n(node)` are the nodes before and after it. -/
def markPromisingNode (s : SearchSpace) (r : SRoute) (pos : Nat) : SearchSpace :=
  let node := r.node pos
  let s := s.markIfTask node
  let s := if !node.isStartDepot then s.markIfTask (r.node (pos - 1)) else s
  if !node.isEndDepot then s.markIfTask (r.node (pos + 1)) else s

/-- `markAllPromising` (`SearchSpace.cpp` 107). -/
def markAllPromising (s : SearchSpace) : SearchSpace := { s with promising := s.promising.set }

/-- `unmarkAllPromising` (`SearchSpace.cpp` 109). -/
def unmarkAllPromising (s : SearchSpace) : SearchSpace := { s with promising := s.promising.reset }

/-- `shuffle` (`SearchSpace.cpp` 121-125), for an arbitrary generator. -/
def shuffle {σ : Type} (next : σ → Nat × σ) (rng : σ) (s : SearchSpace) : SearchSpace × σ :=
  let (activityOrder, rng) := PyVRP.shuffle next rng s.activityOrder
  let (vehTypeOrder, rng) := PyVRP.shuffle next rng s.vehTypeOrder
  ({ s with activityOrder := activityOrder, vehTypeOrder := vehTypeOrder }, rng)

end SearchSpace
end PyVRP
