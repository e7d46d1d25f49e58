import Verif.Model.Operators
import Verif.Lemmas.SearchSolution
/-!
# Specification: the moves that the operators are about

A plan lists the activities of each vehicle, without start and end depots. A move leads from a plan to
another one. Which moves belong to which operator is said here in terms of lists only.
-/
namespace PyVRP
namespace Spec

/-- There is no reload depot among these activities: they are part of one trip. -/
def OneTrip (l : List Activity) : Prop := ∀ a ∈ l, a.type ≠ .depot

/-- What is picked up here is also delivered here, and vice versa. -/
def Whole (l : List Activity) : Prop :=
  ∀ k, (⟨.pickup, k⟩ : Activity) ∈ l ↔ (⟨.delivery, k⟩ : Activity) ∈ l

/-- Activities `seg` that come after `xs` in a route and that may be moved together: they are part of one
trip, and the vehicle carries no shipments before and after them. -/
structure Movable (xs seg : List Activity) : Prop where
  oneTrip : OneTrip seg
  before : Whole xs
  inside : Whole seg

/-- The node `v` is where the activities `vs` at the start of route `j` end. -/
def EndsAt (j : Nat) (v : NodeRef) (vs : List Activity) : Prop :=
  (v = .start j ∧ vs = []) ∨ ∃ a vs', a.type ≠ .depot ∧ v = .task a ∧ vs = vs' ++ [a]

/-- The activity is in no route. -/
def Unvisited (plan : List (List Activity)) (a : Activity) : Prop := ∀ acts ∈ plan, a ∉ acts

/-- A visit to a reload depot either directly before or directly after `u`, where `ws` follows. There is
none after `u` if a depot follows already. -/
def WithDepot (u : Activity) (depot : Nat) (ws block : List Activity) : Prop :=
  block = [⟨.depot, depot⟩, u]
  ∨ (block = [u, ⟨.depot, depot⟩] ∧ ∀ a, ws.head? = some a → a.type ≠ .depot)

/-- Client `c` may be replaced by `c'`, from the same group. -/
def OtherMember (data : ProblemData) (c c' : Nat) : Prop :=
  ∃ g, (data.client c).group = some g ∧ c' ∈ (data.group g).clients ∧ c' ≠ c

/-- The moves of the operators on two nodes: the operator, the nodes `U` and `V`, and the new plan. -/
inductive BinaryMove (data : ProblemData) (plan : List (List Activity)) :
    BinaryOp → Activity → NodeRef → List (List Activity) → Prop
  /-- `u` and the `n - 1` activities after it move to after `v`, in another route. -/
  | relocate {i j : Nat} {xs rest ys vs ws : List Activity} {u : Activity} {v : NodeRef}
      (hi : i < data.numVehicles) (hj : j < data.numVehicles) (hij : i ≠ j)
      (hU : plan.getD i [] = xs ++ (u :: rest) ++ ys) (hV : plan.getD j [] = vs ++ ws)
      (hv : EndsAt j v vs) (hm : Movable xs (u :: rest)) :
      BinaryMove data plan (.relocate (rest.length + 1)) u v
        ((plan.set i (xs ++ ys)).set j (vs ++ (u :: rest) ++ ws))
  /-- They move to a later place in the same trip. -/
  | relocateLater {i : Nat} {xs rest ms ws : List Activity} {u : Activity} {v : NodeRef}
      (hi : i < data.numVehicles) (hU : plan.getD i [] = xs ++ (u :: rest) ++ ms ++ ws)
      (hv : EndsAt i v (xs ++ (u :: rest) ++ ms)) (hm : Movable xs (u :: rest))
      (hne : ms ≠ []) (hms : OneTrip ms) :
      BinaryMove data plan (.relocate (rest.length + 1)) u v
        (plan.set i (xs ++ ms ++ (u :: rest) ++ ws))
  /-- They move to an earlier place in the same trip. -/
  | relocateEarlier {i : Nat} {vs ms rest ys : List Activity} {u : Activity} {v : NodeRef}
      (hi : i < data.numVehicles) (hU : plan.getD i [] = vs ++ ms ++ (u :: rest) ++ ys)
      (hv : EndsAt i v vs) (hm : Movable (vs ++ ms) (u :: rest))
      (hne : ms ≠ []) (hms : OneTrip ms) :
      BinaryMove data plan (.relocate (rest.length + 1)) u v
        (plan.set i (vs ++ (u :: rest) ++ ms ++ ys))
  /-- `u` and the `n - 1` activities after it are swapped with `v` and the `m - 1` activities after it,
  in another route. If these are as many then `u` must have the lower index. -/
  | swap {i j : Nat} {xs rest ys vs rest' ws : List Activity} {u b : Activity}
      (hi : i < data.numVehicles) (hj : j < data.numVehicles) (hij : i ≠ j)
      (hU : plan.getD i [] = xs ++ (u :: rest) ++ ys) (hV : plan.getD j [] = vs ++ (b :: rest') ++ ws)
      (hm : Movable xs (u :: rest)) (hm' : Movable vs (b :: rest'))
      (hidx : rest.length = rest'.length → u.idx < b.idx) :
      BinaryMove data plan (.swap (rest.length + 1) (rest'.length + 1)) u (.task b)
        ((plan.set i (xs ++ (b :: rest') ++ ys)).set j (vs ++ (u :: rest) ++ ws))
  /-- They are swapped in the same trip, with other activities in between. -/
  | swapLater {i : Nat} {xs rest ms rest' ws : List Activity} {u b : Activity}
      (hi : i < data.numVehicles)
      (hU : plan.getD i [] = xs ++ (u :: rest) ++ ms ++ (b :: rest') ++ ws)
      (hm : Movable xs (u :: rest)) (hm' : Movable (xs ++ (u :: rest) ++ ms) (b :: rest'))
      (hne : ms ≠ []) (hms : OneTrip ms) (hidx : rest.length = rest'.length → u.idx < b.idx) :
      BinaryMove data plan (.swap (rest.length + 1) (rest'.length + 1)) u (.task b)
        (plan.set i (xs ++ (b :: rest') ++ ms ++ (u :: rest) ++ ws))
  | swapEarlier {i : Nat} {vs rest' ms rest ys : List Activity} {u b : Activity}
      (hi : i < data.numVehicles)
      (hU : plan.getD i [] = vs ++ (b :: rest') ++ ms ++ (u :: rest) ++ ys)
      (hm : Movable (vs ++ (b :: rest') ++ ms) (u :: rest)) (hm' : Movable vs (b :: rest'))
      (hne : ms ≠ []) (hms : OneTrip ms) (hidx : rest.length = rest'.length → u.idx < b.idx) :
      BinaryMove data plan (.swap (rest.length + 1) (rest'.length + 1)) u (.task b)
        (plan.set i (vs ++ (u :: rest) ++ ms ++ (b :: rest') ++ ys))
  /-- What comes after `u` and after `v`, in different routes, is swapped, on the last trips and with no
  shipments on board. `u` must be in the earlier route, or that of `v` without clients or shipments. -/
  | swapTails {i j : Nat} {xs ys vs ws : List Activity} {u : Activity} {v : NodeRef}
      (hi : i < data.numVehicles) (hj : j < data.numVehicles)
      (hij : i < j ∨ (i ≠ j ∧ ∀ a ∈ plan.getD j [], a.type = .depot))
      (hU : plan.getD i [] = xs ++ [u] ++ ys) (hV : plan.getD j [] = vs ++ ws)
      (hv : EndsAt j v vs) (hd : OneTrip ys) (hd' : OneTrip ws) (hw : Whole (xs ++ [u]))
      (hw' : Whole vs) :
      BinaryMove data plan .swapTails u v
        ((plan.set i (xs ++ [u] ++ ws)).set j (vs ++ ys))
  /-- Client `u` moves to after `v`, in another route that visits something, together with a visit to a
  reload depot. -/
  | relocateWithDepot {i j depot : Nat} {xs ys vs ws block : List Activity} {u : Activity} {v : NodeRef}
      (hi : i < data.numVehicles) (hj : j < data.numVehicles) (hij : i ≠ j)
      (hU : plan.getD i [] = xs ++ [u] ++ ys) (hV : plan.getD j [] = vs ++ ws)
      (hu : u.type = .client) (hv : EndsAt j v vs) (hw : Whole vs)
      (hused : ∃ a ∈ plan.getD j [], a.type ≠ .depot)
      (hdepot : depot ∈ (data.vehicleType (vehTypeAt data j)).reloadDepots)
      (hblock : WithDepot u depot ws block) :
      BinaryMove data plan .relocateWithDepot u v ((plan.set i (xs ++ ys)).set j (vs ++ block ++ ws))
  | relocateWithDepotLater {i depot : Nat} {xs ms ws block : List Activity} {u : Activity} {v : NodeRef}
      (hi : i < data.numVehicles) (hU : plan.getD i [] = xs ++ [u] ++ ms ++ ws)
      (hu : u.type = .client) (hv : EndsAt i v (xs ++ [u] ++ ms)) (hw : Whole (xs ++ [u] ++ ms))
      (hne : ms ≠ []) (hms : OneTrip ms)
      (hdepot : depot ∈ (data.vehicleType (vehTypeAt data i)).reloadDepots)
      (hblock : WithDepot u depot ws block) :
      BinaryMove data plan .relocateWithDepot u v (plan.set i (xs ++ ms ++ block ++ ws))
  | relocateWithDepotEarlier {i depot : Nat} {vs ms ys block : List Activity} {u : Activity} {v : NodeRef}
      (hi : i < data.numVehicles) (hU : plan.getD i [] = vs ++ ms ++ [u] ++ ys)
      (hu : u.type = .client) (hv : EndsAt i v vs) (hw : Whole vs)
      (hne : ms ≠ []) (hms : OneTrip ms)
      (hdepot : depot ∈ (data.vehicleType (vehTypeAt data i)).reloadDepots)
      (hblock : WithDepot u depot ms block) :
      BinaryMove data plan .relocateWithDepot u v (plan.set i (vs ++ block ++ ms ++ ys))
  /-- Client `u` is removed and another one of its group is inserted after `v`. -/
  | relocateAlternative {i j c : Nat} {xs ys vs ws : List Activity} {u : Activity} {v : NodeRef}
      (hi : i < data.numVehicles) (hj : j < data.numVehicles) (hij : i ≠ j)
      (hU : plan.getD i [] = xs ++ [u] ++ ys) (hV : plan.getD j [] = vs ++ ws)
      (hu : u.type = .client) (hv : EndsAt j v vs) (hc : OtherMember data u.idx c) :
      BinaryMove data plan .relocateAlternative u v
        ((plan.set i (xs ++ ys)).set j (vs ++ [⟨.client, c⟩] ++ ws))
  | relocateAlternativeLater {i c : Nat} {xs ms ws : List Activity} {u : Activity} {v : NodeRef}
      (hi : i < data.numVehicles) (hU : plan.getD i [] = xs ++ [u] ++ ms ++ ws)
      (hu : u.type = .client) (hv : EndsAt i v (xs ++ [u] ++ ms)) (hne : ms ≠ []) (hms : OneTrip ms)
      (hc : OtherMember data u.idx c) :
      BinaryMove data plan .relocateAlternative u v (plan.set i (xs ++ ms ++ [⟨.client, c⟩] ++ ws))
  | relocateAlternativeEarlier {i c : Nat} {vs ms ys : List Activity} {u : Activity} {v : NodeRef}
      (hi : i < data.numVehicles) (hU : plan.getD i [] = vs ++ ms ++ [u] ++ ys)
      (hu : u.type = .client) (hv : EndsAt i v vs) (hne : ms ≠ []) (hms : OneTrip ms)
      (hc : OtherMember data u.idx c) :
      BinaryMove data plan .relocateAlternative u v (plan.set i (vs ++ [⟨.client, c⟩] ++ ms ++ ys))
  /-- Client `u`, which is not visited, is inserted after `v`. If it is in a group then this is optional,
  and none of it is visited. -/
  | insertOptionalClient {j : Nat} {vs ws : List Activity} {u : Activity} {v : NodeRef}
      (hj : j < data.numVehicles) (hV : plan.getD j [] = vs ++ ws) (hu : u.type = .client)
      (hun : Unvisited plan u) (hv : EndsAt j v vs)
      (hg : ∀ g, (data.client u.idx).group = some g → (data.group g).required = false
        ∧ ∀ c ∈ (data.group g).clients, Unvisited plan ⟨.client, c⟩) :
      BinaryMove data plan .insertOptionalClient u v (plan.set j (vs ++ [u] ++ ws))
  /-- Client `u`, which is not visited, takes the place of client `v`, which is optional. Neither is in a
  group. -/
  | replaceOptionalClient {j : Nat} {vs ws : List Activity} {u b : Activity}
      (hj : j < data.numVehicles) (hV : plan.getD j [] = vs ++ [b] ++ ws) (hu : u.type = .client)
      (hun : Unvisited plan u) (hb : b.type = .client) (hr : (data.client b.idx).required = false)
      (hg : (data.client u.idx).group = none) (hg' : (data.client b.idx).group = none) :
      BinaryMove data plan .replaceOptionalClient u (.task b) (plan.set j (vs ++ [u] ++ ws))
  /-- A shipment that is not visited is inserted, with its pickup `u` directly after `v` and its delivery
  after that, on the same trip. -/
  | insertOptionalShipment {j : Nat} {vs ms ws : List Activity} {u : Activity} {v : NodeRef}
      (hj : j < data.numVehicles) (hV : plan.getD j [] = vs ++ ms ++ ws) (hu : u.type = .pickup)
      (hun : Unvisited plan u) (hv : EndsAt j v vs) (hms : OneTrip ms) :
      BinaryMove data plan .insertOptionalShipment u v
        (plan.set j (vs ++ [u] ++ ms ++ [⟨.delivery, u.idx⟩] ++ ws))
  /-- A shipment that is not visited takes the places of another one, which is optional. -/
  | replaceOptionalShipment {j k : Nat} {xs ms ys : List Activity} {u b : Activity}
      (hj : j < data.numVehicles)
      (hV : plan.getD j [] = xs ++ [⟨.pickup, k⟩] ++ ms ++ [⟨.delivery, k⟩] ++ ys)
      (hu : u.type = .pickup) (hun : Unvisited plan u) (hb : b = ⟨.pickup, k⟩ ∨ b = ⟨.delivery, k⟩)
      (hr : (data.shipment k).required = false) :
      BinaryMove data plan .replaceOptionalShipment u (.task b)
        (plan.set j (xs ++ [u] ++ ms ++ [⟨.delivery, u.idx⟩] ++ ys))
  /-- The shipment with pickup `u` moves to another route, with its pickup directly after `v` and its
  delivery after that, on the same trip. -/
  | relocateShipment {i j : Nat} {xs ms ys vs ns ws : List Activity} {u : Activity} {v : NodeRef}
      (hi : i < data.numVehicles) (hj : j < data.numVehicles) (hij : i ≠ j) (hu : u.type = .pickup)
      (hU : plan.getD i [] = xs ++ [u] ++ ms ++ [⟨.delivery, u.idx⟩] ++ ys)
      (hV : plan.getD j [] = vs ++ ns ++ ws) (hv : EndsAt j v vs) (hns : OneTrip ns) :
      BinaryMove data plan .relocateShipment u v
        ((plan.set i (xs ++ ms ++ ys)).set j (vs ++ [u] ++ ns ++ [⟨.delivery, u.idx⟩] ++ ws))

/-- The moves of the operators on one node: the operator, the node `U`, and the new plan. -/
inductive UnaryMove (data : ProblemData) (plan : List (List Activity)) :
    UnaryOp → Activity → List (List Activity) → Prop
  /-- A visit to a reload depot directly before or after `u` is removed. -/
  | removePreviousDepot {i depot : Nat} {xs ys : List Activity} {u : Activity}
      (hi : i < data.numVehicles) (hU : plan.getD i [] = xs ++ [⟨.depot, depot⟩] ++ u :: ys)
      (hu : u.type ≠ .depot) :
      UnaryMove data plan .removeAdjacentDepot u (plan.set i (xs ++ u :: ys))
  | removeNextDepot {i depot : Nat} {xs ys : List Activity} {u : Activity}
      (hi : i < data.numVehicles) (hU : plan.getD i [] = xs ++ u :: ⟨.depot, depot⟩ :: ys)
      (hu : u.type ≠ .depot) :
      UnaryMove data plan .removeAdjacentDepot u (plan.set i (xs ++ u :: ys))
  /-- Client `u`, which is optional and not in a required group, is removed. -/
  | removeOptionalClient {i : Nat} {xs ys : List Activity} {u : Activity}
      (hi : i < data.numVehicles) (hU : plan.getD i [] = xs ++ [u] ++ ys) (hu : u.type = .client)
      (hr : (data.client u.idx).required = false)
      (hg : ∀ g, (data.client u.idx).group = some g → (data.group g).required = false) :
      UnaryMove data plan .removeOptionalClient u (plan.set i (xs ++ ys))
  /-- Client `u`, which is not visited, takes the place of another one of its group. -/
  | replaceGroup {j c : Nat} {vs ws : List Activity} {u : Activity}
      (hj : j < data.numVehicles) (hV : plan.getD j [] = vs ++ [⟨.client, c⟩] ++ ws)
      (hu : u.type = .client) (hun : Unvisited plan u) (hc : OtherMember data u.idx c) :
      UnaryMove data plan .replaceGroup u (plan.set j (vs ++ [u] ++ ws))
  /-- The shipment with pickup `u`, which is optional, is removed. -/
  | removeOptionalShipment {i : Nat} {xs ms ys : List Activity} {u : Activity}
      (hi : i < data.numVehicles) (hu : u.type = .pickup)
      (hU : plan.getD i [] = xs ++ [u] ++ ms ++ [⟨.delivery, u.idx⟩] ++ ys)
      (hr : (data.shipment u.idx).required = false) :
      UnaryMove data plan .removeOptionalShipment u (plan.set i (xs ++ ms ++ ys))
  /-- Pickup `u` moves to another place before its delivery, on the same trip. -/
  | relocatePickup {i : Nat} {xs ms ys ps qs : List Activity} {u : Activity}
      (hi : i < data.numVehicles) (hu : u.type = .pickup)
      (hU : plan.getD i [] = xs ++ [u] ++ ms ++ [⟨.delivery, u.idx⟩] ++ ys)
      (hnew : ps ++ qs = xs ++ ms) (hqs : OneTrip qs) :
      UnaryMove data plan .relocatePickup u (plan.set i (ps ++ [u] ++ qs ++ [⟨.delivery, u.idx⟩] ++ ys))
  /-- The delivery of the shipment with pickup `u` moves to another place after `u`, on the same trip. -/
  | relocateDelivery {i : Nat} {xs ms ys ps qs : List Activity} {u : Activity}
      (hi : i < data.numVehicles) (hu : u.type = .pickup)
      (hU : plan.getD i [] = xs ++ [u] ++ ms ++ [⟨.delivery, u.idx⟩] ++ ys)
      (hnew : ps ++ qs = ms ++ ys) (hps : OneTrip ps) :
      UnaryMove data plan .relocateDelivery u (plan.set i (xs ++ [u] ++ ps ++ [⟨.delivery, u.idx⟩] ++ qs))

end Spec
end PyVRP
