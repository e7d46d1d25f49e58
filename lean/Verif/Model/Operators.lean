import Verif.Model.SearchInsert
/-!
# `pyvrp/cpp/search`: the operators of the local search

An operator has a method `evaluate`, which gives the change in cost of a move and says whether to apply
it, and a method `apply`. The local search calls `apply` only right after an `evaluate` that said so.
Some operators store in a member `move_` what `evaluate` decided; each evaluation that says to apply
the move has just assigned it, so that member is part of the result of `evaluate` here, see `Verdict`.
Some also cache the cost of removing a node (`hasCachedRemoveCost_` and `removeCost_`), see `Cache`. The
statistics about the numbers of evaluations and applications are not modelled.

The node `U` is the node of a client or pickup, named by its activity. The node `V` is the node of a
client, pickup or delivery, or the start depot of a route, as in the local search, which never passes
other nodes.
-/
namespace PyVRP

/-- A node given to an operator. -/
inductive NodeRef where
  | task (a : Activity)
  | start (route : Nat)
deriving DecidableEq, Repr

/-- What `evaluate` stores for `apply`: the members `move_` and `V_` of the operators. -/
inductive Move where
  | none
  /-- A position: `InsertOptionalShipment.h`, `RelocateShipment.h`. -/
  | pos (p : Nat)
  /-- A node: `RelocateAlternative.h`, `ReplaceGroup.h`, `RelocatePickup.h`, `RelocateDelivery.h`. -/
  | node (a : Activity)
  /-- `DEPOT_U` and `U_DEPOT` in `RelocateWithDepot.h`, with the depot. -/
  | depotU (depot : Nat)
  | uDepot (depot : Nat)
  /-- `REMOVE_PREV` and `REMOVE_NEXT` in `RemoveAdjacentDepot.h`. -/
  | removePrev
  | removeNext
deriving DecidableEq, Repr

/-- The pair returned by `evaluate`, with what it stores. -/
structure Verdict where
  cost : Int
  apply : Bool
  move : Move := .none
deriving DecidableEq, Repr

/-- `std::make_pair(0, false)`. -/
def Verdict.no : Verdict := ⟨0, false, .none⟩

/-- `std::make_pair(deltaCost, deltaCost < 0)`. -/
def Verdict.of (cost : Int) (move : Move := .none) : Verdict := ⟨cost, decide (cost < 0), move⟩

/-- `hasCachedRemoveCost_` and `removeCost_`: the costs for which `hasCachedRemoveCost_` is set. -/
abbrev Cache := List (Option Int)

namespace SSol

/-- The route and position of a node, if it is in a route. -/
def find (s : SSol) : NodeRef → Option (Nat × Nat)
  | .task a => s.place a
  | .start idx => some (idx, 0)

/-- `Route::swap` (`search/Route.cpp` 165-187) for the nodes of two clients, pickups or deliveries. -/
def swapNodes (s : SSol) (first second : Activity) : SSol :=
  let p := s.place first
  let q := s.place second
  let s := match p with
    | some (idx, pos) => s.setRoute idx ((s.route idx).put pos second)
    | none => s
  let s := match q with
    | some (idx, pos) => s.setRoute idx ((s.route idx).put pos first)
    | none => s
  (s.setOwner first (q.map (·.1))).setOwner second (p.map (·.1))

/-- `route->remove(node->pos())`, for the node of an activity that is in a route. -/
def takeOut (s : SSol) (a : Activity) : SSol :=
  match s.place a with
  | some (idx, pos) => s.removeAt idx pos
  | none => s

/-- `V->route()->insert(V->pos() + 1, node)`. -/
def insertAfter (data : ProblemData) (s : SSol) (v : NodeRef) (a : Activity) : Except Error SSol :=
  match s.find v with
  | some (idx, pos) => s.insertAt data idx (pos + 1) a
  | none => .ok s

end SSol

namespace SRoute

/-- `numPickups(pos)` (`search/Route.h` 1112-1117). -/
def numPickupsAt (r : SRoute) (pos : Nat) : Nat := r.numPickups_.getD pos 0

/-- `numDeliveries(pos)` (`search/Route.h` 1119-1124). -/
def numDeliveriesAt (r : SRoute) (pos : Nat) : Nat := r.numDeliveries_.getD pos 0

/-- `hasDepot` (`Relocate.h` 52-61, `Swap.h` 48-58). -/
def hasDepot (r : SRoute) (first n : Nat) : Bool :=
  let last := first + n - 1
  first == 0 || decide (last ≥ r.size - 1) || (r.node first).trip != (r.node last).trip

/-- `splitsShipment` (`Relocate.h` 70-82, `Swap.h` 74-87). -/
def splitsShipment (r : SRoute) (pos n : Nat) : Bool :=
  let last := pos + n - 1
  (r.node pos).isDelivery
    || r.numPickupsAt pos != r.numDeliveriesAt pos + one (r.node pos).isPickup
    || r.numPickupsAt last != r.numDeliveriesAt last

end SRoute

/-- `if (!hasCachedRemoveCost_[idx]) {...}`: the cached cost, or the given one. -/
def Cache.lookup (cache : Cache) (idx : Nat) (cost : Int) : Int := (cache.getD idx none).getD cost

/-- `removeCost_[idx] = removeCost; hasCachedRemoveCost_[idx] = true`. -/
def Cache.store (cache : Cache) (idx : Nat) (cost : Int) : Cache := cache.set idx (some cost)

/-! ## `Relocate.h` -/

namespace Relocate

/-- `overlap` (`Relocate.h` 63-68). -/
def overlap (n u v : Nat) : Bool := decide (u ≤ v) && decide (v ≤ u + n - 1)

/-- The index into the cache (`Relocate.h` 107). -/
def cacheIdx (data : ProblemData) (a : Activity) : Nat :=
  (if a.isClient then 0 else data.numClients) + a.idx

/-- The cost to remove the segment (`Relocate.h` 110-119). -/
def removeCost (n : Nat) (data : ProblemData) (ce : CostEvaluator) (r : SRoute) (u : Nat) : Int :=
  if r.numClients + 2 * r.numShipments = n then 0 - ce.penalisedCostSearch data r
  else (ce.deltaCost true data 0 ⟨r, r.before (u - 1), [r.after (u + n)]⟩).1

/-- Different routes (`Relocate.h` 101-131). -/
def different (n : Nat) (data : ProblemData) (ce : CostEvaluator) (rU : SRoute) (u : Nat)
    (rV : SRoute) (v : Nat) (removeCost : Int) : Verdict :=
  .of (ce.deltaCost false data removeCost
    ⟨rV, rV.before v, [rU.between data u (u + n - 1), rV.after (v + 1)]⟩).1

/-- The same route (`Relocate.h` 132-150). -/
def same (n : Nat) (data : ProblemData) (ce : CostEvaluator) (r : SRoute) (u v : Nat) : Verdict :=
  if u < v then
    .of (ce.deltaCost false data 0 ⟨r, r.before (u - 1),
      [r.between data (u + n) v, r.between data u (u + n - 1), r.after (v + 1)]⟩).1
  else
    .of (ce.deltaCost false data 0 ⟨r, r.before v,
      [r.between data u (u + n - 1), r.between data (v + 1) (u - 1), r.after (u + n)]⟩).1

/-- `Relocate<N>::evaluate` (`Relocate.h` 84-153). -/
def evaluate (n : Nat) (data : ProblemData) (ce : CostEvaluator) (s : SSol) (cache : Cache)
    (uAct : Activity) (vRef : NodeRef) : Verdict × Cache :=
  match s.place uAct, s.find vRef with
  | some (i, u), some (j, v) =>
    let rU := s.route i
    let rV := s.route j
    if rU.hasDepot u n || rU.splitsShipment u n then (.no, cache)
    else if decide (i = j) && ((rU.node u).trip != (rU.node v).trip || overlap n u v
        || (rU.node (v + 1)).activity == uAct) then (.no, cache)
    else if i ≠ j then
      let idx := cacheIdx data uAct
      let cost := cache.lookup idx (removeCost n data ce rU u)
      (different n data ce rU u rV v cost, cache.store idx cost)
    else (same n data ce rU u v, cache)
  | _, _ => (.no, cache)

/-- The loop of `Relocate<N>::apply` and of `Swap<N, M>::apply` (`Relocate.h` 164-170, `Swap.h`
164-170): moves `n` nodes, of which `a` is the last. -/
def applyLoop (data : ProblemData) (v : NodeRef) : Nat → Activity → SSol → Except Error SSol
  | 0, _, s => .ok s
  | n + 1, a, s =>
    match s.place a with
    | none => .ok s
    | some (idx, pos) =>
      let prev := ((s.route idx).node (pos - 1)).activity
      match (s.removeAt idx pos).insertAfter data v a with
      | .error e => .error e
      | .ok s => applyLoop data v n prev s

/-- `Relocate<N>::apply` (`Relocate.h` 155-171). -/
def apply (n : Nat) (data : ProblemData) (s : SSol) (uAct : Activity) (v : NodeRef) :
    Except Error SSol :=
  match s.place uAct with
  | none => .ok s
  | some (i, u) => applyLoop data v n ((s.route i).node (u + n - 1)).activity s

end Relocate

/-! ## `Swap.h` -/

namespace Swap

/-- `overlap` (`Swap.h` 60-65). -/
def overlap (n m u v : Nat) : Bool := decide (u ≤ v + m - 1) && decide (v ≤ u + n - 1)

/-- `adjacent` (`Swap.h` 67-72). -/
def adjacent (n m u v : Nat) : Bool := decide (u + n = v) || decide (v + m = u)

/-- Different routes (`Swap.h` 111-127). -/
def different (n m : Nat) (data : ProblemData) (ce : CostEvaluator) (rU : SRoute) (u : Nat)
    (rV : SRoute) (v : Nat) : Verdict :=
  .of (ce.deltaCost2 false data 0
    ⟨rU, rU.before (u - 1), [rV.between data v (v + m - 1), rU.after (u + n)]⟩
    ⟨rV, rV.before (v - 1), [rU.between data u (u + n - 1), rV.after (v + m)]⟩).1

/-- The same route (`Swap.h` 128-148). -/
def same (n m : Nat) (data : ProblemData) (ce : CostEvaluator) (r : SRoute) (u v : Nat) : Verdict :=
  if u < v then
    .of (ce.deltaCost false data 0 ⟨r, r.before (u - 1),
      [r.between data v (v + m - 1), r.between data (u + n) (v - 1), r.between data u (u + n - 1),
        r.after (v + m)]⟩).1
  else
    .of (ce.deltaCost false data 0 ⟨r, r.before (v - 1),
      [r.between data u (u + n - 1), r.between data (v + m) (u - 1), r.between data v (v + m - 1),
        r.after (u + n)]⟩).1

/-- `Swap<N, M>::evaluate` (`Swap.h` 89-151). -/
def evaluate (n m : Nat) (data : ProblemData) (ce : CostEvaluator) (s : SSol)
    (uAct : Activity) (vRef : NodeRef) : Verdict :=
  match s.place uAct, s.find vRef with
  | some (i, u), some (j, v) =>
    let rU := s.route i
    let rV := s.route j
    if rU.hasDepot u n || rU.splitsShipment u n || rV.hasDepot v m || rV.splitsShipment v m then .no
    else if decide (i = j) && ((rU.node u).trip != (rU.node v).trip || overlap n m u v
        || adjacent n m u v) then .no
    else if n = m ∧ uAct.idx ≥ (rV.node v).activity.idx then .no
    else if i ≠ j then different n m data ce rU u rV v
    else same n m data ce rU u v
  | _, _ => .no

/-- The second loop of `Swap<N, M>::apply` (`Swap.h` 172-178). -/
def swapLoop : Nat → Activity → Activity → SSol → SSol
  | 0, _, _, s => s
  | n + 1, a, b, s =>
    let s := s.swapNodes a b
    match s.place a, s.place b with
    | some (i, u), some (j, v) =>
      swapLoop n ((s.route i).node (u + 1)).activity ((s.route j).node (v + 1)).activity s
    | _, _ => s

/-- `Swap<N, M>::apply` (`Swap.h` 153-179). -/
def apply (n m : Nat) (data : ProblemData) (s : SSol) (uAct : Activity) (vRef : NodeRef) :
    Except Error SSol :=
  match s.place uAct, s.find vRef with
  | some (i, u), some (j, v) =>
    let last := ((s.route i).node (u + n - 1)).activity
    let after := NodeRef.task ((s.route j).node (v + m - 1)).activity
    let vAct := ((s.route j).node v).activity
    match Relocate.applyLoop data after (n - m) last s with
    | .error e => .error e
    | .ok s => .ok (swapLoop m uAct vAct s)
  | _, _ => .ok s

end Swap

/-! ## `SwapTails.cpp` -/

namespace SwapTails

/-- `onLastTrip` (`SwapTails.cpp` 11-15). -/
def onLastTrip (r : SRoute) (pos : Nat) : Bool := (r.node pos).trip + 1 == r.numTrips

/-- `splitsShipment` (`SwapTails.cpp` 17-21). -/
def splitsShipment (r : SRoute) (pos : Nat) : Bool := r.numPickupsAt pos != r.numDeliveriesAt pos

/-- The cost of the move (`SwapTails.cpp` 50-96). -/
def cost (data : ProblemData) (ce : CostEvaluator) (rU : SRoute) (u : Nat) (rV : SRoute) (v : Nat) :
    Int :=
  let uLast := (rU.node (u + 1)).isEndDepot
  let vLast := (rV.node (v + 1)).isEndDepot
  if !uLast && !vLast then
    (ce.deltaCost2 false data 0
      ⟨rU, rU.before u, [rV.between data (v + 1) (rV.size - 2), rU.at data (rU.size - 1)]⟩
      ⟨rV, rV.before v, [rU.between data (u + 1) (rU.size - 2), rV.at data (rV.size - 1)]⟩).1
  else if !uLast && vLast then
    (ce.deltaCost2 false data 0
      ⟨rU, rU.before u, [rU.at data (rU.size - 1)]⟩
      ⟨rV, rV.before v, [rU.between data (u + 1) (rU.size - 2), rV.at data (rV.size - 1)]⟩).1
  else if uLast && !vLast then
    if (rV.node v).isStartDepot then
      (ce.deltaCost false data (0 - ce.penalisedCostSearch data rV)
        ⟨rU, rU.before u, [rV.between data (v + 1) (rV.size - 2), rU.at data (rU.size - 1)]⟩).1
    else
      (ce.deltaCost2 false data 0
        ⟨rU, rU.before u, [rV.between data (v + 1) (rV.size - 2), rU.at data (rU.size - 1)]⟩
        ⟨rV, rV.before v, [rV.at data (rV.size - 1)]⟩).1
  else 0

/-- `SwapTails::evaluate` (`SwapTails.cpp` 24-99). The order of routes in memory is that of their
indices. -/
def evaluate (data : ProblemData) (ce : CostEvaluator) (s : SSol) (uAct : Activity) (vRef : NodeRef) :
    Verdict :=
  match s.place uAct, s.find vRef with
  | some (i, u), some (j, v) =>
    let rU := s.route i
    let rV := s.route j
    if i = j then .no
    else if i > j ∧ !rU.empty ∧ !rV.empty then .no
    else if !onLastTrip rU u || !onLastTrip rV v then .no
    else if splitsShipment rU u || splitsShipment rV v then .no
    else .of (cost data ce rU u rV v)
  | _, _ => .no

/-- The nodes after position `pos`, until the end depot. -/
def tail (r : SRoute) (pos : Nat) : List Activity :=
  ((r.nodes.drop (pos + 1)).takeWhile (fun n => !n.isEndDepot)).map (·.activity)

/-- The loops of `SwapTails::apply` (`SwapTails.cpp` 108-114 and 117-123): moves these nodes into
route `idx`, from position `pos` on. -/
def moveAll (data : ProblemData) (idx : Nat) : Nat → List Activity → SSol → Except Error SSol
  | _, [], s => .ok s
  | pos, a :: rest, s =>
    match (s.takeOut a).insertAt data idx pos a with
    | .error e => .error e
    | .ok s => moveAll data idx (pos + 1) rest s

/-- `SwapTails::apply` (`SwapTails.cpp` 101-124). -/
def apply (data : ProblemData) (s : SSol) (uAct : Activity) (vRef : NodeRef) : Except Error SSol :=
  match s.place uAct, s.find vRef with
  | some (i, u), some (j, v) =>
    let uTail := tail (s.route i) u
    let vTail := tail (s.route j) v
    match moveAll data i (u + 1) vTail s with
    | .error e => .error e
    | .ok s => moveAll data j (v + 1) uTail s
  | _, _ => .ok s

end SwapTails

/-! ## `RelocateWithDepot.cpp` -/

namespace RelocateWithDepot

/-- `if (deltaCost < move_.cost) move_ = {...}`. -/
def better (best : Int × Move) (cost : Int) (move : Move) : Int × Move :=
  if cost < best.1 then (cost, move) else best

/-- `evalSameRoute` (`RelocateWithDepot.cpp` 10-67): the cost with the depot first (18-41). -/
def sameDepotU (data : ProblemData) (ce : CostEvaluator) (r : SRoute) (u v depot : Nat) : Int :=
  if u < v then
    (ce.deltaCost false data 0 ⟨r, r.before (u - 1),
      [r.between data (u + 1) v, Seg.depot data depot, r.at data u, r.after (v + 1)]⟩).1
  else
    (ce.deltaCost false data 0 ⟨r, r.before v,
      [Seg.depot data depot, r.at data u, r.between data (v + 1) (u - 1), r.after (u + 1)]⟩).1

/-- `evalSameRoute`: the cost with the depot last (`RelocateWithDepot.cpp` 43-66). -/
def sameUDepot (data : ProblemData) (ce : CostEvaluator) (r : SRoute) (u v depot : Nat) : Int :=
  if u < v then
    (ce.deltaCost false data 0 ⟨r, r.before (u - 1),
      [r.between data (u + 1) v, r.at data u, Seg.depot data depot, r.after (v + 1)]⟩).1
  else
    (ce.deltaCost false data 0 ⟨r, r.before v,
      [r.at data u, Seg.depot data depot, r.between data (v + 1) (u - 1), r.after (u + 1)]⟩).1

/-- The cost to remove a client (`RelocateWithDepot.cpp` 80-89, `RelocateAlternative.cpp` 79-88),
starting at `out`. -/
def removeCost (data : ProblemData) (ce : CostEvaluator) (r : SRoute) (u : Nat) (out : Int) : Int :=
  if r.numClients = 1 ∧ r.numShipments = 0 then out - ce.penalisedCostSearch data r
  else (ce.deltaCost true data out ⟨r, r.before (u - 1), [r.after (u + 1)]⟩).1

/-- `evalDifferentRoutes`: the cost with the depot first (`RelocateWithDepot.cpp` 98-104). -/
def differentDepotU (data : ProblemData) (ce : CostEvaluator) (rU : SRoute) (u : Nat) (rV : SRoute)
    (v depot : Nat) (removeCost : Int) : Int :=
  (ce.deltaCost false data removeCost ⟨rV, rV.before v,
    [Seg.depot data depot, rU.at data u, rV.after (v + 1)]⟩).1

/-- `evalDifferentRoutes`: the cost with the depot last (`RelocateWithDepot.cpp` 113-119). -/
def differentUDepot (data : ProblemData) (ce : CostEvaluator) (rU : SRoute) (u : Nat) (rV : SRoute)
    (v depot : Nat) (removeCost : Int) : Int :=
  (ce.deltaCost false data removeCost ⟨rV, rV.before v,
    [rU.at data u, Seg.depot data depot, rV.after (v + 1)]⟩).1

/-- The loops over the reload depots (`RelocateWithDepot.cpp` 18-66 and 95-123), with the costs given
as functions. -/
def search (rV : SRoute) (v : Nat) (depots : List Nat) (depotU uDepot : Nat → Int) : Int × Move :=
  let best := (MAX, Move.none)
  let best :=
    if !(rV.node v).isReloadDepot then
      depots.foldl (fun best depot => better best (depotU depot) (.depotU depot)) best
    else best
  if !(rV.node (v + 1)).isReloadDepot then
    depots.foldl (fun best depot => better best (uDepot depot) (.uDepot depot)) best
  else best

/-- `RelocateWithDepot::evaluate` (`RelocateWithDepot.cpp` 126-161). -/
def evaluate (data : ProblemData) (ce : CostEvaluator) (s : SSol) (cache : Cache)
    (uAct : Activity) (vRef : NodeRef) : Verdict × Cache :=
  match s.place uAct, s.find vRef with
  | some (i, u), some (j, v) =>
    let rU := s.route i
    let rV := s.route j
    let depots := (data.vehicleType rV.vehicleType).reloadDepots
    if !uAct.isClient || (rV.node (v + 1)).activity == uAct || rV.empty then (.no, cache)
    else if rV.numTrips = (data.vehicleType rV.vehicleType).maxTrips then (.no, cache)
    else if i = j ∧ (rU.node u).trip ≠ (rU.node v).trip then (.no, cache)
    else if rV.numPickupsAt v ≠ rV.numDeliveriesAt v then (.no, cache)
    else if i = j then
      let best := search rV v depots (sameDepotU data ce rV u v) (sameUDepot data ce rV u v)
      (.of best.1 best.2, cache)
    else
      let cost := cache.lookup uAct.idx (removeCost data ce rU u 0)
      let best := search rV v depots
        (fun depot => differentDepotU data ce rU u rV v depot cost)
        (fun depot => differentUDepot data ce rU u rV v depot cost)
      (.of best.1 best.2, cache.store uAct.idx cost)
  | _, _ => (.no, cache)

/-- `RelocateWithDepot::apply` (`RelocateWithDepot.cpp` 163-187). -/
def apply (data : ProblemData) (s : SSol) (uAct : Activity) (vRef : NodeRef) (move : Move) :
    Except Error SSol :=
  let s := s.takeOut uAct
  match s.find vRef with
  | none => .ok s
  | some (j, v) =>
    match move with
    | .depotU depot =>
      match s.insertAt data j (v + 1) uAct with
      | .error e => .error e
      | .ok s => s.insertAt data j (v + 1) ⟨.depot, depot⟩
    | .uDepot depot =>
      match s.insertAt data j (v + 1) uAct with
      | .error e => .error e
      | .ok s => s.insertAt data j (v + 2) ⟨.depot, depot⟩
    | _ => .ok s

end RelocateWithDepot

/-! ## `RemoveAdjacentDepot.cpp` -/

namespace RemoveAdjacentDepot

/-- `RemoveAdjacentDepot::evaluate` (`RemoveAdjacentDepot.cpp` 8-54). -/
def evaluate (data : ProblemData) (ce : CostEvaluator) (s : SSol) (uAct : Activity) : Verdict :=
  match s.place uAct with
  | none => .no
  | some (i, u) =>
    let r := s.route i
    let best : Int × Move := (MAX, .none)
    let best :=
      if (r.node (u - 1)).isReloadDepot then
        RelocateWithDepot.better best
          (ce.deltaCost true data 0 ⟨r, r.before (u - 2), [r.after u]⟩).1 .removePrev
      else best
    let best :=
      if (r.node (u + 1)).isReloadDepot then
        RelocateWithDepot.better best
          (ce.deltaCost true data 0 ⟨r, r.before u, [r.after (u + 2)]⟩).1 .removeNext
      else best
    ⟨best.1, decide (best.1 ≤ 0), best.2⟩

/-- `RemoveAdjacentDepot::apply` (`RemoveAdjacentDepot.cpp` 56-66). -/
def apply (s : SSol) (uAct : Activity) (move : Move) : SSol :=
  match s.place uAct with
  | none => s
  | some (i, u) =>
    match move with
    | .removePrev => s.removeAt i (u - 1)
    | .removeNext => s.removeAt i (u + 1)
    | _ => s

end RemoveAdjacentDepot

/-! ## `RelocateAlternative.cpp` -/

namespace RelocateAlternative

/-- The loops over the members of the group (`RelocateAlternative.cpp` 23-43, 45-65, 94-111), with the
costs given as a function. -/
def search (u : Nat) (cost : Nat → Int) : List Nat → Verdict
  | [] => .no
  | client :: rest =>
    if client = u then search u cost rest
    else if cost client < 0 then ⟨cost client, true, .node ⟨.client, client⟩⟩
    else search u cost rest

/-- The cost in the same route (`RelocateAlternative.cpp` 29-36, 51-58). -/
def same (data : ProblemData) (ce : CostEvaluator) (r : SRoute) (uClient u v client : Nat) : Int :=
  if u < v then
    (ce.deltaCost false data ((data.client uClient).prize - (data.client client).prize)
      ⟨r, r.before (u - 1), [r.between data (u + 1) v, Seg.client data client, r.after (v + 1)]⟩).1
  else
    (ce.deltaCost false data ((data.client uClient).prize - (data.client client).prize)
      ⟨r, r.before v, [Seg.client data client, r.between data (v + 1) (u - 1), r.after (u + 1)]⟩).1

/-- The cost in another route (`RelocateAlternative.cpp` 99-104). -/
def different (data : ProblemData) (ce : CostEvaluator) (rV : SRoute) (v client : Nat)
    (removeCost : Int) : Int :=
  (ce.deltaCost false data (removeCost - (data.client client).prize)
    ⟨rV, rV.before v, [Seg.client data client, rV.after (v + 1)]⟩).1

/-- `RelocateAlternative::evaluate` (`RelocateAlternative.cpp` 114-135), with `evalSameRoute` (9-66)
and `evalDifferentRoutes` (68-112). -/
def evaluate (data : ProblemData) (ce : CostEvaluator) (s : SSol) (cache : Cache)
    (uAct : Activity) (vRef : NodeRef) : Verdict × Cache :=
  match s.place uAct, s.find vRef with
  | some (i, u), some (j, v) =>
    let rU := s.route i
    let rV := s.route j
    if !uAct.isClient || vRef == .task uAct || (rV.node (v + 1)).activity == uAct then (.no, cache)
    else
      match (data.client uAct.idx).group with
      | none => (.no, cache)
      | some g =>
        let members := (data.group g).clients
        if i = j then
          if (rU.node u).trip ≠ (rV.node v).trip then (.no, cache)
          else (search uAct.idx (same data ce rU uAct.idx u v) members, cache)
        else
          let cost := cache.lookup uAct.idx
            (RelocateWithDepot.removeCost data ce rU u (data.client uAct.idx).prize)
          (search uAct.idx (fun client => different data ce rV v client cost) members,
            cache.store uAct.idx cost)
  | _, _ => (.no, cache)

/-- `RelocateAlternative::apply` (`RelocateAlternative.cpp` 137-145). -/
def apply (data : ProblemData) (s : SSol) (uAct : Activity) (vRef : NodeRef) (move : Move) :
    Except Error SSol :=
  match move with
  | .node a => (s.takeOut uAct).insertAfter data vRef a
  | _ => .ok s

end RelocateAlternative

/-! ## Optional clients and groups -/

namespace InsertOptionalClient

/-- Whether the client's group keeps it from being inserted: it is required, or one of its clients is in
the solution (`InsertOptionalClient.cpp` 17-28). -/
def blocked (data : ProblemData) (s : SSol) (client : Nat) : Bool :=
  match (data.client client).group with
  | none => false
  | some g => (data.group g).required
    || (data.group g).clients.any (fun client => (s.place ⟨.client, client⟩).isSome)

/-- `InsertOptionalClient::evaluate` (`InsertOptionalClient.cpp` 9-39). -/
def evaluate (data : ProblemData) (ce : CostEvaluator) (s : SSol) (uAct : Activity) (vRef : NodeRef) :
    Verdict :=
  match s.place uAct, s.find vRef with
  | none, some (j, v) =>
    if !uAct.isClient then .no
    else if blocked data s uAct.idx then .no
    else
      let r := s.route j
      .of (ce.deltaCost false data (-(data.client uAct.idx).prize)
        ⟨r, r.before v, [Seg.client data uAct.idx, r.after (v + 1)]⟩).1
  | _, _ => .no

/-- `InsertOptionalClient::apply` (`InsertOptionalClient.cpp` 41-48). -/
def apply (data : ProblemData) (s : SSol) (uAct : Activity) (vRef : NodeRef) : Except Error SSol :=
  s.insertAfter data vRef uAct

end InsertOptionalClient

namespace RemoveOptionalClient

/-- Whether the client is in a required group (`RemoveOptionalClient.cpp` 21). -/
def groupRequired (data : ProblemData) (client : Nat) : Bool :=
  match (data.client client).group with
  | none => false
  | some g => (data.group g).required

/-- `RemoveOptionalClient::evaluate` (`RemoveOptionalClient.cpp` 7-35). -/
def evaluate (data : ProblemData) (ce : CostEvaluator) (s : SSol) (uAct : Activity) : Verdict :=
  match s.place uAct with
  | none => .no
  | some (i, u) =>
    let r := s.route i
    let client := data.client uAct.idx
    if !uAct.isClient || client.required || groupRequired data uAct.idx then .no
    else if r.numShipments = 0 ∧ r.numClients = 1 then
      .of (client.prize - ce.penalisedCostSearch data r)
    else .of (ce.deltaCost false data client.prize ⟨r, r.before (u - 1), [r.after (u + 1)]⟩).1

/-- `RemoveOptionalClient::apply` (`RemoveOptionalClient.cpp` 37-42). -/
def apply (s : SSol) (uAct : Activity) : SSol := s.takeOut uAct

end RemoveOptionalClient

namespace ReplaceOptionalClient

/-- The cost to put client `new` where client `old` is, at position `pos` (`ReplaceOptionalClient.cpp`
23-27, `ReplaceGroup.cpp` 34-39). -/
def cost (data : ProblemData) (ce : CostEvaluator) (r : SRoute) (pos old new : Nat) : Int :=
  (ce.deltaCost false data ((data.client old).prize - (data.client new).prize)
    ⟨r, r.before (pos - 1), [Seg.client data new, r.after (pos + 1)]⟩).1

/-- `ReplaceOptionalClient::evaluate` (`ReplaceOptionalClient.cpp` 9-30). -/
def evaluate (data : ProblemData) (ce : CostEvaluator) (s : SSol) (uAct : Activity) (vRef : NodeRef) :
    Verdict :=
  match s.place uAct, s.find vRef with
  | none, some (j, v) =>
    let vAct := ((s.route j).node v).activity
    if !uAct.isClient || !vAct.isClient then .no
    else if (data.client vAct.idx).required || (data.client uAct.idx).group.isSome
        || (data.client vAct.idx).group.isSome then .no
    else .of (cost data ce (s.route j) v vAct.idx uAct.idx)
  | _, _ => .no

/-- `ReplaceOptionalClient::apply` (`ReplaceOptionalClient.cpp` 32-41) and the same code in
`ReplaceGroup::apply` (`ReplaceGroup.cpp` 49-58). -/
def apply (data : ProblemData) (s : SSol) (uAct : Activity) (vRef : NodeRef) : Except Error SSol :=
  match s.find vRef with
  | some (j, v) => (s.removeAt j v).insertAt data j v uAct
  | none => .ok s

end ReplaceOptionalClient

namespace ReplaceGroup

/-- `ReplaceGroup::evaluate` (`ReplaceGroup.cpp` 10-47). -/
def evaluate (data : ProblemData) (ce : CostEvaluator) (s : SSol) (uAct : Activity) : Verdict :=
  if !uAct.isClient || (s.place uAct).isSome then .no
  else
    match (data.client uAct.idx).group with
    | none => .no
    | some g =>
      match (data.group g).clients.find? (fun client => (s.place ⟨.client, client⟩).isSome) with
      | none => .no
      | some client =>
        match s.place ⟨.client, client⟩ with
        | none => .no
        | some (j, v) =>
          .of (ReplaceOptionalClient.cost data ce (s.route j) v client uAct.idx)
            (.node ⟨.client, client⟩)

/-- `ReplaceGroup::apply` (`ReplaceGroup.cpp` 49-58). -/
def apply (data : ProblemData) (s : SSol) (uAct : Activity) (move : Move) : Except Error SSol :=
  match move with
  | .node a => ReplaceOptionalClient.apply data s uAct (.task a)
  | _ => .ok s

end ReplaceGroup

/-! ## Shipments -/

namespace InsertOptionalShipment

/-- The loop over the nodes after which to deliver (`InsertOptionalShipment.cpp` 37-54,
`RelocateShipment.cpp` 67-84): `nodes` are the nodes of the route from the current one on, and `next`
is its position. The pickup and delivery segments are given. -/
def later (data : ProblemData) (ce : CostEvaluator) (r : SRoute) (v : Nat) (out : Int)
    (pickup delivery : Seg) : List SNode → Nat → Verdict
  | [], _ => .no
  | n :: nodes, next =>
    if n.isDepot then .no
    else
      let cost := (ce.deltaCost false data out ⟨r, r.before v,
        [pickup, r.between data (v + 1) next, delivery, r.after (next + 1)]⟩).1
      if cost < 0 then ⟨cost, true, .pos (next + 1)⟩
      else later data ce r v out pickup delivery nodes (next + 1)

/-- The pickup after the node at `v`, and the delivery directly after it or later
(`InsertOptionalShipment.cpp` 24-56, `RelocateShipment.cpp` 54-86). -/
def search (data : ProblemData) (ce : CostEvaluator) (r : SRoute) (v : Nat) (out : Int)
    (pickup delivery : Seg) : Verdict :=
  let cost := (ce.deltaCost false data out ⟨r, r.before v,
    [pickup, delivery, r.after (v + 1)]⟩).1
  if cost < 0 then ⟨cost, true, .pos (v + 1)⟩
  else later data ce r v out pickup delivery (r.nodes.drop (v + 1)) (v + 1)

/-- `InsertOptionalShipment::evaluate` (`InsertOptionalShipment.cpp` 10-57). -/
def evaluate (data : ProblemData) (ce : CostEvaluator) (s : SSol) (uAct : Activity) (vRef : NodeRef) :
    Verdict :=
  match s.place uAct, s.find vRef with
  | none, some (j, v) =>
    if !uAct.isPickup then .no
    else search data ce (s.route j) v (-(data.shipment uAct.idx).prize)
      (Seg.pickup data uAct.idx) (Seg.delivery data uAct.idx)
  | _, _ => .no

/-- The two insertions (`InsertOptionalShipment.cpp` 64-67, `RelocateShipment.cpp` 98-101). -/
def insertBoth (data : ProblemData) (s : SSol) (uAct : Activity) (vRef : NodeRef) (move : Move) :
    Except Error SSol :=
  match s.find vRef, move with
  | some (j, v), .pos p =>
    match s.insertAt data j p ⟨.delivery, uAct.idx⟩ with
    | .error e => .error e
    | .ok s => s.insertAt data j (v + 1) uAct
  | _, _ => .ok s

/-- `InsertOptionalShipment::apply` (`InsertOptionalShipment.cpp` 59-68). -/
def apply (data : ProblemData) (s : SSol) (uAct : Activity) (vRef : NodeRef) (move : Move) :
    Except Error SSol :=
  insertBoth data s uAct vRef move

end InsertOptionalShipment

namespace RemoveOptionalShipment

/-- The cost to remove the shipment at positions `p` and `d` (`RemoveOptionalShipment.cpp` 24-40,
`RelocateShipment.cpp` 32-48), starting at `out`. -/
def cost (exact : Bool) (data : ProblemData) (ce : CostEvaluator) (r : SRoute) (p d : Nat)
    (out : Int) : Int :=
  if r.numShipments = 1 ∧ r.numClients = 0 then out - ce.penalisedCostSearch data r
  else if p + 1 = d then
    (ce.deltaCost exact data out ⟨r, r.before (p - 1), [r.after (d + 1)]⟩).1
  else
    (ce.deltaCost exact data out
      ⟨r, r.before (p - 1), [r.between data (p + 1) (d - 1), r.after (d + 1)]⟩).1

/-- `RemoveOptionalShipment::evaluate` (`RemoveOptionalShipment.cpp` 7-43). -/
def evaluate (data : ProblemData) (ce : CostEvaluator) (s : SSol) (uAct : Activity) : Verdict :=
  match s.place uAct, s.place ⟨.delivery, uAct.idx⟩ with
  | some (i, p), some (_, d) =>
    if !uAct.isPickup || (data.shipment uAct.idx).required then .no
    else .of (cost false data ce (s.route i) p d (data.shipment uAct.idx).prize)
  | _, _ => .no

/-- `RemoveOptionalShipment::apply` (`RemoveOptionalShipment.cpp` 45-53) and the same code in
`RelocateShipment::apply` (`RelocateShipment.cpp` 94-96). -/
def apply (s : SSol) (uAct : Activity) : SSol := (s.takeOut ⟨.delivery, uAct.idx⟩).takeOut uAct

end RemoveOptionalShipment

namespace ReplaceOptionalShipment

/-- The cost to put shipment `new` where shipment `old` is, at positions `p` and `d`
(`ReplaceOptionalShipment.cpp` 39-55). -/
def cost (data : ProblemData) (ce : CostEvaluator) (r : SRoute) (p d old new : Nat) : Int :=
  let out := (data.shipment old).prize - (data.shipment new).prize
  if p + 1 = d then
    (ce.deltaCost false data out ⟨r, r.before (p - 1),
      [Seg.pickup data new, Seg.delivery data new, r.after (d + 1)]⟩).1
  else
    (ce.deltaCost false data out ⟨r, r.before (p - 1),
      [Seg.pickup data new, r.between data (p + 1) (d - 1), Seg.delivery data new, r.after (d + 1)]⟩).1

/-- `ReplaceOptionalShipment::evaluate` (`ReplaceOptionalShipment.cpp` 10-58). -/
def evaluate (data : ProblemData) (ce : CostEvaluator) (s : SSol) (uAct : Activity) (vRef : NodeRef) :
    Verdict :=
  match s.place uAct, s.find vRef with
  | none, some (j, v) =>
    let vAct := ((s.route j).node v).activity
    if !uAct.isPickup || !vAct.isShipment then .no
    else if (data.shipment vAct.idx).required then .no
    else
      match s.place ⟨.pickup, vAct.idx⟩, s.place ⟨.delivery, vAct.idx⟩ with
      | some (_, p), some (_, d) => .of (cost data ce (s.route j) p d vAct.idx uAct.idx)
      | _, _ => .no
  | _, _ => .no

/-- `ReplaceOptionalShipment::apply` (`ReplaceOptionalShipment.cpp` 60-79). -/
def apply (s : SSol) (uAct : Activity) (vRef : NodeRef) : SSol :=
  match s.find vRef with
  | some (j, v) =>
    let vAct := ((s.route j).node v).activity
    (s.swapNodes ⟨.pickup, vAct.idx⟩ uAct).swapNodes ⟨.delivery, vAct.idx⟩ ⟨.delivery, uAct.idx⟩
  | none => s

end ReplaceOptionalShipment

namespace RelocateShipment

/-- `RelocateShipment::evaluate` (`RelocateShipment.cpp` 7-87). -/
def evaluate (data : ProblemData) (ce : CostEvaluator) (s : SSol) (cache : Cache)
    (uAct : Activity) (vRef : NodeRef) : Verdict × Cache :=
  match s.place uAct, s.place ⟨.delivery, uAct.idx⟩, s.find vRef with
  | some (i, p), some (_, d), some (j, v) =>
    if !uAct.isPickup || decide (i = j) then (.no, cache)
    else
      let rU := s.route i
      let cost := cache.lookup uAct.idx (RemoveOptionalShipment.cost true data ce rU p d 0)
      (InsertOptionalShipment.search data ce (s.route j) v cost (rU.at data p) (rU.at data d),
        cache.store uAct.idx cost)
  | _, _, _ => (.no, cache)

/-- `RelocateShipment::apply` (`RelocateShipment.cpp` 89-102). -/
def apply (data : ProblemData) (s : SSol) (uAct : Activity) (vRef : NodeRef) (move : Move) :
    Except Error SSol :=
  InsertOptionalShipment.insertBoth data (RemoveOptionalShipment.apply s uAct) uAct vRef move

end RelocateShipment

namespace RelocatePickup

/-- The loop of `RelocatePickup::evaluate` (`RelocatePickup.cpp` 25-52): `nodes` are the nodes of the
route from the current one back, and `pos` is its position. -/
def search (data : ProblemData) (ce : CostEvaluator) (r : SRoute) (k u : Nat) :
    List SNode → Nat → Verdict
  | [], _ => ⟨MAX, false, .none⟩
  | n :: nodes, pos =>
    if n.isDepot then ⟨MAX, false, .none⟩
    else if pos = u ∨ pos - 1 = u then search data ce r k u nodes (pos - 1)
    else
      let cost :=
        if u < pos then
          (ce.deltaCost false data 0 ⟨r, r.before (u - 1),
            [r.between data (u + 1) (pos - 1), Seg.pickup data k, r.after pos]⟩).1
        else
          (ce.deltaCost false data 0 ⟨r, r.before (pos - 1),
            [Seg.pickup data k, r.between data pos (u - 1), r.after (u + 1)]⟩).1
      if cost < 0 then ⟨cost, true, .node n.activity⟩
      else search data ce r k u nodes (pos - 1)

/-- `RelocatePickup::evaluate` (`RelocatePickup.cpp` 9-55). -/
def evaluate (data : ProblemData) (ce : CostEvaluator) (s : SSol) (uAct : Activity) : Verdict :=
  match s.place uAct, s.place ⟨.delivery, uAct.idx⟩ with
  | some (i, u), some (_, d) =>
    if !uAct.isPickup then .no
    else search data ce (s.route i) uAct.idx u ((s.route i).nodes.take (d + 1)).reverse d
  | _, _ => .no

/-- `RelocatePickup::apply` (`RelocatePickup.cpp` 57-65). -/
def apply (data : ProblemData) (s : SSol) (uAct : Activity) (move : Move) : Except Error SSol :=
  match move with
  | .node a =>
    let s := s.takeOut uAct
    match s.place a with
    | some (i, p) => s.insertAt data i p uAct
    | none => .ok s
  | _ => .ok s

end RelocatePickup

namespace RelocateDelivery

/-- The loop of `RelocateDelivery::evaluate` (`RelocateDelivery.cpp` 23-52): `nodes` are the nodes of
the route from the current one on, and `pos` is its position. The delivery is at `d`. -/
def search (data : ProblemData) (ce : CostEvaluator) (r : SRoute) (k d : Nat) :
    List SNode → Nat → Verdict
  | [], _ => ⟨MAX, false, .none⟩
  | n :: nodes, pos =>
    if n.isDepot then ⟨MAX, false, .none⟩
    else if pos = d ∨ pos + 1 = d then search data ce r k d nodes (pos + 1)
    else
      let cost :=
        if d < pos then
          (ce.deltaCost false data 0 ⟨r, r.before (d - 1),
            [r.between data (d + 1) pos, Seg.delivery data k, r.after (pos + 1)]⟩).1
        else
          (ce.deltaCost false data 0 ⟨r, r.before pos,
            [Seg.delivery data k, r.between data (pos + 1) (d - 1), r.after (d + 1)]⟩).1
      if cost < 0 then ⟨cost, true, .node n.activity⟩
      else search data ce r k d nodes (pos + 1)

/-- `RelocateDelivery::evaluate` (`RelocateDelivery.cpp` 9-55). -/
def evaluate (data : ProblemData) (ce : CostEvaluator) (s : SSol) (uAct : Activity) : Verdict :=
  match s.place uAct, s.place ⟨.delivery, uAct.idx⟩ with
  | some (i, u), some (_, d) =>
    if !uAct.isPickup then .no
    else search data ce (s.route i) uAct.idx d ((s.route i).nodes.drop u) u
  | _, _ => .no

/-- `RelocateDelivery::apply` (`RelocateDelivery.cpp` 57-66). -/
def apply (data : ProblemData) (s : SSol) (uAct : Activity) (move : Move) : Except Error SSol :=
  match move with
  | .node a => (s.takeOut ⟨.delivery, uAct.idx⟩).insertAfter data (.task a) ⟨.delivery, uAct.idx⟩
  | _ => .ok s

end RelocateDelivery

/-! ## All operators -/

/-- The unary operators. -/
inductive UnaryOp where
  | removeAdjacentDepot | removeOptionalClient | replaceGroup | removeOptionalShipment
  | relocatePickup | relocateDelivery
deriving DecidableEq, Repr

/-- The binary operators. `Relocate` is instantiated for 1, 2 and 3, and `Swap` for 1, 1 to 3, 3
(`bindings.cpp` 297-480). -/
inductive BinaryOp where
  | relocate (n : Nat) | swap (n m : Nat) | swapTails | relocateWithDepot | relocateAlternative
  | insertOptionalClient | replaceOptionalClient | insertOptionalShipment | replaceOptionalShipment
  | relocateShipment
deriving DecidableEq, Repr

namespace UnaryOp

/-- `evaluate(U, costEvaluator)`. -/
def evaluate (op : UnaryOp) (data : ProblemData) (ce : CostEvaluator) (s : SSol) (u : Activity) :
    Verdict :=
  match op with
  | .removeAdjacentDepot => RemoveAdjacentDepot.evaluate data ce s u
  | .removeOptionalClient => RemoveOptionalClient.evaluate data ce s u
  | .replaceGroup => ReplaceGroup.evaluate data ce s u
  | .removeOptionalShipment => RemoveOptionalShipment.evaluate data ce s u
  | .relocatePickup => RelocatePickup.evaluate data ce s u
  | .relocateDelivery => RelocateDelivery.evaluate data ce s u

/-- `apply(U)`. -/
def apply (op : UnaryOp) (data : ProblemData) (s : SSol) (u : Activity) (move : Move) :
    Except Error SSol :=
  match op with
  | .removeAdjacentDepot => .ok (RemoveAdjacentDepot.apply s u move)
  | .removeOptionalClient => .ok (RemoveOptionalClient.apply s u)
  | .replaceGroup => ReplaceGroup.apply data s u move
  | .removeOptionalShipment => .ok (RemoveOptionalShipment.apply s u)
  | .relocatePickup => RelocatePickup.apply data s u move
  | .relocateDelivery => RelocateDelivery.apply data s u move

end UnaryOp

namespace BinaryOp

/-- `evaluate(U, V, costEvaluator)`, which may also change the cache. -/
def evaluate (op : BinaryOp) (data : ProblemData) (ce : CostEvaluator) (s : SSol) (cache : Cache)
    (u : Activity) (v : NodeRef) : Verdict × Cache :=
  match op with
  | .relocate n => Relocate.evaluate n data ce s cache u v
  | .swap n m => (Swap.evaluate n m data ce s u v, cache)
  | .swapTails => (SwapTails.evaluate data ce s u v, cache)
  | .relocateWithDepot => RelocateWithDepot.evaluate data ce s cache u v
  | .relocateAlternative => RelocateAlternative.evaluate data ce s cache u v
  | .insertOptionalClient => (InsertOptionalClient.evaluate data ce s u v, cache)
  | .replaceOptionalClient => (ReplaceOptionalClient.evaluate data ce s u v, cache)
  | .insertOptionalShipment => (InsertOptionalShipment.evaluate data ce s u v, cache)
  | .replaceOptionalShipment => (ReplaceOptionalShipment.evaluate data ce s u v, cache)
  | .relocateShipment => RelocateShipment.evaluate data ce s cache u v

/-- `apply(U, V)`. -/
def apply (op : BinaryOp) (data : ProblemData) (s : SSol) (u : Activity) (v : NodeRef)
    (move : Move) : Except Error SSol :=
  match op with
  | .relocate n => Relocate.apply n data s u v
  | .swap n m => Swap.apply n m data s u v
  | .swapTails => SwapTails.apply data s u v
  | .relocateWithDepot => RelocateWithDepot.apply data s u v move
  | .relocateAlternative => RelocateAlternative.apply data s u v move
  | .insertOptionalClient => InsertOptionalClient.apply data s u v
  | .replaceOptionalClient => ReplaceOptionalClient.apply data s u v
  | .insertOptionalShipment => InsertOptionalShipment.apply data s u v move
  | .replaceOptionalShipment => .ok (ReplaceOptionalShipment.apply s u v)
  | .relocateShipment => RelocateShipment.apply data s u v move

/-- The size of the cache (`Relocate.h` 205-211, `RelocateWithDepot.cpp` 214-219,
`RelocateAlternative.cpp` 172-177, `RelocateShipment.cpp` 126-131). -/
def cacheSize (op : BinaryOp) (data : ProblemData) : Nat :=
  match op with
  | .relocate _ => data.numClients + data.numShipments
  | .relocateWithDepot => data.numClients
  | .relocateAlternative => data.numClients
  | .relocateShipment => data.numShipments
  | _ => 0

/-- `init(solution)`: an empty cache (`Relocate.h` 173-177, `RelocateWithDepot.cpp` 189-193,
`RelocateAlternative.cpp` 147-152, `RelocateShipment.cpp` 104-108). -/
def init (op : BinaryOp) (data : ProblemData) : Cache := List.replicate (op.cacheSize data) none

/-- The index of a node's entry in the cache, if it has one. -/
def cacheIdx (op : BinaryOp) (data : ProblemData) (a : Activity) : Option Nat :=
  match op, a.type with
  | .relocate _, .client => some a.idx
  | .relocate _, .pickup => some (data.numClients + a.idx)
  | .relocateWithDepot, .client => some a.idx
  | .relocateAlternative, .client => some a.idx
  | .relocateShipment, .pickup => some a.idx
  | _, _ => none

/-- `update(route)` (`Relocate.h` 193-203, `RelocateWithDepot.cpp` 207-212, `RelocateAlternative.cpp`
165-170, `RelocateShipment.cpp` 119-124): the entries of the route's nodes are dropped. -/
def update (op : BinaryOp) (data : ProblemData) (r : SRoute) (cache : Cache) : Cache :=
  r.nodes.foldl (fun cache n =>
    match op.cacheIdx data n.activity with
    | some idx => cache.set idx none
    | none => cache) cache

end BinaryOp
end PyVRP
