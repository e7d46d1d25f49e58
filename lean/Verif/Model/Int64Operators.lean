import Verif.Model.Checked
import Verif.Model.Int64Search
/-!
# The operators of the local search on 64-bit integers

The methods `evaluate` of the operators once more, with assertions and bounds checks as in
`Model/Checked.lean`, and with the 64-bit arithmetic of `Model/Int64Search.lean`. The result `none` means
that an assertion fails, that an array is read outside of its bounds, or that a signed integer overflows,
which is undefined behaviour.
-/
namespace PyVRP.Checked64
open Checked

/-- A segment with its assertions, and with its numbers on 64-bit integers. -/
structure WSeg where
  base : CSeg
  wide : I64.Seg

/-- `before(end)` (`search/Route.h` 736-740, 773-786 and 1144-1148). -/
def before (data : ProblemData) (r : SRoute) (e : Nat) : Option WSeg := do
  return ⟨← Checked.before data r e, I64.before r e⟩

/-- `after(start)` (`search/Route.h` 730-734, 755-771 and 1138-1142). -/
def after (data : ProblemData) (r : SRoute) (start : Nat) : Option WSeg := do
  return ⟨← Checked.after data r start, I64.after r start⟩

/-- `between(start, end)` (`search/Route.h` 742-753, 898-953 and 1150-1154). -/
def between (data : ProblemData) (r : SRoute) (start e : Nat) : Option WSeg := do
  return ⟨← Checked.between data r start e, I64.between data r start e⟩

/-- `at(idx)` (`search/Route.h` 1132-1136). -/
def «at» (data : ProblemData) (r : SRoute) (idx : Nat) : Option WSeg := between data r idx idx

/-- `ClientSegment(data, idx)` (`search/ClientSegment.h` 15-60). -/
def clientSeg (data : ProblemData) (idx : Nat) : Option WSeg := do
  return ⟨← Checked.clientSeg data idx, I64.client data idx⟩

/-- `DepotSegment(data, idx)` (`search/DepotSegment.h` 15-60). -/
def depotSeg (data : ProblemData) (idx : Nat) : Option WSeg := do
  return ⟨← Checked.depotSeg data idx, I64.depot data idx⟩

/-- `PickupSegment(data, idx)` (`search/PickupSegment.h` 15-62). -/
def pickupSeg (data : ProblemData) (idx : Nat) : Option WSeg := do
  return ⟨← Checked.pickupSeg data idx, I64.pickup data idx⟩

/-- `DeliverySegment(data, idx)` (`search/DeliverySegment.h` 15-62). -/
def deliverySeg (data : ProblemData) (idx : Nat) : Option WSeg := do
  return ⟨← Checked.deliverySeg data idx, I64.delivery data idx⟩

/-- A proposal with its assertions, and with its numbers on 64-bit integers. -/
structure WProp where
  base : CProp
  wide : I64.Proposal

/-- `Proposal(segments...)` (`search/Route.h` 1156-1176). -/
def propose (first : WSeg) (rest : List WSeg) : Option WProp := do
  let p ← Checked.propose first.base (rest.map (·.base))
  return ⟨p, ⟨p.prop.route, first.wide, rest.map (·.wide)⟩⟩

/-- `penalisedCost(route)` (`search/Route.h` 1340-1357, `CostEvaluator.h` 175-185). -/
def penalisedCost (data : ProblemData) (ce : CostEvaluator) (r : SRoute) : Option Int := do
  let _ ← Checked.penalisedCost data ce r
  I64.penalisedCostSearch ce data r

/-- `deltaCost<exact>(out, proposal)` (`CostEvaluator.h` 220-254): the new value of `out`. -/
def deltaCost (exact : Bool) (data : ProblemData) (ce : CostEvaluator) (out : Int) (p : WProp) :
    Option Int := do
  evaluable data ce p.base
  let res ← I64.deltaCost exact ce data out p.wide
  return res.1

/-- `deltaCost<exact>(out, uProposal, vProposal)` (`CostEvaluator.h` 256-329). -/
def deltaCost2 (exact : Bool) (data : ProblemData) (ce : CostEvaluator) (out : Int) (u v : WProp) :
    Option Int := do
  evaluable data ce u.base
  evaluable data ce v.base
  let res ← I64.deltaCost2 exact ce data out u.wide v.wide
  return res.1

/-! ## `Relocate.h` -/

namespace Relocate

/-- The cost to remove the segment (`Relocate.h` 110-119). -/
def removeCost (n : Nat) (data : ProblemData) (ce : CostEvaluator) (r : SRoute) (u : Nat) :
    Option Int := do
  let c ← numClients data r
  let m ← numShipments data r
  if c + 2 * m = n then I64.sub 0 (← penalisedCost data ce r)
  else
    deltaCost true data ce 0
      (← propose (← before data r (← minus u 1)) [← after data r (u + n)])

/-- Different routes (`Relocate.h` 122-131). -/
def different (n : Nat) (data : ProblemData) (ce : CostEvaluator) (rU : SRoute) (u : Nat)
    (rV : SRoute) (v : Nat) (removeCost : Int) : Option Verdict := do
  return .of (← deltaCost false data ce removeCost (← propose (← before data rV v)
    [← between data rU u (u + n - 1), ← after data rV (v + 1)]))

/-- The same route (`Relocate.h` 132-150). -/
def same (n : Nat) (data : ProblemData) (ce : CostEvaluator) (r : SRoute) (u v : Nat) :
    Option Verdict := do
  if u < v then
    return .of (← deltaCost false data ce 0 (← propose (← before data r (← minus u 1))
      [← between data r (u + n) v, ← between data r u (u + n - 1), ← after data r (v + 1)]))
  else
    return .of (← deltaCost false data ce 0 (← propose (← before data r v)
      [← between data r u (u + n - 1), ← between data r (v + 1) (← minus u 1), ← after data r (u + n)]))

/-- `Relocate<N>::evaluate` (`Relocate.h` 84-153). -/
def evaluate (n : Nat) (data : ProblemData) (ce : CostEvaluator) (s : SSol) (cache : Cache)
    (uAct : Activity) (vRef : NodeRef) : Option (Verdict × Cache) :=
  match s.place uAct, s.find vRef with
  | some (i, u), some (j, v) => do
    let rU ← here s i u uAct
    let rV ← route s j
    if ← fixed data rU u n then return (.no, cache)
    else
      let skip ← if i = j then do
        let nV ← node rV v
        let next ← node rV (v + 1)
        let nU ← node rU u
        pure (nU.trip != nV.trip || PyVRP.Relocate.overlap n u v || next.activity == uAct)
      else pure false
      if skip then return (.no, cache)
      else if i ≠ j then
        ensure (uAct.isClient || uAct.isPickup)
        let idx := PyVRP.Relocate.cacheIdx data uAct
        let cost ← cached cache idx (removeCost n data ce rU u)
        return (← different n data ce rU u rV v cost, cache.store idx cost)
      else return (← same n data ce rU u v, cache)
  | _, _ => some (.no, cache)

end Relocate

/-! ## `Swap.h` -/

namespace Swap

/-- Different routes (`Swap.h` 111-127). -/
def different (n m : Nat) (data : ProblemData) (ce : CostEvaluator) (rU : SRoute) (u : Nat)
    (rV : SRoute) (v : Nat) : Option Verdict := do
  return .of (← deltaCost2 false data ce 0
    (← propose (← before data rU (← minus u 1))
      [← between data rV v (v + m - 1), ← after data rU (u + n)])
    (← propose (← before data rV (← minus v 1))
      [← between data rU u (u + n - 1), ← after data rV (v + m)]))

/-- The same route (`Swap.h` 128-148). -/
def same (n m : Nat) (data : ProblemData) (ce : CostEvaluator) (r : SRoute) (u v : Nat) :
    Option Verdict := do
  if u < v then
    return .of (← deltaCost false data ce 0 (← propose (← before data r (← minus u 1))
      [← between data r v (v + m - 1), ← between data r (u + n) (← minus v 1),
        ← between data r u (u + n - 1), ← after data r (v + m)]))
  else
    return .of (← deltaCost false data ce 0 (← propose (← before data r (← minus v 1))
      [← between data r u (u + n - 1), ← between data r (v + m) (← minus u 1),
        ← between data r v (v + m - 1), ← after data r (u + n)]))

/-- `Swap<N, M>::evaluate` (`Swap.h` 89-151). -/
def evaluate (n m : Nat) (data : ProblemData) (ce : CostEvaluator) (s : SSol)
    (uAct : Activity) (vRef : NodeRef) : Option Verdict :=
  match s.place uAct, s.find vRef with
  | some (i, u), some (j, v) => do
    let rU ← here s i u uAct
    let rV ← route s j
    if ← fixed data rU u n then return .no
    else if ← fixed data rV v m then return .no
    else
      let nU ← node rU u
      let nV ← node rV v
      if i = j ∧ (nU.trip ≠ nV.trip ∨ PyVRP.Swap.overlap n m u v ∨ PyVRP.Swap.adjacent n m u v) then
        return .no
      else if n = m ∧ uAct.idx ≥ nV.activity.idx then return .no
      else if i ≠ j then different n m data ce rU u rV v
      else same n m data ce rU u v
  | _, _ => some .no

end Swap

/-! ## `SwapTails.cpp` -/

namespace SwapTails

/-- The cost of the move (`SwapTails.cpp` 50-96). -/
def cost (data : ProblemData) (ce : CostEvaluator) (rU : SRoute) (u : Nat) (rV : SRoute) (v : Nat) :
    Option Int := do
  let nU ← node rU (u + 1)
  let nV ← node rV (v + 1)
  let uLast := nU.isEndDepot
  let vLast := nV.isEndDepot
  if !uLast && !vLast then
    deltaCost2 false data ce 0
      (← propose (← before data rU u)
        [← between data rV (v + 1) (← minus rV.size 2), ← «at» data rU (← minus rU.size 1)])
      (← propose (← before data rV v)
        [← between data rU (u + 1) (← minus rU.size 2), ← «at» data rV (← minus rV.size 1)])
  else if !uLast && vLast then
    deltaCost2 false data ce 0
      (← propose (← before data rU u) [← «at» data rU (← minus rU.size 1)])
      (← propose (← before data rV v)
        [← between data rU (u + 1) (← minus rU.size 2), ← «at» data rV (← minus rV.size 1)])
  else if uLast && !vLast then
    let p ← propose (← before data rU u)
      [← between data rV (v + 1) (← minus rV.size 2), ← «at» data rU (← minus rU.size 1)]
    let n ← node rV v
    if n.isStartDepot then deltaCost false data ce (← I64.sub 0 (← penalisedCost data ce rV)) p
    else
      deltaCost2 false data ce 0 p
        (← propose (← before data rV v) [← «at» data rV (← minus rV.size 1)])
  else return 0

/-- `SwapTails::evaluate` (`SwapTails.cpp` 24-99). -/
def evaluate (data : ProblemData) (ce : CostEvaluator) (s : SSol) (uAct : Activity) (vRef : NodeRef) :
    Option Verdict := do
  known data uAct
  match s.place uAct, s.find vRef with
  | some (i, u), some (j, v) => do
    let rU ← here s i u uAct
    let rV ← route s j
    let nV ← node rV v
    ensure (!nV.isEndDepot && !nV.isReloadDepot)
    if i = j then return .no
    else
      let later ← if i > j then do
        if ← empty data rU then pure false else pure !(← empty data rV)
      else pure false
      if later then return .no
      else if !(← Checked.SwapTails.onLastTrip rU u) then return .no
      else if !(← Checked.SwapTails.onLastTrip rV v) then return .no
      else if ← Checked.SwapTails.splitsShipment data rU u then return .no
      else if ← Checked.SwapTails.splitsShipment data rV v then return .no
      else return .of (← cost data ce rU u rV v)
  | _, _ => return .no

end SwapTails

/-! ## `RelocateWithDepot.cpp` -/

namespace RelocateWithDepot

/-- `evalSameRoute`: the cost with the depot first (`RelocateWithDepot.cpp` 18-41). -/
def sameDepotU (data : ProblemData) (ce : CostEvaluator) (r : SRoute) (u v d : Nat) : Option Int := do
  if u < v then
    deltaCost false data ce 0 (← propose (← before data r (← minus u 1))
      [← between data r (u + 1) v, ← depotSeg data d, ← «at» data r u, ← after data r (v + 1)])
  else
    deltaCost false data ce 0 (← propose (← before data r v)
      [← depotSeg data d, ← «at» data r u, ← between data r (v + 1) (← minus u 1),
        ← after data r (u + 1)])

/-- `evalSameRoute`: the cost with the depot last (`RelocateWithDepot.cpp` 43-66). -/
def sameUDepot (data : ProblemData) (ce : CostEvaluator) (r : SRoute) (u v d : Nat) : Option Int := do
  if u < v then
    deltaCost false data ce 0 (← propose (← before data r (← minus u 1))
      [← between data r (u + 1) v, ← «at» data r u, ← depotSeg data d, ← after data r (v + 1)])
  else
    deltaCost false data ce 0 (← propose (← before data r v)
      [← «at» data r u, ← depotSeg data d, ← between data r (v + 1) (← minus u 1),
        ← after data r (u + 1)])

/-- The cost to remove a client (`RelocateWithDepot.cpp` 80-89, `RelocateAlternative.cpp` 79-88). -/
def removeCost (data : ProblemData) (ce : CostEvaluator) (r : SRoute) (u : Nat) (out : Int) :
    Option Int := do
  let c ← numClients data r
  let m ← numShipments data r
  if c = 1 ∧ m = 0 then I64.sub out (← penalisedCost data ce r)
  else
    deltaCost true data ce out
      (← propose (← before data r (← minus u 1)) [← after data r (u + 1)])

/-- `evalDifferentRoutes`: the cost with the depot first (`RelocateWithDepot.cpp` 98-104). -/
def differentDepotU (data : ProblemData) (ce : CostEvaluator) (rU : SRoute) (u : Nat) (rV : SRoute)
    (v d : Nat) (removeCost : Int) : Option Int := do
  deltaCost false data ce removeCost (← propose (← before data rV v)
    [← depotSeg data d, ← «at» data rU u, ← after data rV (v + 1)])

/-- `evalDifferentRoutes`: the cost with the depot last (`RelocateWithDepot.cpp` 113-119). -/
def differentUDepot (data : ProblemData) (ce : CostEvaluator) (rU : SRoute) (u : Nat) (rV : SRoute)
    (v d : Nat) (removeCost : Int) : Option Int := do
  deltaCost false data ce removeCost (← propose (← before data rV v)
    [← «at» data rU u, ← depotSeg data d, ← after data rV (v + 1)])

/-- `RelocateWithDepot::evaluate` (`RelocateWithDepot.cpp` 126-161). -/
def evaluate (data : ProblemData) (ce : CostEvaluator) (s : SSol) (cache : Cache)
    (uAct : Activity) (vRef : NodeRef) : Option (Verdict × Cache) := do
  known data uAct
  match s.place uAct, s.find vRef with
  | some (i, u), some (j, v) => do
    let rU ← here s i u uAct
    let rV ← route s j
    let nV ← node rV v
    ensure (!nV.isEndDepot)
    if !uAct.isClient then return (.no, cache)
    else
      let next ← node rV (v + 1)
      if next.activity = uAct then return (.no, cache)
      else if ← empty data rV then return (.no, cache)
      else
        let vehType ← vehicleType data rV.vehicleType
        if rV.numTrips = vehType.maxTrips then return (.no, cache)
        else
          let nU ← node rU u
          if i = j ∧ nU.trip ≠ nV.trip then return (.no, cache)
          else if (← numPickupsAt data rV v) ≠ (← numDeliveriesAt data rV v) then return (.no, cache)
          else if i = j then
            let best ← Checked.RelocateWithDepot.search rV v vehType.reloadDepots (sameDepotU data ce rV u v)
              (sameUDepot data ce rV u v)
            return (.of best.1 best.2, cache)
          else
            let cost ← cached cache uAct.idx (removeCost data ce rU u 0)
            let best ← Checked.RelocateWithDepot.search rV v vehType.reloadDepots
              (fun d => differentDepotU data ce rU u rV v d cost)
              (fun d => differentUDepot data ce rU u rV v d cost)
            return (.of best.1 best.2, cache.store uAct.idx cost)
  | _, _ => return (.no, cache)

end RelocateWithDepot

/-! ## `RemoveAdjacentDepot.cpp` -/

namespace RemoveAdjacentDepot

/-- `RemoveAdjacentDepot::evaluate` (`RemoveAdjacentDepot.cpp` 8-54). -/
def evaluate (data : ProblemData) (ce : CostEvaluator) (s : SSol) (uAct : Activity) :
    Option Verdict := do
  known data uAct
  match s.place uAct with
  | none => return .no
  | some (i, u) => do
    let r ← here s i u uAct
    let prev ← node r (← minus u 1)
    let best ← if prev.isReloadDepot then do
        let cost ← deltaCost true data ce 0
          (← propose (← before data r (← minus u 2)) [← after data r u])
        pure (PyVRP.RelocateWithDepot.better (MAX, .none) cost .removePrev)
      else pure (MAX, .none)
    let next ← node r (u + 1)
    let best ← if next.isReloadDepot then do
        let cost ← deltaCost true data ce 0
          (← propose (← before data r u) [← after data r (u + 2)])
        pure (PyVRP.RelocateWithDepot.better best cost .removeNext)
      else pure best
    return ⟨best.1, decide (best.1 ≤ 0), best.2⟩

end RemoveAdjacentDepot

/-! ## `RelocateAlternative.cpp` -/

namespace RelocateAlternative

/-- The cost in the same route (`RelocateAlternative.cpp` 29-36, 51-58). -/
def same (data : ProblemData) (ce : CostEvaluator) (r : SRoute) (uClient u v c : Nat) :
    Option Int := do
  let old ← client data uClient
  let new ← client data c
  if u < v then
    deltaCost false data ce (← I64.sub old.prize new.prize) (← propose (← before data r (← minus u 1))
      [← between data r (u + 1) v, ← clientSeg data c, ← after data r (v + 1)])
  else
    deltaCost false data ce (← I64.sub old.prize new.prize) (← propose (← before data r v)
      [← clientSeg data c, ← between data r (v + 1) (← minus u 1), ← after data r (u + 1)])

/-- The cost in another route (`RelocateAlternative.cpp` 99-104). -/
def different (data : ProblemData) (ce : CostEvaluator) (rV : SRoute) (v c : Nat) (removeCost : Int) :
    Option Int := do
  let new ← client data c
  deltaCost false data ce (← I64.sub removeCost new.prize) (← propose (← before data rV v)
    [← clientSeg data c, ← after data rV (v + 1)])

/-- `RelocateAlternative::evaluate` (`RelocateAlternative.cpp` 114-135), with `evalSameRoute` (9-66)
and `evalDifferentRoutes` (68-112). `ClientGroup::mutuallyExclusive` is always true. -/
def evaluate (data : ProblemData) (ce : CostEvaluator) (s : SSol) (cache : Cache)
    (uAct : Activity) (vRef : NodeRef) : Option (Verdict × Cache) := do
  known data uAct
  match s.place uAct, s.find vRef with
  | some (i, u), some (j, v) => do
    let rU ← here s i u uAct
    let rV ← route s j
    let nV ← node rV v
    ensure (!nV.isEndDepot)
    if !uAct.isClient || vRef == .task uAct then return (.no, cache)
    else
      let next ← node rV (v + 1)
      if next.activity = uAct then return (.no, cache)
      else
        let c ← client data uAct.idx
        match c.group with
        | none => return (.no, cache)
        | some g => do
          let grp ← group data g
          if i = j then
            let nU ← node rU u
            if nU.trip ≠ nV.trip then return (.no, cache)
            else return (← Checked.RelocateAlternative.search data uAct.idx (same data ce rU uAct.idx u v) grp.clients, cache)
          else
            let cost ← cached cache uAct.idx (RelocateWithDepot.removeCost data ce rU u c.prize)
            return (← Checked.RelocateAlternative.search data uAct.idx (fun c => different data ce rV v c cost) grp.clients,
              cache.store uAct.idx cost)
  | _, _ => return (.no, cache)

end RelocateAlternative

/-! ## Optional clients and groups -/

namespace InsertOptionalClient

/-- `InsertOptionalClient::evaluate` (`InsertOptionalClient.cpp` 9-39). -/
def evaluate (data : ProblemData) (ce : CostEvaluator) (s : SSol) (uAct : Activity) (vRef : NodeRef) :
    Option Verdict :=
  match s.place uAct, s.find vRef with
  | none, some (j, v) => do
    if !uAct.isClient then return .no
    else
      let c ← client data uAct.idx
      if ← Checked.InsertOptionalClient.blocked data s c then return .no
      else
        let r ← route s j
        return .of (← deltaCost false data ce (← I64.neg c.prize) (← propose (← before data r v)
          [← clientSeg data uAct.idx, ← after data r (v + 1)]))
  | _, _ => some .no

end InsertOptionalClient

namespace RemoveOptionalClient

/-- `RemoveOptionalClient::evaluate` (`RemoveOptionalClient.cpp` 7-35). -/
def evaluate (data : ProblemData) (ce : CostEvaluator) (s : SSol) (uAct : Activity) : Option Verdict :=
  match s.place uAct with
  | none => some .no
  | some (i, u) => do
    let r ← here s i u uAct
    if !uAct.isClient then return .no
    else
      let c ← client data uAct.idx
      if c.required then return .no
      else if ← Checked.RemoveOptionalClient.groupRequired data c then return .no
      else if (← numShipments data r) = 0 ∧ (← numClients data r) = 1 then
        return .of (← I64.sub c.prize (← penalisedCost data ce r))
      else return .of (← deltaCost false data ce c.prize
        (← propose (← before data r (← minus u 1)) [← after data r (u + 1)]))

end RemoveOptionalClient

namespace ReplaceOptionalClient

/-- The cost to put client `new` where client `old` is, at position `pos` (`ReplaceOptionalClient.cpp`
23-27, `ReplaceGroup.cpp` 34-39). -/
def cost (data : ProblemData) (ce : CostEvaluator) (r : SRoute) (pos : Nat) (old new : Nat) :
    Option Int := do
  let a ← client data old
  let b ← client data new
  deltaCost false data ce (← I64.sub a.prize b.prize) (← propose (← before data r (← minus pos 1))
    [← clientSeg data new, ← after data r (pos + 1)])

/-- `ReplaceOptionalClient::evaluate` (`ReplaceOptionalClient.cpp` 9-30). -/
def evaluate (data : ProblemData) (ce : CostEvaluator) (s : SSol) (uAct : Activity) (vRef : NodeRef) :
    Option Verdict :=
  match s.place uAct, s.find vRef with
  | none, some (j, v) => do
    let r ← route s j
    let nV ← node r v
    if !uAct.isClient || !nV.activity.isClient then return .no
    else
      let a ← client data uAct.idx
      let b ← client data nV.activity.idx
      if b.required || a.group.isSome || b.group.isSome then return .no
      else return .of (← cost data ce r v nV.activity.idx uAct.idx)
  | _, _ => some .no

end ReplaceOptionalClient

namespace ReplaceGroup

/-- The loop over the group (`ReplaceGroup.cpp` 27-44). -/
def search (data : ProblemData) (ce : CostEvaluator) (s : SSol) (u : Nat) : List Nat → Option Verdict
  | [] => some .no
  | c :: rest => do
    let _ ← s.clients[c]?
    match s.place ⟨.client, c⟩ with
    | none => search data ce s u rest
    | some (j, v) => do
      ensure (c ≠ u)
      let r ← here s j v ⟨.client, c⟩
      return .of (← ReplaceOptionalClient.cost data ce r v c u) (.node ⟨.client, c⟩)

/-- `ReplaceGroup::evaluate` (`ReplaceGroup.cpp` 10-47). -/
def evaluate (data : ProblemData) (ce : CostEvaluator) (s : SSol) (uAct : Activity) :
    Option Verdict := do
  known data uAct
  if !uAct.isClient || (s.place uAct).isSome then return .no
  else
    let c ← client data uAct.idx
    match c.group with
    | none => return .no
    | some g => do
      let grp ← group data g
      search data ce s uAct.idx grp.clients

end ReplaceGroup

/-! ## Shipments -/

namespace InsertOptionalShipment

/-- The loop over the nodes after which to deliver (`InsertOptionalShipment.cpp` 37-54,
`RelocateShipment.cpp` 67-84): there is always a next node. -/
def later (data : ProblemData) (ce : CostEvaluator) (r : SRoute) (v : Nat) (out : Int)
    (pickup delivery : Option WSeg) : List SNode → Nat → Option Verdict
  | [], _ => none
  | n :: nodes, next => do
    if n.isDepot then return .no
    else
      let cost ← deltaCost false data ce out (← propose (← before data r v)
        [← pickup, ← between data r (v + 1) next, ← delivery, ← after data r (next + 1)])
      if cost < 0 then return ⟨cost, true, .pos (next + 1)⟩
      else later data ce r v out pickup delivery nodes (next + 1)

/-- The pickup after the node at `v`, and the delivery directly after it or later
(`InsertOptionalShipment.cpp` 24-56, `RelocateShipment.cpp` 54-86). -/
def search (data : ProblemData) (ce : CostEvaluator) (r : SRoute) (v : Nat) (out : Int)
    (pickup delivery : Option WSeg) : Option Verdict := do
  let cost ← deltaCost false data ce out (← propose (← before data r v)
    [← pickup, ← delivery, ← after data r (v + 1)])
  if cost < 0 then return ⟨cost, true, .pos (v + 1)⟩
  else later data ce r v out pickup delivery (r.nodes.drop (v + 1)) (v + 1)

/-- `InsertOptionalShipment::evaluate` (`InsertOptionalShipment.cpp` 10-57). -/
def evaluate (data : ProblemData) (ce : CostEvaluator) (s : SSol) (uAct : Activity) (vRef : NodeRef) :
    Option Verdict :=
  match s.place uAct, s.find vRef with
  | none, some (j, v) => do
    let r ← route s j
    let nV ← node r v
    ensure (!nV.isEndDepot)
    if !uAct.isPickup then return .no
    else
      let sh ← shipment data uAct.idx
      search data ce r v (← I64.neg sh.prize) (pickupSeg data uAct.idx) (deliverySeg data uAct.idx)
  | _, _ => some .no

end InsertOptionalShipment

namespace RemoveOptionalShipment

/-- The cost to remove the shipment at positions `p` and `d` (`RemoveOptionalShipment.cpp` 24-40,
`RelocateShipment.cpp` 32-48), starting at `out`. -/
def cost (exact : Bool) (data : ProblemData) (ce : CostEvaluator) (r : SRoute) (p d : Nat)
    (out : Int) : Option Int := do
  if (← numShipments data r) = 1 ∧ (← numClients data r) = 0 then
    I64.sub out (← penalisedCost data ce r)
  else if p + 1 = d then
    deltaCost exact data ce out
      (← propose (← before data r (← minus p 1)) [← after data r (d + 1)])
  else
    deltaCost exact data ce out (← propose (← before data r (← minus p 1))
      [← between data r (p + 1) (← minus d 1), ← after data r (d + 1)])

/-- `RemoveOptionalShipment::evaluate` (`RemoveOptionalShipment.cpp` 7-43). The delivery is in the same
route. -/
def evaluate (data : ProblemData) (ce : CostEvaluator) (s : SSol) (uAct : Activity) : Option Verdict :=
  match s.place uAct with
  | none => some .no
  | some (i, p) => do
    let r ← here s i p uAct
    if !uAct.isPickup then return .no
    else
      let sh ← shipment data uAct.idx
      if sh.required then return .no
      else
        let (i', d) ← s.place ⟨.delivery, uAct.idx⟩
        ensure (i' = i)
        let _ ← here s i d ⟨.delivery, uAct.idx⟩
        return .of (← cost false data ce r p d sh.prize)

end RemoveOptionalShipment

namespace ReplaceOptionalShipment

/-- The cost to put shipment `new` where shipment `old` is, at positions `p` and `d`
(`ReplaceOptionalShipment.cpp` 39-55). -/
def cost (data : ProblemData) (ce : CostEvaluator) (r : SRoute) (p d old new : Nat) : Option Int := do
  let a ← shipment data old
  let b ← shipment data new
  let out ← I64.sub a.prize b.prize
  if p + 1 = d then
    deltaCost false data ce out (← propose (← before data r (← minus p 1))
      [← pickupSeg data new, ← deliverySeg data new, ← after data r (d + 1)])
  else
    deltaCost false data ce out (← propose (← before data r (← minus p 1))
      [← pickupSeg data new, ← between data r (p + 1) (← minus d 1), ← deliverySeg data new,
        ← after data r (d + 1)])

/-- `ReplaceOptionalShipment::evaluate` (`ReplaceOptionalShipment.cpp` 10-58). -/
def evaluate (data : ProblemData) (ce : CostEvaluator) (s : SSol) (uAct : Activity) (vRef : NodeRef) :
    Option Verdict :=
  match s.place uAct, s.find vRef with
  | none, some (j, v) => do
    let r ← route s j
    let nV ← node r v
    if !uAct.isPickup || !nV.activity.isShipment then return .no
    else
      let sh ← shipment data nV.activity.idx
      if sh.required then return .no
      else
        let (i, p) ← s.place ⟨.pickup, nV.activity.idx⟩
        let (i', d) ← s.place ⟨.delivery, nV.activity.idx⟩
        ensure (i = j ∧ i' = j ∧ p < d)
        return .of (← cost data ce r p d nV.activity.idx uAct.idx)
  | _, _ => some .no

end ReplaceOptionalShipment

namespace RelocateShipment

/-- `RelocateShipment::evaluate` (`RelocateShipment.cpp` 7-87). The start depots and the clients, pickups
and deliveries that the local search passes as `V` are in a route. -/
def evaluate (data : ProblemData) (ce : CostEvaluator) (s : SSol) (cache : Cache)
    (uAct : Activity) (vRef : NodeRef) : Option (Verdict × Cache) := do
  let (j, v) ← s.find vRef
  if !uAct.isPickup then return (.no, cache)
  else
    match s.place uAct with
    | none => return (.no, cache)
    | some (i, p) => do
      let rU ← here s i p uAct
      let rV ← route s j
      if i = j then return (.no, cache)
      else
        let (i', d) ← s.place ⟨.delivery, uAct.idx⟩
        ensure (i' = i)
        let cost ← cached cache uAct.idx (RemoveOptionalShipment.cost true data ce rU p d 0)
        return (← InsertOptionalShipment.search data ce rV v cost («at» data rU p) («at» data rU d),
          cache.store uAct.idx cost)

end RelocateShipment

namespace RelocatePickup

/-- The loop of `RelocatePickup::evaluate` (`RelocatePickup.cpp` 25-52): there is always a previous
node. -/
def search (data : ProblemData) (ce : CostEvaluator) (r : SRoute) (k u : Nat) :
    List SNode → Nat → Option Verdict
  | [], _ => none
  | n :: nodes, pos => do
    if n.isDepot then return ⟨MAX, false, .none⟩
    else
      let prev ← minus pos 1
      if pos = u ∨ prev = u then search data ce r k u nodes prev
      else
        let cost ← if u < pos then do
            deltaCost false data ce 0 (← propose (← before data r (← minus u 1))
              [← between data r (u + 1) prev, ← pickupSeg data k, ← after data r pos])
          else do
            deltaCost false data ce 0 (← propose (← before data r prev)
              [← pickupSeg data k, ← between data r pos (← minus u 1), ← after data r (u + 1)])
        if cost < 0 then return ⟨cost, true, .node n.activity⟩
        else search data ce r k u nodes prev

/-- `RelocatePickup::evaluate` (`RelocatePickup.cpp` 9-55). -/
def evaluate (data : ProblemData) (ce : CostEvaluator) (s : SSol) (uAct : Activity) :
    Option Verdict := do
  if !uAct.isPickup then return .no
  else
    match s.place uAct with
    | none => return .no
    | some (i, u) => do
      let r ← here s i u uAct
      let (i', d) ← s.place ⟨.delivery, uAct.idx⟩
      ensure (i' = i ∧ d > u)
      let _ ← here s i d ⟨.delivery, uAct.idx⟩
      search data ce r uAct.idx u (r.nodes.take (d + 1)).reverse d

end RelocatePickup

namespace RelocateDelivery

/-- The loop of `RelocateDelivery::evaluate` (`RelocateDelivery.cpp` 23-52): there is always a next
node. -/
def search (data : ProblemData) (ce : CostEvaluator) (r : SRoute) (k d : Nat) :
    List SNode → Nat → Option Verdict
  | [], _ => none
  | n :: nodes, pos => do
    if n.isDepot then return ⟨MAX, false, .none⟩
    else if pos = d ∨ pos + 1 = d then search data ce r k d nodes (pos + 1)
    else
      let cost ← if d < pos then do
          deltaCost false data ce 0 (← propose (← before data r (← minus d 1))
            [← between data r (d + 1) pos, ← deliverySeg data k, ← after data r (pos + 1)])
        else do
          deltaCost false data ce 0 (← propose (← before data r pos)
            [← deliverySeg data k, ← between data r (pos + 1) (← minus d 1), ← after data r (d + 1)])
      if cost < 0 then return ⟨cost, true, .node n.activity⟩
      else search data ce r k d nodes (pos + 1)

/-- `RelocateDelivery::evaluate` (`RelocateDelivery.cpp` 9-55). -/
def evaluate (data : ProblemData) (ce : CostEvaluator) (s : SSol) (uAct : Activity) :
    Option Verdict := do
  if !uAct.isPickup then return .no
  else
    match s.place uAct with
    | none => return .no
    | some (i, u) => do
      let r ← here s i u uAct
      let (i', d) ← s.place ⟨.delivery, uAct.idx⟩
      ensure (i' = i ∧ d > u)
      let _ ← here s i d ⟨.delivery, uAct.idx⟩
      search data ce r uAct.idx d (r.nodes.drop u) u

end RelocateDelivery

/-! ## All operators -/

/-- `evaluate(U, costEvaluator)`. -/
def evaluateUnary (op : UnaryOp) (data : ProblemData) (ce : CostEvaluator) (s : SSol) (u : Activity) :
    Option Verdict :=
  match op with
  | .removeAdjacentDepot => RemoveAdjacentDepot.evaluate data ce s u
  | .removeOptionalClient => RemoveOptionalClient.evaluate data ce s u
  | .replaceGroup => ReplaceGroup.evaluate data ce s u
  | .removeOptionalShipment => RemoveOptionalShipment.evaluate data ce s u
  | .relocatePickup => RelocatePickup.evaluate data ce s u
  | .relocateDelivery => RelocateDelivery.evaluate data ce s u

/-- `evaluate(U, V, costEvaluator)`. -/
def evaluateBinary (op : BinaryOp) (data : ProblemData) (ce : CostEvaluator) (s : SSol) (cache : Cache)
    (u : Activity) (v : NodeRef) : Option (Verdict × Cache) :=
  match op with
  | .relocate n => Relocate.evaluate n data ce s cache u v
  | .swap n m => (Swap.evaluate n m data ce s u v).map (·, cache)
  | .swapTails => (SwapTails.evaluate data ce s u v).map (·, cache)
  | .relocateWithDepot => RelocateWithDepot.evaluate data ce s cache u v
  | .relocateAlternative => RelocateAlternative.evaluate data ce s cache u v
  | .insertOptionalClient => (InsertOptionalClient.evaluate data ce s u v).map (·, cache)
  | .replaceOptionalClient => (ReplaceOptionalClient.evaluate data ce s u v).map (·, cache)
  | .insertOptionalShipment => (InsertOptionalShipment.evaluate data ce s u v).map (·, cache)
  | .replaceOptionalShipment => (ReplaceOptionalShipment.evaluate data ce s u v).map (·, cache)
  | .relocateShipment => RelocateShipment.evaluate data ce s cache u v

end PyVRP.Checked64
