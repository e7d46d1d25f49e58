import Verif.Model.SearchRoute
/-!
# `pyvrp/cpp/search/Route.h`: segments and proposals; `CostEvaluator.h`: delta costs
-/
namespace PyVRP

/-- The interface of a segment (concept `Segment`, `search/Route.h` 19-35). `front` and `back` give
the activity and location (`SegmentProxy`, 57-67). -/
structure Seg where
  frontActivity : Activity
  frontLoc : Nat
  backActivity : Activity
  backLoc : Nat
  size : Nat
  numClients : Nat
  numPickups : Nat
  startsAtReloadDepot : Bool
  endsAtReloadDepot : Bool
  distance : Nat → Int
  duration : Nat → DurSeg
  load : Nat → LoadSeg

namespace SRoute

/-- The node at `idx` as a number 0 or 1: adding a `bool` to a `size_t`. -/
def one (b : Bool) : Nat := if b then 1 else 0

/-- `before(end)`: `SegmentBefore` (`search/Route.h` 736-740 and 773-820). The code asserts that `profile` is
the route's own profile. -/
def before (r : SRoute) (e : Nat) : Seg :=
  { frontActivity := (r.node 0).activity
    frontLoc := r.locations.getD 0 0
    backActivity := (r.node e).activity
    backLoc := r.locations.getD e 0
    size := e + 1
    numClients := r.numClients_.getD e 0
    numPickups := r.numPickups_.getD e 0
    startsAtReloadDepot := false
    endsAtReloadDepot := (r.node e).isReloadDepot
    distance := fun _ => r.cumDist.getD e 0
    duration := fun _ => r.durBefore.getD e {}
    load := fun dim => (r.loadBefore.getD dim []).getD e {} }

/-- `after(start)`: `SegmentAfter` (`search/Route.h` 730-734 and 755-771, 822-856). -/
def after (r : SRoute) (s : Nat) : Seg :=
  { frontActivity := (r.node s).activity
    frontLoc := r.locations.getD s 0
    backActivity := (r.node (r.size - 1)).activity
    backLoc := r.locations.getLastD 0
    size := r.size - s
    numClients := r.numClients - r.numClients_.getD s 0 + one (r.node s).isClient
    numPickups := r.numShipments - r.numPickups_.getD s 0 + one (r.node s).isPickup
    startsAtReloadDepot := (r.node s).isReloadDepot
    endsAtReloadDepot := false
    distance := fun _ => r.cumDist.getLastD 0 - r.cumDist.getD s 0
    duration := fun _ => r.durAfter.getD s {}
    load := fun dim => (r.loadAfter.getD dim []).getD s {} }

/-- The loop of `SegmentBetween::distance` for another profile (`search/Route.h` 900-912): `n` steps
from `step` on. -/
def betweenDistance (data : ProblemData) (profile : Nat) (r : SRoute) (step : Nat) : Nat → Int → Int
  | 0, acc => acc
  | n + 1, acc =>
    betweenDistance data profile r (step + 1) n
      (acc + data.dist profile (r.locations.getD step 0) (r.locations.getD (step + 1) 0))

/-- The loop of `SegmentBetween::duration` (`search/Route.h` 933-939): `n` steps from `step` on. -/
def betweenDuration (data : ProblemData) (profile : Nat) (r : SRoute) (step : Nat) :
    Nat → DurSeg → DurSeg
  | 0, ds => ds
  | n + 1, ds =>
    betweenDuration data profile r (step + 1) n
      (DurSeg.merge (data.dur profile (r.locations.getD step 0) (r.locations.getD (step + 1) 0)) ds
        (r.durAt.getD (step + 1) {}))

/-- The loop of `SegmentBetween::load` (`search/Route.h` 949-950): `n` steps from `step` on. -/
def betweenLoad (loads : List LoadSeg) (step : Nat) : Nat → LoadSeg → LoadSeg
  | 0, ls => ls
  | n + 1, ls => betweenLoad loads (step + 1) n (LoadSeg.merge ls (loads.getD (step + 1) {}))

/-- `between(start, end)`: `SegmentBetween` (`search/Route.h` 742-753 and 858-953). The code asserts
that `start <= end < size` and that the segment is part of one trip, except that it may end at the
depot that ends the trip. -/
def between (data : ProblemData) (r : SRoute) (s e : Nat) : Seg :=
  { frontActivity := (r.node s).activity
    frontLoc := r.locations.getD s 0
    backActivity := (r.node e).activity
    backLoc := r.locations.getD e 0
    size := e - s + 1
    numClients := r.numClients_.getD e 0 - r.numClients_.getD s 0 + one (r.node s).isClient
    numPickups := r.numPickups_.getD e 0 - r.numPickups_.getD s 0 + one (r.node s).isPickup
    startsAtReloadDepot := (r.node s).isReloadDepot
    endsAtReloadDepot := (r.node e).isReloadDepot
    distance := fun profile =>
      if profile ≠ (data.vehicleType r.vehicleType).profile then
        betweenDistance data profile r s (e - s) 0
      else r.cumDist.getD e 0 - r.cumDist.getD s 0
    duration := fun profile =>
      let segment := r.durAt.getD s {}
      let segment :=
        if e - s + 1 ≠ 1 ∧ (r.node s).isReloadDepot then
          DurSeg.merge 0 segment
            { duration_ := (data.depot (r.node s).activity.idx).serviceDuration }
        else segment
      betweenDuration data profile r s (e - s) segment
    load := fun dim =>
      betweenLoad (r.loadAt.getD dim []) s (e - s) ((r.loadAt.getD dim []).getD s {}) }

/-- `at(idx)` (`search/Route.h` 1132-1136). -/
def «at» (data : ProblemData) (r : SRoute) (idx : Nat) : Seg := r.between data idx idx

end SRoute

namespace Seg

/-- `ClientSegment` (`search/ClientSegment.h` 15-60). -/
def client (data : ProblemData) (i : Nat) : Seg :=
  { frontActivity := ⟨.client, i⟩
    frontLoc := (data.client i).location
    backActivity := ⟨.client, i⟩
    backLoc := (data.client i).location
    size := 1
    numClients := 1
    numPickups := 0
    startsAtReloadDepot := false
    endsAtReloadDepot := false
    distance := fun _ => 0
    duration := fun _ => DurSeg.ofClient (data.client i)
    load := fun dim => LoadSeg.ofClient (data.client i) dim }

/-- `DepotSegment` (`search/DepotSegment.h` 15-60). -/
def depot (data : ProblemData) (i : Nat) : Seg :=
  { frontActivity := ⟨.depot, i⟩
    frontLoc := (data.depot i).location
    backActivity := ⟨.depot, i⟩
    backLoc := (data.depot i).location
    size := 1
    numClients := 0
    numPickups := 0
    startsAtReloadDepot := true
    endsAtReloadDepot := true
    distance := fun _ => 0
    duration := fun _ => DurSeg.ofDepot (data.depot i) 0
    load := fun _ => {} }

/-- `PickupSegment` (`search/PickupSegment.h` 15-62). -/
def pickup (data : ProblemData) (i : Nat) : Seg :=
  { frontActivity := ⟨.pickup, i⟩
    frontLoc := (data.shipment i).pickup.location
    backActivity := ⟨.pickup, i⟩
    backLoc := (data.shipment i).pickup.location
    size := 1
    numClients := 0
    numPickups := 1
    startsAtReloadDepot := false
    endsAtReloadDepot := false
    distance := fun _ => 0
    duration := fun _ => DurSeg.ofStep (data.shipment i).pickup
    load := fun dim => LoadSeg.ofShipment (data.shipment i) .pickup dim }

/-- `DeliverySegment` (`search/DeliverySegment.h` 15-62). -/
def delivery (data : ProblemData) (i : Nat) : Seg :=
  { frontActivity := ⟨.delivery, i⟩
    frontLoc := (data.shipment i).delivery.location
    backActivity := ⟨.delivery, i⟩
    backLoc := (data.shipment i).delivery.location
    size := 1
    numClients := 0
    numPickups := 0
    startsAtReloadDepot := false
    endsAtReloadDepot := false
    distance := fun _ => 0
    duration := fun _ => DurSeg.ofStep (data.shipment i).delivery
    load := fun dim => LoadSeg.ofShipment (data.shipment i) .delivery dim }

end Seg

/-- `Proposal` (`search/Route.h` 90-125): the segments `first`, `rest`. The route of the proposal is
the route of the first segment, given by its vehicle type. The code needs at least two segments. -/
structure Proposal where
  route : SRoute
  first : Seg
  rest : List Seg

namespace Proposal

/-- The lambda `merge` in `Proposal::distance` (`search/Route.h` 1204-1212). -/
def distanceLoop (data : ProblemData) (profile : Nat) (distance : Int) (lastLoc : Nat) :
    List Seg → Int
  | [] => distance
  | other :: args =>
    distanceLoop data profile
      (distance + data.dist profile lastLoc other.frontLoc + other.distance profile)
      other.backLoc args

/-- `Proposal::distance` (`search/Route.h` 1190-1222): distance cost and excess distance. -/
def distance (data : ProblemData) (p : Proposal) : Int × Int :=
  let v := data.vehicleType p.route.vehicleType
  let distance :=
    distanceLoop data v.profile (p.first.distance v.profile) p.first.backLoc p.rest
  (v.unitDistanceCost * distance, max (distance - v.maxDistance) 0)

/-- The lambda `merge` in `Proposal::duration` (`search/Route.h` 1247-1280); the segments come from
right to left. -/
def durationLoop (data : ProblemData) (profile : Nat) (ds : DurSeg) (firstLoc : Nat) :
    List Seg → DurSeg
  | [] => ds
  | other :: args =>
    let edgeDur := data.dur profile other.backLoc firstLoc
    let depot := data.depot other.backActivity.idx
    let ds' :=
      if other.endsAtReloadDepot then
        DurSeg.merge 0 (other.duration profile)
          (DurSeg.merge edgeDur (DurSeg.ofDepot depot depot.serviceDuration) ds).finaliseFront
      else DurSeg.merge edgeDur (other.duration profile) ds
    let ds'' :=
      if args ≠ [] ∧ other.startsAtReloadDepot ∧ other.size > 1 then ds'.finaliseFront else ds'
    durationLoop data profile ds'' other.frontLoc args

/-- The segment computed by `Proposal::duration` (`search/Route.h` 1239-1282). -/
def durationSeg (data : ProblemData) (p : Proposal) : DurSeg :=
  let profile := (data.vehicleType p.route.vehicleType).profile
  match (p.first :: p.rest).reverse with
  | [] => {}
  | segment :: args =>
    let ds := segment.duration profile
    let ds := if segment.startsAtReloadDepot then ds.finaliseFront else ds
    durationLoop data profile ds segment.frontLoc args

/-- `Proposal::duration` (`search/Route.h` 1224-1293): duration cost and time warp. -/
def duration (data : ProblemData) (p : Proposal) : Int × Int :=
  let v := data.vehicleType p.route.vehicleType
  let ds := p.durationSeg data
  let duration := ds.duration
  let overtime := max (duration - v.shiftDuration) 0
  (v.unitDurationCost * duration + v.unitOvertimeCost * overtime, ds.timeWarp v.maxDuration)

/-- The lambda `merge` in `Proposal::excessLoad` (`search/Route.h` 1308-1323). -/
def loadLoop (capacity : Int) (dim : Nat) (ls : LoadSeg) : List Seg → LoadSeg
  | [] => ls
  | other :: args =>
    let ls := if other.startsAtReloadDepot then ls.finalise capacity else ls
    let ls := LoadSeg.merge ls (other.load dim)
    let ls :=
      if args ≠ [] ∧ other.endsAtReloadDepot ∧ other.size > 1 then ls.finalise capacity else ls
    loadLoop capacity dim ls args

/-- `Proposal::excessLoad` (`search/Route.h` 1295-1329). -/
def excessLoad (data : ProblemData) (p : Proposal) (dim : Nat) : Int :=
  let capacity := (data.vehicleType p.route.vehicleType).capacity.getD dim 0
  let ls := p.first.load dim
  let ls := if p.first.endsAtReloadDepot then ls.finalise capacity else ls
  (loadLoop capacity dim ls p.rest).excessLoad capacity

/-- `Proposal::fixedVehicleCost` (`search/Route.h` 1184-1188). -/
def fixedVehicleCost (data : ProblemData) (p : Proposal) : Int :=
  (data.vehicleType p.route.vehicleType).fixedCost

end Proposal

namespace CostEvaluator

/-- The block `if (route->hasDistanceCost())` of `deltaCost` (`CostEvaluator.h` 230-235, 274-287). -/
def deltaDistance (ce : CostEvaluator) (data : ProblemData) (p : Proposal) (out : Int) : Int :=
  if p.route.hasDistanceCost data then
    out + (p.distance data).1 + ce.excessDistPenalty (p.distance data).2
  else out

/-- The loop over the load dimensions in `deltaCost` (`CostEvaluator.h` 237-245, 289-307): `false` for
`return false`, with the value of `out` at that point. -/
def deltaLoad (exact : Bool) (ce : CostEvaluator) (data : ProblemData) (p : Proposal) :
    List Nat → Int → Int × Bool
  | [], out => (out, true)
  | dim :: rest, out =>
    if !exact && decide (out ≥ 0) then (out, false)
    else deltaLoad exact ce data p rest (out + ce.loadPenalty (p.excessLoad data dim) 0 dim)

/-- The block `if (route->hasDurationCost())` of `deltaCost` (`CostEvaluator.h` 247-252, 313-325). -/
def deltaDuration (ce : CostEvaluator) (data : ProblemData) (p : Proposal) (out : Int) : Int :=
  if p.route.hasDurationCost data then
    out + (p.duration data).1 + ce.twPenalty (p.duration data).2
  else out

/-- The load dimensions of the proposal's route: `0, ..., capacity.size() - 1`. -/
def dims (data : ProblemData) (p : Proposal) : List Nat :=
  List.range (data.vehicleType p.route.vehicleType).capacity.length

/-- `deltaCost<exact>(out, proposal)` (`CostEvaluator.h` 220-254): the new value of `out` and the
returned value. -/
def deltaCost (exact : Bool) (ce : CostEvaluator) (data : ProblemData) (out : Int) (p : Proposal) :
    Int × Bool :=
  let out := out - ce.penalisedCostSearch data p.route
  let out := out + p.fixedVehicleCost data
  let out := deltaDistance ce data p out
  match deltaLoad exact ce data p (dims data p) out with
  | (out, false) => (out, false)
  | (out, true) => (deltaDuration ce data p out, true)

/-- `deltaCost<exact>(out, uProposal, vProposal)` (`CostEvaluator.h` 256-329). -/
def deltaCost2 (exact : Bool) (ce : CostEvaluator) (data : ProblemData) (out : Int)
    (u v : Proposal) : Int × Bool :=
  let out := out - ce.penalisedCostSearch data u.route
  let out := out - ce.penalisedCostSearch data v.route
  let out := out + u.fixedVehicleCost data
  let out := out + v.fixedVehicleCost data
  let out := deltaDistance ce data u out
  let out := deltaDistance ce data v out
  match deltaLoad exact ce data u (dims data u) out with
  | (out, false) => (out, false)
  | (out, true) =>
    match deltaLoad exact ce data v (dims data v) out with
    | (out, false) => (out, false)
    | (out, true) =>
      if !exact && decide (out ≥ 0) then (out, false)
      else (deltaDuration ce data v (deltaDuration ce data u out), true)

end CostEvaluator
end PyVRP
