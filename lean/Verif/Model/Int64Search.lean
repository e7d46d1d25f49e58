import Verif.Model.Int64
import Verif.Model.Proposal
/-!
# The local search's routes and moves on 64-bit integers

As in `Model/Int64.lean`, each sum, difference and product is checked, and the result is `none` if
one of them does not fit into 64 bits. The functions are those of `Model/SearchRoute.lean` and
`Model/Proposal.lean`.
-/
namespace PyVRP.I64

/-- `c ? m : y`, where only `m` needs to be computed. -/
def choose {α : Type} (c : Prop) [Decidable c] (m : Option α) (y : α) : Option α :=
  if c then m else some y

/-- See `scanNodes`. -/
def scan {β : Type} (f : SNode → β → SNode → Option β) (n : SNode) (b : β) :
    List SNode → Option (List β)
  | [] => some [b]
  | m :: rest => do
    let next ← f n b m
    let tail ← scan f m next rest
    some (b :: tail)

/-- See `scanNodesBack`. -/
def scanBack {β : Type} [Inhabited β] (f : SNode → SNode → β → Option β) (last : SNode → Option β) :
    List SNode → Option (List β)
  | [] => some []
  | [n] => do some [← last n]
  | n :: m :: rest => do
    let tail ← scanBack f last (m :: rest)
    let head ← f n m (tail.headD default)
    some (head :: tail)

/-! ## The loops of `update` -/

/-- `cumDist` (`search/Route.cpp` 237-244). -/
def cumDists (data : ProblemData) (v : VehicleType) : List SNode → Option (List Int)
  | [] => some []
  | n :: rest =>
    scan (fun prev d m => add d (data.dist v.profile (data.locationOf prev.activity)
      (data.locationOf m.activity))) n 0 rest

/-- `durAt[idx]` (`search/Route.cpp` 246-280). -/
def durAtOf (data : ProblemData) (v : VehicleType) (n : SNode) : Option DurSeg :=
  match n.role with
  | .start =>
    let start := data.depot v.startDepot
    merge 0 (DurSeg.ofVehicle v v.startLate) (DurSeg.ofDepot start start.serviceDuration)
  | .finish => merge 0 (DurSeg.ofDepot (data.depot v.endDepot) 0) (DurSeg.ofVehicle v v.twLate)
  | .inner =>
    match n.activity.type with
    | .depot => some (DurSeg.ofDepot (data.depot n.activity.idx) 0)
    | .client => some (DurSeg.ofClient (data.client n.activity.idx))
    | .pickup => some (DurSeg.ofStep (data.shipment n.activity.idx).pickup)
    | .delivery => some (DurSeg.ofStep (data.shipment n.activity.idx).delivery)

/-- `durBefore[idx]` given `durBefore[idx - 1]` (`search/Route.cpp` 286-303). -/
def durBeforeStep (data : ProblemData) (v : VehicleType) (prev : SNode) (before : DurSeg)
    (n : SNode) : Option DurSeg := do
  let before ← choose (prev.isReloadDepot = true) (finaliseBack before) before
  let before ← choose (prev.isReloadDepot = true)
    (merge 0 before { duration_ := (data.depot prev.activity.idx).serviceDuration }) before
  let edgeDur := data.dur v.profile (data.locationOf prev.activity) (data.locationOf n.activity)
  merge edgeDur before (← durAtOf data v n)

/-- `durBefore` (`search/Route.cpp` 284-303). -/
def durBefores (data : ProblemData) (v : VehicleType) : List SNode → Option (List DurSeg)
  | [] => some []
  | n :: rest => do scan (durBeforeStep data v) n (← durAtOf data v n) rest

/-- `durAfter[idx]` given `durAfter[next]` (`search/Route.cpp` 307-326). -/
def durAfterStep (data : ProblemData) (v : VehicleType) (n next : SNode) (after : DurSeg) :
    Option DurSeg := do
  let after ← choose (next.isReloadDepot = true) (finaliseFront after) after
  let after ← choose (n.isReloadDepot = true)
    (merge 0 { duration_ := (data.depot n.activity.idx).serviceDuration } after) after
  let edgeDur := data.dur v.profile (data.locationOf n.activity) (data.locationOf next.activity)
  merge edgeDur (← durAtOf data v n) after

/-- `durAfter` (`search/Route.cpp` 305-326). -/
def durAfters (data : ProblemData) (v : VehicleType) (nodes : List SNode) : Option (List DurSeg) :=
  scanBack (durAfterStep data v) (durAtOf data v) nodes

/-- `loadAt[dim][pos]` (`search/Route.cpp` 333-356). -/
def loadAtOf (data : ProblemData) (v : VehicleType) (dim : Nat) (n : SNode) : Option LoadSeg :=
  match n.role with
  | .start => some (LoadSeg.ofVehicle v dim)
  | .finish => some {}
  | .inner =>
    match n.activity.type with
    | .depot => some {}
    | .client => loadOfClient (data.client n.activity.idx) dim
    | .pickup => loadOfShipment (data.shipment n.activity.idx) .pickup dim
    | .delivery => loadOfShipment (data.shipment n.activity.idx) .delivery dim

/-- `loadBefore[dim][idx]` given the value at `idx - 1` (`search/Route.cpp` 360-369). -/
def loadBeforeStep (data : ProblemData) (v : VehicleType) (dim : Nat) (prev : SNode)
    (before : LoadSeg) (n : SNode) : Option LoadSeg := do
  let before ← choose (prev.isReloadDepot = true) (finalise before (v.capacity.getD dim 0)) before
  mergeLoad before (← loadAtOf data v dim n)

/-- `loadBefore[dim]` (`search/Route.cpp` 358-369). -/
def loadBefores (data : ProblemData) (v : VehicleType) (dim : Nat) :
    List SNode → Option (List LoadSeg)
  | [] => some []
  | n :: rest => do scan (loadBeforeStep data v dim) n (← loadAtOf data v dim n) rest

/-- `loadAfter[dim][prev]` given the value at `idx` (`search/Route.cpp` 379-388). -/
def loadAfterStep (data : ProblemData) (v : VehicleType) (dim : Nat) (n next : SNode)
    (after : LoadSeg) : Option LoadSeg := do
  let after ← choose (next.isReloadDepot = true) (finalise after (v.capacity.getD dim 0)) after
  mergeLoad (← loadAtOf data v dim n) after

/-- `loadAfter[dim]` (`search/Route.cpp` 377-388). -/
def loadAfters (data : ProblemData) (v : VehicleType) (dim : Nat) (nodes : List SNode) :
    Option (List LoadSeg) :=
  scanBack (loadAfterStep data v dim) (loadAtOf data v dim) nodes

/-- The loop of `load_[dim]` (`search/Route.cpp` 371-375). -/
def loadSumLoop (acc : Int) : List (SNode × LoadSeg) → Option Int
  | [] => some acc
  | p :: rest => do loadSumLoop (← add acc (← load p.2)) rest

/-- `load_[dim]` (`search/Route.cpp` 371-375). -/
def loadSum (nodes : List SNode) (before : List LoadSeg) : Option Int :=
  loadSumLoop 0 ((nodes.zip before).filter (fun p => p.1.isDepot && !p.1.isStartDepot))

/-- `update` (`search/Route.cpp` 189-407). The counters are not `int64_t`; they count the nodes. -/
def update (data : ProblemData) (r : SRoute) : Option SRoute := do
  let v := data.vehicleType r.vehicleType
  let nodes := r.nodes
  let dims := List.range data.numLoadDimensions
  let cumDist ← cumDists data v nodes
  let durAt ← each (durAtOf data v) nodes
  let durBefore ← durBefores data v nodes
  let durAfter ← durAfters data v nodes
  let loadAt ← each (fun dim => each (loadAtOf data v dim) nodes) dims
  let loadBefore ← each (fun dim => loadBefores data v dim nodes) dims
  let loadAfter ← each (fun dim => loadAfters data v dim nodes) dims
  let load ← each (loadSum nodes) loadBefore
  let excessLoad ← each (fun dim =>
    excessLoad ((loadBefore.getD dim []).getLastD {}) (v.capacity.getD dim 0)) dims
  let distance := cumDist.getLastD 0
  let excessDistance ← sub distance v.maxDistance
  let distanceCost ← mul v.unitDistanceCost distance
  let first := durAfter.headD {}
  let duration ← duration first
  let timeWarp ← timeWarp first v.maxDuration
  let overtime ← sub duration v.shiftDuration
  let durationCost ← add (← mul v.unitDurationCost duration)
    (← mul v.unitOvertimeCost (max overtime 0))
  some
    { vehicleType := r.vehicleType
      nodes := nodes
      locations := nodes.map (fun n => data.locationOf n.activity)
      numClients_ := SRoute.counts SNode.isClient nodes
      numPickups_ := SRoute.counts SNode.isPickup nodes
      numDeliveries_ := SRoute.counts SNode.isDelivery nodes
      cumDist := cumDist
      durAt := durAt
      durAfter := durAfter
      durBefore := durBefore
      loadAt := loadAt
      loadAfter := loadAfter
      loadBefore := loadBefore
      load_ := load
      excessLoad_ := excessLoad
      distance_ := distance
      distanceCost_ := distanceCost
      excessDistance_ := max excessDistance 0
      duration_ := duration
      durationCost_ := durationCost
      timeWarp_ := timeWarp }

/-- `CostEvaluator::penalisedCost(search::Route)` for a route that is not empty
(`search/Route.h` 1345-1356). -/
def penalisedCostSearchNonEmpty (ce : CostEvaluator) (data : ProblemData) (r : SRoute) :
    Option Int := do
  let cost ← add r.distanceCost_ r.durationCost_
  let cost ← add cost (data.vehicleType r.vehicleType).fixedCost
  let cost ← add cost (← excessLoadPenalties ce r.excessLoad_)
  let cost ← add cost (← twPenalty ce r.timeWarp_)
  add cost (← distPenalty ce r.excessDistance_ 0)

/-- `CostEvaluator::penalisedCost(search::Route)` (`search/Route.h` 1340-1357). -/
def penalisedCostSearch (ce : CostEvaluator) (data : ProblemData) (r : SRoute) : Option Int :=
  ternary (¬ r.empty = true) (penalisedCostSearchNonEmpty ce data r) 0

/-! ## Segments -/

/-- A segment (see `PyVRP.Seg`), with the checked computations of its distance, duration and load. The
computations of `plain` itself are not used. -/
structure Seg where
  plain : PyVRP.Seg
  distance : Nat → Option Int
  duration : Nat → Option DurSeg
  load : Nat → Option LoadSeg

/-- `SegmentBefore` (`search/Route.h` 773-820). -/
def before (r : SRoute) (e : Nat) : Seg :=
  { plain := r.before e
    distance := fun _ => some (r.cumDist.getD e 0)
    duration := fun _ => some (r.durBefore.getD e {})
    load := fun dim => some ((r.loadBefore.getD dim []).getD e {}) }

/-- `SegmentAfter` (`search/Route.h` 755-771, 822-856). -/
def after (r : SRoute) (s : Nat) : Seg :=
  { plain := r.after s
    distance := fun _ => sub (r.cumDist.getLastD 0) (r.cumDist.getD s 0)
    duration := fun _ => some (r.durAfter.getD s {})
    load := fun dim => some ((r.loadAfter.getD dim []).getD s {}) }

/-- The loop of `SegmentBetween::distance` (`search/Route.h` 900-912). -/
def betweenDistance (data : ProblemData) (profile : Nat) (r : SRoute) (step : Nat) :
    Nat → Int → Option Int
  | 0, acc => some acc
  | n + 1, acc => do
    betweenDistance data profile r (step + 1) n
      (← add acc (data.dist profile (r.locations.getD step 0) (r.locations.getD (step + 1) 0)))

/-- The loop of `SegmentBetween::duration` (`search/Route.h` 933-939). -/
def betweenDuration (data : ProblemData) (profile : Nat) (r : SRoute) (step : Nat) :
    Nat → DurSeg → Option DurSeg
  | 0, ds => some ds
  | n + 1, ds => do
    betweenDuration data profile r (step + 1) n
      (← merge (data.dur profile (r.locations.getD step 0) (r.locations.getD (step + 1) 0)) ds
        (r.durAt.getD (step + 1) {}))

/-- The loop of `SegmentBetween::load` (`search/Route.h` 949-950). -/
def betweenLoad (loads : List LoadSeg) (step : Nat) : Nat → LoadSeg → Option LoadSeg
  | 0, ls => some ls
  | n + 1, ls => do betweenLoad loads (step + 1) n (← mergeLoad ls (loads.getD (step + 1) {}))

/-- `SegmentBetween` (`search/Route.h` 858-953). -/
def between (data : ProblemData) (r : SRoute) (s e : Nat) : Seg :=
  { plain := r.between data s e
    distance := fun profile =>
      if profile ≠ (data.vehicleType r.vehicleType).profile then
        betweenDistance data profile r s (e - s) 0
      else sub (r.cumDist.getD e 0) (r.cumDist.getD s 0)
    duration := fun profile => do
      let segment := r.durAt.getD s {}
      let segment ← choose (e - s + 1 ≠ 1 ∧ (r.node s).isReloadDepot)
        (merge 0 segment { duration_ := (data.depot (r.node s).activity.idx).serviceDuration })
        segment
      betweenDuration data profile r s (e - s) segment
    load := fun dim =>
      betweenLoad (r.loadAt.getD dim []) s (e - s) ((r.loadAt.getD dim []).getD s {}) }

/-- `ClientSegment` (`search/ClientSegment.h` 15-60). -/
def client (data : ProblemData) (i : Nat) : Seg :=
  { plain := .client data i
    distance := fun _ => some 0
    duration := fun _ => some (DurSeg.ofClient (data.client i))
    load := fun dim => loadOfClient (data.client i) dim }

/-- `DepotSegment` (`search/DepotSegment.h` 15-60). -/
def depot (data : ProblemData) (i : Nat) : Seg :=
  { plain := .depot data i
    distance := fun _ => some 0
    duration := fun _ => some (DurSeg.ofDepot (data.depot i) 0)
    load := fun _ => some {} }

/-- `PickupSegment` (`search/PickupSegment.h` 15-62). -/
def pickup (data : ProblemData) (i : Nat) : Seg :=
  { plain := .pickup data i
    distance := fun _ => some 0
    duration := fun _ => some (DurSeg.ofStep (data.shipment i).pickup)
    load := fun dim => loadOfShipment (data.shipment i) .pickup dim }

/-- `DeliverySegment` (`search/DeliverySegment.h` 15-62). -/
def delivery (data : ProblemData) (i : Nat) : Seg :=
  { plain := .delivery data i
    distance := fun _ => some 0
    duration := fun _ => some (DurSeg.ofStep (data.shipment i).delivery)
    load := fun dim => loadOfShipment (data.shipment i) .delivery dim }

/-! ## Proposals -/

/-- `Proposal` (`search/Route.h` 90-125), see `PyVRP.Proposal`. -/
structure Proposal where
  route : SRoute
  first : Seg
  rest : List Seg

namespace Proposal

/-- The lambda `merge` in `Proposal::distance` (`search/Route.h` 1204-1212). -/
def distanceLoop (data : ProblemData) (profile : Nat) (distance : Int) (lastLoc : Nat) :
    List Seg → Option Int
  | [] => some distance
  | other :: args => do
    let distance ← add distance (data.dist profile lastLoc other.plain.frontLoc)
    let distance ← add distance (← other.distance profile)
    distanceLoop data profile distance other.plain.backLoc args

/-- `Proposal::distance` (`search/Route.h` 1190-1222). -/
def distance (data : ProblemData) (p : Proposal) : Option (Int × Int) := do
  let v := data.vehicleType p.route.vehicleType
  let first ← p.first.distance v.profile
  let distance ← distanceLoop data v.profile first p.first.plain.backLoc p.rest
  some (← mul v.unitDistanceCost distance, max (← sub distance v.maxDistance) 0)

/-- One call of the lambda `merge` in `Proposal::duration` up to the merge with the other segment
(`search/Route.h` 1248-1267). -/
def durationStep (data : ProblemData) (profile : Nat) (edgeDur : Int) (other : Seg) (ds : DurSeg) :
    Option DurSeg := do
  let depot := data.depot other.plain.backActivity.idx
  let atDepot ← choose (other.plain.endsAtReloadDepot = true)
    (do finaliseFront (← merge edgeDur (DurSeg.ofDepot depot depot.serviceDuration) ds)) ds
  merge (if other.plain.endsAtReloadDepot = true then 0 else edgeDur) (← other.duration profile)
    atDepot

/-- The lambda `merge` in `Proposal::duration` (`search/Route.h` 1247-1280). -/
def durationLoop (data : ProblemData) (profile : Nat) (ds : DurSeg) (firstLoc : Nat) :
    List Seg → Option DurSeg
  | [] => some ds
  | other :: args => do
    let edgeDur := data.dur profile other.plain.backLoc firstLoc
    let ds ← durationStep data profile edgeDur other ds
    let ds ← choose (args ≠ [] ∧ other.plain.startsAtReloadDepot ∧ other.plain.size > 1)
      (finaliseFront ds) ds
    durationLoop data profile ds other.plain.frontLoc args

/-- The segment computed by `Proposal::duration` (`search/Route.h` 1239-1282). -/
def durationSeg (data : ProblemData) (p : Proposal) : Option DurSeg :=
  let profile := (data.vehicleType p.route.vehicleType).profile
  match (p.first :: p.rest).reverse with
  | [] => some {}
  | segment :: args => do
    let ds ← segment.duration profile
    let ds ← choose (segment.plain.startsAtReloadDepot = true) (finaliseFront ds) ds
    durationLoop data profile ds segment.plain.frontLoc args

/-- `Proposal::duration` (`search/Route.h` 1224-1293). -/
def duration (data : ProblemData) (p : Proposal) : Option (Int × Int) := do
  let v := data.vehicleType p.route.vehicleType
  let ds ← p.durationSeg data
  let duration ← I64.duration ds
  let overtime := max (← sub duration v.shiftDuration) 0
  let cost ← add (← mul v.unitDurationCost duration) (← mul v.unitOvertimeCost overtime)
  some (cost, ← timeWarp ds v.maxDuration)

/-- The lambda `merge` in `Proposal::excessLoad` (`search/Route.h` 1308-1323). -/
def loadLoop (capacity : Int) (dim : Nat) (ls : LoadSeg) : List Seg → Option LoadSeg
  | [] => some ls
  | other :: args => do
    let ls ← choose (other.plain.startsAtReloadDepot = true) (finalise ls capacity) ls
    let ls ← mergeLoad ls (← other.load dim)
    let ls ← choose (args ≠ [] ∧ other.plain.endsAtReloadDepot ∧ other.plain.size > 1)
      (finalise ls capacity) ls
    loadLoop capacity dim ls args

/-- `Proposal::excessLoad` (`search/Route.h` 1295-1329). -/
def excessLoad (data : ProblemData) (p : Proposal) (dim : Nat) : Option Int := do
  let capacity := (data.vehicleType p.route.vehicleType).capacity.getD dim 0
  let ls ← p.first.load dim
  let ls ← choose (p.first.plain.endsAtReloadDepot = true) (finalise ls capacity) ls
  I64.excessLoad (← loadLoop capacity dim ls p.rest) capacity

end Proposal

/-! ## Delta costs -/

/-- `loadPenalty` (`CostEvaluator.h` 187-194). -/
def loadPenalty (ce : CostEvaluator) (load capacity : Int) (dim : Nat) : Option Int := do
  chk ((ce.loadPenalties.getD dim (fun _ => 0)) (max (← sub load capacity) 0))

/-- `excessDistPenalty` (`CostEvaluator.h` 207-210). -/
def excessDistPenalty (ce : CostEvaluator) (excess : Int) : Option Int := chk (ce.distPenalty_ excess)

/-- The block `if (route->hasDistanceCost())` of `deltaCost` (`CostEvaluator.h` 230-235, 274-287). -/
def deltaDistance (ce : CostEvaluator) (data : ProblemData) (p : Proposal) (out : Int) : Option Int :=
  ternary (p.route.hasDistanceCost data = true)
    (do
      let d ← p.distance data
      add (← add out d.1) (← excessDistPenalty ce d.2))
    out

/-- The loop over the load dimensions in `deltaCost` (`CostEvaluator.h` 237-245, 289-307). -/
def deltaLoad (exact : Bool) (ce : CostEvaluator) (data : ProblemData) (p : Proposal) :
    List Nat → Int → Option (Int × Bool)
  | [], out => some (out, true)
  | dim :: rest, out =>
    if (!exact && decide (out ≥ 0)) = true then some (out, false)
    else do
      let penalty ← loadPenalty ce (← p.excessLoad data dim) 0 dim
      deltaLoad exact ce data p rest (← add out penalty)

/-- The block `if (route->hasDurationCost())` of `deltaCost` (`CostEvaluator.h` 247-252, 313-325). -/
def deltaDuration (ce : CostEvaluator) (data : ProblemData) (p : Proposal) (out : Int) : Option Int :=
  ternary (p.route.hasDurationCost data = true)
    (do
      let d ← p.duration data
      add (← add out d.1) (← twPenalty ce d.2))
    out

/-- The load dimensions of the proposal's route: `0, ..., capacity.size() - 1`. -/
def dims (data : ProblemData) (p : Proposal) : List Nat :=
  List.range (data.vehicleType p.route.vehicleType).capacity.length

/-- `deltaCost<exact>(out, proposal)` (`CostEvaluator.h` 220-254). -/
def deltaCost (exact : Bool) (ce : CostEvaluator) (data : ProblemData) (out : Int) (p : Proposal) :
    Option (Int × Bool) := do
  let out ← sub out (← penalisedCostSearch ce data p.route)
  let out ← add out (data.vehicleType p.route.vehicleType).fixedCost
  let out ← deltaDistance ce data p out
  let res ← deltaLoad exact ce data p (dims data p) out
  match res with
  | (out, false) => some (out, false)
  | (out, true) => do some (← deltaDuration ce data p out, true)

/-- `deltaCost<exact>(out, uProposal, vProposal)` (`CostEvaluator.h` 256-329). -/
def deltaCost2 (exact : Bool) (ce : CostEvaluator) (data : ProblemData) (out : Int)
    (u v : Proposal) : Option (Int × Bool) := do
  let out ← sub out (← penalisedCostSearch ce data u.route)
  let out ← sub out (← penalisedCostSearch ce data v.route)
  let out ← add out (data.vehicleType u.route.vehicleType).fixedCost
  let out ← add out (data.vehicleType v.route.vehicleType).fixedCost
  let out ← deltaDistance ce data u out
  let out ← deltaDistance ce data v out
  let res ← deltaLoad exact ce data u (dims data u) out
  match res with
  | (out, false) => some (out, false)
  | (out, true) => do
    let res ← deltaLoad exact ce data v (dims data v) out
    match res with
    | (out, false) => some (out, false)
    | (out, true) =>
      if (!exact && decide (out ≥ 0)) = true then some (out, false)
      else do
        let out ← deltaDuration ce data u out
        some (← deltaDuration ce data v out, true)

end PyVRP.I64
