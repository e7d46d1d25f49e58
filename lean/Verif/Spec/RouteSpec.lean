import Verif.Model.Data
import Verif.Spec.Drive
import Verif.Spec.Load
/-!
# Specification: what a route is, in terms of the problem data

The attributes of an activity are looked up here independently of the model of `Route.cpp`.
-/
namespace PyVRP.Spec

/-- All activities of a route, with the start and end depots of its vehicle type. -/
def fullActs (v : VehicleType) (acts : List Activity) : List Activity :=
  ⟨.depot, v.startDepot⟩ :: acts ++ [⟨.depot, v.endDepot⟩]

/-- Where an activity takes place. -/
def place (data : ProblemData) (a : Activity) : Nat :=
  match a.type with
  | .depot => (data.depot a.idx).location
  | .client => (data.client a.idx).location
  | .pickup => (data.shipment a.idx).pickup.location
  | .delivery => (data.shipment a.idx).delivery.location

/-- When an activity may start at the earliest. -/
def earliest (data : ProblemData) (a : Activity) : Int :=
  match a.type with
  | .depot => (data.depot a.idx).twEarly
  | .client => (data.client a.idx).twEarly
  | .pickup => (data.shipment a.idx).pickup.twEarly
  | .delivery => (data.shipment a.idx).delivery.twEarly

/-- When an activity may start at the latest. -/
def latest (data : ProblemData) (a : Activity) : Int :=
  match a.type with
  | .depot => (data.depot a.idx).twLate
  | .client => (data.client a.idx).twLate
  | .pickup => (data.shipment a.idx).pickup.twLate
  | .delivery => (data.shipment a.idx).delivery.twLate

/-- How long an activity takes. -/
def serviceTime (data : ProblemData) (a : Activity) : Int :=
  match a.type with
  | .depot => (data.depot a.idx).serviceDuration
  | .client => (data.client a.idx).serviceDuration
  | .pickup => (data.shipment a.idx).pickup.serviceDuration
  | .delivery => (data.shipment a.idx).delivery.serviceDuration

/-- When the goods for an activity become available at the depot. -/
def released (data : ProblemData) (a : Activity) : Int :=
  match a.type with
  | .client => (data.client a.idx).releaseTime
  | _ => 0

/-- Sum of `f` over consecutive pairs. -/
def legSum (f : Nat → Nat → Int) : List Nat → Int
  | [] => 0
  | [_] => 0
  | x :: y :: rest => f x y + legSum f (y :: rest)

/-! ## Times -/

/-- The release time of the trip that starts just before these activities: the latest release
time of the activities up to the next depot visit. -/
def tripRelease (data : ProblemData) : List Activity → Int
  | [] => 0
  | a :: rest => if a.type = .depot then 0 else max (released data a) (tripRelease data rest)

/-- The stops after leaving `loc`. At a reload depot the vehicle must wait for the release
of the next trip. At the end depot no service takes place, and the vehicle's shift must end in
time. -/
def stopsFrom (data : ProblemData) (v : VehicleType) (loc : Nat) : List Activity → List Stop
  | [] =>
    [ { travel := data.dur v.profile loc (data.depot v.endDepot).location
        ready := (data.depot v.endDepot).twEarly
        late := (data.depot v.endDepot).twLate
        service := 0 },
      { travel := 0, ready := v.twEarly, late := v.twLate, service := 0 } ]
  | a :: rest =>
    { travel := data.dur v.profile loc (place data a)
      ready := if a.type = .depot then max (earliest data a) (tripRelease data rest)
               else earliest data a
      late := latest data a
      service := serviceTime data a } :: stopsFrom data v (place data a) rest

/-- All stops of a route: the vehicle becomes available, the start depot, and the rest. -/
def routeStops (data : ProblemData) (v : VehicleType) (acts : List Activity) : List Stop :=
  { travel := 0, ready := v.twEarly, late := v.startLate, service := 0 }
  :: { travel := 0
       ready := (data.depot v.startDepot).twEarly
       late := (data.depot v.startDepot).twLate
       service := (data.depot v.startDepot).serviceDuration }
  :: stopsFrom data v (data.depot v.startDepot).location acts

/-- What the theorems on times need of the data. All but the upper bounds `HALF` on earliest and
release times and the non-negative durations are guaranteed by the constructors (C36) and the
range of `Duration`. -/
structure TimesOk (data : ProblemData) : Prop where
  clients : ∀ c ∈ data.clients, 0 ≤ c.twEarly ∧ c.twEarly ≤ c.twLate ∧ c.twLate ≤ MAX
    ∧ c.twEarly ≤ HALF ∧ 0 ≤ c.serviceDuration ∧ 0 ≤ c.releaseTime ∧ c.releaseTime ≤ HALF
  depots : ∀ c ∈ data.depots, 0 ≤ c.twEarly ∧ c.twEarly ≤ c.twLate ∧ c.twLate ≤ MAX
    ∧ c.twEarly ≤ HALF ∧ 0 ≤ c.serviceDuration
  pickups : ∀ s ∈ data.shipments, 0 ≤ s.pickup.twEarly ∧ s.pickup.twEarly ≤ s.pickup.twLate
    ∧ s.pickup.twLate ≤ MAX ∧ s.pickup.twEarly ≤ HALF ∧ 0 ≤ s.pickup.serviceDuration
  deliveries : ∀ s ∈ data.shipments, 0 ≤ s.delivery.twEarly
    ∧ s.delivery.twEarly ≤ s.delivery.twLate
    ∧ s.delivery.twLate ≤ MAX ∧ s.delivery.twEarly ≤ HALF ∧ 0 ≤ s.delivery.serviceDuration
  vehicles : ∀ v ∈ data.vehicleTypes, 0 ≤ v.twEarly ∧ v.twEarly ≤ v.startLate
    ∧ v.startLate ≤ v.twLate ∧ v.twLate ≤ MAX ∧ v.twEarly ≤ HALF
  durations : ∀ m ∈ data.durs, ∀ x ∈ m.data, 0 ≤ x

/-! ## Loads -/

/-- The load events of one dimension at an activity. -/
def loadEvent (data : ProblemData) (dim : Nat) (a : Activity) : LoadEvent :=
  match a.type with
  | .depot => ⟨0, 0⟩
  | .client =>
    ⟨(data.client a.idx).delivery.getD dim 0,
      (data.client a.idx).pickup.getD dim 0 - (data.client a.idx).delivery.getD dim 0⟩
  | .pickup => ⟨0, (data.shipment a.idx).amount.getD dim 0⟩
  | .delivery => ⟨0, - (data.shipment a.idx).amount.getD dim 0⟩

/-- The trips of a route: the activities split at the reload depots. -/
def trips : List Activity → List (List Activity)
  | [] => [[]]
  | a :: rest =>
    if a.type = .depot then [] :: trips rest
    else match trips rest with
      | [] => [[a]]
      | t :: ts => (a :: t) :: ts

/-- The amounts on board over time, for each trip; `extra` is on board during the first trip. -/
def routeAmounts (data : ProblemData) (dim : Nat) (extra : Int) (acts : List Activity) :
    List (List Int) :=
  match trips acts with
  | [] => []
  | t :: ts =>
    tripAmounts extra (t.map (loadEvent data dim))
      :: ts.map (fun t => tripAmounts 0 (t.map (loadEvent data dim)))

end PyVRP.Spec
