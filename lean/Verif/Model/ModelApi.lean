import Verif.Model.Data
/-!
# `pyvrp/Model.py`

Python objects are identified by numbers. `Model` looks objects up by identity, so the locations,
depots, groups and profiles of a model are kept with their identity. Groups and profiles can change
after they have been added, so what they hold is kept in a heap, which also has those that do not
belong to the model. Distances and durations are unbounded integers.
-/
namespace PyVRP

/-- Python exceptions: `KeyError`, or those of the data classes. -/
inductive ApiError where
  | keyError
  | error (e : Error)
deriving DecidableEq, Repr

namespace ModelApi

/-- `MAX_VALUE` (`constants.py` 3). -/
def MAX_VALUE : Int := 17592186044416

/-- `Edge` (`Model.py` 27-62); `frm` and `dest` identify location objects. -/
structure Edge where
  frm : Nat
  dest : Nat
  distance : Int
  duration : Int
deriving DecidableEq, Repr

/-- `Edge.__init__` (`Model.py` 40-62). Warnings are left out. -/
def Edge.make (e : Edge) : Except ApiError Edge :=
  if e.distance < 0 ∨ e.duration < 0 then
    .error (.error (.invalidArgument "Cannot have negative edge distance or duration."))
  else if e.frm = e.dest ∧ (e.distance ≠ 0 ∨ e.duration ≠ 0) then
    .error (.error (.invalidArgument "A self loop must have 0 distance and duration."))
  else .ok e

/-- `Model` (`Model.py` 107-115). -/
structure PyModel where
  locations : List (Nat × Location) := []
  clients : List Client := []
  depots : List (Nat × Depot) := []
  edges : List Edge := []
  groups : List Nat := []
  shipments : List Shipment := []
  profiles : List Nat := []
  vehicleTypes : List VehicleType := []
  /-- What the group objects hold. -/
  groupHeap : Nat → ClientGroup := fun _ => default
  /-- The edges of the profile objects. -/
  profileHeap : Nat → List Edge := fun _ => []

/-- `_idx_by_id` (`Model.py` 640-651). -/
def idxById (ref : Nat) : List Nat → Option Nat
  | [] => none
  | r :: rest => if r = ref then some 0 else (idxById ref rest).map (· + 1)

/-- Lookup that raises a `ValueError`. -/
def lookup (ref : Nat) (container : List Nat) (msg : String) : Except ApiError Nat :=
  match idxById ref container with
  | some idx => .ok idx
  | none => .error (.error (.invalidArgument msg))

/-- Optional lookup, with a default when no object is given. -/
def lookupOpt (ref : Option Nat) (container : List Nat) (msg : String) : Except ApiError (Option Nat) :=
  match ref with
  | none => .ok none
  | some ref =>
    match lookup ref container msg with
    | .ok idx => .ok (some idx)
    | .error e => .error e

/-- Lookup of the reload depots (`Model.py` 487-494). -/
def lookupAll (container : List Nat) (msg : String) : List Nat → Except ApiError (List Nat)
  | [] => .ok []
  | ref :: rest =>
    match lookup ref container msg with
    | .error e => .error e
    | .ok idx =>
      match lookupAll container msg rest with
      | .error e => .error e
      | .ok idxs => .ok (idx :: idxs)

/-- An exception of a data class. -/
def lift {α : Type} : Except Error α → Except ApiError α
  | .ok x => .ok x
  | .error e => .error (.error e)

/-- A call to one of the model's methods. The first argument of `location`, `profile`, `depot` and
`group` is the identity of the object that the call creates; the indices in the other arguments are
replaced by those looked up. -/
inductive Call where
  | location (ref : Nat) (loc : Location)
  | profile (ref : Nat)
  | edge (e : Edge) (profile : Option Nat)
  | depot (ref : Nat) (location : Nat) (args : Depot)
  | group (ref : Nat) (required : Bool) (name : String)
  | client (location : Nat) (group : Option Nat) (args : Client)
  | shipment (pickup delivery : Nat) (args : Shipment)
  | vehicleType (startDepot endDepot profile : Option Nat) (reloadDepots : List Nat)
      (args : VehicleTypeArgs)

/-- Update of a heap. -/
def write {α : Type} (heap : Nat → α) (ref : Nat) (x : α) : Nat → α :=
  fun r => if r = ref then x else heap r

namespace PyModel

def locationRefs (m : PyModel) : List Nat := m.locations.map (·.1)
def depotRefs (m : PyModel) : List Nat := m.depots.map (·.1)

/-- `add_client` (`Model.py` 237-298). -/
def addClient (m : PyModel) (location : Nat) (group : Option Nat) (args : Client) :
    Except ApiError PyModel :=
  match lookupOpt group m.groups "The given group is not in this model instance." with
  | .error e => .error e
  | .ok groupIdx =>
    match lookup location m.locationRefs "The given location is not in this model instance." with
    | .error e => .error e
    | .ok locationIdx =>
      if args.required ∧ group.isSome then
        .error (.error (.invalidArgument "Required client in mutually exclusive group."))
      else
        match lift (Client.make { args with location := locationIdx, group := groupIdx }) with
        | .error e => .error e
        | .ok client =>
          match group with
          | none => .ok { m with clients := m.clients ++ [client] }
          | some ref =>
            match lift ((m.groupHeap ref).addClient m.clients.length) with
            | .error e => .error e
            | .ok grp => .ok { m with
                groupHeap := write m.groupHeap ref grp
                clients := m.clients ++ [client] }

/-- `add_shipment` (`Model.py` 300-345). -/
def addShipment (m : PyModel) (pickup delivery : Nat) (args : Shipment) :
    Except ApiError PyModel :=
  match lookup pickup m.locationRefs "The given pickup location is not in this model instance." with
  | .error e => .error e
  | .ok p =>
    match lookup delivery m.locationRefs
        "The given delivery location is not in this model instance." with
    | .error e => .error e
    | .ok d =>
      match lift (Shipment.make { args with
          pickup := { args.pickup with location := p }
          delivery := { args.delivery with location := d } }) with
      | .error e => .error e
      | .ok shipment => .ok { m with shipments := m.shipments ++ [shipment] }

/-- `add_depot` (`Model.py` 358-384). -/
def addDepot (m : PyModel) (ref location : Nat) (args : Depot) : Except ApiError PyModel :=
  match lookup location m.locationRefs "The given location is not in this model instance." with
  | .error e => .error e
  | .ok idx =>
    match lift (Depot.make { args with location := idx }) with
    | .error e => .error e
    | .ok depot => .ok { m with depots := m.depots ++ [(ref, depot)] }

/-- `add_edge` (`Model.py` 386-418), and `Profile.add_edge` (84-96). -/
def addEdge (m : PyModel) (e : Edge) (profile : Option Nat) : Except ApiError PyModel :=
  match Edge.make e with
  | .error err => .error err
  | .ok edge =>
    match profile with
    | some ref => .ok { m with
        profileHeap := write m.profileHeap ref (m.profileHeap ref ++ [edge]) }
    | none => .ok { m with edges := m.edges ++ [edge] }

/-- `add_vehicle_type` (`Model.py` 428-523). -/
def addVehicleType (m : PyModel) (startDepot endDepot profile : Option Nat)
    (reloadDepots : List Nat) (args : VehicleTypeArgs) : Except ApiError PyModel :=
  match lookupOpt startDepot m.depotRefs "The given start depot is not in this model." with
  | .error e => .error e
  | .ok s =>
    match lookupOpt endDepot m.depotRefs "The given end depot is not in this model." with
    | .error e => .error e
    | .ok t =>
      match lookupOpt profile m.profiles "The given profile is not in this model." with
      | .error e => .error e
      | .ok p =>
        match lookupAll m.depotRefs "The given reload depot is not in this model." reloadDepots with
        | .error e => .error e
        | .ok reloads =>
          match lift (VehicleType.make { args with
              startDepot := s.getD 0, endDepot := t.getD 0, profile := p.getD 0
              reloadDepots := reloads }) with
          | .error e => .error e
          | .ok v => .ok { m with vehicleTypes := m.vehicleTypes ++ [v] }

/-- One call. A call that raises leaves the model as it was. -/
def exec (m : PyModel) : Call → Except ApiError PyModel
  -- `add_location` (`Model.py` 217-235)
  | .location ref loc => .ok { m with locations := m.locations ++ [(ref, loc)] }
  -- `add_profile` (`Model.py` 420-426), `Profile.__init__` (80-82)
  | .profile ref => .ok { m with
      profiles := m.profiles ++ [ref], profileHeap := write m.profileHeap ref [] }
  -- `add_client_group` (`Model.py` 347-356)
  | .group ref required name => .ok { m with
      groups := m.groups ++ [ref]
      groupHeap := write m.groupHeap ref { clients := [], required := required, name := name } }
  | .edge e profile => m.addEdge e profile
  | .depot ref location args => m.addDepot ref location args
  | .client location group args => m.addClient location group args
  | .shipment p d args => m.addShipment p d args
  | .vehicleType s e p r args => m.addVehicleType s e p r args

/-! ## `data` -/

/-- A two-dimensional array while it is being filled. -/
abbrev Array2 := Nat → Nat → Int

def Array2.set (a : Array2) (i j : Nat) (x : Int) : Array2 :=
  fun i' j' => if i' = i ∧ j' = j then x else a i' j'

def Array2.toMatrix (a : Array2) (n : Nat) : Matrix :=
  ⟨n, n, (List.range (n * n)).map fun k => a (k / n) (k % n)⟩

/-- The loops over edges (`Model.py` 548-552, 562-566). `loc2idx` finds the last index, but
identities are distinct. -/
def setEdges (refs : List Nat) : List Edge → Array2 × Array2 → Except ApiError (Array2 × Array2)
  | [], arrays => .ok arrays
  | e :: rest, (dist, dur) =>
    match idxById e.frm refs with
    | none => .error .keyError
    | some i =>
      match idxById e.dest refs with
      | none => .error .keyError
      | some j => setEdges refs rest (dist.set i j e.distance, dur.set i j e.duration)

/-- The loop over the profiles (`Model.py` 556-569). -/
def profileArrays (refs : List Nat) (heap : Nat → List Edge) (base : Array2 × Array2) :
    List Nat → Except ApiError (List (Array2 × Array2))
  | [] => .ok []
  | p :: rest =>
    match setEdges refs (heap p) base with
    | .error e => .error e
    | .ok arrays =>
      match profileArrays refs heap base rest with
      | .error e => .error e
      | .ok others => .ok (arrays :: others)

/-- The arrays before any edge (`Model.py` 541-546). -/
def blank (missingValue : Int) : Array2 := fun i j => if i = j then 0 else min missingValue MAX_VALUE

/-- `data` (`Model.py` 525-586). -/
def data (m : PyModel) (missingValue : Int := MAX_VALUE) : Except ApiError ProblemData :=
  match setEdges m.locationRefs m.edges (blank missingValue, blank missingValue) with
  | .error e => .error e
  | .ok base =>
    match profileArrays m.locationRefs m.profileHeap base m.profiles with
    | .error e => .error e
    | .ok arrays =>
      let arrays := if m.profiles = [] then [base] else arrays
      lift (ProblemData.make {
        locations := m.locations.map (·.2)
        clients := m.clients
        depots := m.depots.map (·.2)
        vehicleTypes := m.vehicleTypes
        dists := arrays.map (fun a => a.1.toMatrix m.locations.length)
        durs := arrays.map (fun a => a.2.toMatrix m.locations.length)
        groups := m.groups.map m.groupHeap
        shipments := m.shipments })

/-! ## `from_data` -/

/-- Edges of one row (`Model.py` 199-201). -/
def rowEdges (dist dur : Matrix) (frm : Nat) : List Nat → Except ApiError (List Edge)
  | [] => .ok []
  | dest :: rest =>
    match Edge.make ⟨frm, dest, dist.get frm dest, dur.get frm dest⟩ with
    | .error e => .error e
    | .ok edge =>
      match rowEdges dist dur frm rest with
      | .error e => .error e
      | .ok edges => .ok (edge :: edges)

/-- Edges of one profile (`Model.py` 193-202). -/
def profileEdges (dist dur : Matrix) (n : Nat) : List Nat → Except ApiError (List Edge)
  | [] => .ok []
  | frm :: rest =>
    match rowEdges dist dur frm (List.range n) with
    | .error e => .error e
    | .ok edges =>
      match profileEdges dist dur n rest with
      | .error e => .error e
      | .ok others => .ok (edges ++ others)

/-- All profiles (`Model.py` 191-203). -/
def allProfileEdges (n : Nat) : List (Matrix × Matrix) → Except ApiError (List (List Edge))
  | [] => .ok []
  | (dist, dur) :: rest =>
    match profileEdges dist dur n (List.range n) with
    | .error e => .error e
    | .ok edges =>
      match allProfileEdges n rest with
      | .error e => .error e
      | .ok others => .ok (edges :: others)

/-- `from_data` (`Model.py` 170-215). The objects are those of the data: in particular
`data.groups()` gives references to the groups inside the data (`bindings.cpp` 699-702), which are
the groups with identities `0, 1, ...` here. -/
def fromData (d : ProblemData) : Except ApiError PyModel :=
  match allProfileEdges d.numLocations (d.dists.zip d.durs) with
  | .error e => .error e
  | .ok edges => .ok {
      locations := (List.range d.locations.length).zip d.locations
      clients := d.clients
      depots := (List.range d.depots.length).zip d.depots
      groups := List.range d.groups.length
      shipments := d.shipments
      profiles := List.range edges.length
      vehicleTypes := d.vehicleTypes
      groupHeap := fun ref => d.groups.getD ref default
      profileHeap := fun ref => edges.getD ref [] }

/-- The problem data that a model was made from, as it is now: its groups are shared with the
model. -/
def originalNow (d : ProblemData) (m : PyModel) : ProblemData :=
  { d with groups := (List.range d.groups.length).map m.groupHeap }

end PyModel
end ModelApi
end PyVRP
