import Verif.Model.Solution
import Verif.Model.Csv
/-!
# Solution files: `write_solution` of `pyvrp/cli.py` and `read_solution` of `pyvrp/read.py`

A file is its text. The file format is read by `vrplib.read_solution`, which is not part of the
repository; `parseRoutes` models what it does with the lines of a solution file.
-/
namespace PyVRP
open Csv

namespace Py

/-- The position of a Python index, which counts from the end if it is negative. -/
def position (n : Nat) (i : Int) : Option Nat :=
  if 0 ≤ i then (if i < n then some i.toNat else none)
  else if -n ≤ i then some (i + n).toNat else none

/-- `l[i]`. -/
def get {α : Type} (l : List α) (i : Int) : Except Error α :=
  match (position l.length i).bind (l[·]?) with
  | some a => .ok a
  | none => .error (.outOfRange "list index out of range")

/-- `l[i] = f(l[i])`. -/
def modify {α : Type} (l : List α) (i : Int) (f : α → α) : Except Error (List α) :=
  match position l.length i with
  | none => .error (.outOfRange "list index out of range")
  | some k =>
    match l[k]? with
    | none => .error (.outOfRange "list index out of range")
    | some a => .ok (l.set k (f a))

/-- `[f(x) for x in l]`, where `f` may raise. -/
def mapE {α β : Type} (f : α → Except Error β) : List α → Except Error (List β)
  | [] => .ok []
  | a :: l =>
    match f a with
    | .error e => .error e
    | .ok b =>
      match mapE f l with
      | .error e => .error e
      | .ok bs => .ok (b :: bs)

/-- `text.split(sep)` for a single character. -/
def split (sep : Char) : Text → List Text
  | [] => [[]]
  | c :: cs =>
    if c = sep then [] :: split sep cs
    else
      match split sep cs with
      | [] => [[c]]
      | w :: ws => (c :: w) :: ws

/-- `sep.join(parts)`. -/
def join (sep : Text) : List Text → Text
  | [] => []
  | [t] => t
  | t :: ts => t ++ sep ++ join sep ts

/-- `text.strip()`. -/
def strip (t : Text) : Text := ((t.dropWhile isSpace).reverse.dropWhile isSpace).reverse

/-- `needle in text`. -/
def contains (needle : Text) : Text → Bool
  | [] => needle.isPrefixOf []
  | c :: cs => needle.isPrefixOf (c :: cs) || contains needle cs

/-- `int(text)`; see `Csv.readInt`. -/
def int (t : Text) : Except Error Int :=
  match readInt t with
  | some n => .ok n
  | none => .error (.invalidArgument "invalid literal for int()")

end Py

namespace SolutionFile

/-- `route2vrplib` (`cli.py` 42-69). -/
def visits (data : ProblemData) (r : Route) : List Nat :=
  ((r.schedule.map fun a => data.locationOf a.activity).drop 1).dropLast

/-- `' '.join(map(str, visits))`. -/
def visitText (vs : List Nat) : Text := Py.join [' '] (vs.map decimal)

/-- `f"Route #{idx}:"`. -/
def label (idx : Nat) : Text := "Route #".toList ++ decimal idx ++ [':']

/-- The line with the cost (`cli.py` 77, 96); the text of the rounded cost is given. -/
def costLine (cost : Text) : Text := "Cost: ".toList ++ cost ++ ['\n']

/-- The lines when there is one vehicle type (`cli.py` 73-75), from route `idx` on. -/
def plainLines (data : ProblemData) (idx : Nat) : List Route → Text
  | [] => []
  | r :: rs => label idx ++ [' '] ++ visitText (visits data r) ++ ['\n'] ++ plainLines data (idx + 1) rs

/-- `next(type2vehicle[vehicle_type])` (`cli.py` 92): the next vehicle of the type, and what remains of
the generators. The parts of a name become numbers only now. -/
def nextVehicle (type2vehicle : List (List Text)) (vehicleType : Nat) :
    Except Error (Int × List (List Text)) :=
  match type2vehicle[vehicleType]? with
  | none => .error (.outOfRange "list index out of range")
  | some [] => .error (.runtimeError "StopIteration")
  | some (part :: rest) =>
    match Py.int part with
    | .error e => .error e
    | .ok vehicle => .ok (vehicle, type2vehicle.set vehicleType rest)

/-- The loop over the routes when there are several vehicle types (`cli.py` 90-93). -/
def assignRoutes (data : ProblemData) (type2vehicle : List (List Text)) (lines : List Text) :
    List Route → Except Error (List Text)
  | [] => .ok lines
  | r :: rs =>
    match nextVehicle type2vehicle r.vehicleType with
    | .error e => .error e
    | .ok (vehicle, type2vehicle) =>
      match Py.modify lines vehicle (· ++ [' '] ++ visitText (visits data r)) with
      | .error e => .error e
      | .ok lines => assignRoutes data type2vehicle lines rs

/-- `write_solution` (`cli.py` 41-96): the text of the file. -/
def write (data : ProblemData) (best : Solution) (cost : Text) : Except Error Text :=
  if data.numVehicleTypes = 1 then .ok (plainLines data 1 best.routes ++ costLine cost)
  else
    let type2vehicle := data.vehicleTypes.map fun v => Py.split ',' v.name.toList
    let lines := (List.range data.numVehicles).map fun idx => label (idx + 1)
    match assignRoutes data type2vehicle lines best.routes with
    | .error e => .error e
    | .ok lines => .ok ((lines.map (· ++ ['\n'])).flatten ++ costLine cost)

/-- What `vrplib` makes of one line with a route: the numbers after the (first) colon. -/
def parseRoute (line : Text) : Except Error (List Int) :=
  match (Py.split ':' line)[1]? with
  | none => .error (.outOfRange "list index out of range")
  | some text => Py.mapE Py.int ((Py.split ' ' text).filter (· ≠ []))

/-- The `routes` that `vrplib.read_solution` finds in a file: the lines that mention "Route", in
order. Other lines are not looked at here. -/
def parseRoutes (file : Text) : Except Error (List (List Int)) :=
  Py.mapE parseRoute
    ((((Py.split '\n' file).map Py.strip).filter (· ≠ [])).filter (Py.contains "Route".toList))

/-- `veh2type[idcs] = idx` (`read.py` 122). -/
def setAll (veh2type : List Nat) (idx : Nat) : List Int → Except Error (List Nat)
  | [] => .ok veh2type
  | v :: vs =>
    match Py.modify veh2type v (fun _ => idx) with
    | .error e => .error e
    | .ok veh2type => setAll veh2type idx vs

/-- The loop over the vehicle types (`read.py` 119-122). -/
def vehicleTypes (veh2type : List Nat) (idx : Nat) : List VehicleType → Except Error (List Nat)
  | [] => .ok veh2type
  | v :: vs =>
    match Py.mapE Py.int (Py.split ',' v.name.toList) with
    | .error e => .error e
    | .ok idcs =>
      match setAll veh2type idx idcs with
      | .error e => .error e
      | .ok veh2type => vehicleTypes veh2type (idx + 1) vs

/-- `loc2activity` (`read.py` 128-139). Locations of problem data are in range. -/
def loc2activity (data : ProblemData) : List (Option Activity) :=
  let l := List.replicate data.numLocations none
  let l := data.depots.zipIdx.foldl (fun l d => l.set d.1.location (some ⟨.depot, d.2⟩)) l
  let l := data.clients.zipIdx.foldl (fun l c => l.set c.1.location (some ⟨.client, c.2⟩)) l
  data.shipments.zipIdx.foldl
    (fun l s => (l.set s.1.pickup.location (some ⟨.pickup, s.2⟩)).set s.1.delivery.location
      (some ⟨.delivery, s.2⟩)) l

/-- `loc2activity[visit]` (`read.py` 146); `None` is not accepted as an activity by `Route`. -/
def activityAt (l : List (Option Activity)) (visit : Int) : Except Error Activity :=
  match Py.get l visit with
  | .error e => .error e
  | .ok none => .error (.invalidArgument "incompatible constructor arguments")
  | .ok (some a) => .ok a

/-- The loop over the routes (`read.py` 141-147), from route `idx` on. -/
def readRoutes (data : ProblemData) (veh2type : List Nat) (l : List (Option Activity)) (idx : Nat) :
    List (List Int) → Except Error (List Route)
  | [] => .ok []
  | route :: rest =>
    if route = [] then readRoutes data veh2type l (idx + 1) rest
    else
      match Py.mapE (activityAt l) route with
      | .error e => .error e
      | .ok activities =>
        match Py.get veh2type idx with
        | .error e => .error e
        | .ok vehicleType =>
          match Route.make data activities vehicleType with
          | .error e => .error e
          | .ok r =>
            match readRoutes data veh2type l (idx + 1) rest with
            | .error e => .error e
            | .ok rs => .ok (r :: rs)

/-- `read_solution` (`read.py` 95-149). -/
def read (data : ProblemData) (file : Text) : Except Error Solution :=
  match parseRoutes file with
  | .error e => .error e
  | .ok routes =>
    match vehicleTypes (List.replicate data.numVehicles 0) 0 data.vehicleTypes with
    | .error e => .error e
    | .ok veh2type =>
      match readRoutes data veh2type (loc2activity data) 0 routes with
      | .error e => .error e
      | .ok routes => Solution.make data routes

end SolutionFile
end PyVRP
