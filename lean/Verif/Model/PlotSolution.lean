import Verif.Model.Solution
/-!
# `pyvrp/plotting/plot_solution.py`: what is drawn

Only the points and lines that are handed to `matplotlib` are modelled, not the axes, colours and labels.
-/
namespace PyVRP
namespace Plot

/-- `(x_coords[loc], y_coords[loc])` (`plot_solution.py` 34-35). -/
def point (data : ProblemData) (loc : Nat) : Int × Int :=
  ((data.locations.getD loc default).x, (data.locations.getD loc default).y)

/-- What is drawn for one trip of a route (`plot_solution.py` 79-107). -/
structure Trip where
  /-- `ax.scatter`, with the number of the route for colour and label -/
  dots : Option (List (Int × Int))
  /-- `ax.plot`, a line through the clients and shipments -/
  line : Option (List (Int × Int))
  /-- `ax.plot`, the thin line from the last point to the depot -/
  back : (Int × Int) × (Int × Int)
  /-- `ax.annotate`, the arrow from the depot to the first point -/
  arrow : (Int × Int) × (Int × Int)
deriving DecidableEq, Repr

/-- What is drawn for a solution. -/
structure Drawing where
  /-- The depots (`plot_solution.py` 40). -/
  depots : List (Int × Int)
  /-- The trips of each route (`plot_solution.py` 43-107). -/
  routes : List (List Trip)
  /-- The dots of what is not visited (`plot_solution.py` 109-129). -/
  unvisited : Option (List (Int × Int))
deriving DecidableEq, Repr

/-- One pass of the loop over the activities (`plot_solution.py` 50-68). `trips[-1]` raises if there is none. -/
def tripsStep (data : ProblemData) (trips : List (List Nat)) (a : Activity) : Except Error (List (List Nat)) :=
  match a.type with
  | .depot => .ok (trips ++ [[]])
  | .client | .pickup | .delivery =>
    match trips.getLast? with
    | none => .error (.outOfRange "list index out of range")
    | some t => .ok (trips.dropLast ++ [t ++ [data.locationOf a]])

/-- The loop over the activities (`plot_solution.py` 50-68). -/
def tripsLoop (data : ProblemData) (trips : List (List Nat)) : List Activity → Except Error (List (List Nat))
  | [] => .ok trips
  | a :: rest =>
    match tripsStep data trips a with
    | .error e => .error e
    | .ok trips => tripsLoop data trips rest

/-- One pass of the loop over the trips (`plot_solution.py` 70-107). The indices of depots are in range. -/
def drawTrip (data : ProblemData) (plotLocations : Bool) (locations : List Nat) (ends : Nat × Nat) : Option Trip :=
  match locations with
  | [] => none
  | first :: rest =>
    let xy := (first :: rest).map (point data)
    some {
      dots := if plotLocations || (first :: rest).length == 1 then some xy else none
      line := if (first :: rest).length > 1 then some xy else none
      back := (point data (rest.getLastD first), point data (data.depot ends.2).location)
      arrow := (point data (data.depot ends.1).location, point data first) }

/-- The body of the loop over the routes (`plot_solution.py` 46-107); `l.zip l.tail` is `pairwise(l)`. -/
def drawRoute (data : ProblemData) (plotLocations : Bool) (route : Route) : Except Error (List Trip) :=
  let activities := route.schedule.map (·.activity)
  let depots := (activities.filter (·.isDepot)).map (·.idx)
  match tripsLoop data [] activities.dropLast with
  | .error e => .error e
  | .ok trips => .ok ((trips.zip (depots.zip depots.tail)).filterMap fun t => drawTrip data plotLocations t.1 t.2)

/-- The loop over the routes (`plot_solution.py` 43-107). -/
def drawRoutes (data : ProblemData) (plotLocations : Bool) : List Route → Except Error (List (List Trip))
  | [] => .ok []
  | r :: rest =>
    match drawRoute data plotLocations r with
    | .error e => .error e
    | .ok ts =>
      match drawRoutes data plotLocations rest with
      | .error e => .error e
      | .ok tss => .ok (ts :: tss)

/-- `plot_solution` (`plot_solution.py` 10-135). Of the unplanned activities, none is a depot. -/
def solution (data : ProblemData) (sol : Solution) (plotLocations : Bool := false) : Except Error Drawing :=
  match drawRoutes data plotLocations sol.routes with
  | .error e => .error e
  | .ok routes => .ok {
      depots := data.depots.map fun d => point data d.location
      routes
      unvisited := if plotLocations && sol.unplanned.length != 0 then
          some ((sol.unplanned.filter (!·.isDepot)).map fun a => point data (data.locationOf a))
        else none }

end Plot
end PyVRP
