import Verif.Model.Cli
/-!
# Text of routes, solutions and results (`Route.cpp`, `Solution.cpp`, `Result.py`)
-/
namespace PyVRP
open Csv

/-- One visit of a route (`Route.cpp` 642-645). -/
def Activity.shownAs (a : Activity) : Text := if a.isDepot then ['|'] else a.print

/-- The visits of a route, with a space after each but the last (`Route.cpp` 639-649). -/
def printVisits : List Activity → Text
  | [] => []
  | [a] => a.shownAs
  | a :: b :: l => a.shownAs ++ ' ' :: printVisits (b :: l)

/-- `operator<<` (`Route.cpp` 637-652), `__str__` in Python: all activities but the first and the last. -/
def Route.print (r : Route) : Text := printVisits ((r.schedule.map (·.activity)).drop 1).dropLast

/-- The line of the route at position `idx` (`Solution.cpp` 420). -/
def Route.printLine (idx : Nat) (r : Route) : Text :=
  "Route #".toList ++ decimal (idx + 1) ++ ": ".toList ++ r.print

/-- The routes from position `idx` on (`Solution.cpp` 419-420). -/
def printRoutes (idx : Nat) : List Route → Text
  | [] => []
  | r :: rs => r.printLine idx ++ '\n' :: printRoutes (idx + 1) rs

/-- `operator<<` (`Solution.cpp` 415-423), `__str__` in Python. -/
def Solution.print (s : Solution) : Text := printRoutes 0 s.routes

namespace Result

/-- The text of the objective (`Result.py` 64). -/
def objText (r : Result) : Text := if r.isFeasible then Cli.costText r.cost else "INFEASIBLE".toList

/-- The lines of the summary (`Result.py` 65-77). How a floating-point number is written with two digits
after the point is given by `showSeconds`. -/
def summaryLines (showSeconds : Int → Text) (r : Result) : List Text :=
  ["Solution results".toList,
   "================".toList,
   "    # routes: ".toList ++ decimal r.best.numRoutes,
   "     # trips: ".toList ++ decimal r.best.numTrips,
   "   # clients: ".toList ++ decimal r.best.numClients,
   " # shipments: ".toList ++ decimal r.best.numShipments,
   "   objective: ".toList ++ r.objText,
   "    distance: ".toList ++ showInt r.best.distance,
   "    duration: ".toList ++ showInt r.best.duration,
   "# iterations: ".toList ++ showInt r.numIterations,
   "    run-time: ".toList ++ showSeconds r.runtime ++ " seconds".toList]

/-- `summary` (`Result.py` 60-79). -/
def summary (showSeconds : Int → Text) (r : Result) : Text := Py.join ['\n'] (summaryLines showSeconds r)

/-- `__str__` (`Result.py` 81-90). -/
def print (showSeconds : Int → Text) (r : Result) : Text :=
  Py.join ['\n'] [summary showSeconds r, [], "Routes".toList, "------".toList, r.best.print]

end Result
end PyVRP
