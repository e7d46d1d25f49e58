import Verif.Model.PlotSolution
import Verif.Model.Statistics
/-!
# The other plots: `pyvrp/plotting/plot_{objectives,runtimes,result,time_windows,demands,coordinates,instance}.py`

Only the points, lines and bars that are handed to `matplotlib` are modelled, not the axes, colours, titles and labels,
nor the limits of the axes and the trend line of the runtimes.
-/
namespace PyVRP
namespace Plot

/-- `ax.plot(x, y)`, which raises if there are not as many `x` as `y`. -/
def line (x y : List Int) : Except Error (List (Int × Int)) :=
  if x.length ≠ y.length then .error (.invalidArgument "x and y must have same first dimension")
  else .ok (x.zip y)

/-- `1 + np.arange(result.num_iterations)` (`plot_objectives.py` 41, `plot_runtimes.py` 21). -/
def iterations (res : Result) : List Int := (List.range res.numIterations.toNat).map fun (i : Nat) => 1 + (i : Int)

/-- The lines of `plot_objectives`. -/
structure Objectives where
  current : List (Int × Int)
  candidate : List (Int × Int)
  best : List (Int × Int)
deriving DecidableEq, Repr

/-- `plot_objectives` (`plot_objectives.py` 7-60). The default of `num_to_skip` is `int(0.05 * num_iterations)`, which is
the integer part of a twentieth since the float `0.05` is not less than that. -/
def objectives (res : Result) (numToSkip : Option Nat := none) : Except Error Objectives :=
  let skip := match numToSkip with
    | none => res.numIterations.toNat / 20
    | some n => n
  let x := iterations res
  let plot := fun (y : List Int) => line (x.drop skip) (y.drop skip)
  match plot (res.stats.data.map (·.currentCost)) with
  | .error e => .error e
  | .ok current =>
    match plot (res.stats.data.map (·.candidateCost)) with
    | .error e => .error e
    | .ok candidate =>
      match plot (res.stats.data.map (·.bestCost)) with
      | .error e => .error e
      | .ok best => .ok { current, candidate, best }

/-- `plot_objectives` (`plot_objectives.py` 11, 51-54): the limits of the vertical axis, if they are set; `adjust` is
`ylim_adjust`. Numbers are exact. -/
def ylim (res : Result) (adjust : Rat × Rat := (99 / 100, 105 / 100)) : Option (Rat × Rat) :=
  if res.isFeasible then
    match res.cost with
    | some cost => some ((cost : Rat) * adjust.1, (cost : Rat) * adjust.2)
    | none => none
  else none

/-- `plot_runtimes` (`plot_runtimes.py` 7-22): the runtimes. -/
def runtimes (res : Result) : Except Error (List (Int × Int)) := line (iterations res) res.stats.runtimes

/-- A sum over the given points (used in `polyfit`). -/
def sums (f : Int × Int → Int) (p : List (Int × Int)) : Rat := (p.map (fun q => (f q : Rat))).sum

/-- `np.polyfit(x, y, 1)` (`plot_runtimes.py` 25): the slope and the intercept. `numpy` is not part of the code: this is
the textbook formula, with exact numbers. -/
def polyfit (x y : List Int) : Rat × Rat :=
  let p := x.zip y
  let n : Rat := (p.length : Int)
  let sx := sums (fun q => q.1) p
  let sy := sums (fun q => q.2) p
  let sxx := sums (fun q => q.1 * q.1) p
  let sxy := sums (fun q => q.1 * q.2) p
  let slope := (n * sxy - sx * sy) / (n * sxx - sx * sx)
  (slope, (sy - slope * sx) / n)

/-- `plot_runtimes` (`plot_runtimes.py` 24-26): the trend line. `ax.plot` is given the heights only, so that
they are drawn at 0, 1, ... -/
def trend (res : Result) : List (Int × Rat) :=
  if res.numIterations > 1 then
    let (b, c) := polyfit (iterations res) res.stats.runtimes
    (iterations res).zipIdx.map (fun (x, i) => ((i : Int), b * (x : Rat) + c))
  else []

/-- `plot_result` (`plot_result.py` 10-40). -/
def result (data : ProblemData) (res : Result) : Except Error (Objectives × List (Int × Int) × Drawing) :=
  match objectives res with
  | .error e => .error e
  | .ok o =>
    match runtimes res with
    | .error e => .error e
    | .ok r =>
      match solution data res.best with
      | .error e => .error e
      | .ok d => .ok (o, r, d)

/-- One step of sorting. -/
def insertBy {α : Type} (le : α → α → Bool) (a : α) : List α → List α
  | [] => [a]
  | b :: l => if le a b then a :: b :: l else b :: insertBy le a l

/-- `np.sort` and `np.lexsort`. -/
def sortBy {α : Type} (le : α → α → Bool) : List α → List α
  | [] => []
  | a :: l => insertBy le a (sortBy le l)

/-- A vertical bar. -/
structure Bar where
  bottom : Int
  height : Int
deriving DecidableEq, Repr

/-- `plot_time_windows` (`plot_time_windows.py` 7-40). `tw[:, 1]` raises if `tw` is the array of an empty list, since that
has one dimension only. -/
def timeWindows (data : ProblemData) : Except Error (List Bar) :=
  match data.clients with
  | [] => .error (.outOfRange "too many indices for array: array is 1-dimensional, but 2 were indexed")
  | c :: cs =>
    let tw := (c :: cs).map fun c => (c.twEarly, c.twLate)
    let tw := sortBy (fun a b => decide (a.1 < b.1) || (decide (a.1 = b.1) && decide (a.2 ≤ b.2))) tw
    .ok (tw.map fun w => { bottom := w.1, height := w.2 - w.1 })

/-- `plot_demands` (`plot_demands.py` 7-57): the heights of the bars. -/
def demands (data : ProblemData) (dimension : Nat := 0) : Except Error (List Int) :=
  if dimension ≥ data.numLoadDimensions then .error (.invalidArgument "Load dimension is not understood.")
  else .ok (sortBy (fun a b => decide (a ≤ b)) (data.clients.map fun c => c.delivery.getD dimension 0))

/-- The dots of `plot_coordinates`. -/
structure Coordinates where
  depots : List (Int × Int)
  clients : List (Int × Int)
  pickups : List (Int × Int)
  deliveries : List (Int × Int)
deriving DecidableEq, Repr

/-- `plot_coordinates` (`plot_coordinates.py` 7-68). -/
def coordinates (data : ProblemData) : Coordinates :=
  { depots := data.depots.map fun d => point data d.location
    clients := data.clients.map fun c => point data c.location
    pickups := data.shipments.map fun s => point data s.pickup.location
    deliveries := data.shipments.map fun s => point data s.delivery.location }

/-- `plot_instance` (`plot_instance.py` 9-31). -/
def instance_ (data : ProblemData) : Except Error (List Bar × List Int × Coordinates) :=
  match timeWindows data with
  | .error e => .error e
  | .ok tw =>
    match demands data with
    | .error e => .error e
    | .ok d => .ok (tw, d, coordinates data)

end Plot
end PyVRP
