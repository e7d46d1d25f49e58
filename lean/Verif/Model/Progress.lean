import Verif.Model.Printers
import Verif.Model.Ils
/-!
# `pyvrp/ProgressPrinter.py`, and its use in `IteratedLocalSearch.py`

Clock readings are integers, as in the statistics. Every call of the logger is one line of the log. How
floating-point numbers are written with two digits after the point is given by `showSeconds`, and how they
are rounded to seconds by `toSeconds`.
-/
namespace PyVRP
open Csv

/-- `ProgressPrinter` (`ProgressPrinter.py` 39-60); an infinite best cost is `none`. -/
structure Progress where
  enabled : Bool
  displayInterval : Int
  lastPrintTime : Int
  bestCost : Option Int := none
deriving DecidableEq, Repr

namespace Progress

/-- `__init__` (`ProgressPrinter.py` 53-60); `now` is the reading of `perf_counter()`. -/
def make (shouldPrint : Bool) (displayInterval now : Int) : Except Error Progress :=
  if displayInterval < 0 then .error (.invalidArgument "Expected display_interval >= 0.")
  else .ok { enabled := shouldPrint, displayInterval, lastPrintTime := now }

/-- `"Y" if feas else "N"` (`ProgressPrinter.py` 86-90). -/
def yesNo (feas : Bool) : Text := if feas then ['Y'] else ['N']

/-- `cost < self._best_cost`. -/
def lower (cost : Int) : Option Int → Bool
  | none => true
  | some c => decide (cost < c)

/-- The line about an iteration (`ProgressPrinter.py` 14-17, 81-91). -/
def line (toSeconds : Int → Int) (newBest : Bool) (stats : Statistics) (datum : Datum) : Text :=
  (if newBest then ['H'] else [' ']) ++ ' ' :: Cli.padLeft 7 (decimal stats.numIterations)
    ++ ' ' :: Cli.padLeft 6 (showInt (toSeconds stats.runtimes.sum))
    ++ "s | ".toList ++ Cli.padLeft 12 (showInt datum.currentCost)
    ++ ' ' :: ' ' :: yesNo datum.currentFeas ++ ' ' :: Cli.padLeft 12 (showInt datum.candidateCost)
    ++ ' ' :: ' ' :: yesNo datum.candidateFeas ++ ' ' :: Cli.padLeft 12 (showInt datum.bestCost)
    ++ ' ' :: ' ' :: yesNo datum.bestFeas

/-- `iteration` (`ProgressPrinter.py` 62-97): the printer afterwards and the lines printed. -/
def iteration (toSeconds : Int → Int) (p : Progress) (stats : Statistics) (now : Int) :
    Except Error (Progress × List Text) :=
  let interval := now - p.lastPrintTime
  let shouldPrint := p.enabled && stats.collectStats && decide (interval ≥ p.displayInterval)
  if !shouldPrint then .ok (p, [])
  else
    match stats.data.getLast? with
    | none => .error (.outOfRange "list index out of range")
    | some datum =>
      let newBest := datum.bestFeas && lower datum.bestCost p.bestCost
      .ok ({ p with
              lastPrintTime := now
              bestCost := if newBest then some datum.bestCost else p.bestCost },
        [line toSeconds newBest stats datum])

/-- `f"{n} {noun}{'s' if n != 1 else ''}"` (`ProgressPrinter.py` 107-120). -/
def counted (n : Nat) (noun : String) : Text :=
  decimal n ++ ' ' :: noun.toList ++ (if n ≠ 1 then ['s'] else [])

/-- `start` (`ProgressPrinter.py` 19-27, 99-132). -/
def start (version : Text) (p : Progress) (data : ProblemData) : List Text :=
  if !p.enabled then []
  else
    ["PyVRP v".toList ++ version,
     [],
     "Solving an instance with:".toList,
     "    ".toList ++ counted data.numDepots "depot",
     "    ".toList ++ counted data.numClients "client",
     "    ".toList ++ counted data.numShipments "shipment",
     "    ".toList ++ counted data.numVehicles "vehicle" ++ " (".toList
       ++ counted data.numVehicleTypes "vehicle type" ++ ")".toList,
     [],
     "    Iters    Time |      Current OK    Candidate OK         Best OK".toList]

/-- `end` (`ProgressPrinter.py` 29-34, 134-148). -/
def finish (showSeconds : Int → Text) (p : Progress) (res : Result) : List Text :=
  if p.enabled then
    [[],
     "Search terminated in ".toList ++ showSeconds res.runtime ++ "s after ".toList
       ++ showInt res.numIterations ++ " iterations.".toList,
     "Best-found solution has cost ".toList ++ Cli.costText res.cost ++ ".".toList,
     []] ++ res.summaryLines showSeconds
  else []

/-- `restart` (`ProgressPrinter.py` 36, 150-156). -/
def restart (p : Progress) : List Text :=
  if p.enabled then ["R                 |                      restart".toList] else []

end Progress

namespace Ils
variable {σ τ : Type}

/-- What the printer needs besides the search: its own readings of the clock, and the texts of numbers. -/
structure Display where
  shouldPrint : Bool
  interval : Int
  clock : Nat → Int
  toSeconds : Int → Int
  showSeconds : Int → Text
  version : Text

/-- The printer, how often it has been called at the end of an iteration, and the log. -/
structure Shown where
  printer : Progress
  calls : Nat := 0
  log : List Text

/-- One iteration (`IteratedLocalSearch.py` 224-282) with what it prints: a line if it restarts (228), and
perhaps a line at its end (281). -/
def shownIteration (env : IlsEnv σ τ) (d : Display) (s : IlsState σ τ) (out : Shown) :
    Except Error (IlsState σ τ × Shown) :=
  let restarted :=
    if (s.itersNoImprovement : Int) = env.params.numItersNoImprovement then out.printer.restart else []
  match iteration env s with
  | .error e => .error e
  | .ok s' =>
    match out.printer.iteration d.toSeconds s'.stats (d.clock (out.calls + 1)) with
    | .error e => .error e
    | .ok (printer, lines) => .ok (s', ⟨printer, out.calls + 1, out.log ++ restarted ++ lines⟩)

/-- The loop (`IteratedLocalSearch.py` 223-282), cut off after `fuel` iterations. -/
def shownLoop (env : IlsEnv σ τ) (d : Display) :
    Nat → IlsState σ τ → Shown → Except Error (IlsState σ τ × Shown × Bool)
  | 0, s, out => .ok (s, out, false)
  | fuel + 1, s, out =>
    let (ts, ans) := env.stop s.stopState (s.costEval.cost s.best)
    let s := { s with stopState := ts }
    if ans then .ok (s, out, true)
    else
      match shownIteration env d s out with
      | .error e => .error e
      | .ok (s', out') => shownLoop env d fuel s' out'

/-- `run` (`IteratedLocalSearch.py` 168-290) with its log; `none` if it has not finished after `fuel - 1`
iterations. -/
def shownRun (env : IlsEnv σ τ) (d : Display) (data : ProblemData) (pm : PenaltyManager) (ss : σ) (ts : τ)
    (collectStats : Bool) (fuel : Nat) : Except Error (Option (Result × List Text)) :=
  match Progress.make d.shouldPrint d.interval (d.clock 0) with
  | .error e => .error e
  | .ok printer =>
    match start env pm ss ts collectStats with
    | .error e => .error e
    | .ok s =>
      match shownLoop env d fuel s ⟨printer, 0, printer.start d.version data⟩ with
      | .error e => .error e
      | .ok (_, _, false) => .ok none
      | .ok (s', out, true) =>
        match finish env s' with
        | .error e => .error e
        | .ok res => .ok (some (res, out.log ++ out.printer.finish d.showSeconds res))

end Ils
end PyVRP
