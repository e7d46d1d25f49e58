import Verif.Model.Read
import Verif.Model.Solve
import Verif.Model.SolutionFile
/-!
# `pyvrp/cli.py`: solving an instance file from the command line

What the command line says is given as `Args`. Files are given by their contents: the instance is what
the `vrplib` package makes of its file, and the two files that may be written are part of the output. The
parameters are given: see `Model/Config.lean` for the file they may be read from, and `Model/Benchmark.lean` for
several instances.
-/
namespace PyVRP
open Csv

namespace Cli

/-- A limit of a stopping criterion (`cli.py` 261-276). Limits that are not given are `float("inf")`; a
product of infinity and zero is not a number. Times are integers here, as in `Model/Stop.lean`. -/
inductive Limit where
  | finite (n : Int)
  | inf
  | nan
deriving DecidableEq, Repr

/-- `limit *= n` (`cli.py` 146-149). -/
def Limit.times (l : Limit) (n : Nat) : Limit :=
  match l with
  | .finite k => .finite (k * n)
  | .inf => if n = 0 then .nan else .inf
  | .nan => .nan

/-- What the command line says (`cli.py` 225-281), for one instance. The two flags say whether a directory
for statistics and one for solutions is given. -/
structure Args where
  roundFunc : String := "none"
  seed : BitVec 32
  maxRuntime : Limit := .inf
  maxIterations : Limit := .inf
  noImprovement : Limit := .inf
  perClient : Bool := false
  statsDir : Bool := false
  solDir : Bool := false

/-- What is reported about an instance (`cli.py` 170-176), where a cost of `none` is infinite, together with
the contents of the files. The runtime is not rounded. -/
structure Output where
  name : String
  ok : String
  cost : Option Int
  iterations : Int
  runtime : Int
  stats : Option Text
  sol : Option Text
deriving DecidableEq, Repr

/-- A criterion with a limit. Infinity and NaN are not negative, and nothing is greater than (or equal to)
them, so that the criterion never stops then; `none` stands for this. -/
def criterion (make : Int → Except Error Criterion) : Limit → Except Error (Option Criterion)
  | .finite n =>
    match make n with
    | .error e => .error e
    | .ok c => .ok (some c)
  | .inf => .ok none
  | .nan => .ok none

/-- A limit, scaled if asked to (`cli.py` 146-149). -/
def scaled (args : Args) (numClients : Nat) (l : Limit) : Limit :=
  if args.perClient then l.times numClients else l

/-- The stopping criterion (`cli.py` 146-157), without those criteria that never stop. -/
def stopping (args : Args) (numClients : Nat) (clock : Nat → Int) : Except Error Criterion :=
  match criterion (Criterion.makeMaxRuntime · clock) (scaled args numClients args.maxRuntime) with
  | .error e => .error e
  | .ok c1 =>
    match criterion Criterion.makeMaxIterations (scaled args numClients args.maxIterations) with
    | .error e => .error e
    | .ok c2 =>
      match criterion Criterion.makeNoImprovement (scaled args numClients args.noImprovement) with
      | .error e => .error e
      | .ok c3 => .ok (.multipleCriteria (c1.toList ++ c2.toList ++ c3.toList))

/-- `str(round(cost, 2))`: costs are integers or infinite. -/
def costText : Option Int → Text
  | some c => showInt c
  | none => "inf".toList

/-- The statistics file (`cli.py` 162-164, `Statistics.py` 153-188), with the default delimiter and
quoting. -/
def statsFile (showFloat : Int → Text) (args : Args) (res : Result) : Except Error (Option Text) :=
  if args.statsDir then
    match res.stats.toCsv showFloat .minimal ',' with
    | none => .error (.runtimeError "need to escape, but no escapechar set")
    | some text => .ok (some text)
  else .ok none

/-- The solution file (`cli.py` 166-168). -/
def solutionFile (data : ProblemData) (args : Args) (res : Result) : Except Error (Option Text) :=
  if args.solDir then
    match SolutionFile.write data res.best (costText res.cost) with
    | .error e => .error e
    | .ok text => .ok (some text)
  else .ok none

/-- What is done with the result of `solve` (`cli.py` 160-176). -/
def report (showFloat : Int → Text) (data : ProblemData) (args : Args) (name : String) (res : Result) :
    Except Error Output :=
  match statsFile showFloat args res with
  | .error e => .error e
  | .ok stats =>
    match solutionFile data args res with
    | .error e => .error e
    | .ok sol =>
      .ok { name, ok := if res.isFeasible then "Y" else "N", cost := res.cost
            iterations := res.numIterations, runtime := res.runtime, stats, sol }

/-- `_solve` (`cli.py` 96-176). The criterion and the algorithm read the clock independently. As for
`Solve.solve`, the result is `none` if `fuel` or `rounds` do not suffice. -/
def run (F : Rounding) (showFloat : Int → Text) (params : SolveParams) (args : Args) (name : String)
    (inst : Vrplib) (stopClock clock : Nat → Int) (fuel rounds : Nat) : Except Error (Option Output) :=
  match Read.read inst args.roundFunc with
  | .error e => .error e
  | .ok (data, _) =>
    match stopping args data.numClients stopClock with
    | .error e => .error e
    | .ok stop =>
      match Solve.solveSeed F data params stop clock args.seed args.statsDir none fuel rounds with
      | .error e => .error e
      | .ok none => .ok none
      | .ok (some res) =>
        match report showFloat data args name res with
        | .error e => .error e
        | .ok out => .ok (some out)

/-! ## The table -/

/-- `f"{text:<{n}s}"`. -/
def padRight (n : Nat) (t : Text) : Text := t ++ List.replicate (n - t.length) ' '

/-- `f"{text:>{n}s}"`. -/
def padLeft (n : Nat) (t : Text) : Text := List.replicate (n - t.length) ' ' ++ t

/-- `lens[idx] = max(lens[idx], len(str(cell)))` over one row (`cli.py` 26-27). Rows are not longer than
the header. -/
def widen (lens : List Nat) (row : List Text) : List Nat :=
  match lens, row with
  | n :: ns, cell :: cells => max n cell.length :: widen ns cells
  | ns, _ => ns

/-- The widths of the columns (`cli.py` 22-27). -/
def widths (headers : List Text) (rows : List (List Text)) : List Nat :=
  rows.foldl widen (headers.map List.length)

/-- One line (`cli.py` 30, 35). -/
def tableLine (pad : Nat → Text → Text) (lens : List Nat) (cells : List Text) : Text :=
  Py.join [' ', ' '] (List.zipWith pad lens cells)

/-- The lines of the table (`cli.py` 29-38). -/
def tableLines (headers : List Text) (rows : List (List Text)) : List Text :=
  let lens := widths headers rows
  tableLine padRight lens headers
    :: Py.join [' ', ' '] (lens.map (List.replicate · '-'))
    :: rows.map (tableLine padLeft lens)

/-- `tabulate` (`cli.py` 18-38). -/
def tabulate (headers : List Text) (rows : List (List Text)) : Text :=
  Py.join ['\n'] (tableLines headers rows)

end Cli
end PyVRP
