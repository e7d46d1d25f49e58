import Verif.Model.Cli
import Verif.Model.Config
/-!
# `benchmark` of `pyvrp/cli.py` (179-216): solving several instances

The file system is given by what the files of the instances say. The processes are not modelled: instances do
not influence each other, except that their files may be written in any order. Numbers in the table are shown by
given functions, and averages are exact instead of floating point numbers, and not formatted.
-/
namespace PyVRP
open Csv

namespace Cli

/-- A path: its components. -/
abbrev Path := List Text

/-- `PurePath.stem` of a path: the file name without its last suffix. -/
def stem (path : Path) : Text :=
  let name := path.getLast?.getD []
  let suffix := name.reverse.takeWhile (· ≠ '.')
  match name.reverse.dropWhile (· ≠ '.') with
  | _ :: front => if suffix = [] ∨ front = [] then name else front.reverse
  | [] => name

/-- Lists are compared at the first place where they differ. -/
def lexLe {α : Type} (lt : α → α → Bool) : List α → List α → Bool
  | [], _ => true
  | _ :: _, [] => false
  | a :: as, b :: bs => lt a b || (!lt b a && lexLe lt as bs)

/-- `<=` on strings. -/
def textLe : Text → Text → Bool := lexLe (fun a b => decide (a.toNat < b.toNat))

/-- `<=` on paths. -/
def pathLe : Path → Path → Bool := lexLe (fun s t => !textLe t s)

/-- One step of sorting. -/
def insertPath (p : Path) : List Path → List Path
  | [] => [p]
  | q :: qs => if pathLe p q then p :: q :: qs else q :: insertPath p qs

/-- `sorted(instances)` (`cli.py` 193). -/
def sortPaths : List Path → List Path
  | [] => []
  | p :: ps => insertPath p (sortPaths ps)

/-- The results of all instances (`cli.py` 194-199): an exception for one of them is one for all. -/
def solveAll (solve : Path → Except Error (Option Output)) : List Path → Except Error (Option (List Output))
  | [] => .ok (some [])
  | p :: ps =>
    match solve p with
    | .error e => .error e
    | .ok none => .ok none
    | .ok (some out) =>
      match solveAll solve ps with
      | .error e => .error e
      | .ok none => .ok none
      | .ok (some outs) => .ok (some (out :: outs))

/-- The files in a directory, by name. -/
abbrev Directory := Text → Option Text

/-- Write a file, if there is something to write. -/
def Directory.write (dir : Directory) (name : Text) : Option Text → Directory
  | none => dir
  | some text => fun n => if n = name then some text else dir n

/-- The directories of statistics and of solutions, after instances have written their files in this order
(`cli.py` 162-168). -/
def written : List Output → Directory × Directory → Directory × Directory
  | [], dirs => dirs
  | out :: outs, (stats, sols) =>
    written outs (stats.write (out.name.toList ++ ".csv".toList) out.stats,
      sols.write (out.name.toList ++ ".sol".toList) out.sol)

/-- What is printed (`cli.py` 209-216). An average of `none` is infinite. -/
structure Summary where
  table : Text
  avgObjective : Option Rat
  avgIterations : Rat
  avgRuntime : Rat
  notOk : Nat

/-- The row of an instance (`cli.py` 201-209): names have at most 37 characters. -/
def row (showObj : Option Int → Text) (showTime : Int → Text) (out : Output) : List Text :=
  [out.name.toList.take 37, out.ok.toList.take 1, showObj out.cost, showInt out.iterations, showTime out.runtime]

/-- The sum of the costs, which is infinite if one of them is. -/
def totalCost : List (Option Int) → Option Int
  | [] => some 0
  | c :: cs =>
    match c, totalCost cs with
    | some x, some y => some (x + y)
    | _, _ => none

/-- The summary (`cli.py` 201-216). -/
def summarise (showObj : Option Int → Text) (showTime : Int → Text) (outs : List Output) : Summary :=
  { table := tabulate ["Instance".toList, "OK".toList, "Obj.".toList, "Iters. (#)".toList, "Time (s)".toList]
      (outs.map (row showObj showTime))
    avgObjective := (totalCost (outs.map (·.cost))).map fun (x : Int) => (x : Rat) / (outs.length : Rat)
    avgIterations := (((outs.map (·.iterations)).sum : Int) : Rat) / (outs.length : Rat)
    avgRuntime := (((outs.map (·.runtime)).sum : Int) : Rat) / (outs.length : Rat)
    notOk := outs.countP (fun out => out.ok = "N") }

/-- `benchmark` (`cli.py` 179-216): the results, and what is printed. -/
def benchmark (showObj : Option Int → Text) (showTime : Int → Text)
    (solve : Path → Except Error (Option Output)) (instances : List Path) :
    Except Error (Option (List Output × Summary)) :=
  match solveAll solve (sortPaths instances) with
  | .error e => .error e
  | .ok none => .ok none
  | .ok (some outs) => .ok (some (outs, summarise showObj showTime outs))

/-- The parameters (`cli.py` 139-142): from a file with parameters, if there is one. -/
def paramsOf : Option Config.File → Except Error SolveParams
  | none => .ok {}
  | some file =>
    match Config.fromFile file with
    | .error e => .error e
    | .ok (params, _) => .ok params

/-- `_solve` for the file at a path (`cli.py` 96-176): `load` says what is in the file of an instance, and
`config` what is in the file with parameters, if one is given. -/
def solvePath (F : Rounding) (showFloat : Int → Text) (config : Option Config.File) (args : Args)
    (load : Path → Vrplib) (stopClock clock : Path → Nat → Int) (fuel rounds : Nat) (path : Path) :
    Except Error (Option Output) :=
  match paramsOf config with
  | .error e => .error e
  | .ok params =>
    run F showFloat params args (String.ofList (stem path)) (load path) (stopClock path) (clock path) fuel rounds

end Cli
end PyVRP
