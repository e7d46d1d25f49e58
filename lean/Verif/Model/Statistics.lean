import Verif.Model.CostEvaluator
/-!
# `pyvrp/Statistics.py` and `pyvrp/Result.py`

Clock readings are integers (in some unit of time).
-/
namespace PyVRP

/-- `_Datum` (`Statistics.py` 10-21). -/
structure Datum where
  currentCost : Int
  currentFeas : Bool
  candidateCost : Int
  candidateFeas : Bool
  bestCost : Int
  bestFeas : Bool
deriving DecidableEq, Repr

/-- `Statistics` (`Statistics.py` 24-45). -/
structure Statistics where
  runtimes : List Int := []
  numIterations : Nat := 0
  data : List Datum := []
  clock : Int
  collectStats : Bool := true
deriving DecidableEq, Repr

namespace Statistics

/-- `__init__` (`Statistics.py` 39-45); `now` is the reading of `perf_counter()`. -/
def make (collectStats : Bool) (now : Int) : Statistics := { clock := now, collectStats }

/-- `__eq__` (`Statistics.py` 47-54). -/
def eq (a b : Statistics) : Bool :=
  a.collectStats == b.collectStats && a.runtimes == b.runtimes && a.numIterations == b.numIterations
    && a.data == b.data

/-- `collect` (`Statistics.py` 65-103). -/
def collect (s : Statistics) (current candidate best : Solution) (ce : CostEvaluator) (now : Int) :
    Statistics :=
  if !s.collectStats then s
  else
    { s with
      clock := now
      runtimes := s.runtimes ++ [now - s.clock]
      numIterations := s.numIterations + 1
      data := s.data ++ [
        { currentCost := ce.penalisedCost current, currentFeas := current.isFeasible
          candidateCost := ce.penalisedCost candidate, candidateFeas := candidate.isFeasible
          bestCost := ce.penalisedCost best, bestFeas := best.isFeasible }] }

end Statistics

/-- `Result` (`Result.py` 8-34). -/
structure Result where
  best : Solution
  stats : Statistics
  numIterations : Int
  runtime : Int
deriving DecidableEq, Repr

namespace Result

/-- `__post_init__` (`Result.py` 36-41). -/
def make (best : Solution) (stats : Statistics) (numIterations runtime : Int) : Except Error Result :=
  if numIterations < 0 then .error (.invalidArgument "Negative number of iterations not understood.")
  else if runtime < 0 then .error (.invalidArgument "Negative runtime not understood.")
  else .ok ⟨best, stats, numIterations, runtime⟩

/-- `cost` (`Result.py` 43-52); `none` is `math.inf`. A penalty of zero maps every excess to zero. -/
def cost (r : Result) : Option Int :=
  if !r.best.isFeasible then none
  else
    let numLoadDims := r.best.excessLoad.length
    some ((⟨List.replicate numLoadDims (fun _ => 0), fun _ => 0, fun _ => 0⟩ : CostEvaluator).cost r.best)

/-- `is_feasible` (`Result.py` 54-58). -/
def isFeasible (r : Result) : Bool := r.best.isFeasible

end Result
end PyVRP
