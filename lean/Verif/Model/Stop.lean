import Verif.Model.Data
/-!
# `pyvrp/stop/`: stopping criteria

A criterion is an object with state; `call` gives its answer and the new object. `ValueError` is
modelled by `Error.invalidArgument`.
-/
namespace PyVRP

/-- The stopping criteria of `pyvrp/stop/`, with their attributes. The clock of `MaxRuntime` is the
sequence of readings that `time.perf_counter()` will give to this object, in some unit of time. -/
inductive Criterion where
  /-- `MaxIterations` (`stop/MaxIterations.py` 6-11) -/
  | maxIterations (maxIters : Int) (currIter : Nat)
  /-- `NoImprovement` (`stop/NoImprovement.py` 12-18) -/
  | noImprovement (maxIterations : Int) (target : Option Int) (counter : Nat)
  /-- `FirstFeasible` (`stop/FirstFeasible.py` 6-9) -/
  | firstFeasible
  /-- `MaxRuntime` (`stop/MaxRuntime.py` 9-14) -/
  | maxRuntime (maxRuntime : Int) (startRuntime : Option Int) (clock : Nat → Int) (reads : Nat)
  /-- `MultipleCriteria` (`stop/MultipleCriteria.py` 9-13) -/
  | multipleCriteria (criteria : List Criterion)

namespace Criterion

/-- `MaxIterations(max_iterations)` (`stop/MaxIterations.py` 6-11). -/
def makeMaxIterations (n : Int) : Except Error Criterion :=
  if n < 0 then .error (.invalidArgument "max_iterations < 0 not understood.")
  else .ok (.maxIterations n 0)

/-- `NoImprovement(max_iterations)` (`stop/NoImprovement.py` 12-18). -/
def makeNoImprovement (n : Int) : Except Error Criterion :=
  if n < 0 then .error (.invalidArgument "max_iterations < 0 not understood.")
  else .ok (.noImprovement n none 0)

/-- `MaxRuntime(max_runtime)` (`stop/MaxRuntime.py` 9-14). -/
def makeMaxRuntime (n : Int) (clock : Nat → Int) : Except Error Criterion :=
  if n < 0 then .error (.invalidArgument "max_runtime < 0 not understood.")
  else .ok (.maxRuntime n none clock 0)

/-- `MultipleCriteria(criteria)` (`stop/MultipleCriteria.py` 9-13). -/
def makeMultipleCriteria (criteria : List Criterion) : Except Error Criterion :=
  if criteria.length = 0 then .error (.invalidArgument "Expected one or more stopping criteria.")
  else .ok (.multipleCriteria criteria)

mutual

/-- `__call__(best_cost)`. -/
def call (c : Criterion) (bestCost : Int) : Criterion × Bool :=
  match c with
  | .maxIterations maxIters currIter =>
    -- `stop/MaxIterations.py` 13-16
    let currIter := currIter + 1
    (.maxIterations maxIters currIter, decide ((currIter : Int) > maxIters))
  | .noImprovement maxIters target counter =>
    -- `stop/NoImprovement.py` 20-27
    let (target, counter) :=
      match target with
      | none => (some bestCost, 0)
      | some t => if bestCost < t then (some bestCost, 0) else (some t, counter + 1)
    (.noImprovement maxIters target counter, decide ((counter : Int) ≥ maxIters))
  | .firstFeasible =>
    -- `stop/FirstFeasible.py` 11-16
    (.firstFeasible, decide (bestCost < MAX))
  | .maxRuntime maxTime startRuntime clock reads =>
    -- `stop/MaxRuntime.py` 16-20
    match startRuntime with
    | none =>
      (.maxRuntime maxTime (some (clock reads)) clock (reads + 2),
        decide (clock (reads + 1) - clock reads > maxTime))
    | some start =>
      (.maxRuntime maxTime (some start) clock (reads + 1),
        decide (clock reads - start > maxTime))
  | .multipleCriteria criteria =>
    -- `stop/MultipleCriteria.py` 15-16
    let (criteria, res) := callAny criteria bestCost
    (.multipleCriteria criteria, res)

/-- `any(crit(best_cost) for crit in self.criteria)`: calls the criteria in order up to and including
the first that returns `True` (`stop/MultipleCriteria.py` 15-16). -/
def callAny (cs : List Criterion) (bestCost : Int) : List Criterion × Bool :=
  match cs with
  | [] => ([], false)
  | c :: rest =>
    match call c bestCost with
    | (c', true) => (c' :: rest, true)
    | (c', false) =>
      let (rest', res) := callAny rest bestCost
      (c' :: rest', res)

end

end Criterion
end PyVRP
