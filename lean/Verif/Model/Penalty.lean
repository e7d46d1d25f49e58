import Verif.Model.CostEvaluator
/-!
# `pyvrp/PenaltyManager.py`

Floating point numbers are modelled by rational numbers with an arbitrary rounding function that is
monotone, fixes what it has rounded, and fixes zero: `a * b` on doubles is `rnd (a * b)`. NaN,
infinities (other than the initial `float("inf")` average) and overflow are outside the model.
-/
namespace PyVRP

/-- Rounding of real numbers to floating point numbers. -/
structure Rounding where
  rnd : Rat → Rat
  mono : ∀ {x y : Rat}, x ≤ y → rnd x ≤ rnd y
  idem : ∀ x, rnd (rnd x) = rnd x
  zero : rnd 0 = 0

/-- No rounding at all. -/
def Rounding.exact : Rounding := ⟨id, id, fun _ => rfl, rfl⟩

/-- `static_cast<Cost>(x)` of a `double`: truncation towards zero. -/
def truncRat (x : Rat) : Int := if 0 ≤ x then x.floor else x.ceil

/-- `static_cast<Cost>(x.get() * penalty)` (`CostEvaluator.h` 175-210): `x` is converted to `double`. -/
def floatPenalty (R : Rounding) (p : Rat) (x : Int) : Int := truncRat (R.rnd (R.rnd x * p))

/-- `CostEvaluator(loadPenalties, twPenalty, distPenalty)` (`CostEvaluator.cpp` 7-23). -/
def CostEvaluator.make (R : Rounding) (loadPenalties : List Rat) (twPenalty distPenalty : Rat) :
    Except Error CostEvaluator :=
  if loadPenalties.any (fun p => decide (p < 0)) then
    .error (.invalidArgument "load_penalties must be >= 0.")
  else if twPenalty < 0 then .error (.invalidArgument "tw_penalty must be >= 0.")
  else if distPenalty < 0 then .error (.invalidArgument "dist_penalty must be >= 0.")
  else .ok ⟨loadPenalties.map (floatPenalty R), floatPenalty R twPenalty, floatPenalty R distPenalty⟩

/-- `PenaltyParams` (`PenaltyManager.py` 13-89). -/
structure PenaltyParams where
  solutionsBetweenUpdates : Int := 500
  penaltyIncrease : Rat := 3 / 2
  penaltyDecrease : Rat := 9 / 10
  targetFeasible : Rat := 65 / 100
  feasTolerance : Rat := 5 / 100
  minPenalty : Rat := 1 / 10
  maxPenalty : Rat := 100000
deriving DecidableEq, Repr

/-- `__post_init__` (`PenaltyManager.py` 91-111). -/
def PenaltyParams.check (p : PenaltyParams) : Option Error :=
  if ¬ p.solutionsBetweenUpdates ≥ 1 then
    some (.invalidArgument "Expected solutions_between_updates >= 1.")
  else if ¬ p.penaltyIncrease ≥ 1 then some (.invalidArgument "Expected penalty_increase >= 1.")
  else if ¬ (0 ≤ p.penaltyDecrease ∧ p.penaltyDecrease ≤ 1) then
    some (.invalidArgument "Expected penalty_decrease in [0, 1].")
  else if ¬ (0 ≤ p.targetFeasible ∧ p.targetFeasible ≤ 1) then
    some (.invalidArgument "Expected target_feasible in [0, 1].")
  else if ¬ (0 ≤ p.feasTolerance ∧ p.feasTolerance ≤ 1) then
    some (.invalidArgument "Expected feas_tolerance in [0, 1].")
  else if p.minPenalty < 0 then some (.invalidArgument "Expected min_penalty >= 0.")
  else if p.maxPenalty < p.minPenalty then
    some (.invalidArgument "Expected max_penalty >= min_penalty.")
  else none

/-- `midpoint_penalties` (`PenaltyManager.py` 113-132). -/
def PenaltyParams.midpointPenalties (R : Rounding) (p : PenaltyParams) (data : ProblemData) :
    List Rat × Rat × Rat :=
  let midpoint := R.rnd (p.minPenalty + R.rnd (R.rnd (p.maxPenalty - p.minPenalty) / 2))
  (List.replicate data.numLoadDimensions midpoint, midpoint, midpoint)

/-- `np.clip`. -/
def clip (x lo hi : Rat) : Rat := min (max x lo) hi

/-- `PenaltyManager` (`PenaltyManager.py` 135-169); `none` in `prevAvgViolations` is `inf`. `warnings`
is not part of the code: it counts the `PenaltyBoundWarning`s. -/
structure PenaltyManager where
  params : PenaltyParams
  penalties : List Rat
  violLists : List (List Int)
  prevAvgViolations : List (Option Rat)
  warnings : Nat := 0
deriving DecidableEq, Repr

namespace PenaltyManager

/-- `__init__` (`PenaltyManager.py` 153-169). -/
def make (initial : List Rat × Rat × Rat) (params : PenaltyParams) : PenaltyManager :=
  let penalties := (initial.1 ++ [initial.2.1, initial.2.2]).map
    (clip · params.minPenalty params.maxPenalty)
  { params, penalties, violLists := penalties.map (fun _ => []),
    prevAvgViolations := penalties.map (fun _ => none) }

/-- `abs`. -/
def absRat (x : Rat) : Rat := if x < 0 then -x else x

/-- `_compute` (`PenaltyManager.py` 181-198). -/
def compute (R : Rounding) (params : PenaltyParams) (penalty feasPercentage : Rat) : Rat :=
  let diff := R.rnd (params.targetFeasible - feasPercentage)
  if absRat diff < params.feasTolerance then penalty
  else
    let newPenalty :=
      if diff > 0 then R.rnd (params.penaltyIncrease * penalty)
      else R.rnd (params.penaltyDecrease * penalty)
    clip newPenalty params.minPenalty params.maxPenalty

/-- `fmean` of a non-empty list of integers: an exact sum, then a division. -/
def fmean (R : Rounding) (l : List Int) : Rat := R.rnd ((l.sum : Int) / (l.length : Int))

/-- `_register` (`PenaltyManager.py` 200-231). Raises `IndexError` if there is no such penalty. -/
def registerIdx (R : Rounding) (pm : PenaltyManager) (idx : Nat) (violation : Int) :
    Except Error PenaltyManager :=
  match pm.violLists[idx]?, pm.penalties[idx]? with
  | some violList, some penalty =>
    let violList := violList ++ [violation]
    if (violList.length : Int) ≠ pm.params.solutionsBetweenUpdates then
      .ok { pm with violLists := pm.violLists.set idx violList }
    else
      let feasPercentage := fmean R (violList.map (fun v => if v = 0 then 1 else 0))
      let avgViolation := fmean R violList
      let diff := R.rnd (pm.params.targetFeasible - feasPercentage)
      let warn : Bool := decide (penalty ≥ pm.params.maxPenalty) && decide (diff ≥ pm.params.feasTolerance)
        && (match (pm.prevAvgViolations[idx]?).join with
            | none => false
            | some prev => decide (avgViolation ≥ prev))
      .ok { pm with
        violLists := pm.violLists.set idx []
        prevAvgViolations := pm.prevAvgViolations.set idx (some avgViolation)
        penalties := pm.penalties.set idx (compute R pm.params penalty feasPercentage)
        warnings := if warn then pm.warnings + 1 else pm.warnings }
  | _, _ => .error (.outOfRange "list index out of range")

/-- The loop of `register` (`PenaltyManager.py` 243-244). -/
def registerFrom (R : Rounding) (pm : PenaltyManager) (idx : Nat) :
    List Int → Except Error PenaltyManager
  | [] => .ok pm
  | v :: rest =>
    match registerIdx R pm idx v with
    | .error e => .error e
    | .ok pm' => registerFrom R pm' (idx + 1) rest

/-- `register` (`PenaltyManager.py` 233-244). -/
def register (R : Rounding) (pm : PenaltyManager) (sol : Solution) : Except Error PenaltyManager :=
  registerFrom R pm 0 (sol.excessLoad ++ [sol.timeWarp, sol.excessDistance])

/-- `*loads, tw, dist = penalties` followed by `CostEvaluator(loads, tw, dist)`; Python raises
`ValueError` if there are fewer than two values. -/
def evaluatorOf (R : Rounding) (penalties : List Rat) : Except Error CostEvaluator :=
  match penalties.reverse with
  | dist :: tw :: loads => CostEvaluator.make R loads.reverse tw dist
  | _ => .error (.invalidArgument "not enough values to unpack")

/-- `cost_evaluator` (`PenaltyManager.py` 246-251). -/
def costEvaluator (R : Rounding) (pm : PenaltyManager) : Except Error CostEvaluator :=
  evaluatorOf R pm.penalties

/-- `max_cost_evaluator` (`PenaltyManager.py` 253-259). -/
def maxCostEvaluator (R : Rounding) (pm : PenaltyManager) : Except Error CostEvaluator :=
  evaluatorOf R (pm.penalties.map (fun _ => pm.params.maxPenalty))

end PenaltyManager
end PyVRP
