import Verif.Model.Solution
/-!
# `pyvrp/cpp/CostEvaluator.h`: objective values
-/
namespace PyVRP

/-- `CostEvaluator` (`CostEvaluator.h` 50-60). A penalty `p : double` occurs in the code only in the
form `static_cast<Cost>(x * p)`; it is modelled by that function of `x`. -/
structure CostEvaluator where
  loadPenalties : List (Int → Int)
  twPenalty_ : Int → Int
  distPenalty_ : Int → Int

/-- What `x ↦ static_cast<Cost>(x * p)` satisfies for every `p ≥ 0` (which the constructor,
`CostEvaluator.cpp` 7-23, guarantees): conversion to `double`, multiplication with rounding, and
truncation are monotone and map zero to zero. -/
structure IsPenalty (f : Int → Int) : Prop where
  zero : f 0 = 0
  mono : ∀ x y, 0 ≤ x → x ≤ y → f x ≤ f y

/-- The penalty function for the rational number `n / d`. -/
def ratPenalty (n d : Int) (x : Int) : Int := (x * n).tdiv d

namespace CostEvaluator

/-- What the constructor guarantees. -/
structure Valid (ce : CostEvaluator) : Prop where
  load : ∀ f ∈ ce.loadPenalties, IsPenalty f
  tw : IsPenalty ce.twPenalty_
  dist : IsPenalty ce.distPenalty_

/-- `excessLoadPenalties` (`CostEvaluator.h` 175-185). The code asserts that there are as many
excess loads as penalties. -/
def excessLoadPenalties (ce : CostEvaluator) (excessLoads : List Int) : Int :=
  (ce.loadPenalties.zip excessLoads).foldl (fun cost p => cost + p.1 p.2) 0

/-- `loadPenalty` (`CostEvaluator.h` 187-194). -/
def loadPenalty (ce : CostEvaluator) (load capacity : Int) (dim : Nat) : Int :=
  (ce.loadPenalties.getD dim (fun _ => 0)) (max (load - capacity) 0)

/-- `twPenalty` (`CostEvaluator.h` 196-199). -/
def twPenalty (ce : CostEvaluator) (timeWarp : Int) : Int := ce.twPenalty_ timeWarp

/-- `excessDistPenalty` (`CostEvaluator.h` 207-210). -/
def excessDistPenalty (ce : CostEvaluator) (excess : Int) : Int := ce.distPenalty_ excess

/-- `distPenalty` (`CostEvaluator.h` 201-205). -/
def distPenalty (ce : CostEvaluator) (distance maxDistance : Int) : Int :=
  ce.excessDistPenalty (max (distance - maxDistance) 0)

/-- `penalisedCost(route)` (`Route.cpp` 622-635). -/
def penalisedCostRoute (ce : CostEvaluator) (r : Route) : Int :=
  if r.empty then 0
  else r.distanceCost + r.durationCost + r.fixedVehicleCost + ce.excessLoadPenalties r.excessLoad
    + ce.twPenalty r.timeWarp + ce.distPenalty r.excessDistance 0

/-- `penalisedCost(solution)` (`Solution.cpp` 405-413). -/
def penalisedCost (ce : CostEvaluator) (s : Solution) : Int :=
  s.routes.foldl (fun cost r => cost + ce.penalisedCostRoute r) s.uncollectedPrizes

/-- `cost(solution)` (`CostEvaluator.h` 212-218). -/
def cost (ce : CostEvaluator) (s : Solution) : Int :=
  if s.isFeasible then ce.penalisedCost s else MAX

end CostEvaluator
end PyVRP
