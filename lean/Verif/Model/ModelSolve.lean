import Verif.Model.ModelApi
import Verif.Model.Solve
/-!
# `Model.solve` (`Model.py` 588-638)
-/
namespace PyVRP.ModelApi

/-- `Model.solve` (`Model.py` 588-638), without the display. -/
def PyModel.solve (m : PyModel) (R : Rounding) (stop : Criterion) (clock : Nat → Int) (seed : BitVec 32)
    (collectStats : Bool) (params : SolveParams) (missingValue : Int) (initial : Option Solution)
    (fuel rounds : Nat) : Except ApiError (Option Result) :=
  match m.data missingValue with
  | .error e => .error e
  | .ok data => lift (Solve.solveSeed R data params stop clock seed collectStats initial fuel rounds)

end PyVRP.ModelApi
