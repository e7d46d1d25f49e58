import Verif.Model.Data
/-!
# `pyvrp/cpp/PiecewiseLinearFunction.h`

Both template arguments are `int64_t` in the Python bindings (`bindings.cpp` 51-52); they are modelled
by `Int`.
-/
namespace PyVRP

/-- `PiecewiseLinearFunction` (`PiecewiseLinearFunction.h` 50-91): breakpoints, and segments as pairs of
intercept and slope. -/
structure Pwl where
  breakpoints : List Int
  segments : List (Int × Int)
  deriving DecidableEq, Repr

namespace Pwl

/-- The loop of the constructor (`PiecewiseLinearFunction.h` 107-130) over consecutive points. `first`
means `idx == 0`. Division and remainder truncate as in C++. -/
def loop : Bool → List (Int × Int) → Except Error Pwl
  | first, curr :: next :: rest =>
    if curr.1 = next.1 then loop false (next :: rest)
    else
      let dy := next.2 - curr.2
      let dx := next.1 - curr.1
      if dx < 0 then .error (.invalidArgument "Points must be non-decreasing in x.")
      else if dy.tmod dx ≠ 0 then .error (.invalidArgument "Slope is not integral.")
      else
        let slope := dy.tdiv dx
        let intercept := curr.2 - slope * curr.1
        match loop false (next :: rest) with
        | .error e => .error e
        | .ok f =>
          .ok ⟨if first then f.breakpoints else curr.1 :: f.breakpoints,
            (intercept, slope) :: f.segments⟩
  | _, _ => .ok ⟨[], []⟩

/-- The constructor from points (`PiecewiseLinearFunction.h` 92-134). -/
def ofPoints (points : List (Int × Int)) : Except Error Pwl :=
  if points.length < 2 then .error (.invalidArgument "Need at least two points.")
  else if (points.getD 0 (0, 0)).1 = (points.getD 1 (0, 0)).1 then
    .error (.invalidArgument "First two points must have distinct x-coordinates.")
  else if (points.getD (points.length - 2) (0, 0)).1 = (points.getD (points.length - 1) (0, 0)).1 then
    .error (.invalidArgument "Last two points must have distinct x-coordinates.")
  else loop true points

/-- `breakpoints_[idx] >= breakpoints_[idx + 1]` for some `idx` (`PiecewiseLinearFunction.h` 147-150). -/
def notIncreasing : List Int → Bool
  | a :: b :: rest => decide (a ≥ b) || notIncreasing (b :: rest)
  | _ => false

/-- The constructor from breakpoints and segments (`PiecewiseLinearFunction.h` 136-151). -/
def make (breakpoints : List Int) (segments : List (Int × Int)) : Except Error Pwl :=
  checked (
    throwIf (segments = []) (.invalidArgument "Need at least one segment.")
    <|> throwIf (breakpoints.length + 1 ≠ segments.length)
      (.invalidArgument "Need one more segment than breakpoints.")
    <|> throwIf (notIncreasing breakpoints = true)
      (.invalidArgument "Breakpoints must be strictly increasing."))
    ⟨breakpoints, segments⟩

/-- `operator()` (`PiecewiseLinearFunction.h` 153-162). On increasing breakpoints `std::upper_bound` finds the
first one that is larger than `x`. -/
def eval (f : Pwl) (x : Int) : Int :=
  let idx := (f.breakpoints.takeWhile (fun b => decide (b ≤ x))).length
  let segment := f.segments.getD idx (0, 0)
  segment.1 + segment.2 * x

/-- `isMonotonicallyIncreasing` (`PiecewiseLinearFunction.h` 177-198). -/
def isMonotonicallyIncreasing (f : Pwl) : Bool :=
  !(f.segments.any (fun s => decide (s.2 < 0)))
  && !((List.range f.breakpoints.length).any (fun idx =>
    let breakpoint := f.breakpoints.getD idx 0
    let prev := f.segments.getD idx (0, 0)
    let next := f.segments.getD (idx + 1) (0, 0)
    decide (next.1 + next.2 * breakpoint < prev.1 + prev.2 * breakpoint)))

/-- Pickling (`bindings.cpp` 183-196). -/
def pickled (f : Pwl) : Except Error Pwl := make f.breakpoints f.segments

end Pwl
end PyVRP
