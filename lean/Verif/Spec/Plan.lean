import Verif.Spec.Drive
import Verif.Model.Measure
/-!
# Specification: sequences of visits, put together in any order of concatenation

A `Plan` is an expression over visits: a single visit, or two plans with a travel
time between them.  `Plan.stops` is the flat list of stops it stands for.
-/
namespace PyVRP.Spec

/-- A visit as a user describes it. -/
structure Visit where
  early : Int
  late : Int
  service : Int
  release : Int
deriving DecidableEq, Repr

/-- What the data classes guarantee about a visit (`tw_early`, `tw_late`, etc. are
checked on construction), and that the times are not absurdly close to the
largest representable value. -/
structure Visit.Valid (v : Visit) : Prop where
  early_nonneg : 0 ≤ v.early
  window : v.early ≤ v.late
  late_le : v.late ≤ MAX
  early_le : v.early ≤ HALF
  service_nonneg : 0 ≤ v.service
  release_nonneg : 0 ≤ v.release
  release_le : v.release ≤ HALF

inductive Plan where
  | visit (v : Visit)
  | join (travel : Int) (first second : Plan)

namespace Plan

/-- The flat list of stops, with travel times in between. -/
def stops : Plan → List Stop
  | visit v => [{ travel := 0, ready := v.early, late := v.late, service := v.service }]
  | join e a b => a.stops ++ delay e b.stops

/-- The latest release time of the visits. -/
def release : Plan → Int
  | visit v => v.release
  | join _ a b => max a.release b.release

/-- All visits valid, all travel times non-negative. -/
def Valid : Plan → Prop
  | visit v => v.Valid
  | join e a b => 0 ≤ e ∧ a.Valid ∧ b.Valid

end Plan
end PyVRP.Spec
