import Verif.Spec.RouteSpec
import Verif.Spec.Valid
/-!
# Problem instances as the constructors make them
-/
namespace PyVRP.Spec

/-- The data are accepted by the constructors of `ProblemData` and of `VehicleType`, and times are in
range. -/
structure GoodData (data : ProblemData) : Prop where
  made : ProblemData.make data = .ok data
  vehicles : ∀ v ∈ data.vehicleTypes, ∃ args, VehicleType.make args = .ok v
  times : TimesOk data

end PyVRP.Spec
