import Verif.Model.Route
import Verif.Spec.RouteSpec
/-!
# Specification: what the entries of a schedule should look like
-/
namespace PyVRP.Spec

/-- The entries from some point on, in relation to the activities: `loc` is where the vehicle
is and `now` when it leaves. -/
def Follows (data : ProblemData) (v : VehicleType) (now : Int) (loc : Nat) :
    List Activity → List ScheduledActivity → Prop
  | [], es => ∃ e, es = [e]
      ∧ e.startTime = now + data.dur v.profile loc (data.depot v.endDepot).location
          + e.waitDuration - e.timeWarp
      ∧ e.endTime = e.startTime
      ∧ 0 ≤ e.waitDuration ∧ 0 ≤ e.timeWarp
      ∧ (data.depot v.endDepot).twEarly ≤ e.startTime
      ∧ e.startTime ≤ (data.depot v.endDepot).twLate
  | a :: rest, es => ∃ e es', es = e :: es'
      ∧ e.startTime = now + data.dur v.profile loc (place data a) + e.waitDuration - e.timeWarp
      ∧ e.endTime = e.startTime + serviceTime data a
      ∧ 0 ≤ e.waitDuration ∧ 0 ≤ e.timeWarp
      ∧ earliest data a ≤ e.startTime ∧ e.startTime ≤ latest data a
      ∧ (a.type = .depot → min (tripRelease data rest) (latest data a) ≤ e.startTime)
      ∧ Follows data v e.endTime (place data a) rest es'

/-- The trips' release times are within the windows of the reload depots. -/
def ReloadsInTime (data : ProblemData) : List Activity → Prop
  | [] => True
  | a :: rest => (a.type = .depot → tripRelease data rest ≤ latest data a)
      ∧ ReloadsInTime data rest

end PyVRP.Spec
