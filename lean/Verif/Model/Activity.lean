/-!
# `pyvrp/cpp/Activity.h` (24-109): activities
-/
namespace PyVRP

/-- `Activity::ActivityType` (`Activity.h` 41-47). -/
inductive ActivityType where
  | depot | client | pickup | delivery
deriving DecidableEq, Repr, Inhabited

/-- `Activity` (`Activity.h` 49-58): a type and an index (`size_t`, here `Nat`). -/
structure Activity where
  type : ActivityType
  idx : Nat
deriving DecidableEq, Repr, Inhabited

namespace Activity

/-- `isClient` (`Activity.h` 100). -/
def isClient (a : Activity) : Bool := a.type == .client
/-- `isDepot` (`Activity.h` 102). -/
def isDepot (a : Activity) : Bool := a.type == .depot
/-- `isPickup` (`Activity.h` 106). -/
def isPickup (a : Activity) : Bool := a.type == .pickup
/-- `isDelivery` (`Activity.h` 108). -/
def isDelivery (a : Activity) : Bool := a.type == .delivery
/-- `isShipment` (`Activity.h` 104). -/
def isShipment (a : Activity) : Bool := a.isPickup || a.isDelivery

end Activity
end PyVRP
