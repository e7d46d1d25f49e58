import Verif.Model.Data
/-!
# `pyvrp/cpp/LoadSegment.h` and `LoadSegment.cpp`
-/
namespace PyVRP

/-- `LoadSegment` (`LoadSegment.h` 25-31): the private fields, default zero. -/
structure LoadSeg where
  initial_ : Int := 0
  delta_ : Int := 0
  increase_ : Int := 0
  excessLoad_ : Int := 0
deriving DecidableEq, Repr

namespace LoadSeg

/-- `LoadSegment::merge` (`LoadSegment.h` 111-121). -/
def merge (first second : LoadSeg) : LoadSeg :=
  { initial_ := first.initial_ + second.initial_
    delta_ := first.delta_ + second.delta_
    increase_ := max first.increase_ (first.delta_ + second.increase_)
    excessLoad_ := first.excessLoad_ + second.excessLoad_ }

/-- `load()` (`LoadSegment.h` 123). -/
def load (s : LoadSeg) : Int := s.initial_ + s.increase_

/-- `excessLoad(capacity)` (`LoadSegment.h` 125-128). -/
def excessLoad (s : LoadSeg) (capacity : Int) : Int :=
  s.excessLoad_ + max (s.load - capacity) 0

/-- `finalise(capacity)` (`LoadSegment.h` 130-133). -/
def finalise (s : LoadSeg) (capacity : Int) : LoadSeg :=
  { initial_ := 0, delta_ := 0, increase_ := 0, excessLoad_ := s.excessLoad capacity }

/-- `LoadSegment(client, dimension)` (`LoadSegment.cpp` 16-21).  Reading a load
vector outside its range is undefined behaviour in C++ (0 here); validated data
has vectors of the right length. -/
def ofClient (c : Client) (dim : Nat) : LoadSeg :=
  let delta := c.pickup.getD dim 0 - c.delivery.getD dim 0
  { initial_ := c.delivery.getD dim 0
    delta_ := delta
    increase_ := max 0 delta }

/-- `LoadSegment(shipment, type, dimension)` (`LoadSegment.cpp` 23-33). -/
def ofShipment (s : Shipment) (type : ActivityType) (dim : Nat) : LoadSeg :=
  let delta := if type = .pickup then s.amount.getD dim 0 else - s.amount.getD dim 0
  { delta_ := delta, increase_ := max 0 delta }

/-- `LoadSegment(vehicleType, dimension)` (`LoadSegment.cpp` 35-38). -/
def ofVehicle (v : VehicleType) (dim : Nat) : LoadSeg :=
  { initial_ := v.initialLoad.getD dim 0 }

end LoadSeg
end PyVRP
