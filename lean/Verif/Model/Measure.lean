/-!
# Measures

`Distance`, `Duration`, `Load`, `Cost` and `Coordinate` are all `int64_t`
(`pyvrp/cpp/Measure.h` 1-269).  They are modelled by `Int`; for overflow see `Verif/Model/Int64.lean`.  The largest
representable value does matter, because the code branches on it.
-/
namespace PyVRP

/-- `std::numeric_limits<Duration>::max()` (and likewise for `Distance`,
`Load` and `Cost`), `Measure.h` (specialisation of `numeric_limits`). -/
def MAX : Int := 9223372036854775807

theorem MAX_eq : MAX = 9223372036854775807 := rfl

/-- Half of the `int64_t` range.  Not part of the code: theorems about times
assume that *earliest* times stay below this bound (an instance with an opening
time of 2^62 seconds is not meaningful and would overflow the C++ code). -/
def HALF : Int := 4611686018427387903

theorem HALF_eq : HALF = 4611686018427387903 := rfl

/-- `size_t` maximum. -/
def SIZE_MAX : Nat := 18446744073709551615

end PyVRP
