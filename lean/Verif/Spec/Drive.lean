/-!
# Specification: driving a list of stops

Independent of the segment calculus.  A vehicle that is free to go at time `t`
drives to the next stop, waits there until the stop is `ready`, and if that is
later than the stop's latest time `late` it pays the difference as *time warp*
(it is put back in time to `late`), then spends `service` and goes on.
-/
namespace PyVRP.Spec

/-- A stop: travel time from the previous position, the earliest time service
can begin, the latest time service may begin, and the service duration. -/
structure Stop where
  travel : Int
  ready : Int
  late : Int
  service : Int
deriving DecidableEq, Repr

/-- What driving a list of stops costs. `wait` and `warp` are the totals of the
waiting times and of the time warps; `finish` is the time at the end. -/
structure Outcome where
  wait : Int
  warp : Int
  finish : Int
deriving DecidableEq, Repr

/-- Arrival at a stop when leaving the previous position at `t`. -/
def Stop.arrive (s : Stop) (t : Int) : Int := t + s.travel

/-- Waiting time at the stop. -/
def Stop.wait (s : Stop) (t : Int) : Int := max (s.ready - s.arrive t) 0

/-- Lateness paid at the stop. -/
def Stop.warp (s : Stop) (t : Int) : Int := max (max (s.arrive t) s.ready - s.late) 0

/-- Time at which service begins, after waiting and after time warp. -/
def Stop.begin (s : Stop) (t : Int) : Int := s.arrive t + s.wait t - s.warp t

/-- Drive all stops, leaving the initial position at time `t`. -/
def drive (t : Int) : List Stop → Outcome
  | [] => { wait := 0, warp := 0, finish := t }
  | s :: rest =>
    let o := drive (s.begin t + s.service) rest
    { wait := s.wait t + o.wait, warp := s.warp t + o.warp, finish := o.finish }

/-- Total time on the road (travel) of the stops. -/
def totalTravel (l : List Stop) : Int := (l.map Stop.travel).sum

/-- Total service time of the stops. -/
def totalService (l : List Stop) : Int := (l.map Stop.service).sum

/-- Duration of the drive: everything that takes time. -/
def driveDuration (t : Int) (l : List Stop) : Int :=
  totalTravel l + totalService l + (drive t l).wait

/-- Time warp of the drive. -/
def driveWarp (t : Int) (l : List Stop) : Int := (drive t l).warp

/-- A timetable without lateness: service at each stop can begin at a time that
is not before the vehicle can be there, and lies within the stop's window.
`fin` is when the vehicle is done. -/
def Timetable (t : Int) (l : List Stop) (fin : Int) : Prop :=
  match l with
  | [] => t ≤ fin
  | s :: rest =>
    ∃ b, t + s.travel ≤ b ∧ s.ready ≤ b ∧ b ≤ s.late ∧ Timetable (b + s.service) rest fin

end PyVRP.Spec

namespace PyVRP.Spec

/-- The same stops, when the first one is reached after `e` additional travel. -/
def delay (e : Int) : List Stop → List Stop
  | [] => []
  | s :: rest => { s with travel := s.travel + e } :: rest

end PyVRP.Spec
