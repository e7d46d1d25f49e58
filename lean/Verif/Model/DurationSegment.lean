import Verif.Model.Measure
/-!
# `pyvrp/cpp/DurationSegment.h` and `DurationSegment.cpp`
-/
namespace PyVRP

/-- `DurationSegment` (`DurationSegment.h` 50-61): the eight private fields, in
constructor order, with the constructor's defaults (`DurationSegment.h`
170-179). -/
structure DurSeg where
  duration_ : Int := 0
  timeWarp_ : Int := 0
  startEarly_ : Int := 0
  startLate_ : Int := MAX
  releaseTime_ : Int := 0
  cumDuration_ : Int := 0
  cumTimeWarp_ : Int := 0
  prevEndLate_ : Int := MAX
deriving DecidableEq, Repr

namespace DurSeg

/-- `DurationSegment::merge(edgeDuration, first, second)`
(`DurationSegment.h` 190-226). -/
def merge (edge : Int) (first second : DurSeg) : DurSeg :=
  let atSecond := first.duration_ - first.timeWarp_ + edge
  let diffTw :=
    if first.startEarly_ + atSecond > second.startLate_ then
      first.startEarly_ + atSecond - second.startLate_
    else 0
  let diffWait :=
    if second.startEarly_ - atSecond > first.startLate_ then
      second.startEarly_ - atSecond - first.startLate_
    else 0
  let secondLate :=
    if atSecond > second.startLate_ - MAX then second.startLate_ - atSecond
    else second.startLate_
  { duration_ := first.duration_ + second.duration_ + edge + diffWait
    timeWarp_ := first.timeWarp_ + second.timeWarp_ + diffTw
    startEarly_ := max first.startEarly_ (second.startEarly_ - atSecond) - diffWait
    startLate_ := min first.startLate_ secondLate + diffTw
    releaseTime_ := max first.releaseTime_ second.releaseTime_
    cumDuration_ := first.cumDuration_ + second.cumDuration_
    cumTimeWarp_ := first.cumTimeWarp_ + second.cumTimeWarp_
    prevEndLate_ := first.prevEndLate_ }

/-- `startEarly()` (`DurationSegment.h` 285-290). -/
def startEarly (s : DurSeg) : Int := max s.startEarly_ s.releaseTime_

/-- `startLate()` (`DurationSegment.h` 292-297). -/
def startLate (s : DurSeg) : Int := max s.startLate_ s.releaseTime_

/-- `duration()` (`DurationSegment.h` 266-270). -/
def duration (s : DurSeg) : Int :=
  s.cumDuration_ + s.duration_ + max (s.startEarly - s.prevEndLate_) 0

/-- `timeWarp(maxDuration)` (`DurationSegment.h` 272-283). -/
def timeWarp (s : DurSeg) (maxDuration : Int := MAX) : Int :=
  let timeWarp := s.cumTimeWarp_ + s.timeWarp_
  let netDuration := s.duration - timeWarp
  timeWarp + max (s.releaseTime_ - s.startLate_) 0
    + (if netDuration > maxDuration then netDuration - maxDuration else 0)

/-- `endEarly()` (`DurationSegment.h` 299-304). -/
def endEarly (s : DurSeg) : Int :=
  let tripDuration := s.duration - s.cumDuration_
  let tripTimeWarp := s.timeWarp - s.cumTimeWarp_
  s.startEarly + tripDuration - tripTimeWarp

/-- `endLate()` (`DurationSegment.h` 306-314). -/
def endLate (s : DurSeg) : Int :=
  let tripDuration := s.duration - s.cumDuration_
  let tripTimeWarp := s.timeWarp - s.cumTimeWarp_
  let netDuration := tripDuration - tripTimeWarp
  if netDuration > MAX - s.startLate then MAX else s.startLate + netDuration

/-- `slack()` (`DurationSegment.cpp` 12-19). -/
def slack (s : DurSeg) : Int :=
  let prevSlack := max (s.prevEndLate_ - s.releaseTime_) 0
  min (s.startLate - s.startEarly) prevSlack

/-- `finaliseFront()` (`DurationSegment.h` 258-264). -/
def finaliseFront (s : DurSeg) : DurSeg :=
  let release : DurSeg := { startEarly_ := s.startEarly, startLate_ := s.startLate }
  merge 0 release
    { duration_ := s.duration_, timeWarp_ := s.timeWarp_
      startEarly_ := s.startEarly_, startLate_ := s.startLate_ }

/-- `finaliseBack()` (`DurationSegment.h` 234-256). -/
def finaliseBack (s : DurSeg) : DurSeg :=
  let prev : DurSeg := { startLate_ := s.prevEndLate_ }
  let finalised := merge 0 prev s.finaliseFront
  { duration_ := 0
    timeWarp_ := 0
    startEarly_ := finalised.endEarly
    startLate_ := MAX
    releaseTime_ := finalised.endEarly
    cumDuration_ := s.cumDuration_ + finalised.duration
    cumTimeWarp_ := s.cumTimeWarp_ + finalised.timeWarp
    prevEndLate_ := finalised.endLate }

end DurSeg
end PyVRP
