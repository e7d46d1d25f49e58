import Verif.Model.Route
/-!
# `pyvrp/plotting/plot_route_schedule.py`: what is drawn

Only the points and lines that are handed to `matplotlib` are modelled, not the axes, colours and labels.
-/
namespace PyVRP
namespace Plot

/-- What is drawn: lines through points, and pieces of lines. The horizontal axis is the distance. -/
structure Schedule where
  /-- `trace_time` -/
  time : List (Int × Int) := []
  /-- `trace_drive` -/
  drive : List (Int × Int) := []
  /-- `trace_drive_serv` -/
  driveServ : List (Int × Int) := []
  /-- `trace_load`, which is drawn if the load dimension exists -/
  load : List (Int × Int) := []
  /-- `timewindow_lines` -/
  windows : List ((Int × Int) × (Int × Int)) := []
  /-- `timewarp_lines` -/
  warps : List ((Int × Int) × (Int × Int)) := []
  /-- The shaded area above `time`, if there is slack: its upper side. -/
  slack : Option (List (Int × Int)) := none
deriving DecidableEq, Repr

/-- `(stop.tw_early, stop.tw_late)` (`plot_route_schedule.py` 81-105). -/
def window (data : ProblemData) (a : Activity) : Int × Int :=
  match a.type with
  | .depot => ((data.depot a.idx).twEarly, (data.depot a.idx).twLate)
  | .client => ((data.client a.idx).twEarly, (data.client a.idx).twLate)
  | .pickup => ((data.shipment a.idx).pickup.twEarly, (data.shipment a.idx).pickup.twLate)
  | .delivery => ((data.shipment a.idx).delivery.twEarly, (data.shipment a.idx).delivery.twLate)

/-- `load_diff` (`plot_route_schedule.py` 79-105), where `dim` is none if the load is not tracked. -/
def loadDiff (data : ProblemData) (dim : Option Nat) (a : Activity) : Int :=
  match dim with
  | none => 0
  | some dim =>
    match a.type with
    | .depot => 0
    | .client => 0 - (data.client a.idx).delivery.getD dim 0 + (data.client a.idx).pickup.getD dim 0
    | .pickup => 0 + (data.shipment a.idx).amount.getD dim 0
    | .delivery => 0 - (data.shipment a.idx).amount.getD dim 0

/-- The loop (`plot_route_schedule.py` 77-127). -/
def loop (data : ProblemData) (profile : Nat) (dim : Option Nat) (prevLoc : Nat)
    (dist driveTime servTime load : Int) : List ScheduledActivity → Schedule
  | [] => {}
  | s :: rest =>
    let loc := data.locationOf s.activity
    let driveTime := driveTime + data.dur profile prevLoc loc
    let dist := dist + data.dist profile prevLoc loc
    let arrive := s.startTime - s.waitDuration
    let load' := load + loadDiff data dim s.activity
    let servTime' := servTime + s.duration
    let w := window data s.activity
    let p := loop data profile dim loc dist driveTime servTime' load' rest
    { time := (dist, arrive) :: (dist, s.startTime) :: (dist, s.endTime) :: p.time
      drive := (dist, driveTime) :: (dist, driveTime) :: (dist, driveTime) :: p.drive
      driveServ := (dist, driveTime + servTime) :: (dist, driveTime + servTime) :: (dist, driveTime + servTime')
        :: p.driveServ
      load := (dist, load) :: (dist, load') :: (dist, load') :: p.load
      windows := ((dist, w.1), (dist, w.2)) :: p.windows
      warps := if s.timeWarp > 0 then ((dist, s.startTime + s.timeWarp), (dist, w.2)) :: p.warps else p.warps }

/-- `plot_route_schedule` (`plot_route_schedule.py` 8-139). -/
def routeSchedule (data : ProblemData) (route : Route) (loadDimension : Nat := 0) : Schedule :=
  let v := data.vehicleType route.vehicleType
  let dim := if loadDimension < data.numLoadDimensions then some loadDimension else none
  let load := match dim with
    | some dim => route.delivery.getD dim 0
    | none => 0
  let p := loop data v.profile dim (data.depot v.startDepot).location 0 0 0 load route.schedule
  { p with slack := if route.slack > 0 then some (p.time.map fun (x, y) => (x, y + route.slack)) else none }

end Plot
end PyVRP
