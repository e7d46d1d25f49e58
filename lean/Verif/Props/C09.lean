import Verif.Lemmas.RouteTime
import Verif.Props.C04
/-!
# C09: route times are optimal; C10: no time warp iff the route can be driven; C12: feasibility

`routeStops` lists everything a vehicle goes through on the route, `tripRelease` is the earliest
moment at which the goods of the first trip are available (see `Spec/RouteSpec.lean`).
-/
namespace PyVRP
open Spec

/-- **C09.** Leaving at `start_time()` gives the reported duration. No start time at which the goods
are available gives a smaller duration or a smaller time warp. -/
theorem C09_start_time_is_optimal (data : ProblemData) (ht : TimesOk data) (acts : List Activity)
    (vt : Nat) (r : Route) (h : Route.make data acts vt = .ok r) :
    let stops := routeStops data (data.vehicleType vt) acts
    r.releaseTime = tripRelease data acts
    ∧ r.releaseTime ≤ r.startTime
    ∧ driveDuration r.startTime stops = r.duration
    ∧ (∀ t, driveDuration r.startTime stops ≤ driveDuration t stops ∨ t < r.releaseTime)
    ∧ (∀ t, driveWarp r.startTime stops ≤ driveWarp t stops ∨ t < r.releaseTime) := by
  intro stops
  have hr := Route.make_eq_ok h
  subst hr
  obtain ⟨ok, rep, hrel, hcd, hcw, hp, -, -⟩ := Route.total_inv ht vt acts
  have hb := tripRelease_bounds ht acts
  have h1 := fun t => (rep t).1
  have h2 := fun t => (rep t).2
  simp only [Route.build, stops]
  generalize (Route.backward data (data.vehicleType vt) acts).ds = ds at *
  obtain ⟨a1, a2, a3, a4, a5, a6, a7, a8⟩ := ok
  have := MAX_eq; have := HALF_eq
  refine ⟨hrel, ?_, ?_, fun t => ?_, fun t => ?_⟩
  · simp only [DurSeg.startEarly]; omega
  · rw [h1]; simp only [DurSeg.startEarly, DurSeg.duration, DurSeg.D, hcd, hp]; omega
  · rw [h1, h1]; simp only [DurSeg.startEarly, DurSeg.D]; omega
  · rw [h2, h2]; simp only [DurSeg.startEarly, DurSeg.W]; omega

/-- **C09.** `start_time()` is the earliest such time: leaving earlier takes longer. -/
theorem C09_start_time_is_earliest (data : ProblemData) (ht : TimesOk data) (acts : List Activity)
    (vt : Nat) (r : Route) (h : Route.make data acts vt = .ok r) (t : Int)
    (h1 : r.releaseTime ≤ t) (h2 : t < r.startTime) :
    r.duration < driveDuration t (routeStops data (data.vehicleType vt) acts) := by
  have hr := Route.make_eq_ok h
  subst hr
  obtain ⟨ok, rep, hrel, hcd, hcw, hp, -, -⟩ := Route.total_inv ht vt acts
  have hb := tripRelease_bounds ht acts
  rw [(rep t).1]
  simp only [Route.build] at *
  generalize (Route.backward data (data.vehicleType vt) acts).ds = ds at *
  obtain ⟨a1, a2, a3, a4, a5, a6, a7, a8⟩ := ok
  have := MAX_eq; have := HALF_eq
  simp only [DurSeg.startEarly, DurSeg.duration, DurSeg.D, hcd, hp] at *
  omega

/-- **C09.** Delaying the start by up to `slack()` changes neither duration nor time warp, and
delaying by more strictly increases the time warp. -/
theorem C09_slack (data : ProblemData) (ht : TimesOk data) (acts : List Activity)
    (vt : Nat) (r : Route) (h : Route.make data acts vt = .ok r) :
    let stops := routeStops data (data.vehicleType vt) acts
    0 ≤ r.slack
    ∧ (∀ t, r.startTime ≤ t → t ≤ r.startTime + r.slack →
        driveDuration t stops = r.duration ∧ driveWarp t stops = driveWarp r.startTime stops)
    ∧ (∀ t, r.startTime + r.slack < t → driveWarp r.startTime stops < driveWarp t stops) := by
  intro stops
  have hr := Route.make_eq_ok h
  subst hr
  obtain ⟨ok, rep, hrel, hcd, hcw, hp, -, -⟩ := Route.total_inv ht vt acts
  have hb := tripRelease_bounds ht acts
  have h1 := fun t => (rep t).1
  have h2 := fun t => (rep t).2
  simp only [Route.build, stops, h1, h2]
  generalize (Route.backward data (data.vehicleType vt) acts).ds = ds at *
  obtain ⟨a1, a2, a3, a4, a5, a6, a7, a8⟩ := ok
  have := MAX_eq; have := HALF_eq
  simp only [DurSeg.startEarly, DurSeg.startLate, DurSeg.duration, DurSeg.D, DurSeg.W,
    DurSeg.slack, hcd, hp]
  refine ⟨?_, fun t _ _ => ⟨?_, ?_⟩, fun t _ => ?_⟩ <;> omega

/-- **C09.** The reported time warp is that of leaving at `start_time()`, plus the amount by which
the duration exceeds the maximum duration. From that duration the smallest possible lateness `w`
over all start times (also those before the goods are available) is subtracted first. -/
theorem C09_time_warp (data : ProblemData) (ht : TimesOk data) (acts : List Activity)
    (vt : Nat) (r : Route) (h : Route.make data acts vt = .ok r) (w : Int)
    (hw : ∀ t, w ≤ driveWarp t (routeStops data (data.vehicleType vt) acts))
    (hw' : ∃ t, driveWarp t (routeStops data (data.vehicleType vt) acts) = w) :
    r.timeWarp = driveWarp r.startTime (routeStops data (data.vehicleType vt) acts)
      + max (r.duration - w - (data.vehicleType vt).maxDuration) 0 := by
  have hr := Route.make_eq_ok h
  subst hr
  obtain ⟨ok, rep, hrel, hcd, hcw, hp, -, -⟩ := Route.total_inv ht vt acts
  have hb := tripRelease_bounds ht acts
  have h2 := fun t => (rep t).2
  obtain ⟨t, hwt⟩ := hw'
  simp only [Route.build, h2] at *
  have hw := hw (Route.backward data (data.vehicleType vt) acts).ds.startLate_
  generalize (Route.backward data (data.vehicleType vt) acts).ds = ds at *
  obtain ⟨a1, a2, a3, a4, a5, a6, a7, a8⟩ := ok
  have := MAX_eq; have := HALF_eq
  simp only [DurSeg.startEarly, DurSeg.duration, DurSeg.timeWarp, DurSeg.W, hcd, hcw, hp] at *
  omega

/-- **C09.** The parts of the duration: travel, service and waiting; and what is derived from it. -/
theorem C09_duration_parts (data : ProblemData) (ht : TimesOk data) (acts : List Activity)
    (vt : Nat) (r : Route) (h : Route.make data acts vt = .ok r) :
    let v := data.vehicleType vt
    let stops := routeStops data v acts
    r.travelDuration = totalTravel stops
    ∧ r.serviceDuration = totalService stops
    ∧ r.waitDuration = (drive r.startTime stops).wait
    ∧ r.overtime = max (r.duration - v.shiftDuration) 0
    ∧ r.durationCost = v.unitDurationCost * r.duration + v.unitOvertimeCost * r.overtime
    ∧ r.endTime = r.startTime + r.duration - r.timeWarp := by
  intro v stops
  have hd := (C09_start_time_is_optimal data ht acts vt r h).2.2.1
  have hr := Route.make_eq_ok h
  subst hr
  obtain ⟨_, _, _, _, _, _, hs, htr⟩ := Route.total_inv ht vt acts
  refine ⟨htr, hs, ?_, rfl, rfl, rfl⟩
  rw [driveDuration, ← htr, ← hs] at hd
  unfold Route.waitDuration
  rw [← hd]
  simp only [Route.build, v, stops]
  omega

namespace Spec

theorem drive_nonneg (t : Int) (l : List Stop) : 0 ≤ (drive t l).wait ∧ 0 ≤ (drive t l).warp := by
  induction l generalizing t with
  | nil => simp [drive]
  | cons s rest ih =>
    have := ih (s.begin t + s.service)
    simp only [drive, Stop.wait, Stop.warp]
    omega

theorem Timetable.drive {t t' fin : Int} {l : List Stop} (h : Timetable t' l fin) (ht : t ≤ t') :
    driveWarp t l = 0 ∧ (drive t l).finish ≤ fin := by
  induction l generalizing t t' with
  | nil => exact ⟨rfl, Int.le_trans ht h⟩
  | cons s rest ih =>
    obtain ⟨b, h1, h2, h3, h4⟩ := h
    have hw : s.warp t = 0 := by simp only [Stop.warp, Stop.arrive]; omega
    have hb : s.begin t + s.service ≤ b + s.service := by
      simp only [Stop.begin, hw, Stop.wait, Stop.arrive]; omega
    have := ih h4 hb
    simp only [driveWarp, Spec.drive, hw] at *
    omega

theorem timetable_of_drive {t : Int} {l : List Stop} (h : driveWarp t l = 0) :
    Timetable t l (drive t l).finish := by
  induction l generalizing t with
  | nil => exact Int.le_refl _
  | cons s rest ih =>
    have hn := drive_nonneg (s.begin t + s.service) rest
    simp only [driveWarp, drive] at h
    have hw : s.warp t = 0 := by simp only [Stop.warp] at *; omega
    refine ⟨s.begin t, ?_, ?_, ?_, ih (by simp only [driveWarp]; omega)⟩ <;>
      simp only [Stop.begin, hw, Stop.wait, Stop.arrive] <;>
      simp only [Stop.warp, Stop.arrive] at hw <;> omega

end Spec

/-- **C10.** A route has no time warp if and only if it can be driven: there are a start time at
which the goods are available, times for all stops, and an end time, that respect all time windows
and release times, such that the total is not longer than the maximum duration. -/
theorem C10_no_time_warp_iff_drivable (data : ProblemData) (ht : TimesOk data)
    (acts : List Activity) (vt : Nat) (r : Route) (h : Route.make data acts vt = .ok r) :
    r.hasTimeWarp = false ↔
      ∃ t fin, tripRelease data acts ≤ t
        ∧ Timetable t (routeStops data (data.vehicleType vt) acts) fin
        ∧ fin - t ≤ (data.vehicleType vt).maxDuration := by
  have hopt := C09_start_time_is_optimal data ht acts vt r h
  simp only at hopt
  have hnn := fun t => (drive_nonneg t (routeStops data (data.vehicleType vt) acts)).2
  -- the smallest lateness
  have hmin : ∃ w, (∀ t, w ≤ driveWarp t (routeStops data (data.vehicleType vt) acts))
      ∧ ∃ t, driveWarp t (routeStops data (data.vehicleType vt) acts) = w := by
    obtain ⟨_, rep, _⟩ := Route.total_inv ht vt acts
    refine ⟨_, ?_, (Route.backward data (data.vehicleType vt) acts).ds.startLate_, rfl⟩
    intro t
    rw [(rep _).2, (rep _).2]
    simp only [DurSeg.W]; omega
  obtain ⟨w, hw, hw'⟩ := hmin
  have htw := C09_time_warp data ht acts vt r h w hw hw'
  have hw0 : 0 ≤ w := by obtain ⟨t, hh⟩ := hw'; rw [← hh]; exact hnn t
  obtain ⟨hrel, hle, hdur, hmd, hmw⟩ := hopt
  have hfalse : r.hasTimeWarp = false ↔ r.timeWarp ≤ 0 := by
    unfold Route.hasTimeWarp; simp
  rw [hfalse]
  have hn0 := hnn r.startTime
  have hw1 := hw r.startTime
  simp only [driveWarp] at *
  constructor
  · intro h0
    have hz : (drive r.startTime (routeStops data (data.vehicleType vt) acts)).warp = 0 := by
      omega
    refine ⟨r.startTime, _, by omega, timetable_of_drive hz, ?_⟩
    rw [drive_finish, hdur]
    simp only [driveWarp]
    omega
  · rintro ⟨t, fin, h1, h2, h3⟩
    have hdr := h2.drive (Int.le_refl t)
    rw [drive_finish] at hdr
    simp only [driveWarp] at hdr
    have e1 := hmw t
    have e2 := hmd t
    have e3 := hw t
    omega

/-- **C12.** A route is feasible if and only if no trip ever carries more than the capacity in any
load dimension, the distance is within the limit, and the route can be driven. -/
theorem C12_feasible_iff (data : ProblemData) (ht : TimesOk data) (acts : List Activity) (vt : Nat)
    (r : Route)
    (hcap : ∀ dim, 0 ≤ (data.vehicleType vt).capacity.getD dim 0)
    (hinit : ∀ dim, 0 ≤ (data.vehicleType vt).initialLoad.getD dim 0)
    (h : Route.make data acts vt = .ok r) :
    r.isFeasible = true ↔
      (∀ dim, dim < data.numLoadDimensions →
        ∀ trip ∈ routeAmounts data dim ((data.vehicleType vt).initialLoad.getD dim 0) acts,
          ∀ x ∈ trip, x ≤ (data.vehicleType vt).capacity.getD dim 0)
      ∧ legSum (data.dist (data.vehicleType vt).profile)
          ((fullActs (data.vehicleType vt) acts).map (place data))
        ≤ (data.vehicleType vt).maxDistance
      ∧ ∃ t fin, tripRelease data acts ≤ t
        ∧ Timetable t (routeStops data (data.vehicleType vt) acts) fin
        ∧ fin - t ≤ (data.vehicleType vt).maxDuration := by
  have hdist := C08_distance data acts vt r h
  rw [← C10_no_time_warp_iff_drivable data ht acts vt r h, ← hdist.1]
  have hload : r.hasExcessLoad = false ↔ ∀ dim, dim < data.numLoadDimensions →
        ∀ trip ∈ routeAmounts data dim ((data.vehicleType vt).initialLoad.getD dim 0) acts,
          ∀ x ∈ trip, x ≤ (data.vehicleType vt).capacity.getD dim 0 := by
    have hlen := (C04_delivery_and_pickup data acts vt r hinit h).1
    have hex : r.hasExcessLoad = false ↔ ∀ (dim : Nat) (x : Int), dim < data.numLoadDimensions →
        r.excessLoad[dim]? = some x → x ≤ 0 := by
      unfold Route.hasExcessLoad
      rw [List.any_eq_false]
      constructor
      · intro hh dim x _ hx
        have := hh x (List.mem_of_getElem? hx)
        simpa using this
      · intro hh x hx
        obtain ⟨dim, hd, he⟩ := List.getElem_of_mem hx
        have := hh dim x (by omega) (by rw [List.getElem?_eq_getElem hd, he])
        simpa using this
    rw [hex]
    -- a sum of non-negative excesses is zero iff no peak is above the capacity
    have key : ∀ (cap : Int) (amounts : List (List Int)) (peaks : List Int),
        List.Forall₂ IsPeak peaks amounts →
        (0 ≤ (peaks.map fun p => max (p - cap) 0).sum ∧
        ((peaks.map fun p => max (p - cap) 0).sum ≤ 0 ↔ ∀ trip ∈ amounts, ∀ x ∈ trip, x ≤ cap)) := by
      intro cap amounts peaks hf
      induction hf with
      | nil => simp
      | @cons p am ps ams hp _ ih =>
        obtain ⟨ih0, ih1⟩ := ih
        simp only [List.map_cons, List.sum_cons, List.forall_mem_cons, ← ih1]
        refine ⟨by omega, ?_⟩
        constructor
        · intro hs
          refine ⟨fun x hx => ?_, by omega⟩
          have := hp.2 x hx
          omega
        · rintro ⟨h1, h2⟩
          have := h1 p hp.1
          omega
    constructor
    · intro hh dim hd
      obtain ⟨peaks, hf, he⟩ := C04_excess_load data acts vt r dim hd (hcap dim) (hinit dim) h
      exact (key _ _ _ hf).2.1 (hh dim _ hd he)
    · intro hh dim x hd hx
      obtain ⟨peaks, hf, he⟩ := C04_excess_load data acts vt r dim hd (hcap dim) (hinit dim) h
      rw [he] at hx
      injection hx with hx
      rw [← hx]
      exact (key _ _ _ hf).2.2 (hh dim hd)
  rw [← hload]
  have hd2 := hdist.2.2.2
  unfold Route.isFeasible
  cases r.hasExcessLoad <;> cases r.hasTimeWarp <;> simp
  cases hx : r.hasExcessDistance <;> simp_all

/-! ## Non-vacuity -/

/-- The demo instance satisfies the assumptions on times. -/
theorem Demo.timesOk : TimesOk Demo.data := by
  constructor <;> decide

/-- A route with two trips, waiting and a release time in the second trip, without time warp. -/
example : ∃ r, Route.make Demo.data Demo.acts 0 = .ok r ∧ r.startTime = 11 ∧ r.duration = 61
    ∧ r.timeWarp = 0 ∧ r.slack = 30 ∧ r.releaseTime = 10 ∧ r.isFeasible = true := by
  refine ⟨Route.build Demo.data Demo.acts 0, ?_, ?_⟩ <;> decide

/-- A route that cannot be driven: a release time makes it late for a time window. -/
example : ∃ r, Route.make Demo.data [Demo.client 2, Demo.client 1, Demo.client 0] 1
      = .ok r ∧ r.startTime = 40 ∧ r.duration = 26 ∧ r.timeWarp = 14 := by
  refine ⟨Route.build Demo.data [Demo.client 2, Demo.client 1, Demo.client 0] 1, ?_, ?_⟩ <;> decide

end PyVRP
