import Verif.Lemmas.RouteSchedule
import Verif.Props.C09
/-!
# C11: the reported schedule is consistent
-/
namespace PyVRP
open Spec

/-- **C11.** The entries follow each other: the vehicle leaves at `start_time()`, each entry starts
when the previous one ended plus travel plus its wait minus its time warp, waits and time warps are
non-negative, and each entry starts within its time window (`Follows`). The start depot's entry
starts within the depot's window if the route's start time is not after the vehicle's latest
start. -/
theorem C11_entries_follow (data : ProblemData) (ht : TimesOk data) (acts : List Activity)
    (vt : Nat) (r : Route) (h : Route.make data acts vt = .ok r) :
    let v := data.vehicleType vt
    let start := data.depot v.startDepot
    ∃ e es, r.schedule = e :: es
      ∧ e.startTime = r.startTime + e.waitDuration - e.timeWarp
      ∧ e.endTime = e.startTime + start.serviceDuration
      ∧ 0 ≤ e.waitDuration ∧ 0 ≤ e.timeWarp
      ∧ e.startTime ≤ start.twLate
      ∧ (r.startTime ≤ v.startLate → start.twEarly ≤ e.startTime ∧ min r.releaseTime start.twLate ≤ e.startTime)
      ∧ Follows data v e.endTime start.location acts es := by
  intro v start
  have hr := Route.make_eq_ok h
  subst hr
  have hw := Route.windows ht ⟨.depot, v.startDepot⟩
  simp only [earliest, latest] at hw
  have hrt := Route.backward_releaseTimes ht vt acts
  refine ⟨_, _, rfl, ?_⟩
  simp only [Route.build, v, start] at *
  generalize (Route.backward data (data.vehicleType vt) acts).ds.startEarly = now
  generalize (Route.backward data (data.vehicleType vt) acts).ds.releaseTime_ = rel
  generalize (Route.backward data (data.vehicleType vt) acts).releaseTimes = rt at *
  have hf := fun now => Route.forward_follows ht vt rt acts now
    (data.depot (data.vehicleType vt).startDepot).location 0 (by rw [hrt]; rfl)
  refine ⟨?_, ?_, ?_, ?_, ?_, fun _ => ⟨?_, ?_⟩, hf _⟩ <;> simp only [Route.handle] <;> omega

namespace C11

theorem sums_nonneg {data : ProblemData} {v : VehicleType} {acts : List Activity} :
    ∀ {now : Int} {loc : Nat} {es : List ScheduledActivity}, Follows data v now loc acts es →
      0 ≤ (es.map (·.timeWarp)).sum ∧ 0 ≤ (es.map (·.waitDuration)).sum := by
  induction acts with
  | nil =>
    rintro now loc es ⟨e, rfl, _, _, h1, h2, _⟩
    simp only [List.map_cons, List.map_nil, List.sum_cons, List.sum_nil]; omega
  | cons a rest ih =>
    rintro now loc es ⟨e, es', rfl, _, _, h1, h2, _, _, _, h3⟩
    have := ih h3
    simp only [List.map_cons, List.sum_cons]; omega

theorem service_nonneg {data : ProblemData} (ht : TimesOk data) (a : Activity) :
    0 ≤ serviceTime data a := by
  obtain ⟨ty, i⟩ := a
  cases ty with
  | client => exact (ht.client i).1.d0
  | depot => exact (ht.depot i 0 (Int.le_refl 0)).2
  | pickup => exact (ht.pickup i).d0
  | delivery => exact (ht.delivery i).d0

theorem last_after {data : ProblemData} (ht : TimesOk data) {v : VehicleType}
    {acts : List Activity} :
    ∀ {now : Int} {loc : Nat} {es : List ScheduledActivity} {e : ScheduledActivity},
      Follows data v now loc acts es → (es.map (·.timeWarp)).sum = 0 → es.getLast? = some e →
      now ≤ e.endTime := by
  induction acts with
  | nil =>
    rintro now loc es e ⟨e', rfl, hs, he, h1, h2, _⟩ hz hl
    simp only [List.getLast?_singleton, Option.some.injEq] at hl
    subst hl
    have := ht.dur v.profile loc (data.depot v.endDepot).location
    simp only [List.map_cons, List.map_nil, List.sum_cons, List.sum_nil] at hz
    omega
  | cons a rest ih =>
    rintro now loc es e ⟨e', es', rfl, hs, he, h1, h2, _, _, _, h3⟩ hz hl
    have hn := sums_nonneg h3
    simp only [List.map_cons, List.sum_cons] at hz
    have hd := ht.dur v.profile loc (place data a)
    have hsv := service_nonneg ht a
    rw [List.getLast?_cons] at hl
    cases hl' : es'.getLast? with
    | none =>
      rw [hl'] at hl
      simp only [Option.getD_none, Option.some.injEq] at hl
      subst hl; omega
    | some e'' =>
      rw [hl'] at hl
      simp only [Option.getD_some, Option.some.injEq] at hl
      subst hl
      have := ih h3 (by omega) hl'
      omega

theorem reloads_of_warp {data : ProblemData} {v : VehicleType} {acts : List Activity} :
    ∀ {now : Int} {loc : Nat}, (drive now (stopsFrom data v loc acts)).warp = 0 →
      ReloadsInTime data acts := by
  induction acts with
  | nil => intros; trivial
  | cons a rest ih =>
    intro now loc hz
    simp only [stopsFrom, drive] at hz
    have hn := fun t => (drive_nonneg t (stopsFrom data v (place data a) rest)).2
    generalize hs : Stop.mk _ _ _ _ = s at hz
    have h1 := hn (s.begin now + serviceTime data a)
    have h2 : 0 ≤ s.warp now := by simp only [Stop.warp]; omega
    refine ⟨fun ha => ?_, ih (now := s.begin now + serviceTime data a) (loc := place data a)
      (by omega)⟩
    have h3 : s.warp now = 0 := by omega
    rw [← hs] at h3
    simp only [ha, if_true, Stop.warp, Stop.arrive] at h3
    omega

theorem startTime_ge {data : ProblemData} (ht : TimesOk data) (acts : List Activity) (vt : Nat) :
    (data.vehicleType vt).twEarly
      ≤ (Route.backward data (data.vehicleType vt) acts).ds.startEarly := by
  have hv := (ht.vehicle vt).2
  have h1 := hv.el
  simp only [Route.backward, DurSeg.startEarly]
  generalize DurSeg.merge (data.dur _ _ _) _ _ = x
  simp only [DurSeg.merge, DurSeg.ofVehicle] at *
  omega

end C11

/-- **C11.** The waits and time warps of the entries add up to the waiting and lateness of the
drive from `start_time()` if: the route's start time is not after the vehicle's latest start, the
release times of the trips after a reload are not after the reload depots' latest times, and the
vehicle is back within its own time window. The route's `time_warp()` may add an excess over the
maximum duration, which no entry shows (see `C09_time_warp`). Without the three conditions this is
not so: see `C11_sums_fail`. -/
theorem C11_sums_partial (data : ProblemData) (ht : TimesOk data) (acts : List Activity)
    (vt : Nat) (r : Route) (h : Route.make data acts vt = .ok r)
    (hstart : r.startTime ≤ (data.vehicleType vt).startLate)
    (hreloads : ReloadsInTime data acts)
    (hend : ∀ e, r.schedule.getLast? = some e →
      (data.vehicleType vt).twEarly ≤ e.endTime ∧ e.endTime ≤ (data.vehicleType vt).twLate) :
    (r.schedule.map (·.waitDuration)).sum = r.waitDuration
    ∧ (r.schedule.map (·.timeWarp)).sum
      = driveWarp r.startTime (routeStops data (data.vehicleType vt) acts) := by
  obtain ⟨-, -, hwait, -⟩ := C09_duration_parts data ht acts vt r h
  rw [hwait]
  have hge := C11.startTime_ge ht acts vt
  have hrelle := (C09_start_time_is_optimal data ht acts vt r h).2.1
  have hr := Route.make_eq_ok h
  subst hr
  have hw := Route.windows ht ⟨.depot, (data.vehicleType vt).startDepot⟩
  simp only [earliest, latest] at hw
  have hv := (ht.vehicle vt).2.el
  simp only [DurSeg.ofVehicle] at hv
  have hrt := Route.backward_releaseTimes ht vt acts
  simp only [Route.build, Route.mkSchedule] at *
  generalize (Route.backward data (data.vehicleType vt) acts).ds.startEarly = t at *
  generalize (Route.backward data (data.vehicleType vt) acts).ds.releaseTime_ = rel at *
  generalize (Route.backward data (data.vehicleType vt) acts).releaseTimes = rt at *
  generalize hh : Route.handle t _ 0 _ _ _ = x at *
  have hne := Route.forward_ne_nil data (data.vehicleType vt) rt acts x.2
    (data.depot (data.vehicleType vt).startDepot).location 0
  generalize hes : Route.forward data (data.vehicleType vt) rt x.2
    (data.depot (data.vehicleType vt).startDepot).location 0 acts = es at *
  cases hl : es.getLast? with
  | none => exact absurd (List.getLast?_eq_none_iff.1 hl) hne
  | some e =>
    have hlast := hend e (by rw [List.getLast?_cons, hl]; rfl)
    obtain ⟨s1, s2⟩ := Route.forward_sums ht vt rt acts x.2
      (data.depot (data.vehicleType vt).startDepot).location 0 (by rw [hrt]; rfl) hreloads es e
      hes hl
    have hb : ∀ l : List Stop, drive ((Stop.mk 0 (data.depot (data.vehicleType vt).startDepot).twEarly
        (data.depot (data.vehicleType vt).startDepot).twLate
        (data.depot (data.vehicleType vt).startDepot).serviceDuration).begin
        ((Stop.mk 0 (data.vehicleType vt).twEarly (data.vehicleType vt).startLate 0).begin t + 0)
        + (data.depot (data.vehicleType vt).startDepot).serviceDuration) l = drive x.2 l := by
      intro l
      congr 1
      rw [← hh]
      simp only [Stop.begin, Stop.wait, Stop.warp, Stop.arrive, Route.handle]
      omega
    simp only [driveWarp, routeStops, drive, hb, s1, s2, List.map_cons, List.sum_cons]
    rw [← hh]
    simp only [Stop.begin, Stop.wait, Stop.warp, Stop.arrive, Route.handle]
    omega

/-- **C11.** For a route without time warp the waits of the entries add up to `wait_duration()` and
no entry has time warp. -/
theorem C11_sums_without_time_warp (data : ProblemData) (ht : TimesOk data) (acts : List Activity)
    (vt : Nat) (r : Route) (h : Route.make data acts vt = .ok r) (hz : r.hasTimeWarp = false) :
    (r.schedule.map (·.waitDuration)).sum = r.waitDuration
    ∧ ∀ e ∈ r.schedule, e.timeWarp = 0 := by
  have hwarp : driveWarp r.startTime (routeStops data (data.vehicleType vt) acts) = 0 := by
    have hnn := fun t => (drive_nonneg t (routeStops data (data.vehicleType vt) acts)).2
    obtain ⟨_, rep, _⟩ := Route.total_inv ht vt acts
    have hw : ∀ t, driveWarp (Route.backward data (data.vehicleType vt) acts).ds.startLate_
        (routeStops data (data.vehicleType vt) acts)
        ≤ driveWarp t (routeStops data (data.vehicleType vt) acts) := by
      intro t
      rw [(rep _).2, (rep _).2]
      simp only [DurSeg.W]; omega
    have := C09_time_warp data ht acts vt r h _ hw ⟨_, rfl⟩
    have hle : r.timeWarp ≤ 0 := by simpa [Route.hasTimeWarp] using hz
    have := hnn r.startTime
    simp only [driveWarp] at *
    omega
  obtain ⟨e0, es, hsch, f1, f2, f3, f4, f5, f6, hf⟩ := C11_entries_follow data ht acts vt r h
  have hge : (data.vehicleType vt).twEarly ≤ r.startTime := by
    have := C11.startTime_ge ht acts vt
    have hr := Route.make_eq_ok h
    subst hr; exact this
  have hv := (ht.vehicle vt).2.el
  have hsv := C11.service_nonneg ht ⟨.depot, (data.vehicleType vt).startDepot⟩
  simp only [serviceTime] at hsv
  simp only [DurSeg.ofVehicle] at hv
  -- the first two stops
  have hstops := hwarp
  simp only [routeStops, driveWarp, drive] at hstops
  generalize hs1 : Stop.mk 0 (data.vehicleType vt).twEarly (data.vehicleType vt).startLate 0 = s1
    at hstops
  generalize hs2 : Stop.mk 0 (data.depot (data.vehicleType vt).startDepot).twEarly
    (data.depot (data.vehicleType vt).startDepot).twLate
    (data.depot (data.vehicleType vt).startDepot).serviceDuration = s2 at hstops
  have hn := (drive_nonneg (s2.begin (s1.begin r.startTime + 0)
    + (data.depot (data.vehicleType vt).startDepot).serviceDuration)
    (stopsFrom data (data.vehicleType vt) (data.depot (data.vehicleType vt).startDepot).location
      acts)).2
  have n1 : 0 ≤ s1.warp r.startTime := by simp only [Stop.warp]; omega
  have n2 : 0 ≤ s2.warp (s1.begin r.startTime + 0) := by simp only [Stop.warp]; omega
  have z1 : s1.warp r.startTime = 0 := by omega
  have z2 : s2.warp (s1.begin r.startTime + 0) = 0 := by omega
  have hstart : r.startTime ≤ (data.vehicleType vt).startLate := by
    rw [← hs1] at z1
    simp only [Stop.warp, Stop.arrive] at z1
    omega
  have hrest := C11.reloads_of_warp (data := data) (v := data.vehicleType vt) (acts := acts)
    (now := s2.begin (s1.begin r.startTime + 0)
    + (data.depot (data.vehicleType vt).startDepot).serviceDuration)
    (loc := (data.depot (data.vehicleType vt).startDepot).location) (by omega)
  have hb1 : s1.begin r.startTime = r.startTime := by
    rw [← hs1]; rw [← hs1] at z1
    simp only [Stop.begin, Stop.wait, Stop.warp, Stop.arrive] at *
    omega
  have htl : r.startTime ≤ (data.depot (data.vehicleType vt).startDepot).twLate := by
    rw [← hs2, hb1] at z2
    simp only [Stop.warp, Stop.arrive] at z2
    omega
  have hrelle := (C09_start_time_is_optimal data ht acts vt r h).2.1
  -- the first entry
  have he0 : e0.timeWarp = 0 ∧ e0.endTime = s2.begin (s1.begin r.startTime + 0)
      + (data.depot (data.vehicleType vt).startDepot).serviceDuration := by
    rw [hb1, ← hs2]
    have hr := Route.make_eq_ok h
    subst hr
    simp only [Route.build, Route.mkSchedule, List.cons.injEq] at hsch
    rw [← hsch.1]
    simp only [Route.build] at *
    simp only [Stop.begin, Stop.wait, Stop.warp, Stop.arrive, Route.handle] at *
    omega
  have hfs : ∀ e, es.getLast? = some e →
      (drive e0.endTime (stopsFrom data (data.vehicleType vt)
        (data.depot (data.vehicleType vt).startDepot).location acts)).warp
        = (es.map (·.timeWarp)).sum
          + max (max e.endTime (data.vehicleType vt).twEarly - (data.vehicleType vt).twLate) 0 := by
    intro e hl
    have hr := Route.make_eq_ok h
    subst hr
    have hrt := Route.backward_releaseTimes ht vt acts
    simp only [Route.build, Route.mkSchedule, List.cons.injEq] at hsch
    have := (Route.forward_sums ht vt _ acts _ _ 0 (by rw [hrt]; rfl) hrest _ e hsch.2 hl).2
    rw [← this, ← hsch.1]
    rfl
  rw [← he0.2] at hstops
  have hsn := C11.sums_nonneg hf
  have hend : ∀ e, r.schedule.getLast? = some e →
      (data.vehicleType vt).twEarly ≤ e.endTime ∧ e.endTime ≤ (data.vehicleType vt).twLate := by
    intro e hl
    have hl' : es.getLast? = some e := by
      rw [hsch, List.getLast?_cons] at hl
      cases hx : es.getLast? with
      | none =>
        exfalso
        rw [List.getLast?_eq_none_iff] at hx
        subst hx
        cases acts with
        | nil => obtain ⟨e, he, _⟩ := hf; cases he
        | cons a rest => obtain ⟨e, es', he, _⟩ := hf; cases he
      | some e' => rw [hx] at hl; simpa using hl
    have h1 := hfs e hl'
    have h2 : (es.map (·.timeWarp)).sum = 0 := by omega
    have h3 := C11.last_after ht hf h2 hl'
    omega
  have hsum := C11_sums_partial data ht acts vt r h hstart hrest hend
  refine ⟨hsum.1, ?_⟩
  rw [hwarp] at hsum
  have hall : ∀ (l : List ScheduledActivity), (∀ e ∈ l, 0 ≤ e.timeWarp) →
      (l.map (·.timeWarp)).sum = 0 → ∀ e ∈ l, e.timeWarp = 0 := by
    intro l
    induction l with
    | nil => intro _ _ e he; cases he
    | cons a rest ih =>
      intro hp hs e he
      simp only [List.map_cons, List.sum_cons] at hs
      have h1 := hp a List.mem_cons_self
      have h2 : 0 ≤ (rest.map (·.timeWarp)).sum := by
        have : ∀ l : List ScheduledActivity, (∀ e ∈ l, 0 ≤ e.timeWarp) →
            0 ≤ (l.map (·.timeWarp)).sum := by
          intro l
          induction l with
          | nil => simp
          | cons b l ih2 =>
            intro hb
            have := hb b List.mem_cons_self
            have := ih2 fun e he => hb e (List.mem_cons_of_mem _ he)
            simp only [List.map_cons, List.sum_cons]; omega
        exact this rest fun e he => hp e (List.mem_cons_of_mem _ he)
      rcases List.mem_cons.1 he with rfl | he
      · omega
      · exact ih (fun e he => hp e (List.mem_cons_of_mem _ he)) (by omega) e he
  refine hall _ ?_ hsum.2
  have hfn : ∀ (acts : List Activity) (now : Int) (loc : Nat) (es : List ScheduledActivity),
      Follows data (data.vehicleType vt) now loc acts es → ∀ e ∈ es, 0 ≤ e.timeWarp := by
    intro acts
    induction acts with
    | nil =>
      rintro now loc es ⟨e, rfl, _, _, _, h2, _⟩ e' he'
      rw [List.mem_singleton] at he'; rw [he']; exact h2
    | cons a rest ih =>
      rintro now loc es ⟨e, es', rfl, _, _, _, h2, _, _, _, h3⟩ e' he'
      rcases List.mem_cons.1 he' with rfl | he'
      · exact h2
      · exact ih _ _ _ h3 e' he'
  intro e he
  rw [hsch] at he
  rcases List.mem_cons.1 he with rfl | he
  · omega
  · exact hfn _ _ _ _ hf e he

/-! ## The property fails in general -/

namespace C11

/-- The end depot is six away, and the vehicle's shift ends at 4. -/
def shift : ProblemData :=
  { Demo.data with
    clients := [⟨1, [4], [0], 0, 0, 50, 0, 0, true, none, ""⟩], groups := [], shipments := []
    vehicleTypes := [{ numAvailable := 1, startDepot := 1, endDepot := 0, capacity := [10]
                       twEarly := 0, twLate := 4, shiftDuration := MAX, maxDistance := MAX
                       fixedCost := 0, unitDistanceCost := 1, unitDurationCost := 0, profile := 0
                       startLate := 3, initialLoad := [0], reloadDepots := [], maxReloads := MAX.toNat
                       maxOvertime := 0, unitOvertimeCost := 0, maxDuration := MAX, name := "" }] }

/-- A client released at 20; a depot that opens at 10; a vehicle that must leave by 5. -/
def early : ProblemData :=
  { Demo.data with
    clients := [⟨1, [4], [0], 0, 0, 50, 20, 0, true, none, ""⟩], groups := [], shipments := []
    depots := [⟨0, 10, 1000, 3, "main"⟩, ⟨1, 0, 1000, 0, "other"⟩]
    vehicleTypes := [{ numAvailable := 1, startDepot := 0, endDepot := 0, capacity := [10]
                       twEarly := 0, twLate := 1000, shiftDuration := MAX, maxDistance := MAX
                       fixedCost := 0, unitDistanceCost := 1, unitDurationCost := 0, profile := 0
                       startLate := 5, initialLoad := [0], reloadDepots := [], maxReloads := MAX.toNat
                       maxOvertime := 0, unitOvertimeCost := 0, maxDuration := MAX, name := "" }] }

end C11

/-- **C11 fails.** Valid data and an accepted route whose entries show no time warp although the
route has time warp (the vehicle is back after the end of its shift). -/
theorem C11_sums_fail :
    ProblemData.make C11.shift = .ok C11.shift ∧ TimesOk C11.shift
    ∧ ∃ r, Route.make C11.shift [Demo.client 0] 0 = .ok r
      ∧ (r.schedule.map (·.timeWarp)).sum = 0 ∧ r.timeWarp = 2 := by
  refine ⟨by decide, by constructor <;> decide,
    Route.build C11.shift [Demo.client 0] 0, ?_, ?_⟩ <;> decide

/-- **C11 fails.** Valid data and an accepted route whose first entry starts before the opening of
the depot. -/
theorem C11_window_fails :
    ProblemData.make C11.early = .ok C11.early ∧ TimesOk C11.early
    ∧ ∃ r, Route.make C11.early [Demo.client 0] 0 = .ok r
      ∧ (r.schedule.map (·.startTime)).head? = some 5
      ∧ (C11.early.depot 0).twEarly = 10 := by
  refine ⟨by decide, by constructor <;> decide,
    Route.build C11.early [Demo.client 0] 0, ?_, ?_⟩ <;> decide

/-! ## Non-vacuity -/

/-- A client that must be served by 15, and goods for a second trip that are released at 40. -/
def C11.waiting : ProblemData :=
  { Demo.data with
    clients := [⟨1, [4], [0], 0, 0, 15, 0, 0, true, none, ""⟩,
                ⟨2, [3], [5], 2, 30, 60, 40, 0, true, none, ""⟩]
    groups := [], shipments := [] }

example : ∃ r, Route.make C11.waiting [Demo.client 0, Demo.depot 0, Demo.client 1] 0 = .ok r
    ∧ TimesOk C11.waiting
    ∧ r.hasTimeWarp = false
    ∧ r.schedule.map (·.startTime) = [6, 15, 40, 54, 68]
    ∧ r.schedule.map (·.waitDuration) = [0, 0, 19, 0, 0]
    ∧ r.waitDuration = 19 := by
  refine ⟨Route.build C11.waiting [Demo.client 0, Demo.depot 0, Demo.client 1] 0, by decide,
    by constructor <;> decide, ?_⟩
  decide

end PyVRP
