import Verif.Model.Plot
import Verif.Props.C04
import Verif.Props.C11
import Verif.Props.C37
/-!
# C68: the plotted schedule of a route
-/
namespace PyVRP
open Spec

namespace Spec

/-- Where the entries of a schedule take place. -/
def entryPlaces (data : ProblemData) (es : List ScheduledActivity) : List Nat := es.map fun e => place data e.activity

/-- The change of the load by these entries of a schedule. -/
def loadChange (data : ProblemData) (dim : Nat) (es : List ScheduledActivity) : Int :=
  (es.map fun e => (loadEvent data dim e.activity).change).sum

end Spec

namespace Plot

theorem locationOf_place (data : ProblemData) (a : Activity) : data.locationOf a = place data a := rfl

theorem window_eq (data : ProblemData) (a : Activity) : window data a = (earliest data a, latest data a) := by
  obtain ⟨ty, i⟩ := a
  cases ty <;> rfl

theorem loadDiff_eq (data : ProblemData) (dim : Nat) (a : Activity) :
    loadDiff data (some dim) a = (loadEvent data dim a).change := by
  obtain ⟨ty, i⟩ := a
  cases ty <;> simp only [loadDiff, loadEvent] <;> omega

/-- The points of one entry. -/
theorem loop_at (data : ProblemData) (profile : Nat) (dim : Option Nat) (s : ScheduledActivity)
    (after : List ScheduledActivity) : ∀ (before : List ScheduledActivity) (loc : Nat) (d t sv l : Int),
    let p := loop data profile dim loc d t sv l (before ++ s :: after)
    let x := d + legSum (data.dist profile) (loc :: entryPlaces data (before ++ [s]))
    let driven := t + legSum (data.dur profile) (loc :: entryPlaces data (before ++ [s]))
    let served := sv + (before.map fun e => e.endTime - e.startTime).sum
    let load := l + (before.map fun e => loadDiff data dim e.activity).sum
    let load' := load + loadDiff data dim s.activity
    (p.time.drop (3 * before.length)).take 3
      = [(x, s.startTime - s.waitDuration), (x, s.startTime), (x, s.endTime)]
    ∧ (p.drive.drop (3 * before.length)).take 3 = [(x, driven), (x, driven), (x, driven)]
    ∧ (p.driveServ.drop (3 * before.length)).take 3
      = [(x, driven + served), (x, driven + served), (x, driven + (served + (s.endTime - s.startTime)))]
    ∧ (p.load.drop (3 * before.length)).take 3 = [(x, load), (x, load'), (x, load')]
    ∧ p.windows[before.length]? = some ((x, earliest data s.activity), (x, latest data s.activity))
    ∧ (s.timeWarp > 0 → ((x, s.startTime + s.timeWarp), (x, latest data s.activity)) ∈ p.warps)
  | [], loc, d, t, sv, l => by
    simp only [List.nil_append, entryPlaces, List.map_cons, List.map_nil, legSum, Int.add_zero, loop,
      locationOf_place, window_eq, List.length_nil, Nat.mul_zero, List.drop_zero, ScheduledActivity.duration,
      List.sum_nil, List.take_succ_cons, List.take_zero, List.getElem?_cons_zero]
    refine ⟨trivial, trivial, trivial, trivial, trivial, fun h => ?_⟩
    rw [if_pos h]
    exact List.mem_cons_self ..
  | e :: before, loc, d, t, sv, l => by
    have ih := loop_at data profile dim s after before (place data e.activity)
      (d + data.dist profile loc (place data e.activity)) (t + data.dur profile loc (place data e.activity))
      (sv + (e.endTime - e.startTime)) (l + loadDiff data dim e.activity)
    simp only [List.cons_append, entryPlaces, List.map_cons, legSum, loop, locationOf_place,
      ScheduledActivity.duration, List.sum_cons, List.length_cons,
      List.getElem?_cons_succ, ← Int.add_assoc] at ih ⊢
    refine ⟨ih.1, ih.2.1, ih.2.2.1, ih.2.2.2.1, ih.2.2.2.2.1, fun h => ?_⟩
    have := ih.2.2.2.2.2 h
    split
    · exact List.mem_cons_of_mem _ this
    · exact this

theorem loop_lengths (data : ProblemData) (profile : Nat) (dim : Option Nat) :
    ∀ (es : List ScheduledActivity) (loc : Nat) (d t sv l : Int),
    let p := loop data profile dim loc d t sv l es
    p.time.length = 3 * es.length ∧ p.drive.length = 3 * es.length ∧ p.driveServ.length = 3 * es.length
    ∧ p.load.length = 3 * es.length ∧ p.windows.length = es.length
    ∧ p.warps.length = es.countP (fun e => e.timeWarp > 0)
  | [], _, _, _, _, _ => by simp [loop]
  | e :: es, loc, d, t, sv, l => by
    have ih := loop_lengths data profile dim es (place data e.activity)
      (d + data.dist profile loc (place data e.activity)) (t + data.dur profile loc (place data e.activity))
      (sv + (e.endTime - e.startTime)) (l + loadDiff data dim e.activity)
    simp only [loop, locationOf_place, ScheduledActivity.duration, List.length_cons, List.countP_cons] at ih ⊢
    refine ⟨by omega, by omega, by omega, by omega, by omega, ?_⟩
    by_cases h : e.timeWarp > 0
    · rw [if_pos h]; simp only [List.length_cons, h, decide_true, if_true]; omega
    · rw [if_neg h]; simp only [h, decide_false]; simpa using ih.2.2.2.2.2

theorem diagonal {data : ProblemData} (hc : Consistent data) {vt : Nat} (hvt : vt < data.vehicleTypes.length) :
    let v := data.vehicleType vt
    let loc := (data.depot v.startDepot).location
    data.dist v.profile loc loc = 0 ∧ data.dur v.profile loc loc = 0 := by
  intro v loc
  have hv : v ∈ data.vehicleTypes := by
    simp only [v, ProblemData.vehicleType, List.getD_eq_getElem?_getD, List.getElem?_eq_getElem hvt, Option.getD_some]
    exact List.getElem_mem hvt
  obtain ⟨dep, h1, -⟩ := hc.startDepot v hv
  obtain ⟨h2, h3⟩ := hc.profile v hv
  have hloc : loc < data.locations.length := by
    have : data.depot v.startDepot = dep := by
      simp only [ProblemData.depot, List.getD_eq_getElem?_getD, h1, Option.getD_some]
    simp only [loc, this]
    exact hc.depotLocation dep (List.mem_of_getElem? h1)
  constructor
  · unfold ProblemData.dist
    rw [List.getD_eq_getElem?_getD, List.getElem?_eq_getElem h2, Option.getD_some]
    exact (hc.square _ (List.mem_append_left _ (List.getElem_mem h2))).2.2 loc hloc
  · unfold ProblemData.dur
    rw [List.getD_eq_getElem?_getD, List.getElem?_eq_getElem h3, Option.getD_some]
    exact (hc.square _ (List.mem_append_right _ (List.getElem_mem h3))).2.2 loc hloc

theorem totalTravel_eq (data : ProblemData) (v : VehicleType) : ∀ (acts : List Activity) (loc : Nat),
    totalTravel (stopsFrom data v loc acts)
      = legSum (data.dur v.profile) (loc :: (acts ++ [(⟨.depot, v.endDepot⟩ : Activity)]).map (place data))
  | [], loc => by
    simp [totalTravel, stopsFrom, legSum, place]
  | a :: acts, loc => by
    have ih := totalTravel_eq data v acts (place data a)
    simp only [List.cons_append, List.map_cons, legSum, stopsFrom] at ih ⊢
    rw [← ih]
    rfl

theorem served_eq {data : ProblemData} {v : VehicleType} : ∀ {acts : List Activity} {now : Int} {loc : Nat}
    {es : List ScheduledActivity}, Follows data v now loc acts es →
    (es.map fun e => e.endTime - e.startTime).sum = totalService (stopsFrom data v loc acts)
  | [], now, loc, es, h => by
    obtain ⟨e, rfl, _, h2, _⟩ := h
    simp [totalService, stopsFrom]; omega
  | a :: acts, now, loc, es, h => by
    obtain ⟨e, es', rfl, _, h2, _, _, _, _, _, h3⟩ := h
    have ih := served_eq h3
    simp only [List.map_cons, List.sum_cons, ih, stopsFrom, totalService]
    omega

/-- An entry that starts too late starts at the end of its window instead. -/
theorem forward_warp {data : ProblemData} (ht : TimesOk data) (v : VehicleType) (rt : List Int)
    (s : ScheduledActivity) (after : List ScheduledActivity) (hs : s.timeWarp > 0) :
    ∀ (acts : List Activity) (before : List ScheduledActivity) (now : Int) (loc trip : Nat),
    Route.forward data v rt now loc trip acts = before ++ s :: after →
    s.startTime = latest data s.activity
    ∧ s.startTime + s.timeWarp = (match before.getLast? with
      | none => now + data.dur v.profile loc (place data s.activity)
      | some e => e.endTime + data.dur v.profile (place data e.activity) (place data s.activity))
  | [], before, now, loc, trip, h => by
    unfold Route.forward at h
    cases before with
    | cons e before => simp at h
    | nil =>
      simp only [List.nil_append, List.cons.injEq] at h
      obtain ⟨rfl, -⟩ := h
      have hw := Route.windows ht ⟨.depot, v.endDepot⟩
      simp only [earliest, latest] at hw
      simp only [Route.handle, List.getLast?_nil, latest, place] at hs ⊢
      omega
  | a :: acts, before, now, loc, trip, h => by
    unfold Route.forward at h
    cases before with
    | nil =>
      simp only [List.nil_append, List.cons.injEq] at h
      obtain ⟨rfl, -⟩ := h
      have hw := Route.windows ht a
      obtain ⟨ty, i⟩ := a
      cases ty <;> simp only [Route.handle, Route.handleArgs, List.getLast?_nil, latest, earliest, place,
        ProblemData.locationOf] at hs hw ⊢ <;> omega
    | cons e before =>
      simp only [List.cons_append, List.cons.injEq] at h
      obtain ⟨rfl, h⟩ := h
      have ih := forward_warp ht v rt s after hs acts before _ _ _ h
      refine ⟨ih.1, ?_⟩
      rw [ih.2]
      cases before with
      | nil => rfl
      | cons e' before =>
        simp only [List.getLast?_cons_cons]
        cases hl : (e' :: before).getLast? with
        | none => simp at hl
        | some e => rfl

end Plot

/-- **C68.** Each entry of the schedule gives three points of each line, all of them at the distance travelled so far:
one on arrival, one when it starts and one when it ends. The lines show the time, the time driven so far, and this
together with the time of service. There is a piece of a line for each time window. If the load is shown,
then it is what all clients of the route get, changed by what happened so far. -/
theorem C68_points (data : ProblemData) (hc : Consistent data) (acts : List Activity) (vt : Nat)
    (hvt : vt < data.vehicleTypes.length) (r : Route) (h : Route.make data acts vt = .ok r) (dim : Nat)
    (before after : List ScheduledActivity) (s : ScheduledActivity) (hs : r.schedule = before ++ s :: after) :
    let v := data.vehicleType vt
    let p := Plot.routeSchedule data r dim
    let x := legSum (data.dist v.profile) (entryPlaces data (before ++ [s]))
    let driven := legSum (data.dur v.profile) (entryPlaces data (before ++ [s]))
    let served := (before.map fun e => e.endTime - e.startTime).sum
    let loaded := loadedAtStart (acts.map (loadEvent data dim))
    (p.time.drop (3 * before.length)).take 3
      = [(x, s.startTime - s.waitDuration), (x, s.startTime), (x, s.endTime)]
    ∧ (p.drive.drop (3 * before.length)).take 3 = [(x, driven), (x, driven), (x, driven)]
    ∧ (p.driveServ.drop (3 * before.length)).take 3
      = [(x, driven + served), (x, driven + served), (x, driven + (served + (s.endTime - s.startTime)))]
    ∧ p.windows[before.length]? = some ((x, earliest data s.activity), (x, latest data s.activity))
    ∧ (dim < data.numLoadDimensions → (∀ i, 0 ≤ v.initialLoad.getD i 0) →
      (p.load.drop (3 * before.length)).take 3
        = [(x, loaded + loadChange data dim before), (x, loaded + loadChange data dim (before ++ [s])),
            (x, loaded + loadChange data dim (before ++ [s]))])
    ∧ (s.timeWarp > 0 → ((x, s.startTime + s.timeWarp), (x, latest data s.activity)) ∈ p.warps) := by
  intro v p x driven served loaded
  have hvt' : r.vehicleType = vt := by rw [Route.make_eq_ok h]; rfl
  obtain ⟨hd1, hd2⟩ := Plot.diagonal hc hvt
  have hfirst : ∃ rest, entryPlaces data (before ++ [s]) = (data.depot v.startDepot).location :: rest := by
    have hacts := (C07_schedule_lists_activities data acts vt r h).1
    rw [hs] at hacts
    cases before with
    | nil =>
      simp only [List.nil_append, List.map_cons, fullActs, List.cons_append, List.cons.injEq] at hacts
      exact ⟨[], by simp only [List.nil_append, entryPlaces, List.map_cons, List.map_nil, hacts.1]; rfl⟩
    | cons e before =>
      simp only [List.cons_append, List.map_cons, fullActs, List.cons.injEq] at hacts
      exact ⟨_, by simp only [List.cons_append, entryPlaces, List.map_cons, hacts.1]; rfl⟩
  obtain ⟨rest, hrest⟩ := hfirst
  have e1 : legSum (data.dist v.profile) ((data.depot v.startDepot).location :: entryPlaces data (before ++ [s])) = x := by
    simp only [x]
    rw [hrest, legSum, hd1, Int.zero_add]
  have e2 : legSum (data.dur v.profile) ((data.depot v.startDepot).location :: entryPlaces data (before ++ [s]))
      = driven := by
    simp only [driven]
    rw [hrest, legSum, hd2, Int.zero_add]
  have key := Plot.loop_at data v.profile (if dim < data.numLoadDimensions then some dim else none) s after before
    (data.depot v.startDepot).location 0 0 0
    (match (if dim < data.numLoadDimensions then some dim else none) with
      | some dim => r.delivery.getD dim 0
      | none => 0)
  simp only [e1, e2, Int.zero_add, ← hs] at key
  obtain ⟨k1, k2, k3, k4, k5, k6⟩ := key
  have hp : p = Plot.routeSchedule data r dim := rfl
  unfold Plot.routeSchedule at hp
  rw [hvt'] at hp
  dsimp only at hp
  rw [hp]
  dsimp only
  refine ⟨k1, k2, k3, k5, fun hdim hinit => ?_, k6⟩
  have hdel := (C04_delivery_and_pickup data acts vt r hinit h).2.1
  have hload : r.delivery.getD dim 0 = loaded := by
    rw [hdel]
    simp only [List.getD_eq_getElem?_getD, List.getElem?_map, List.getElem?_range hdim, Option.map_some,
      Option.getD_some, loaded, loadedAtStart, List.map_map]
    clear * -
    induction acts with
    | nil => rfl
    | cons a acts ih =>
      obtain ⟨ty, i⟩ := a
      cases ty <;> simp_all [loadEvent]
  have hchange : ∀ es : List ScheduledActivity, (es.map fun e => Plot.loadDiff data (some dim) e.activity).sum
      = loadChange data dim es := by
    intro es
    simp only [loadChange, Plot.loadDiff_eq]
  rw [if_pos hdim] at k4 ⊢
  dsimp only at k4 ⊢
  rw [k4, hload, hchange]
  have : loadChange data dim (before ++ [s]) = loadChange data dim before + Plot.loadDiff data (some dim) s.activity := by
    simp [loadChange, Plot.loadDiff_eq]
  rw [this, Int.add_assoc]

namespace Plot

theorem last_of_three {α : Type} {l : List α} {k : Nat} {a b c : α} (hl : l.length = k + 3)
    (h : (l.drop k).take 3 = [a, b, c]) : l.getLast? = some c := by
  have h1 : (l.drop k).take 3 = l.drop k := List.take_of_length_le (by rw [List.length_drop]; omega)
  rw [h1] at h
  rw [← List.take_append_drop k l, h]
  simp

theorem loads_mem (data : ProblemData) (profile dim : Nat) (x : Int) :
    ∀ (es : List ScheduledActivity) (loc : Nat) (d t sv l : Int), es ≠ [] →
    (x ∈ (loop data profile (some dim) loc d t sv l es).load.map (·.2)
      ↔ x ∈ onBoard l (es.map fun e => loadEvent data dim e.activity))
  | [], _, _, _, _, _, h => absurd rfl h
  | e :: es, loc, d, t, sv, l, _ => by
    simp only [loop, List.map_cons, List.mem_cons, onBoard, loadDiff_eq]
    cases es with
    | nil => simp [loop, onBoard]
    | cons e' es =>
      rw [loads_mem data profile dim x (e' :: es) _ _ _ _ _ (by simp)]
      simp only [List.map_cons, onBoard, List.mem_cons]
      grind

theorem onBoard_last (x : Int) : ∀ (ev : List LoadEvent) (l : Int), x ∈ onBoard l (ev ++ [⟨0, 0⟩]) ↔ x ∈ onBoard l ev
  | [], l => by simp [onBoard]
  | e :: ev, l => by
    simp only [List.cons_append, onBoard, List.mem_cons, onBoard_last x ev]

theorem trips_single : ∀ {acts : List Activity}, (∀ a ∈ acts, a.type ≠ .depot) → trips acts = [acts]
  | [], _ => rfl
  | a :: acts, h => by
    unfold trips
    rw [if_neg (h a (List.mem_cons_self ..)), trips_single fun b hb => h b (List.mem_cons_of_mem _ hb)]

end Plot

/-- **C68.** The lines end at the distance of the route, with the time at which the schedule ends, the travel duration
of the route, and this together with the service duration of the route. There are three points for each entry,
and a mark for each entry that is late. -/
theorem C68_ends (data : ProblemData) (hc : Consistent data) (ht : TimesOk data) (acts : List Activity) (vt : Nat)
    (hvt : vt < data.vehicleTypes.length) (r : Route) (h : Route.make data acts vt = .ok r) (dim : Nat) :
    let p := Plot.routeSchedule data r dim
    (∃ e, r.schedule.getLast? = some e ∧ p.time.getLast? = some (r.distance, e.endTime))
    ∧ p.drive.getLast? = some (r.distance, r.travelDuration)
    ∧ p.driveServ.getLast? = some (r.distance, r.travelDuration + r.serviceDuration)
    ∧ p.time.length = 3 * r.size ∧ p.drive.length = 3 * r.size ∧ p.driveServ.length = 3 * r.size
    ∧ p.load.length = 3 * r.size ∧ p.windows.length = r.size
    ∧ p.warps.length = r.schedule.countP (fun e => e.timeWarp > 0) := by
  intro p
  have hvt' : r.vehicleType = vt := by rw [Route.make_eq_ok h]; rfl
  obtain ⟨hacts, hsize, -, -⟩ := C07_schedule_lists_activities data acts vt r h
  obtain ⟨e0, es0, hs0, -, hend0, -, -, -, -, hfol⟩ := C11_entries_follow data ht acts vt r h
  obtain ⟨ht1, ht2, -⟩ := C09_duration_parts data ht acts vt r h
  have hne : r.schedule ≠ [] := by rw [hs0]; simp
  have hsplit := List.dropLast_concat_getLast hne
  obtain ⟨k1, k2, k3, -, -, -⟩ := C68_points data hc acts vt hvt r h dim r.schedule.dropLast [] (r.schedule.getLast hne)
    hsplit.symm
  rw [hsplit] at k1 k2 k3
  have hplaces : entryPlaces data r.schedule = (fullActs (data.vehicleType vt) acts).map (place data) := by
    rw [← hacts, List.map_map]; rfl
  have hx := (C08_distance data acts vt r h).1
  rw [← hplaces] at hx
  have hdriven : legSum (data.dur (data.vehicleType vt).profile) (entryPlaces data r.schedule) = r.travelDuration := by
    rw [ht1, hplaces]
    simp only [routeStops, fullActs, List.cons_append, List.map_cons]
    have := Plot.totalTravel_eq data (data.vehicleType vt) acts (data.depot (data.vehicleType vt).startDepot).location
    simp only [totalTravel, List.map_cons, List.sum_cons, Int.zero_add] at this ⊢
    rw [this]
    rfl
  have hserved : (r.schedule.dropLast.map fun e => e.endTime - e.startTime).sum
      + ((r.schedule.getLast hne).endTime - (r.schedule.getLast hne).startTime) = r.serviceDuration := by
    have e1 : (r.schedule.map fun e => e.endTime - e.startTime).sum
        = (r.schedule.dropLast.map fun e => e.endTime - e.startTime).sum
          + ((r.schedule.getLast hne).endTime - (r.schedule.getLast hne).startTime) := by
      conv => lhs; rw [← hsplit]
      simp
    rw [← e1, hs0, ht2]
    simp only [List.map_cons, List.sum_cons, Plot.served_eq hfol, routeStops, totalService]
    omega
  obtain ⟨l1, l2, l3, l4, l5, l6⟩ := Plot.loop_lengths data (data.vehicleType vt).profile
    (if dim < data.numLoadDimensions then some dim else none) r.schedule
    (data.depot (data.vehicleType vt).startDepot).location 0 0 0
    (match (if dim < data.numLoadDimensions then some dim else none) with
      | some dim => r.delivery.getD dim 0
      | none => 0)
  have hp : p = Plot.routeSchedule data r dim := rfl
  unfold Plot.routeSchedule at hp
  rw [hvt'] at hp
  dsimp only at hp
  have m1 : p.time.length = 3 * r.size := by rw [hp]; exact l1
  have m2 : p.drive.length = 3 * r.size := by rw [hp]; exact l2
  have m3 : p.driveServ.length = 3 * r.size := by rw [hp]; exact l3
  have hlen : 3 * r.size = 3 * r.schedule.dropLast.length + 3 := by
    rw [List.length_dropLast]
    have : r.size = r.schedule.length := rfl
    omega
  rw [← hx] at k1 k2 k3
  rw [hdriven] at k2 k3
  rw [hserved] at k3
  refine ⟨⟨_, List.getLast?_eq_some_getLast hne, Plot.last_of_three (m1.trans hlen) k1⟩,
    Plot.last_of_three (m2.trans hlen) k2, Plot.last_of_three (m3.trans hlen) k3, m1, m2, m3, ?_, ?_, ?_⟩
  · rw [hp]; exact l4
  · rw [hp]; exact l5
  · rw [hp]; exact l6

/-- **C68.** The mark of an entry that is late, other than the first one, goes from when the vehicle really arrives to
the end of the time window, which is when the entry then starts. -/
theorem C68_late (data : ProblemData) (ht : TimesOk data) (acts : List Activity) (vt : Nat) (r : Route)
    (h : Route.make data acts vt = .ok r) (before after : List ScheduledActivity) (e s : ScheduledActivity)
    (hs : r.schedule = before ++ e :: s :: after) (hlate : s.timeWarp > 0) :
    s.startTime = latest data s.activity
    ∧ s.startTime + s.timeWarp
      = e.endTime + data.dur (data.vehicleType vt).profile (place data e.activity) (place data s.activity) := by
  have hr := Route.make_eq_ok h
  subst hr
  simp only [Route.build, Route.mkSchedule] at hs
  cases before with
  | nil =>
    simp only [List.nil_append, List.cons.injEq] at hs
    obtain ⟨rfl, hs⟩ := hs
    exact Plot.forward_warp ht _ _ s after hlate acts [] _ _ _ hs
  | cons e' before =>
    simp only [List.cons_append, List.cons.injEq] at hs
    have := Plot.forward_warp ht _ _ s after hlate acts (before ++ [e]) _ _ _ (by rw [hs.2]; simp)
    simpa using this

namespace Plot

/-- All stops of the drive could begin `d` later. -/
def Within (d t : Int) : List Stop → Prop
  | [] => True
  | s :: rest => s.begin t + d ≤ s.late ∧ Within d (s.begin t + s.service) rest

theorem wait_mono : ∀ (l : List Stop) (t t' : Int), t ≤ t' → (drive t' l).wait ≤ (drive t l).wait
  | [], _, _, _ => Int.le_refl _
  | s :: rest, t, t', h => by
    have ih := wait_mono rest (s.begin t + s.service) (s.begin t' + s.service)
      (by simp only [Stop.begin, Stop.wait, Stop.warp, Stop.arrive]; omega)
    simp only [drive]
    have : s.wait t' ≤ s.wait t := by simp only [Stop.wait, Stop.arrive]; omega
    omega

/-- A delay that changes neither the waiting nor the lateness delays every stop. -/
theorem within_of_drive {d : Int} (hd : 0 ≤ d) : ∀ (l : List Stop) (t : Int), (drive t l).warp = 0 →
    (drive (t + d) l).warp = 0 → (drive (t + d) l).wait = (drive t l).wait → Within d t l
  | [], _, _, _, _ => trivial
  | s :: rest, t, h0, h1, h2 => by
    simp only [drive] at h0 h1 h2
    have n0 := (drive_nonneg (s.begin t + s.service) rest).2
    have n1 := (drive_nonneg (s.begin (t + d) + s.service) rest).2
    have m0 : 0 ≤ s.warp t := by simp only [Stop.warp]; omega
    have m1 : 0 ≤ s.warp (t + d) := by simp only [Stop.warp]; omega
    have hw := wait_mono rest (s.begin t + s.service) (s.begin (t + d) + s.service)
      (by simp only [Stop.begin, Stop.wait, Stop.warp, Stop.arrive]; omega)
    have hle : s.wait (t + d) ≤ s.wait t := by simp only [Stop.wait, Stop.arrive]; omega
    have heq : s.wait (t + d) = s.wait t := by omega
    have hb : s.begin (t + d) = s.begin t + d := by
      have z0 : s.warp t = 0 := by omega
      have z1 : s.warp (t + d) = 0 := by omega
      simp only [Stop.begin, Stop.arrive, z0, z1, heq]; omega
    have e : s.begin (t + d) + s.service = s.begin t + s.service + d := by omega
    rw [e] at h1 h2 n1
    refine ⟨?_, within_of_drive hd rest _ (by omega) (by omega) (by omega)⟩
    have z1 : s.warp (t + d) = 0 := by omega
    rw [← hb]
    simp only [Stop.begin, Stop.wait, Stop.warp, Stop.arrive] at *
    omega

/-- If all stops can begin later then leaving later is not late. -/
theorem drive_of_within {d : Int} (hd : 0 ≤ d) : ∀ (l : List Stop) (t t' : Int), t' ≤ t + d → (drive t l).warp = 0 →
    Within d t l → (drive t' l).warp = 0
  | [], _, _, _, _, _ => rfl
  | s :: rest, t, t', h, h0, hw => by
    obtain ⟨h1, h2⟩ := hw
    simp only [drive] at h0
    have n0 := (drive_nonneg (s.begin t + s.service) rest).2
    have m0 : 0 ≤ s.warp t := by simp only [Stop.warp]; omega
    have z0 : s.warp t = 0 := by omega
    have z1 : s.warp t' = 0 ∧ s.begin t' ≤ s.begin t + d := by
      simp only [Stop.begin, Stop.wait, Stop.warp, Stop.arrive] at *
      omega
    have ih := drive_of_within hd rest _ (s.begin t' + s.service) (by omega) (by omega) h2
    simp only [drive, z1.1, ih]
    rfl

/-- The entries of the schedule begin when the stops do. -/
theorem forward_within {data : ProblemData} (ht : TimesOk data) (vt : Nat) (rt : List Int) (d : Int) (hd : 0 ≤ d) :
    ∀ (acts : List Activity) (now : Int) (loc trip : Nat), rt.drop (trip + 1) = reloadReleases data acts →
    (data.vehicleType vt).twEarly ≤ now →
    (drive now (stopsFrom data (data.vehicleType vt) loc acts)).warp = 0 →
    (Within d now (stopsFrom data (data.vehicleType vt) loc acts)
      ↔ (∀ e ∈ Route.forward data (data.vehicleType vt) rt now loc trip acts, e.startTime + d ≤ latest data e.activity)
        ∧ ∀ e, (Route.forward data (data.vehicleType vt) rt now loc trip acts).getLast? = some e →
          e.endTime + d ≤ (data.vehicleType vt).twLate) := by
  intro acts
  induction acts with
  | nil =>
    intro now loc trip _ hnow h0
    have hdur := ht.dur (data.vehicleType vt).profile loc (data.depot (data.vehicleType vt).endDepot).location
    have hx : (data.vehicleType vt).twEarly
        ≤ now + data.dur (data.vehicleType vt).profile loc (data.depot (data.vehicleType vt).endDepot).location := by
      omega
    clear hdur
    simp only [stopsFrom, drive, Within, Route.forward, Route.handle, List.mem_singleton, forall_eq,
      List.getLast?_singleton, Option.some.injEq, forall_eq', latest, Stop.begin, Stop.wait, Stop.warp,
      Stop.arrive] at *
    generalize now + data.dur _ _ _ = x at *
    constructor
    · intro h1
      constructor <;> omega
    · intro h1
      refine ⟨?_, ?_, trivial⟩ <;> omega
  | cons a rest ih =>
    intro now loc trip hrt hnow h0
    have hdur := ht.dur (data.vehicleType vt).profile loc (place data a)
    have hsv := C11.service_nonneg ht a
    have hwin := Route.windows ht a
    simp only [stopsFrom, drive] at h0
    generalize hs : Stop.mk _ _ _ _ = s at h0
    have n0 := (drive_nonneg (s.begin now + serviceTime data a)
      (stopsFrom data (data.vehicleType vt) (place data a) rest)).2
    have m0 : 0 ≤ s.warp now := by simp only [Stop.warp]; omega
    have z0 : s.warp now = 0 := by omega
    -- the arguments of `handle`
    obtain ⟨trip', hdrop, hstep⟩ : ∃ trip', rt.drop (trip' + 1) = reloadReleases data rest
        ∧ ∃ e, e.activity = a ∧ e.startTime = s.begin now
          ∧ Route.forward data (data.vehicleType vt) rt now loc trip (a :: rest)
            = e :: Route.forward data (data.vehicleType vt) rt (s.begin now + serviceTime data a) (place data a) trip'
              rest := by
      by_cases ha : a.type = .depot
      · have hisd : a.isDepot = true := by simp [Route.isDepot_iff, ha]
        simp only [reloadReleases, ha, if_true] at hrt hs
        have hget : rt.getD (trip + 1) 0 = tripRelease data rest := by
          have := congrArg List.head? hrt
          rw [List.head?_drop] at this
          rw [List.getD_eq_getElem?_getD, this]; rfl
        refine ⟨trip + 1, ?_, ?_⟩
        · have := congrArg List.tail hrt
          rwa [List.tail_drop] at this
        · have hb : (Route.handle (now + data.dur (data.vehicleType vt).profile loc (place data a)) a
              (trip + 1) (max (earliest data a) (min (tripRelease data rest) (latest data a)))
              (latest data a) (serviceTime data a)).2 = s.begin now + serviceTime data a := by
            rw [← hs] at z0 ⊢
            simp only [Stop.begin, Stop.wait, Stop.warp, Stop.arrive, Route.handle] at *
            omega
          refine ⟨(Route.handle (now + data.dur (data.vehicleType vt).profile loc (place data a)) a
              (trip + 1) (max (earliest data a) (min (tripRelease data rest) (latest data a)))
              (latest data a) (serviceTime data a)).1, rfl, ?_, ?_⟩
          · simp only [Route.handle] at hb ⊢
            omega
          · rw [← hb]
            simp only [Route.forward, Route.handleArgs_eq, Route.place_eq, ha, hisd, if_true, hget]
      · have hisd : a.isDepot = false := by simp [Route.isDepot_eq, ha]
        simp only [reloadReleases, ha, if_false] at hrt hs
        refine ⟨trip, hrt, ?_⟩
        have hb : (Route.handle (now + data.dur (data.vehicleType vt).profile loc (place data a)) a
            trip (earliest data a) (latest data a) (serviceTime data a)).2 = s.begin now + serviceTime data a := by
          rw [← hs] at z0 ⊢
          simp only [Stop.begin, Stop.wait, Stop.warp, Stop.arrive, Route.handle] at *
          omega
        refine ⟨(Route.handle (now + data.dur (data.vehicleType vt).profile loc (place data a)) a
            trip (earliest data a) (latest data a) (serviceTime data a)).1, rfl, ?_, ?_⟩
        · simp only [Route.handle] at hb ⊢
          omega
        · rw [← hb]
          simp only [Route.forward, Route.handleArgs_eq, Route.place_eq, ha, hisd, if_false, Bool.false_eq_true]
    obtain ⟨e, he1, he2, hfw⟩ := hstep
    have htr : s.travel = data.dur (data.vehicleType vt).profile loc (place data a) := by rw [← hs]
    have hlt : s.late = latest data a := by rw [← hs]
    have hsvc : s.service = serviceTime data a := by rw [← hs]
    have hbge : now ≤ s.begin now := by
      simp only [Stop.begin, Stop.wait, Stop.arrive, z0, htr]; omega
    have ih := ih (s.begin now + serviceTime data a) (place data a) trip' hdrop (by omega) (by omega)
    have hne := Route.forward_ne_nil data (data.vehicleType vt) rt rest (s.begin now + serviceTime data a)
      (place data a) trip'
    have hw : Within d now (stopsFrom data (data.vehicleType vt) loc (a :: rest))
        ↔ s.begin now + d ≤ latest data a
          ∧ Within d (s.begin now + serviceTime data a) (stopsFrom data (data.vehicleType vt) (place data a) rest) := by
      simp only [stopsFrom, hs, Within, hlt, hsvc]
    rw [hw, ih, hfw]
    generalize Route.forward data (data.vehicleType vt) rt (s.begin now + serviceTime data a) (place data a) trip'
      rest = es at hne
    have hlast : (e :: es).getLast? = es.getLast? := by
      cases es with
      | nil => exact absurd rfl hne
      | cons b es => rfl
    rw [hlast]
    simp only [List.mem_cons, forall_eq_or_imp, he1, he2, and_assoc]

end Plot

/-- **C68.** The slack is shown if there is some, as the time line moved up by it. For a route without time warp this is
right: all entries of the schedule may be later by some time, with the vehicle leaving and coming back in time, if
and only if that is at most the slack. -/
theorem C68_slack (data : ProblemData) (ht : TimesOk data) (acts : List Activity) (vt : Nat) (r : Route)
    (h : Route.make data acts vt = .ok r) (dim : Nat) :
    let v := data.vehicleType vt
    let p := Plot.routeSchedule data r dim
    (0 < r.slack → p.slack = some (p.time.map fun q => (q.1, q.2 + r.slack)))
    ∧ (r.slack = 0 → p.slack = none)
    ∧ (r.hasTimeWarp = false → ∀ d, 0 ≤ d →
      (d ≤ r.slack ↔ r.startTime + d ≤ v.startLate
        ∧ (∀ e ∈ r.schedule, e.startTime + d ≤ latest data e.activity)
        ∧ ∀ e, r.schedule.getLast? = some e → e.endTime + d ≤ v.twLate)) := by
  intro v p
  refine ⟨fun hp => ?_, fun hp => ?_, fun hz d hd => ?_⟩
  · simp only [p, Plot.routeSchedule, gt_iff_lt, hp, if_true]
  · simp only [p, Plot.routeSchedule, gt_iff_lt, hp, Int.lt_irrefl, if_false]
  have hwarp : driveWarp r.startTime (routeStops data v acts) = 0 := by
    have hnn := fun t => (drive_nonneg t (routeStops data v acts)).2
    obtain ⟨_, rep, _⟩ := Route.total_inv ht vt acts
    have hw : ∀ t, driveWarp (Route.backward data v acts).ds.startLate_ (routeStops data v acts)
        ≤ driveWarp t (routeStops data v acts) := by
      intro t
      rw [(rep _).2, (rep _).2]
      simp only [DurSeg.W, v]; omega
    have := C09_time_warp data ht acts vt r h _ hw ⟨_, rfl⟩
    have hle : r.timeWarp ≤ 0 := by simpa [Route.hasTimeWarp] using hz
    have := hnn r.startTime
    simp only [driveWarp, v] at *
    omega
  obtain ⟨k1, k2, k3⟩ := C09_slack data ht acts vt r h
  have key : d ≤ r.slack ↔ Plot.Within d r.startTime (routeStops data v acts) := by
    constructor
    · intro hds
      obtain ⟨a1, a2⟩ := k2 (r.startTime + d) (by omega) (by omega)
      obtain ⟨b1, _⟩ := k2 r.startTime (by omega) (by omega)
      refine Plot.within_of_drive hd _ _ hwarp (a2.trans hwarp) ?_
      simp only [driveDuration, v] at *
      omega
    · intro hw
      have h0 := Plot.drive_of_within hd _ _ (r.startTime + d) (Int.le_refl _) hwarp hw
      have := k3 (r.startTime + d)
      simp only [driveWarp, v] at *
      omega
  rw [key]
  have hge : v.twEarly ≤ r.startTime := by
    have := C11.startTime_ge ht acts vt
    have hr := Route.make_eq_ok h
    subst hr; exact this
  have hrelle := (C09_start_time_is_optimal data ht acts vt r h).2.1
  have hsv := C11.service_nonneg ht ⟨.depot, v.startDepot⟩
  have hwin := Route.windows ht ⟨.depot, v.startDepot⟩
  simp only [serviceTime] at hsv
  simp only [earliest, latest] at hwin
  have hr := Route.make_eq_ok h
  subst hr
  have hrt := Route.backward_releaseTimes ht vt acts
  simp only [Route.build, Route.mkSchedule] at *
  generalize (Route.backward data (data.vehicleType vt) acts).ds.startEarly = t at *
  generalize (Route.backward data (data.vehicleType vt) acts).ds.releaseTime_ = rel at *
  generalize (Route.backward data (data.vehicleType vt) acts).releaseTimes = rt at *
  simp only [routeStops, driveWarp, drive] at hwarp
  generalize hs1 : Stop.mk 0 v.twEarly v.startLate 0 = s1 at hwarp
  generalize hs2 : Stop.mk 0 (data.depot v.startDepot).twEarly (data.depot v.startDepot).twLate
    (data.depot v.startDepot).serviceDuration = s2 at hwarp
  have hn := (drive_nonneg (s2.begin (s1.begin t + 0) + (data.depot v.startDepot).serviceDuration)
    (stopsFrom data v (data.depot v.startDepot).location acts)).2
  have n1 : 0 ≤ s1.warp t := by simp only [Stop.warp]; omega
  have n2 : 0 ≤ s2.warp (s1.begin t + 0) := by simp only [Stop.warp]; omega
  have z1 : s1.warp t = 0 := by omega
  have z2 : s2.warp (s1.begin t + 0) = 0 := by omega
  have hb1 : s1.begin t = t := by
    rw [← hs1]; rw [← hs1] at z1
    simp only [Stop.begin, Stop.wait, Stop.warp, Stop.arrive] at *
    omega
  rw [hb1, Int.add_zero] at z2 hwarp hn
  have hst : t ≤ v.startLate := by
    rw [← hs1] at z1
    simp only [Stop.warp, Stop.arrive] at z1
    omega
  have hb2 : (Route.handle t ⟨.depot, v.startDepot⟩ 0
      (max (data.depot v.startDepot).twEarly (min rel (data.depot v.startDepot).twLate))
      (min (data.depot v.startDepot).twLate v.startLate) (data.depot v.startDepot).serviceDuration).2
      = s2.begin t + (data.depot v.startDepot).serviceDuration
    ∧ (Route.handle t ⟨.depot, v.startDepot⟩ 0
      (max (data.depot v.startDepot).twEarly (min rel (data.depot v.startDepot).twLate))
      (min (data.depot v.startDepot).twLate v.startLate) (data.depot v.startDepot).serviceDuration).1.startTime
      = s2.begin t := by
    rw [← hs2] at z2 ⊢
    simp only [Stop.begin, Stop.wait, Stop.warp, Stop.arrive, Route.handle] at *
    omega
  have hbge : t ≤ s2.begin t := by
    rw [← hs2] at z2 ⊢
    simp only [Stop.begin, Stop.wait, Stop.warp, Stop.arrive] at *
    omega
  have hfw := Plot.forward_within ht vt rt d hd acts (s2.begin t + (data.depot v.startDepot).serviceDuration)
    (data.depot v.startDepot).location 0 (by rw [hrt]; rfl) (by simp only [v] at *; omega) (by simp only [v] at *; omega)
  have hne := Route.forward_ne_nil data v rt acts (s2.begin t + (data.depot v.startDepot).serviceDuration)
    (data.depot v.startDepot).location 0
  have hw : Plot.Within d t (routeStops data v acts) ↔ t + d ≤ v.startLate
      ∧ s2.begin t + d ≤ (data.depot v.startDepot).twLate
      ∧ Plot.Within d (s2.begin t + (data.depot v.startDepot).serviceDuration)
        (stopsFrom data v (data.depot v.startDepot).location acts) := by
    simp only [routeStops, hs1, hs2, Plot.Within, hb1]
    rw [← hs1, ← hs2]
    simp only [Int.add_zero]
  rw [hw, hfw]
  simp only [v] at *
  rw [hb2.1]
  generalize hhd : (Route.handle t _ 0 _ _ _).1 = e0 at hb2 ⊢
  have ha0 : e0.activity = ⟨.depot, (data.vehicleType vt).startDepot⟩ := by rw [← hhd]; rfl
  generalize Route.forward data (data.vehicleType vt) rt _ _ 0 acts = es at hne ⊢
  have hlast : (e0 :: es).getLast? = es.getLast? := by
    cases es with
    | nil => exact absurd rfl hne
    | cons b es => rfl
  rw [hlast]
  simp only [List.mem_cons, forall_eq_or_imp, ha0, hb2.2, latest, and_assoc]

/-- **C68 (load).** For a route with one trip, and a vehicle without an initial load, the load that is shown is
the load on board: its largest value is the one that decides about the excess load. (`_partial`
because it is not for other routes: see below.) -/
theorem C68_load_partial (data : ProblemData) (acts : List Activity) (vt : Nat) (r : Route)
    (h : Route.make data acts vt = .ok r) (dim : Nat) (hdim : dim < data.numLoadDimensions)
    (hcap : 0 ≤ (data.vehicleType vt).capacity.getD dim 0)
    (hinit : ∀ i, (data.vehicleType vt).initialLoad.getD i 0 = 0) (hone : ∀ a ∈ acts, a.type ≠ .depot) :
    ∃ peak, IsPeak peak ((Plot.routeSchedule data r dim).load.map (·.2))
      ∧ r.excessLoad[dim]? = some (max (peak - (data.vehicleType vt).capacity.getD dim 0) 0) := by
  obtain ⟨peaks, h1, h2⟩ := C04_excess_load data acts vt r dim hdim hcap (by rw [hinit]; exact Int.le_refl _) h
  rw [hinit] at h1
  unfold routeAmounts at h1
  rw [Plot.trips_single hone] at h1
  simp only [List.map_nil] at h1
  cases h1 with
  | cons hp hnil =>
    cases hnil
    rename_i peak
    refine ⟨peak, ?_, by simpa using h2⟩
    have hmem : ∀ x, x ∈ (Plot.routeSchedule data r dim).load.map (·.2)
        ↔ x ∈ tripAmounts 0 (acts.map (loadEvent data dim)) := by
      intro x
      have hdel := (C04_delivery_and_pickup data acts vt r (fun i => by rw [hinit]; exact Int.le_refl _) h).2.1
      have hload : r.delivery.getD dim 0 = 0 + loadedAtStart (acts.map (loadEvent data dim)) := by
        rw [hdel, Int.zero_add]
        simp only [List.getD_eq_getElem?_getD, List.getElem?_map, List.getElem?_range hdim, Option.map_some,
          Option.getD_some, loadedAtStart, List.map_map]
        clear * -
        induction acts with
        | nil => rfl
        | cons a acts ih =>
          obtain ⟨ty, i⟩ := a
          cases ty <;> simp_all [loadEvent]
      have hacts := (C07_schedule_lists_activities data acts vt r h).1
      have hne : r.schedule ≠ [] := by intro e; rw [e] at hacts; cases hacts
      unfold Plot.routeSchedule
      dsimp only
      rw [if_pos hdim]
      dsimp only
      rw [Plot.loads_mem data _ dim x _ _ _ _ _ _ hne, hload]
      have : r.schedule.map (fun e => loadEvent data dim e.activity)
          = ⟨0, 0⟩ :: (acts.map (loadEvent data dim) ++ [⟨0, 0⟩]) := by
        have e : r.schedule.map (fun e => loadEvent data dim e.activity)
            = (r.schedule.map (·.activity)).map (loadEvent data dim) := by rw [List.map_map]; rfl
        rw [e, hacts]
        simp [fullActs, loadEvent]
      rw [this]
      simp only [onBoard, Int.add_zero, List.mem_cons, Plot.onBoard_last, tripAmounts]
      constructor
      · rintro (rfl | hx)
        · cases acts with
          | nil => simp [onBoard]
          | cons a acts => exact List.mem_cons_self ..
        · exact hx
      · exact .inr
    exact ⟨(hmem peak).2 hp.1, fun x hx => hp.2 x ((hmem x).1 hx)⟩

/-! ## What is not so, and concrete cases -/

namespace C68

/-- The vehicles carry at most 13. -/
def tight : ProblemData :=
  { Demo.data with vehicleTypes := Demo.data.vehicleTypes.map fun v => { v with capacity := [13] } }

/-- The vehicles may be on the road for at most 10. -/
def short : ProblemData :=
  { Demo.data with vehicleTypes := Demo.data.vehicleTypes.map fun v => { v with maxDuration := 10 } }

/-- Two trips. Together they need 11, each of them at most 6. -/
def twoTrips : List Activity := [Demo.client 0, Demo.client 3, Demo.depot 0, Demo.client 1, Demo.client 4]

/-- A client that can be reached only after it closes. -/
def closed : ProblemData :=
  { Demo.data with clients := [⟨1, [4], [0], 2, 0, 3, 0, 0, true, none, ""⟩], groups := [] }

theorem consistent : Consistent Demo.data :=
  ((C37_accepts_exactly_consistent Demo.data Demo.data).1 (by decide)).2

end C68

/-- **C68 (finding).** With reloads, the load of all trips is shown as being on board from the start on. Here a route
without excess load is shown with a load of 11, although the capacity is 10. -/
theorem C68_reloads_negation : ProblemData.make Demo.data = .ok Demo.data ∧ ∃ r,
    Route.make Demo.data C68.twoTrips 0 = .ok r ∧ r.excessLoad = [0]
    ∧ (Demo.data.vehicleType 0).capacity = [10] ∧ (0, 11) ∈ (Plot.routeSchedule Demo.data r).load := by
  refine ⟨by decide, Route.build Demo.data C68.twoTrips 0, ?_, ?_, ?_, ?_⟩ <;> decide

/-- **C68 (finding).** The initial load of the vehicle is not shown. Here a route with excess load is shown with a load
that is never more than 12, although the capacity is 13. -/
theorem C68_initial_load_negation : ProblemData.make C68.tight = .ok C68.tight ∧ ∃ r,
    Route.make C68.tight [Demo.client 0, Demo.client 1, Demo.client 2, Demo.client 3, Demo.client 4] 1 = .ok r
    ∧ r.excessLoad = [1] ∧ (C68.tight.vehicleType 1).capacity = [13]
    ∧ ∀ q ∈ (Plot.routeSchedule C68.tight r).load, q.2 ≤ 12 := by
  refine ⟨by decide, Route.build C68.tight
    [Demo.client 0, Demo.client 1, Demo.client 2, Demo.client 3, Demo.client 4] 1, ?_, ?_, ?_, ?_⟩ <;> decide

/-- **C68 (finding).** The documentation says that slack is shown only if there is no time warp. It is also shown for a
route that has time warp because it takes too long. -/
theorem C68_slack_negation : ProblemData.make C68.short = .ok C68.short ∧ ∃ r,
    Route.make C68.short [Demo.client 0] 0 = .ok r ∧ r.timeWarp > 0
    ∧ (Plot.routeSchedule C68.short r).slack ≠ none := by
  refine ⟨by decide, Route.build C68.short [Demo.client 0] 0, ?_, ?_, ?_⟩ <;> decide

/-- The hypotheses hold for the route of `Demo`, with two trips and a shipment. -/
example : ∃ r, Route.make Demo.data Demo.acts 0 = .ok r ∧ r.distance = 40 ∧ r.travelDuration = 48
    ∧ r.serviceDuration = 13
    ∧ (Plot.routeSchedule Demo.data r).driveServ.getLast? = some (40, 61)
    ∧ ((Plot.routeSchedule Demo.data r).time.drop 3).take 3 = [(5, 20), (5, 20), (5, 22)] :=
  ⟨Route.build Demo.data Demo.acts 0, by decide, by decide, by decide, by decide, by decide, by decide⟩

/-- It has no time warp, and slack: it can be 30 later, but not 31. -/
example : ∃ r, Route.make Demo.data Demo.acts 0 = .ok r ∧ r.hasTimeWarp = false ∧ r.slack = 30
    ∧ (Plot.routeSchedule Demo.data r).slack.isSome = true
    ∧ ¬ (r.startTime + 31 ≤ (Demo.data.vehicleType 0).startLate
      ∧ (∀ e ∈ r.schedule, e.startTime + 31 ≤ latest Demo.data e.activity)
      ∧ ∀ e, r.schedule.getLast? = some e → e.endTime + 31 ≤ (Demo.data.vehicleType 0).twLate) := by
  refine ⟨Route.build Demo.data Demo.acts 0, by decide, by decide, by decide, by decide, fun h => ?_⟩
  have := ((C68_slack Demo.data (by constructor <;> decide) Demo.acts 0 _ (by decide) 0).2.2 (by decide) 31
    (by decide)).2 h
  revert this
  decide

example : Consistent Demo.data ∧ TimesOk Demo.data ∧ 0 < Demo.data.vehicleTypes.length :=
  ⟨C68.consistent, by constructor <;> decide, by decide⟩

/-- A client that is reached too late. -/
example : ∃ r, Route.make C68.closed [Demo.client 0] 0 = .ok r
    ∧ (Plot.routeSchedule C68.closed r).warps = [((5, 14), (5, 3))] :=
  ⟨Route.build C68.closed [Demo.client 0] 0, by decide, by decide⟩

/-- The hypotheses of the statement about loads, with a shipment. -/
example : ∃ r, Route.make Demo.data [Demo.client 0, Demo.pickup 0, Demo.client 1, Demo.delivery 0] 0 = .ok r
    ∧ (Plot.routeSchedule Demo.data r).load.map (·.2)
      = [7, 7, 7, 7, 3, 3, 3, 6, 6, 6, 8, 8, 8, 5, 5, 5, 5, 5] :=
  ⟨Route.build Demo.data [Demo.client 0, Demo.pickup 0, Demo.client 1, Demo.delivery 0] 0, by decide, by decide⟩

end PyVRP
