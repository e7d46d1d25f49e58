import Verif.Lemmas.RouteBasic
import Verif.Props.C05
/-!
# C07: route counts and schedule; C08: route distance
-/
namespace PyVRP
open Spec

theorem Route.make_eq_ok {data : ProblemData} {acts : List Activity} {vt : Nat} {r : Route}
    (h : Route.make data acts vt = .ok r) : r = Route.build data acts vt := by
  unfold Route.make at h
  split at h
  · cases h
  · injection h with h; exact h.symm

/-- **C07.** The schedule of an accepted route lists exactly the start depot, the given activities
in order, and the end depot; the length is the number of these. -/
theorem C07_schedule_lists_activities (data : ProblemData) (acts : List Activity) (vt : Nat)
    (r : Route) (h : Route.make data acts vt = .ok r) :
    r.schedule.map (·.activity) = fullActs (data.vehicleType vt) acts
    ∧ r.size = acts.length + 2
    ∧ r.startDepot = (data.vehicleType vt).startDepot
    ∧ r.endDepot = (data.vehicleType vt).endDepot := by
  have hr := Route.make_eq_ok h
  subst hr
  have key : (Route.build data acts vt).schedule.map (·.activity)
      = fullActs (data.vehicleType vt) acts := Route.mkSchedule_activities ..
  refine ⟨key, ?_, ?_, ?_⟩
  · have := congrArg List.length key
    simpa [Route.size, fullActs] using this
  · rfl
  · have h2 : ((Route.build data acts vt).schedule.map (·.activity)).getLast?
        = some ⟨.depot, (data.vehicleType vt).endDepot⟩ := by
      rw [key]; simp [fullActs, List.getLast?_cons, List.getLast?_append]
    rw [List.getLast?_map] at h2
    unfold Route.endDepot
    cases hl : (Route.build data acts vt).schedule.getLast? with
    | none => rw [hl] at h2; cases h2
    | some x =>
      rw [hl] at h2
      simp only [Option.map_some, Option.some.injEq] at h2
      simp [h2]

/-- **C07.** The trip index of the `k`-th entry (the start depot is entry 0) is the number of
reload depots visited up to and including it; the end depot's is the number of trips. -/
theorem C07_trip_indices (data : ProblemData) (acts : List Activity) (vt : Nat)
    (r : Route) (h : Route.make data acts vt = .ok r) :
    (∀ k, k ≤ acts.length →
      (r.schedule[k]?).map (·.trip) = some (depotVisits (acts.take k)))
    ∧ (r.schedule[acts.length + 1]?).map (·.trip) = some (depotVisits acts + 1) := by
  have hr := Route.make_eq_ok h
  subst hr
  refine ⟨fun k hk => ?_, ?_⟩
  · cases k with
    | zero => simp [Route.build, Route.mkSchedule, Route.handle, depotVisits]
    | succ k =>
      simp only [Route.build, Route.mkSchedule, List.getElem?_cons_succ]
      rw [Route.forward_trips _ _ _ _ _ _ _ _ (by omega)]
      simp
  · have hlast := Route.forward_last data (data.vehicleType vt)
      (Route.backward data (data.vehicleType vt) acts).releaseTimes acts
    simp only [Route.build, Route.mkSchedule, List.getElem?_cons_succ]
    generalize hr : (Route.handle _ _ _ _ _ _).2 = now
    have := hlast now (data.depot (data.vehicleType vt).startDepot).location 0
    rw [List.getLast?_eq_getElem?, Route.forward_length,
      Route.backward_releaseTimes_length] at this
    simpa using this

/-- **C07.** `num_clients`, `num_shipments`, `num_trips` and `num_depots` are the numbers of client
visits, of pickups, of reloads plus one, and of all depot visits; `empty` means there is no
client and no shipment. -/
theorem C07_counts (data : ProblemData) (acts : List Activity) (vt : Nat) (r : Route)
    (hsize : acts.length < SIZE_MAX) (hreloads : (data.vehicleType vt).maxReloads ≤ SIZE_MAX)
    (h : Route.make data acts vt = .ok r) :
    r.numClients = acts.countP (fun a => a.type = .client)
    ∧ r.numClientsInt = r.numClients
    ∧ r.numShipments = acts.countP (fun a => a.type = .pickup)
    ∧ r.numTrips = depotVisits acts + 1
    ∧ r.numDepots = depotVisits acts + 2
    ∧ (r.empty = true ↔ ∀ a ∈ acts, a.type = .depot) := by
  have hw := (C05_route_accepts_exactly_wellformed data acts vt hsize hreloads).1.1 ⟨r, h⟩
  have hsz := (C07_schedule_lists_activities data acts vt r h)
  have hact := hsz.1
  have hsz := hsz.2.1
  have htrip : r.numTrips = depotVisits acts + 1 := by
    have := (C07_trip_indices data acts vt r h).2
    unfold Route.numTrips
    rw [List.getLast?_eq_getElem?]
    have hl : r.schedule.length - 1 = acts.length + 1 := by
      unfold Route.size at hsz; omega
    rw [hl, this]; rfl
  have hship : r.numShipments = acts.countP (fun a => a.type = .pickup) := by
    have : r.numShipments = Route.numShipmentsOf r.schedule := by
      have hr := Route.make_eq_ok h
      subst hr; rfl
    rw [this, Route.numShipmentsOf_eq, hact, Route.countP_fullActs _ _ _ (by decide)]
  have heq := Route.pickups_eq_deliveries hw
  have htot := Route.counts_total acts
  have hint : r.numClientsInt = (acts.countP (fun a => a.type = .client) : Nat) := by
    unfold Route.numClientsInt Route.numDepots
    rw [hsz, htrip, hship]
    omega
  have hcl : r.numClients = acts.countP (fun a => a.type = .client) := by
    unfold Route.numClients; rw [hint]; simp
  refine ⟨hcl, by rw [hint, hcl], hship, htrip, by unfold Route.numDepots; omega, ?_⟩
  unfold Route.empty
  rw [hint, hship]
  simp only [Bool.and_eq_true, beq_iff_eq]
  constructor
  · rintro ⟨h1, h2⟩ a ha
    have h1 : acts.countP (fun a => a.type = .client) = 0 := by omega
    rw [h2] at heq
    have e1 := (List.countP_eq_zero.1 h1) a ha
    have e2 := (List.countP_eq_zero.1 h2) a ha
    have e3 := (List.countP_eq_zero.1 heq.symm) a ha
    simp only [decide_eq_true_eq] at e1 e2 e3
    cases hty : a.type <;> simp_all
  · intro hall
    have e1 : acts.countP (fun a => a.type = .client) = 0 :=
      List.countP_eq_zero.2 fun a ha => by simp [hall a ha]
    have e2 : acts.countP (fun a => a.type = .pickup) = 0 :=
      List.countP_eq_zero.2 fun a ha => by simp [hall a ha]
    rw [e1, e2]; simp

/-- **C07.** Indexing: exactly the indices below the length are valid. -/
theorem C07_getitem (r : Route) (i : Nat) :
    (∀ s, r.get i = .ok s ↔ r.schedule[i]? = some s)
    ∧ (r.schedule.length ≤ i → r.get i = .error (.outOfRange "Index out of range.")) := by
  unfold Route.get Route.size
  by_cases h : i ≥ r.schedule.length
  · simp [h]
  · simp only [h, if_false]
    rw [List.getElem?_eq_getElem (by omega)]
    simp

/-- **C08.** The distance of an accepted route is the sum of the distances between consecutive
places from start to end depot; cost and excess are derived from it. -/
theorem C08_distance (data : ProblemData) (acts : List Activity) (vt : Nat) (r : Route)
    (h : Route.make data acts vt = .ok r) :
    r.distance = legSum (data.dist (data.vehicleType vt).profile)
      ((fullActs (data.vehicleType vt) acts).map (place data))
    ∧ r.distanceCost = (data.vehicleType vt).unitDistanceCost * r.distance
    ∧ r.excessDistance = max (r.distance - (data.vehicleType vt).maxDistance) 0
    ∧ (r.hasExcessDistance = true ↔ (data.vehicleType vt).maxDistance < r.distance) := by
  have hr := Route.make_eq_ok h
  subst hr
  refine ⟨?_, rfl, rfl, ?_⟩
  · simp only [Route.build, Route.mkSchedule, List.drop_succ_cons, List.drop_zero,
      Route.distanceLoop_eq, Route.forward_activities, Int.zero_add]
    simp [fullActs, place]
  · unfold Route.hasExcessDistance
    rw [decide_eq_true_eq]
    show max ((Route.build data acts vt).distance - _) 0 > 0 ↔ _
    generalize (Route.build data acts vt).distance = d
    constructor <;> intro _ <;> omega

/-! ## Non-vacuity -/

/-- The demo route: 3 clients, 1 shipment, 2 trips; distance 5+0+5+0+10+10+10. -/
example : ∃ r, Route.make Demo.data Demo.acts 0 = .ok r ∧ r.numClients = 3 ∧ r.numShipments = 1
    ∧ r.numTrips = 2 ∧ r.numDepots = 3 ∧ r.size = 8 ∧ r.distance = 40
    ∧ r.schedule.map (·.trip) = [0, 0, 0, 0, 0, 1, 1, 2] := by
  refine ⟨Route.build Demo.data Demo.acts 0, ?_, ?_⟩ <;> decide

end PyVRP
