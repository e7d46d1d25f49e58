import Verif.Lemmas.SolutionSums
import Verif.Props.Demo
/-!
# C13, C14, C15: the `Solution` constructor, completeness, feasibility, totals
-/
namespace PyVRP
open Spec

/-- **C13.** Given the routes that the `Route` constructor made of a plan, the `Solution` constructor
succeeds iff the plan is valid, and otherwise raises a `RuntimeError`. (That members of a group are
distinct is guaranteed by the `ClientGroup` constructor, see `C36_group_accepts`.) -/
theorem C13_solution_accepts_exactly_valid (data : ProblemData) (plan : RoutePlan)
    (routes : List Route) (hb : Built data plan routes)
    (hn : ∀ g ∈ data.groups, g.clients.Nodup) :
    ((∃ s, Solution.make data routes = .ok s) ↔ ValidPlan data plan)
    ∧ (¬ ValidPlan data plan → ∃ msg, Solution.make data routes = .error (.runtimeError msg)) := by
  rcases Solution.make_spec data hb hn with ⟨h1, h2⟩ | ⟨h1, m, h2⟩
  · exact ⟨⟨fun _ => h1, fun _ => ⟨_, h2⟩⟩, fun h => absurd h1 h⟩
  · refine ⟨⟨?_, fun h => absurd h h1⟩, fun _ => ⟨m, h2⟩⟩
    rintro ⟨s, hs⟩
    rw [h2] at hs
    cases hs

/-- An accepted solution has the given routes, in the given order. -/
theorem Solution.make_eq_ok {data : ProblemData} {plan : RoutePlan} {routes : List Route}
    (hb : Built data plan routes) (hn : ∀ g ∈ data.groups, g.clients.Nodup) {s : Solution}
    (h : Solution.make data routes = .ok s) :
    ValidPlan data plan ∧ s = Solution.evaluate data (Solution.bare data plan routes) := by
  rcases Solution.make_spec data hb hn with ⟨h1, h2⟩ | ⟨h1, m, h2⟩
  · rw [h2] at h; injection h with h; exact ⟨h1, h.symm⟩
  · rw [h2] at h; cases h

/-- The constructor from lists of client indices (with the first vehicle type). -/
theorem C13_visits (data : ProblemData) (visits : List (List Nat))
    (hv : data.vehicleTypes ≠ []) (hs : ∀ l ∈ visits, l.length < SIZE_MAX)
    (hr : ∀ v ∈ data.vehicleTypes, v.maxReloads ≤ SIZE_MAX)
    (hn : ∀ g ∈ data.groups, g.clients.Nodup) :
    (∃ s, Solution.makeVisits data visits = .ok s) ↔
      (∀ l ∈ visits, ∀ i ∈ l, i < data.clients.length)
      ∧ ValidPlan data (visits.map (fun l => (0, l.map clientOf))) := by
  have hpos : 0 < data.vehicleTypes.length := List.length_pos_iff.2 hv
  have hr0 : (data.vehicleType 0).maxReloads ≤ SIZE_MAX := by
    apply hr
    simp [ProblemData.vehicleType, List.getD_eq_getElem?_getD, List.getElem?_eq_getElem hpos]
  have hone : ∀ l : List Nat, l.length < SIZE_MAX →
      ((∃ r, Route.makeVisits data l 0 = .ok r) ↔ ∀ i ∈ l, i < data.clients.length) := by
    intro l hl
    have h5 := (C05_route_accepts_exactly_wellformed data (l.map clientOf) 0 (by simpa using hl)
      hr0).1
    have hmk : Route.makeVisits data l 0 = Route.make data (l.map clientOf) 0 := rfl
    rw [hmk, h5]
    constructor
    · intro h i hi
      have := h.inRange (clientOf i) (List.mem_map_of_mem hi)
      simpa [InRange, clientOf] using this
    · intro h
      refine ⟨?_, fun s => .inl ?_, ?_⟩
      · intro a ha
        obtain ⟨i, hi, rfl⟩ := List.mem_map.1 ha
        exact h i hi
      · intro a ha hc
        obtain ⟨i, hi, rfl⟩ := List.mem_map.1 ha
        rcases hc with hc | hc <;> simp [clientOf, pickupOf, deliveryOf] at hc
      · have : depotVisits (l.map clientOf) = 0 := by
          rw [depotVisits, List.countP_eq_zero]
          intro a ha
          obtain ⟨i, hi, rfl⟩ := List.mem_map.1 ha
          simp [clientOf]
        omega
  have hall : ∀ visits : List (List Nat), (∀ l ∈ visits, l.length < SIZE_MAX) →
      (∃ routes, Solution.visitRoutes data visits = .ok routes
        ∧ (∀ l ∈ visits, ∀ i ∈ l, i < data.clients.length)
        ∧ Built data (visits.map (fun l => (0, l.map clientOf))) routes)
      ∨ ((∃ e, Solution.visitRoutes data visits = .error e)
        ∧ ¬ ∀ l ∈ visits, ∀ i ∈ l, i < data.clients.length) := by
    intro visits
    induction visits with
    | nil => intro _; left; exact ⟨[], rfl, by simp, rfl, by simp, by simp, hr⟩
    | cons l rest ih =>
      intro hs
      have h1 := hone l (hs l (by simp))
      unfold Solution.visitRoutes
      rcases ih (fun x hx => hs x (by simp [hx])) with ⟨rs, k1, k2, k3⟩ | ⟨⟨e, k1⟩, k2⟩
      · cases hm : Route.makeVisits data l 0 with
        | error e =>
          right
          refine ⟨⟨e, rfl⟩, fun hh => ?_⟩
          obtain ⟨r, hr'⟩ := h1.2 (hh l (by simp))
          rw [hm] at hr'; cases hr'
        | ok r =>
          left
          simp only [k1]
          refine ⟨_, rfl, ?_, ?_⟩
          · intro x hx
            rcases List.mem_cons.1 hx with rfl | hx
            · exact h1.1 ⟨r, hm⟩
            · exact k2 x hx
          · refine ⟨?_, ?_, ?_, hr⟩
            · have hm' : Route.make data (l.map clientOf) 0 = .ok r := hm
              simp only [List.map_cons, hm', k3.made]
            · intro p hp
              simp only [List.map_cons, List.mem_cons] at hp
              rcases hp with rfl | hp
              · exact hpos
              · exact k3.types p hp
            · intro p hp
              simp only [List.map_cons, List.mem_cons] at hp
              rcases hp with rfl | hp
              · simpa using hs l (by simp)
              · exact k3.sizes p hp
      · right
        refine ⟨?_, fun hh => k2 fun x hx => hh x (by simp [hx])⟩
        rw [k1]
        cases Route.makeVisits data l 0 with
        | error e => exact ⟨e, rfl⟩
        | ok r => exact ⟨e, rfl⟩
  unfold Solution.makeVisits
  rcases hall visits hs with ⟨rs, k1, k2, k3⟩ | ⟨⟨e, k1⟩, k2⟩
  · rw [k1]
    have := (C13_solution_accepts_exactly_valid data _ rs k3 hn).1
    simp only [this]
    exact ⟨fun h => ⟨k2, h⟩, fun h => h.2⟩
  · rw [k1]
    constructor
    · rintro ⟨s, hs⟩; cases hs
    · intro h; exact absurd h.1 k2

/-- **C14, completeness.** The missing counts of an accepted solution. -/
theorem C14_missing (data : ProblemData) (plan : RoutePlan) (routes : List Route) (s : Solution)
    (hb : Built data plan routes) (hn : ∀ g ∈ data.groups, g.clients.Nodup)
    (h : Solution.make data routes = .ok s) :
    s.numMissingClients = ((List.range data.clients.length).filter (fun i =>
        (data.client i).required ∧ clientOf i ∉ visited plan)).length
    ∧ s.numMissingShipments = ((List.range data.shipments.length).filter (fun i =>
        (data.shipment i).required ∧ pickupOf i ∉ visited plan)).length
    ∧ s.numMissingGroups = (data.groups.filter (fun g =>
        g.required ∧ ∀ i ∈ g.clients, clientOf i ∉ visited plan)).length
    ∧ (s.isComplete = true ↔
        (∀ (i : Nat) (c : Client), data.clients[i]? = some c → c.required = true →
          clientOf i ∈ visited plan)
        ∧ (∀ (i : Nat) (c : Shipment), data.shipments[i]? = some c → c.required = true →
          pickupOf i ∈ visited plan ∧ deliveryOf i ∈ visited plan)
        ∧ (∀ g ∈ data.groups, g.required = true → ∃ i ∈ g.clients, clientOf i ∈ visited plan)) := by
  obtain ⟨-, rfl⟩ := Solution.make_eq_ok hb hn h
  have e1 : (Solution.evaluate data (Solution.bare data plan routes)).numMissingClients
      = (Solution.bare data plan routes).numMissingClients := by
    simp only [Solution.evaluate]
    rw [Solution.foldl_constField (·.numMissingClients) (fun _ _ => rfl)]
  have e2 : (Solution.evaluate data (Solution.bare data plan routes)).numMissingShipments
      = (Solution.bare data plan routes).numMissingShipments := by
    simp only [Solution.evaluate]
    rw [Solution.foldl_constField (·.numMissingShipments) (fun _ _ => rfl)]
  have e3 : (Solution.evaluate data (Solution.bare data plan routes)).numMissingGroups
      = (Solution.bare data plan routes).numMissingGroups := by
    simp only [Solution.evaluate]
    rw [Solution.foldl_constField (·.numMissingGroups) (fun _ _ => rfl)]
  refine ⟨?_, ?_, ?_, ?_⟩
  · rw [e1]
    simp only [Solution.bare, List.countP_eq_length_filter]
    congr 1; apply List.filter_congr; intro i _; rw [Bool.eq_iff_iff, decide_eq_true_iff]
    simp [clientOf, pickupOf]
  · rw [e2]
    simp only [Solution.bare, List.countP_eq_length_filter]
    congr 1; apply List.filter_congr; intro i _; rw [Bool.eq_iff_iff, decide_eq_true_iff]
    simp [clientOf, pickupOf]
  · rw [e3]
    simp only [Solution.bare, List.countP_eq_length_filter]
    congr 1; apply List.filter_congr; intro i _; rw [Bool.eq_iff_iff, decide_eq_true_iff]
    simp [clientOf, pickupOf]
  · simp only [Solution.isComplete, e1, e2, e3]
    simp only [Bool.and_eq_true, beq_iff_eq, Solution.bare,
      List.countP_eq_zero, List.mem_range, decide_eq_true_eq, not_and, Bool.not_eq_true]
    constructor
    · rintro ⟨⟨h1, h2⟩, h3⟩
      refine ⟨?_, ?_, ?_⟩
      · intro i c hc hq
        obtain ⟨hlt, rfl⟩ := List.getElem?_eq_some_iff.1 hc
        have := h3
        have := h1 i hlt
        simpa [ProblemData.client, List.getD_eq_getElem?_getD, hc, hq, clientOf] using this
      · intro i c hc hq
        obtain ⟨hlt, rfl⟩ := List.getElem?_eq_some_iff.1 hc
        have h4 := h3 i hlt
        have hp : pickupOf i ∈ visited plan := by
          simpa [ProblemData.shipment, List.getD_eq_getElem?_getD, hc, hq, pickupOf] using h4
        exact ⟨hp, (Solution.visited_delivery hb i).2 hp⟩
      · intro g hg hq
        have := h2 g hg
        simpa [hq, clientOf] using this
    · rintro ⟨h1, h2, h3⟩
      refine ⟨⟨?_, ?_⟩, ?_⟩
      · intro i hi
        cases hq : (data.client i).required with
        | false => simp
        | true =>
          have := h1 i _ (List.getElem?_eq_getElem hi)
            (by simpa [ProblemData.client, List.getD_eq_getElem?_getD, hi] using hq)
          simpa [clientOf] using this
      · intro g hg
        cases hq : g.required with
        | false => simp
        | true => simpa [clientOf] using h3 g hg hq
      · intro i hi
        cases hq : (data.shipment i).required with
        | false => simp
        | true =>
          have := (h2 i _ (List.getElem?_eq_getElem hi)
            (by simpa [ProblemData.shipment, List.getD_eq_getElem?_getD, hi] using hq)).1
          simpa [pickupOf] using this

/-- **C15, totals.** -/
theorem C15_totals (data : ProblemData) (plan : RoutePlan) (routes : List Route) (s : Solution)
    (hb : Built data plan routes) (hn : ∀ g ∈ data.groups, g.clients.Nodup)
    (h : Solution.make data routes = .ok s) :
    s.routes = routes
    ∧ s.distance = (routes.map (·.distance)).sum
    ∧ s.distanceCost = (routes.map (·.distanceCost)).sum
    ∧ s.duration = (routes.map (·.duration)).sum
    ∧ s.overtime = (routes.map (·.overtime)).sum
    ∧ s.durationCost = (routes.map (·.durationCost)).sum
    ∧ s.timeWarp = (routes.map (·.timeWarp)).sum
    ∧ s.excessDistance = (routes.map (·.excessDistance)).sum
    ∧ s.fixedVehicleCost = (routes.map (·.fixedVehicleCost)).sum
    ∧ s.prizes = (routes.map (·.prizes)).sum
    ∧ s.numClients = (routes.map (·.numClients)).sum
    ∧ s.numShipments = (routes.map (·.numShipments)).sum
    ∧ s.excessLoad = (List.range data.numLoadDimensions).map
        (fun dim => (routes.map (fun r => r.excessLoad.getD dim 0)).sum)
    ∧ s.numTrips = (routes.map (·.numTrips)).sum
    ∧ s.numRoutes = routes.length
    ∧ (s.empty = true ↔ routes = []) := by
  obtain ⟨hvalid, rfl⟩ := Solution.make_eq_ok hb hn h
  have hex := Solution.foldl_excessLoad (data := data) routes
    { Solution.bare data plan routes with excessLoad := List.replicate data.numLoadDimensions 0 }
    (by simp)
  have hr : (Solution.evaluate data (Solution.bare data plan routes)).routes = routes := by
    simp only [Solution.evaluate]
    rw [Solution.foldl_constField (·.routes) (fun _ _ => rfl)]; rfl
  have htrips : ∀ (l : List Route) (n : Nat), l.foldl (fun count r => count + r.numTrips) n
      = n + (l.map (·.numTrips)).sum := by
    intro l
    induction l with
    | nil => intro n; simp
    | cons r rest ih => intro n; rw [List.foldl_cons, ih]; simp; omega
  refine ⟨hr, ?_, ?_, ?_, ?_, ?_, ?_, ?_, ?_, ?_, ?_, ?_, ?_, ?_, ?_, ?_⟩
  · simp only [Solution.evaluate]
    rw [Solution.foldl_intField (·.distance) (·.distance) (fun _ _ => rfl)]; simp [Solution.bare]
  · simp only [Solution.evaluate]
    rw [Solution.foldl_intField (·.distanceCost) (·.distanceCost) (fun _ _ => rfl)]
    simp [Solution.bare]
  · simp only [Solution.evaluate]
    rw [Solution.foldl_intField (·.duration) (·.duration) (fun _ _ => rfl)]; simp [Solution.bare]
  · simp only [Solution.evaluate]
    rw [Solution.foldl_intField (·.overtime) (·.overtime) (fun _ _ => rfl)]; simp [Solution.bare]
  · simp only [Solution.evaluate]
    rw [Solution.foldl_intField (·.durationCost) (·.durationCost) (fun _ _ => rfl)]
    simp [Solution.bare]
  · simp only [Solution.evaluate]
    rw [Solution.foldl_intField (·.timeWarp) (·.timeWarp) (fun _ _ => rfl)]; simp [Solution.bare]
  · simp only [Solution.evaluate]
    rw [Solution.foldl_intField (·.excessDistance) (·.excessDistance) (fun _ _ => rfl)]
    simp [Solution.bare]
  · simp only [Solution.evaluate]
    rw [Solution.foldl_intField (·.fixedVehicleCost) (·.fixedVehicleCost) (fun _ _ => rfl)]
    simp [Solution.bare]
  · simp only [Solution.evaluate]
    rw [Solution.foldl_intField (·.prizes) (·.prizes) (fun _ _ => rfl)]; simp [Solution.bare]
  · simp only [Solution.evaluate]
    rw [Solution.foldl_natField (·.numClients) (·.numClients) (fun _ _ => rfl)]
    simp [Solution.bare]
  · simp only [Solution.evaluate]
    rw [Solution.foldl_natField (·.numShipments) (·.numShipments) (fun _ _ => rfl)]
    simp [Solution.bare]
  · apply List.ext_getElem
    · rw [List.length_map, List.length_range]; exact hex.1
    · intro dim h1 h2
      have hd : dim < data.numLoadDimensions := by simpa using h2
      have := hex.2 dim hd
      simp only [List.getElem_map, List.getElem_range]
      rw [List.getD_eq_getElem?_getD, List.getElem?_eq_getElem (by rw [hex.1]; exact hd)] at this
      simp only [Option.getD_some] at this
      refine Eq.trans ?_ (this.trans ?_)
      · rfl
      · simp [List.getD_eq_getElem?_getD, hd]
  · simp only [Solution.numTrips, hr, htrips]; simp
  · simp only [Solution.numRoutes, hr]
  · simp only [Solution.empty, hr, Bool.and_eq_true, beq_iff_eq, List.length_eq_zero_iff]
    constructor
    · rintro ⟨_, h⟩; exact h
    · rintro rfl
      simp [Solution.evaluate, Solution.bare]

theorem sum_nonneg_pos {α : Type} (f : α → Int) (l : List α) (h : ∀ x ∈ l, 0 ≤ f x) :
    0 ≤ (l.map f).sum ∧ ((l.map f).sum > 0 ↔ ∃ x ∈ l, f x > 0) := by
  induction l with
  | nil => simp
  | cons x rest ih =>
    have h1 := h x (by simp)
    have ⟨h2, h3⟩ := ih fun y hy => h y (by simp [hy])
    have hex : (∃ y ∈ x :: rest, f y > 0) ↔ f x > 0 ∨ ∃ y ∈ rest, f y > 0 := by simp
    simp only [List.map_cons, List.sum_cons]
    refine ⟨by omega, ?_⟩
    rw [hex, ← h3]
    omega

/-- Members of the routes of a plan were made by the `Route` constructor. -/
theorem Spec.Built.mem {data : ProblemData} {plan : RoutePlan} {routes : List Route}
    (hb : Built data plan routes) {r : Route} (hr : r ∈ routes) :
    ∃ p ∈ plan, Route.make data p.2 p.1 = .ok r := by
  have : Except.ok r ∈ plan.map (fun p => Route.make data p.2 p.1) := by
    rw [hb.made]; exact List.mem_map_of_mem hr
  exact List.mem_map.1 this

/-- **C14, feasibility.** A solution is feasible iff it is complete and all its routes are
feasible. -/
theorem C14_feasible_iff (data : ProblemData) (plan : RoutePlan) (routes : List Route) (s : Solution)
    (hb : Built data plan routes) (hn : ∀ g ∈ data.groups, g.clients.Nodup)
    (h : Solution.make data routes = .ok s) :
    s.isFeasible = true ↔ s.isComplete = true ∧ ∀ r ∈ routes, r.isFeasible = true := by
  obtain ⟨hr, -, -, -, -, -, htw, hed, -, -, -, -, hel, -⟩ := C15_totals data plan routes s hb hn h
  have hnn : ∀ r ∈ routes, 0 ≤ r.timeWarp ∧ 0 ≤ r.excessDistance ∧ (∀ x ∈ r.excessLoad, 0 ≤ x)
      ∧ r.excessLoad.length = data.numLoadDimensions := by
    intro r hr
    obtain ⟨p, _, hm⟩ := hb.mem hr
    have := Route.make_nonneg hm
    exact ⟨this.1, this.2.1, this.2.2.1, this.2.2.2.1⟩
  have k1 := sum_nonneg_pos (·.timeWarp) routes fun r hr => (hnn r hr).1
  have k2 := sum_nonneg_pos (·.excessDistance) routes fun r hr => (hnn r hr).2.1
  have k3 : s.hasExcessLoad = true ↔ ∃ r ∈ routes, r.hasExcessLoad = true := by
    simp only [Solution.hasExcessLoad, hel, List.any_eq_true, List.mem_map, List.mem_range,
      decide_eq_true_eq, Route.hasExcessLoad]
    constructor
    · rintro ⟨x, ⟨dim, hd, rfl⟩, hx⟩
      have := (sum_nonneg_pos (fun r : Route => r.excessLoad.getD dim 0) routes (by
        intro r hr
        have hl := (hnn r hr).2.2.2
        rw [List.getD_eq_getElem?_getD, List.getElem?_eq_getElem (by omega)]
        exact (hnn r hr).2.2.1 _ (List.getElem_mem _))).2.1 hx
      obtain ⟨r, hr, hpos⟩ := this
      have hl := (hnn r hr).2.2.2
      rw [List.getD_eq_getElem?_getD, List.getElem?_eq_getElem (by omega)] at hpos
      exact ⟨r, hr, _, List.getElem_mem _, hpos⟩
    · rintro ⟨r, hr, x, hx, hpos⟩
      obtain ⟨dim, hd, rfl⟩ := List.getElem_of_mem hx
      have hl := (hnn r hr).2.2.2
      refine ⟨_, ⟨dim, by omega, rfl⟩, ?_⟩
      refine (sum_nonneg_pos (fun r : Route => r.excessLoad.getD dim 0) routes (by
        intro r hr
        have hl := (hnn r hr).2.2.2
        rw [List.getD_eq_getElem?_getD, List.getElem?_eq_getElem (by omega)]
        exact (hnn r hr).2.2.1 _ (List.getElem_mem _))).2.2 ⟨r, hr, ?_⟩
      rw [List.getD_eq_getElem?_getD, List.getElem?_eq_getElem hd]
      exact hpos
  have k4 : s.hasTimeWarp = true ↔ ∃ r ∈ routes, r.hasTimeWarp = true := by
    simp only [Solution.hasTimeWarp, Route.hasTimeWarp, htw, decide_eq_true_eq, k1.2]
  have k5 : s.hasExcessDistance = true ↔ ∃ r ∈ routes, r.hasExcessDistance = true := by
    simp only [Solution.hasExcessDistance, Route.hasExcessDistance, hed, decide_eq_true_eq, k2.2]
  have hnot : ∀ {b : Bool} {p : Prop}, (b = true ↔ p) → ((!b) = true ↔ ¬ p) := by
    intro b p hh; cases b <;> simp_all
  simp only [Solution.isFeasible, Route.isFeasible, Bool.and_eq_true]
  rw [hnot k3, hnot k4, hnot k5]
  constructor
  · rintro ⟨⟨⟨h1, h2⟩, h3⟩, h4⟩
    refine ⟨h4, fun r hr => ⟨⟨?_, ?_⟩, ?_⟩⟩
    · cases hb : r.hasExcessLoad
      · rfl
      · exact absurd ⟨r, hr, hb⟩ h1
    · cases hb : r.hasTimeWarp
      · rfl
      · exact absurd ⟨r, hr, hb⟩ h2
    · cases hb : r.hasExcessDistance
      · rfl
      · exact absurd ⟨r, hr, hb⟩ h3
  · rintro ⟨h4, h5⟩
    refine ⟨⟨⟨?_, ?_⟩, ?_⟩, h4⟩
    · rintro ⟨r, hr, hb⟩; simp [hb] at h5; exact absurd (h5 r hr).1.1 (by simp [hb])
    · rintro ⟨r, hr, hb⟩; simp [hb] at h5; exact absurd (h5 r hr).1.2 (by simp [hb])
    · rintro ⟨r, hr, hb⟩; simp [hb] at h5; exact absurd (h5 r hr).2 (by simp [hb])

/-- **C15, unplanned activities.** `unplanned()` lists each client and shipment activity that is not
performed, once, and nothing else; the uncollected prizes are the prizes of these. -/
theorem C15_unplanned (data : ProblemData) (plan : RoutePlan) (routes : List Route) (s : Solution)
    (hb : Built data plan routes) (hn : ∀ g ∈ data.groups, g.clients.Nodup)
    (h : Solution.make data routes = .ok s) :
    s.unplanned.Nodup
    ∧ (∀ a, a ∈ s.unplanned ↔ a.type ≠ .depot ∧ InRange data a ∧ a ∉ visited plan)
    ∧ s.uncollectedPrizes = (s.unplanned.map (prizeOf data)).sum
    ∧ s.prizes = ((visited plan).map (prizeOf data)).sum := by
  have hprizes : s.prizes = ((visited plan).map (prizeOf data)).sum := by
    rw [← Solution.routes_prizes hb]
    exact (C15_totals data plan routes s hb hn h).2.2.2.2.2.2.2.2.2.1
  obtain ⟨hvalid, rfl⟩ := Solution.make_eq_ok hb hn h
  have hu : (Solution.evaluate data (Solution.bare data plan routes)).unplanned
      = (Solution.bare data plan routes).unplanned := by
    simp only [Solution.evaluate]
    rw [Solution.foldl_constField (·.unplanned) (fun _ _ => rfl)]
  have hc : (Solution.evaluate data (Solution.bare data plan routes)).uncollectedPrizes
      = Solution.allPrizes data
        - (Solution.evaluate data (Solution.bare data plan routes)).prizes := rfl
  have hmem : ∀ a, a ∈ (Solution.bare data plan routes).unplanned ↔
      a.type ≠ .depot ∧ InRange data a ∧ a ∉ visited plan := by
    rintro ⟨ty, i⟩
    have hdel := Solution.visited_delivery hb i
    simp only [Solution.bare, List.mem_append, List.mem_map, List.mem_filter, List.mem_range,
      List.mem_flatMap, List.mem_cons, Activity.mk.injEq, List.not_mem_nil, or_false,
      decide_eq_true_eq]
    cases ty with
    | depot => simp
    | client =>
      simp only [InRange]
      constructor
      · rintro (⟨j, ⟨h1, h2⟩, -, rfl⟩ | ⟨j, -, ⟨hh, -⟩ | ⟨hh, -⟩⟩)
        · exact ⟨by simp, h1, h2⟩
        · cases hh
        · cases hh
      · rintro ⟨-, h1, h2⟩; exact .inl ⟨i, ⟨h1, h2⟩, by simp⟩
    | pickup =>
      simp only [InRange]
      constructor
      · rintro (⟨j, -, hh, -⟩ | ⟨j, ⟨h1, h2⟩, ⟨-, rfl⟩ | ⟨hh, -⟩⟩)
        · cases hh
        · exact ⟨by simp, h1, h2⟩
        · cases hh
      · rintro ⟨-, h1, h2⟩; exact .inr ⟨i, ⟨h1, h2⟩, .inl (by simp)⟩
    | delivery =>
      simp only [InRange]
      rw [hdel]
      constructor
      · rintro (⟨j, -, hh, -⟩ | ⟨j, ⟨h1, h2⟩, ⟨hh, -⟩ | ⟨-, rfl⟩⟩)
        · cases hh
        · cases hh
        · exact ⟨by simp, h1, h2⟩
      · rintro ⟨-, h1, h2⟩; exact .inr ⟨i, ⟨h1, h2⟩, .inr (by simp)⟩
  have hnodup : (Solution.bare data plan routes).unplanned.Nodup := by
    simp only [Solution.bare]
    rw [List.nodup_append]
    refine ⟨?_, ?_, ?_⟩
    · refine Solution.nodup_map (fun x y hxy => by simpa using hxy) ?_
      exact List.nodup_range.filter _
    · have : ∀ l : List Nat, l.Nodup → (l.flatMap fun i =>
          [(⟨.pickup, i⟩ : Activity), ⟨.delivery, i⟩]).Nodup := by
        intro l
        induction l with
        | nil => simp
        | cons x rest ih =>
          intro hx
          rw [List.nodup_cons] at hx
          rw [List.flatMap_cons, List.nodup_append]
          refine ⟨by simp, ih hx.2, ?_⟩
          intro a ha b hb hab
          simp only [List.mem_cons, List.not_mem_nil, or_false] at ha
          rw [List.mem_flatMap] at hb
          obtain ⟨y, hy, hb⟩ := hb
          simp only [List.mem_cons, List.not_mem_nil, or_false] at hb
          have : y = x := by
            rcases ha with rfl | rfl <;> rcases hb with rfl | rfl <;> simp_all
          exact hx.1 (this ▸ hy)
      exact this _ (List.nodup_range.filter _)
    · intro a ha b hb hab
      subst hab
      rw [List.mem_map] at ha
      rw [List.mem_flatMap] at hb
      obtain ⟨i, _, rfl⟩ := ha
      obtain ⟨j, _, hb⟩ := hb
      simp at hb
  refine ⟨by rw [hu]; exact hnodup, by rw [hu]; exact hmem, ?_, hprizes⟩
  rw [hc, hprizes, hu]
  -- every prize is either collected or not
  let P : Activity → Bool := fun a => decide (a.type = .client) || decide (a.type = .pickup)
  have hP0 : ∀ a, P a = false → prizeOf data a = 0 := by
    rintro ⟨ty, i⟩ hp
    cases ty <;> simp [P, prizeOf] at hp ⊢
  rw [← Solution.sum_map_filter (visited plan) P _ hP0,
    ← Solution.sum_map_filter (Solution.bare data plan routes).unplanned P _ hP0]
  have hall : Solution.allPrizes data = (((List.range data.clients.length).map clientOf
      ++ (List.range data.shipments.length).map pickupOf).map (prizeOf data)).sum := by
    rw [Solution.allPrizes_eq, List.map_append, Solution.sum_append_int, List.map_map, List.map_map]
    congr 1
    · exact (Solution.range_map_getD data.clients (·.prize)).symm
    · exact (Solution.range_map_getD data.shipments (·.prize)).symm
  have hnv : ((visited plan).filter P).Nodup := by
    apply Solution.once_nodup_filter
    rintro ⟨ty, i⟩ hp
    cases ty with
    | depot => simp [P] at hp
    | client => exact hvalid.clientsOnce i
    | pickup => exact hvalid.shipmentsOnce i
    | delivery => simp [P] at hp
  have hperm : (((visited plan).filter P)
      ++ (Solution.bare data plan routes).unplanned.filter P).Perm
      ((List.range data.clients.length).map clientOf
        ++ (List.range data.shipments.length).map pickupOf) := by
    rw [List.perm_ext_iff_of_nodup]
    · intro a
      simp only [List.mem_append, List.mem_filter, hmem, List.mem_map, List.mem_range]
      have hin := Solution.visited_inRange hb a
      obtain ⟨ty, i⟩ := a
      cases ty with
      | depot => simp [P, clientOf, pickupOf]
      | delivery => simp [P, clientOf, pickupOf]
      | client =>
        simp [P, clientOf, pickupOf, InRange] at hin ⊢
        by_cases hv : (⟨.client, i⟩ : Activity) ∈ visited plan <;> simp_all
      | pickup =>
        simp [P, clientOf, pickupOf, InRange] at hin ⊢
        by_cases hv : (⟨.pickup, i⟩ : Activity) ∈ visited plan <;> simp_all
    · rw [List.nodup_append]
      refine ⟨hnv, hnodup.filter _, ?_⟩
      intro a ha b hb' hab
      subst hab
      exact ((hmem a).1 (List.mem_filter.1 hb').1).2.2 (List.mem_filter.1 ha).1
    · rw [List.nodup_append]
      refine ⟨?_, ?_, ?_⟩
      · exact Solution.nodup_map (fun x y hxy => by simpa [clientOf] using hxy) List.nodup_range
      · exact Solution.nodup_map (fun x y hxy => by simpa [pickupOf] using hxy) List.nodup_range
      · intro a ha b hb hab
        subst hab
        rw [List.mem_map] at ha hb
        obtain ⟨i, _, rfl⟩ := ha
        obtain ⟨j, _, hb⟩ := hb
        simp [clientOf, pickupOf] at hb
  have hs := Solution.perm_sum (hperm.map (prizeOf data))
  rw [List.map_append, Solution.sum_append_int] at hs
  omega

end PyVRP

/-! ### Examples -/
namespace PyVRP.Demo
open Spec

/-- Two routes; client 4 is not visited. -/
def plan : RoutePlan := [(0, acts), (1, [client 3])]
def routes : List Route := [Route.build data acts 0, Route.build data [client 3] 1]

theorem built : Built data plan routes := by
  refine ⟨?_, ?_, ?_, ?_⟩ <;> decide

theorem groups_nodup : ∀ g ∈ data.groups, g.clients.Nodup := by decide

/-- The accepted solution: complete, one client unplanned. -/
example : ∃ s, Solution.make data routes = .ok s ∧ s.isComplete = true
    ∧ s.unplanned = [client 4] ∧ s.uncollectedPrizes = 6 ∧ s.isFeasible = true := by
  refine ⟨_, rfl, ?_⟩
  decide

/-- Incomplete, hence infeasible. -/
example : ∃ s, Solution.make data [Route.build data [client 0] 0] = .ok s
    ∧ s.numMissingClients = 1 ∧ s.numMissingShipments = 1 ∧ s.numMissingGroups = 1
    ∧ s.isFeasible = false ∧ s.unplanned.length = 6 := by
  refine ⟨_, rfl, ?_⟩
  decide

/-- Both members of a group: rejected. -/
example : ¬ ValidPlan data [(0, [client 3]), (1, [client 4])] := by
  intro h
  have := h.groups ⟨[3, 4], true, ""⟩ (by decide) 3 (by decide) 4 (by decide) (by decide) (by decide)
  simp at this

/-- A client on two routes: rejected. -/
example : ¬ ValidPlan data [(0, [client 3]), (1, [client 3])] := by
  intro h
  have := h.clientsOnce 3
  revert this; decide

end PyVRP.Demo
