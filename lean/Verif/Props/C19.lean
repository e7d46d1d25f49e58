import Verif.Model.Pickle
import Verif.Props.C16
import Verif.Props.C36
import Verif.Props.C37
/-!
# C19: pickling of routes and solutions; C44: pickling of problem data

C19 does not hold of the code: a route loses its `fixed_vehicle_cost()` (and with that part of its
cost), a solution its `unplanned()` activities. What does hold is that nothing else is lost.
-/
namespace PyVRP
open Spec

theorem ScheduledActivity.roundtrip (a : ScheduledActivity) :
    ScheduledActivity.setState a.getState = a := rfl

/-- **C19, routes (partial).** An unpickled route is the original one, except that its fixed
vehicle cost is zero. -/
theorem C19_route_partial (r : Route) :
    Route.setState r.getState = { r with fixedVehicleCost := 0 } := by
  have : r.schedule.map (ScheduledActivity.setState ∘ ScheduledActivity.getState) = r.schedule := by
    have h : ScheduledActivity.setState ∘ ScheduledActivity.getState = id :=
      funext ScheduledActivity.roundtrip
    rw [h, List.map_id]
  simp only [Route.setState, Route.getState, Route.ofFields, List.map_map, this]

/-- **C19, routes (partial).** It compares equal to the original. -/
theorem C19_route_equal_partial (r : Route) :
    (Route.setState r.getState).eq r = true ∧ r.eq (Route.setState r.getState) = true := by
  rw [C19_route_partial]
  simp [Route.eq]

/-- **C19, solutions (partial).** An unpickled solution is the original one, except that its routes
have no fixed vehicle cost and that it has no unplanned activities. -/
theorem C19_solution_partial (s : Solution) :
    Solution.setState s.getState
      = { s with routes := s.routes.map (fun r => { r with fixedVehicleCost := 0 })
                 unplanned := [] } := by
  have : s.routes.map (Route.setState ∘ Route.getState)
      = s.routes.map (fun r => { r with fixedVehicleCost := 0 }) :=
    List.map_congr_left fun r _ => C19_route_partial r
  simp only [Solution.setState, Solution.getState, List.map_map, this]

theorem Solution.isPermutation_map (l : List Route) (f : Route → Route)
    (hf : ∀ a b : Route, (f a).eq b = a.eq b ∧ a.eq (f b) = a.eq b) :
    Solution.isPermutation (l.map f) l = true := by
  have h1 : ∀ a, (f a).eq = a.eq := fun a => funext fun b => (hf a b).1
  simp only [Solution.isPermutation, List.length_map, List.countP_map, List.all_map,
    beq_self_eq_true, Bool.true_and, List.all_eq_true]
  intro a _
  simp only [Function.comp_def, hf, h1, beq_iff_eq]

/-- **C19, solutions (partial).** The unpickled solution compares equal to the original, has the
same hash, is feasible or complete if the original is, and agrees on all totals. -/
theorem C19_solution_equal_partial (s : Solution) (hashInt : Int → Nat) :
    (Solution.setState s.getState).eq s = true
    ∧ (Solution.setState s.getState).hash hashInt = s.hash hashInt
    ∧ (Solution.setState s.getState).isFeasible = s.isFeasible
    ∧ (Solution.setState s.getState).isComplete = s.isComplete
    ∧ (Solution.setState s.getState).fixedVehicleCost = s.fixedVehicleCost
    ∧ (Solution.setState s.getState).uncollectedPrizes = s.uncollectedPrizes := by
  rw [C19_solution_partial]
  refine ⟨?_, by simp [Solution.hash, Solution.numRoutes], rfl, rfl, rfl, rfl⟩
  have := Solution.isPermutation_map s.routes (fun r => { r with fixedVehicleCost := 0 })
    (fun a b => ⟨rfl, rfl⟩)
  simp [Solution.eq, this]

/-- **C19, solutions (partial).** The penalised cost of an unpickled solution is too small by the
fixed costs of all non-empty routes. -/
theorem C19_solution_cost_partial (ce : CostEvaluator) (s : Solution) :
    ce.penalisedCost (Solution.setState s.getState)
      = ce.penalisedCost s
        - ((s.routes.filter (fun r => !r.empty)).map (·.fixedVehicleCost)).sum := by
  rw [C19_solution_partial]
  simp only [CostEvaluator.penalisedCost]
  generalize s.uncollectedPrizes = p
  have key : ∀ (l : List Route) (p q : Int),
      (l.map (fun r => { r with fixedVehicleCost := 0 })).foldl
          (fun cost r => cost + ce.penalisedCostRoute r) p
        = l.foldl (fun cost r => cost + ce.penalisedCostRoute r) q
          - ((l.filter (fun r => !r.empty)).map (·.fixedVehicleCost)).sum + (p - q) := by
    intro l
    induction l with
    | nil => intro p q; simp; omega
    | cons r rest ih =>
      intro p q
      have he : ({ r with fixedVehicleCost := 0 } : Route).empty = r.empty := rfl
      simp only [List.map_cons, List.foldl_cons]
      rw [ih _ (q + ce.penalisedCostRoute r)]
      by_cases h : r.empty = true
      · simp only [List.filter_cons, h, Bool.not_true, CostEvaluator.penalisedCostRoute, he, if_true]
        simp
      · have h' : r.empty = false := by simpa using h
        simp only [List.filter_cons, CostEvaluator.penalisedCostRoute, he, h', Bool.not_false,
          if_true, List.map_cons, List.sum_cons, Bool.false_eq_true, if_false]
        omega
  have := key s.routes p p
  omega

/-- **C19 is false of the code.** A solution that the constructors accept, with unplanned
activities and a positive cost, which after pickling has no unplanned activities and another cost
for the same cost evaluator, and one of whose routes has another fixed vehicle cost. -/
theorem C19_negation : ∃ (data : ProblemData) (plan : RoutePlan) (routes : List Route) (s : Solution)
    (ce : CostEvaluator), Built data plan routes ∧ Solution.make data routes = .ok s ∧ ce.Valid
    ∧ s.isFeasible = true
    ∧ (Solution.setState s.getState).unplanned ≠ s.unplanned
    ∧ ce.cost (Solution.setState s.getState) ≠ ce.cost s
    ∧ ∃ r ∈ routes, (Route.setState r.getState).fixedVehicleCost ≠ r.fixedVehicleCost := by
  refine ⟨Demo.data, Demo.plan, Demo.routes, _, Demo.costEvaluator, Demo.built, rfl,
    Demo.costEvaluator_valid, ?_, ?_, ?_, Route.build Demo.data Demo.acts 0, ?_, ?_⟩ <;> decide

/-! ## C44: problem data -/

theorem listOk_map {α β : Type} (f : α → Except Error β) (g : β → α) (l : List β)
    (h : ∀ x ∈ l, f (g x) = .ok x) : listOk f (l.map g) = .ok l := by
  induction l with
  | nil => rfl
  | cons x xs ih =>
    simp only [List.map_cons, listOk, h x (by simp), ih fun y hy => h y (by simp [hy])]

/-- **C44.** A client that a constructor made is given back unchanged. -/
theorem C44_client (a c : Client) (h : Client.make a = .ok c) :
    Client.setState c.getState = .ok c := by
  have hok := (C36_client_accepts a).1.1 ⟨c, h⟩
  have hc : c.delivery.length = c.pickup.length ∧ ClientArgsOk c := by
    unfold Client.make at h
    dsimp only at h
    obtain ⟨_, rfl⟩ := checked_eq_ok.1 h
    dsimp only
    obtain ⟨h1, h2, h3, h4, h5, h6, h7⟩ := hok
    refine ⟨by simp [pad]; omega, ?_, ?_, h3, h4, h5, h6, h7⟩ <;> dsimp only <;> rw [nonneg_pad] <;>
      assumption
  have e : Client.setState c.getState = Client.make c := rfl
  rw [e]
  obtain ⟨c', hc'⟩ := (C36_client_accepts c).1.2 hc.2
  rw [hc']
  unfold Client.make at hc'
  dsimp only at hc'
  obtain ⟨_, rfl⟩ := checked_eq_ok.1 hc'
  rw [pad_eq_self (a := c.delivery) (by omega), pad_eq_self (a := c.pickup) (by omega)]

theorem C44_depot (a d : Depot) (h : Depot.make a = .ok d) : Depot.setState d.getState = .ok d := by
  obtain ⟨rfl, h1⟩ := ((C36_depot_accepts a).1 d).1 h
  exact h

theorem C44_step (a d : Step) (h : Step.make a = .ok d) : Step.setState d.getState = .ok d := by
  obtain ⟨rfl, h1⟩ := ((C36_step_accepts a).1 d).1 h
  exact h

theorem C44_shipment (a s : Shipment) (h : Shipment.make a = .ok s) :
    Shipment.setState s.getState = .ok s := by
  obtain ⟨rfl, h1⟩ := ((C36_shipment_accepts a).1 s).1 h
  have e1 : Step.setState s.pickup.getState = .ok s.pickup :=
    ((C36_step_accepts s.pickup).1 _).2 ⟨rfl, h1.pickup⟩
  have e2 : Step.setState s.delivery.getState = .ok s.delivery :=
    ((C36_step_accepts s.delivery).1 _).2 ⟨rfl, h1.delivery⟩
  simp only [Shipment.setState, Shipment.getState, e1, e2]
  exact h

theorem C44_group (a g : ClientGroup) (h : ClientGroup.make a = .ok g) :
    ClientGroup.setState g.getState = .ok g := by
  obtain ⟨rfl, h1⟩ := ((C36_group_accepts a).1 g).1 h
  exact h

theorem C44_vehicle_type (a : VehicleTypeArgs) (v : VehicleType) (h : VehicleType.make a = .ok v) :
    VehicleType.setState v.getState = .ok v := C36_replace_nothing a v h

/-- All parts of the problem data were made by their constructors, and so was the data. -/
structure Constructed (d : ProblemData) : Prop where
  clients : ∀ c ∈ d.clients, ∃ a, Client.make a = .ok c
  depots : ∀ c ∈ d.depots, ∃ a, Depot.make a = .ok c
  vehicleTypes : ∀ c ∈ d.vehicleTypes, ∃ a, VehicleType.make a = .ok c
  groups : ∀ c ∈ d.groups, ∃ a, ClientGroup.make a = .ok c
  shipments : ∀ c ∈ d.shipments, ∃ a, Shipment.make a = .ok c
  data : ∃ a, ProblemData.make a = .ok d

/-- **C44.** Problem data is given back unchanged by pickling and unpickling. -/
theorem C44_problem_data (d : ProblemData) (h : Constructed d) :
    ProblemData.setState d.getState = .ok d := by
  have e1 := listOk_map Client.setState Client.getState d.clients
    fun c hc => let ⟨a, ha⟩ := h.clients c hc; C44_client a c ha
  have e2 := listOk_map Depot.setState Depot.getState d.depots
    fun c hc => let ⟨a, ha⟩ := h.depots c hc; C44_depot a c ha
  have e3 := listOk_map VehicleType.setState VehicleType.getState d.vehicleTypes
    fun c hc => let ⟨a, ha⟩ := h.vehicleTypes c hc; C44_vehicle_type a c ha
  have e4 := listOk_map ClientGroup.setState ClientGroup.getState d.groups
    fun c hc => let ⟨a, ha⟩ := h.groups c hc; C44_group a c ha
  have e5 := listOk_map Shipment.setState Shipment.getState d.shipments
    fun c hc => let ⟨a, ha⟩ := h.shipments c hc; C44_shipment a c ha
  have e6 : d.locations.map (Location.setState ∘ Location.getState) = d.locations := by
    have : Location.setState ∘ Location.getState = id := rfl
    rw [this, List.map_id]
  obtain ⟨a, ha⟩ := h.data
  obtain ⟨rfl, hcons⟩ := (C37_accepts_exactly_consistent a d).1 ha
  simp only [ProblemData.setState, ProblemData.getState, e1, e2, e3, e4, e5, List.map_map, e6]
  exact ha

/-- The demo instance is made by the constructors. -/
theorem Demo.constructed : Constructed Demo.data where
  clients c hc := ⟨c, by revert c; decide⟩
  depots c hc := ⟨c, by revert c; decide⟩
  vehicleTypes c hc := ⟨{ numAvailable := c.numAvailable, capacity := c.capacity, startDepot := c.startDepot
                          endDepot := c.endDepot, fixedCost := c.fixedCost, twEarly := c.twEarly
                          twLate := c.twLate, shiftDuration := c.shiftDuration
                          maxDistance := c.maxDistance, unitDistanceCost := c.unitDistanceCost
                          unitDurationCost := c.unitDurationCost, profile := c.profile
                          startLate := some c.startLate, initialLoad := c.initialLoad
                          reloadDepots := c.reloadDepots, maxReloads := c.maxReloads
                          maxOvertime := c.maxOvertime, unitOvertimeCost := c.unitOvertimeCost
                          name := c.name }, by revert c; decide⟩
  groups c hc := ⟨c, by revert c; decide⟩
  shipments c hc := ⟨c, by revert c; decide⟩
  data := ⟨Demo.data, by decide⟩

end PyVRP
