import Verif.Props.C24
import Verif.Lemmas.FoundAll
/-!
# C48: operators find the improving moves of their kind
-/
namespace PyVRP
open Spec

/-- **C48**, operators on two nodes. Suppose that a move of the operator's kind leads to a valid plan that
is cheaper. Then evaluating the operator on these nodes says that there is a move to apply. By C24 that
move then improves too. It may be another one with the same nodes, if the operator has several. -/
theorem C48_binary_partial (data : ProblemData) (ce : CostEvaluator) (hco : CostOk data ce)
    (op : BinaryOp) (plan plan' : List (List Activity)) (s s' : SSol)
    (hs : SearchState data plan s) (hs' : SearchState data plan' s') (hex : Exclusive data plan)
    (u : Activity) (hu : u ∈ allTasks data) (v : NodeRef) (cache : Cache)
    (hc : CacheHistory op data ce s cache) (hm : BinaryMove data plan op u v plan')
    (hfit : FitsAll data plan')
    (hlt : ce.penalisedCostSSol data s' < ce.penalisedCostSSol data s) :
    (op.evaluate data ce s cache u v).1.apply = true := by
  rw [planCost_eq hs.clean, planCost_eq hs'.clean] at hlt
  exact BinaryOp.found ((C37_accepts_exactly_consistent data data).1 hco.good.made).2 hex hs.ok hs'.ok hco
    hfit hu hc.ok hlt hm

/-- **C48**, operators on one node. A visit to a reload depot is also removed if this costs nothing. -/
theorem C48_unary_partial (data : ProblemData) (ce : CostEvaluator) (hco : CostOk data ce)
    (op : UnaryOp) (plan plan' : List (List Activity)) (s s' : SSol)
    (hs : SearchState data plan s) (hs' : SearchState data plan' s') (hex : Exclusive data plan)
    (u : Activity) (hm : UnaryMove data plan op u plan') (hfit : FitsAll data plan')
    (hlt : ce.penalisedCostSSol data s' < ce.penalisedCostSSol data s
      ∨ (op = .removeAdjacentDepot ∧ ce.penalisedCostSSol data s' ≤ ce.penalisedCostSSol data s)) :
    (op.evaluate data ce s u).apply = true := by
  rw [planCost_eq hs.clean, planCost_eq hs'.clean] at hlt
  exact UnaryOp.found ((C37_accepts_exactly_consistent data data).1 hco.good.made).2 hex hs.ok hs'.ok hco
    hfit hlt hm

/-! ## Examples -/

/-- A search solution into which a solution was loaded. -/
theorem loaded_state {data : ProblemData} (ht : TimesOk data)
    (hn : ∀ g ∈ data.groups, g.clients.Nodup) {plan : RoutePlan} {routes : List Route}
    {sol : Solution} (hb : Built data plan routes) (h : Solution.make data routes = .ok sol)
    {s : SSol} (hl : SSol.load data (SSol.new data) sol = .ok s) :
    SearchState data (SSol.loadedPlan data plan) s := by
  obtain ⟨old, hc⟩ := Loads.new.clean ht hn
  obtain ⟨s'', h1, h2⟩ := SSol.load_spec ht hb hn h hc
  rw [hl] at h1
  injection h1 with h1
  subst h1
  have hok := SSol.loadedPlan_ok hb
  refine ⟨h2, hok.routes, fun i => ?_⟩
  have := hok.sizes i
  have h3 : depotVisits ((SSol.loadedPlan data plan).getD i []) ≤ _ := List.countP_le_length
  omega

namespace Demo

/-- The search solution with the given routes. -/
def loadRoutes (data : ProblemData) (routes : List Route) : SSol :=
  match Solution.make data routes with
  | .error _ => SSol.new data
  | .ok sol =>
    match SSol.load data (SSol.new data) sol with
    | .error _ => SSol.new data
    | .ok s => s

theorem loadRoutes_ok {data : ProblemData} (ht : TimesOk data)
    (hn : ∀ g ∈ data.groups, g.clients.Nodup) {plan : RoutePlan} {routes : List Route}
    (hb : Built data plan routes) (h : (Solution.make data routes).toBool = true) :
    SearchState data (SSol.loadedPlan data plan) (loadRoutes data routes) := by
  cases hm : Solution.make data routes with
  | error e => rw [hm] at h; cases h
  | ok sol =>
    obtain ⟨s', -, h', -⟩ := C26_load_unload data ht hn _ _ sol hb hm _ .new
    have e : loadRoutes data routes = s' := by unfold loadRoutes; simp only [hm, h']
    rw [e]
    exact loaded_state ht hn hb hm h'

/-- Clients 0 and 1 are at the depot of vehicle type 1, and the shipment is at that of vehicle type 0.
Each type has one vehicle. -/
def swapData : ProblemData :=
  { locations := [⟨0, 0, ""⟩, ⟨10, 0, ""⟩]
    clients := [
      -- location, delivery, pickup, service, early, late, release, prize, required, group, name
      ⟨1, [1], [0], 0, 0, 100, 0, 0, true, none, ""⟩,
      ⟨1, [1], [0], 0, 0, 100, 0, 0, true, none, ""⟩]
    depots := [⟨0, 0, 100, 0, ""⟩, ⟨1, 0, 100, 0, ""⟩]
    vehicleTypes := [
      { numAvailable := 1, startDepot := 0, endDepot := 0, capacity := [5], twEarly := 0
        twLate := 100, shiftDuration := MAX, maxDistance := MAX, fixedCost := 0
        unitDistanceCost := 1, unitDurationCost := 0, profile := 0, startLate := 100
        initialLoad := [0], reloadDepots := [], maxReloads := 0, maxOvertime := 0
        unitOvertimeCost := 0, maxDuration := MAX, name := "" },
      { numAvailable := 1, startDepot := 1, endDepot := 1, capacity := [5], twEarly := 0
        twLate := 100, shiftDuration := MAX, maxDistance := MAX, fixedCost := 0
        unitDistanceCost := 1, unitDurationCost := 0, profile := 0, startLate := 100
        initialLoad := [0], reloadDepots := [], maxReloads := 0, maxOvertime := 0
        unitOvertimeCost := 0, maxDuration := MAX, name := "" }]
    dists := [⟨2, 2, [0, 10, 10, 0]⟩]
    durs := [⟨2, 2, [0, 10, 10, 0]⟩]
    groups := []
    shipments := [⟨⟨0, 0, 100, 0⟩, ⟨0, 0, 100, 0⟩, [1], 0, true, ""⟩] }

def swapEvaluator : CostEvaluator := ⟨[ratPenalty 20 1], ratPenalty 6 1, ratPenalty 6 1⟩

theorem swapGood : GoodData swapData where
  made := by decide
  vehicles := by
    intro v hv
    have h : ∀ v ∈ swapData.vehicleTypes, VehicleType.replace v {} = .ok v := by decide
    exact ⟨_, h v hv⟩
  times := by constructor <;> decide

theorem swapCost : CostOk swapData swapEvaluator :=
  ⟨swapGood, ⟨by
      intro f hf
      simp only [swapEvaluator, List.mem_cons, List.not_mem_nil, or_false] at hf
      subst hf
      exact ratPenalty_isPenalty 20 1 (by decide) (by decide),
    ratPenalty_isPenalty 6 1 (by decide) (by decide),
    ratPenalty_isPenalty 6 1 (by decide) (by decide)⟩, rfl⟩

theorem swapExclusive (plan : List (List Activity)) : Exclusive swapData plan := by
  intro g hg; cases hg

/-- The search solution with the given activities for the two vehicles. -/
def swapState (x y : List Activity) : SSol :=
  loadRoutes swapData [Route.build swapData x 0, Route.build swapData y 1]

theorem swapState_ok {x y : List Activity}
    (hb : Built swapData [(0, x), (1, y)] [Route.build swapData x 0, Route.build swapData y 1])
    (h : (Solution.make swapData [Route.build swapData x 0, Route.build swapData y 1]).toBool = true) :
    SearchState swapData [x, y] (swapState x y) :=
  loadRoutes_ok swapGood.times (by intro g hg; cases hg) hb h

theorem swapFits (x y : List Activity)
    (h : ∀ k < 2, (∀ a ∈ [x, y].getD k [], earliest swapData a ≤ 0 ∧ released swapData a = 0)
      ∧ ((fullActs (swapData.vehicleType k) ([x, y].getD k [])).map (serviceTime swapData)).sum
        + legSum (swapData.dur 0) ((fullActs (swapData.vehicleType k) ([x, y].getD k [])).map
          (place swapData)) ≤ HALF
      ∧ (Route.build swapData ([x, y].getD k []) k).distance ≤ MAX
      ∧ Phase.NoDepot ([x, y].getD k [])) : FitsAll swapData [x, y] := by
  have hv : ∀ k < 2, vehTypeAt swapData k = k ∧ (swapData.vehicleType k).twEarly = 0
      ∧ (swapData.depot (swapData.vehicleType k).startDepot).twEarly = 0
      ∧ (swapData.vehicleType k).profile = 0 := by decide
  intro k hk _ _
  obtain ⟨e1, e2, e3, e4⟩ := hv k hk
  obtain ⟨h1, h2, h3, h4⟩ := h k hk
  rw [e1]
  refine ⟨⟨0, by omega, by omega, by omega, fun a ha => ⟨(h1 a ha).1, by rw [(h1 a ha).2]; omega⟩, ?_⟩, h3,
    fun a _ d hd hty => absurd hty (h4 d hd), .inr (.inl h4)⟩
  rw [e4]
  omega

/-- Vehicle 0 visits the clients and the other one does the shipment. -/
def swapBefore : SSol := swapState [client 0, client 1] [pickup 0, delivery 0]
def swapAfter : SSol := swapState [pickup 0, delivery 0] [client 0, client 1]

theorem swapBefore_ok : SearchState swapData [[client 0, client 1], [pickup 0, delivery 0]] swapBefore :=
  swapState_ok (by refine ⟨?_, ?_, ?_, ?_⟩ <;> decide) (by decide)

theorem swapAfter_ok : SearchState swapData [[pickup 0, delivery 0], [client 0, client 1]] swapAfter :=
  swapState_ok (by refine ⟨?_, ?_, ?_, ?_⟩ <;> decide) (by decide)

theorem whole_nil : Whole [] := fun k => by simp

theorem whole_clients : Whole [client 0, client 1] := fun k => by simp

theorem whole_shipment : Whole [pickup 0, delivery 0] := fun k => by simp

end Demo

/-- **C48, negation.** Operators that swap as many activities as they get do not find all of these moves.
They look at indices only, to consider each pair once, and so never at a client and a pickup with the same
index. Here swapping the routes of the two vehicles lowers the cost from 40 to 0, but `Swap<2, 2>` finds
it from neither side. -/
theorem C48_negation :
    CostOk Demo.swapData Demo.swapEvaluator
    ∧ SearchState Demo.swapData [[Demo.client 0, Demo.client 1], [Demo.pickup 0, Demo.delivery 0]]
      Demo.swapBefore
    ∧ SearchState Demo.swapData [[Demo.pickup 0, Demo.delivery 0], [Demo.client 0, Demo.client 1]]
      Demo.swapAfter
    ∧ FitsAll Demo.swapData [[Demo.pickup 0, Demo.delivery 0], [Demo.client 0, Demo.client 1]]
    ∧ Movable [] [Demo.client 0, Demo.client 1] ∧ Movable [] [Demo.pickup 0, Demo.delivery 0]
    ∧ Demo.swapEvaluator.penalisedCostSSol Demo.swapData Demo.swapBefore = 40
    ∧ Demo.swapEvaluator.penalisedCostSSol Demo.swapData Demo.swapAfter = 0
    ∧ (BinaryOp.evaluate (.swap 2 2) Demo.swapData Demo.swapEvaluator Demo.swapBefore
      ((BinaryOp.swap 2 2).init Demo.swapData) (Demo.client 0) (.task (Demo.pickup 0))).1.apply = false
    ∧ (BinaryOp.evaluate (.swap 2 2) Demo.swapData Demo.swapEvaluator Demo.swapBefore
      ((BinaryOp.swap 2 2).init Demo.swapData) (Demo.pickup 0) (.task (Demo.client 0))).1.apply = false := by
  refine ⟨Demo.swapCost, Demo.swapBefore_ok, Demo.swapAfter_ok, Demo.swapFits _ _ (by
    have : ∀ k < 2, (∀ a ∈ [[Demo.pickup 0, Demo.delivery 0], [Demo.client 0, Demo.client 1]].getD k [],
      a.type ≠ .depot) := by decide
    intro k hk
    refine ⟨?_, ?_, ?_, this k hk⟩ <;> revert k <;> decide),
    ⟨?_, Demo.whole_nil, Demo.whole_clients⟩, ⟨?_, Demo.whole_nil, Demo.whole_shipment⟩, ?_, ?_, ?_, ?_⟩
  · unfold OneTrip; decide
  · unfold OneTrip; decide
  · decide +kernel
  · decide +kernel
  · decide +kernel
  · decide +kernel

/-! ## Non-vacuity -/

namespace Demo

/-- The clients could also move to the other vehicle, in front of the shipment. -/
def swapMoved : SSol := loadRoutes swapData [Route.build swapData [client 0, client 1, pickup 0, delivery 0] 1]

theorem swapMoved_ok : SearchState swapData [[], [client 0, client 1, pickup 0, delivery 0]] swapMoved :=
  loadRoutes_ok (plan := [(1, [client 0, client 1, pickup 0, delivery 0])]) swapGood.times
    (by intro g hg; cases hg) (by refine ⟨?_, ?_, ?_, ?_⟩ <;> decide) (by decide)

/-- All hypotheses of `C48_binary_partial` hold for this move. -/
example : (BinaryOp.evaluate (.relocate 2) swapData swapEvaluator swapBefore
    ((BinaryOp.relocate 2).init swapData) (client 0) (.start 1)).1.apply = true := by
  refine C48_binary_partial swapData swapEvaluator swapCost (.relocate 2) _ _ _ _ swapBefore_ok swapMoved_ok
    (swapExclusive _) (client 0) (by decide) (.start 1) _ (.init _)
    (.relocate (i := 0) (j := 1) (xs := []) (rest := [client 1]) (ys := []) (vs := [])
      (ws := [pickup 0, delivery 0]) (by decide) (by decide) (by decide) rfl rfl (.inl ⟨rfl, rfl⟩)
      ⟨?_, whole_nil, whole_clients⟩) (swapFits _ _ ?_) ?_
  · unfold OneTrip; decide
  · have : ∀ k < 2, (∀ a ∈ [[], [client 0, client 1, pickup 0, delivery 0]].getD k [],
      a.type ≠ .depot) := by decide
    intro k hk
    refine ⟨?_, ?_, ?_, this k hk⟩ <;> revert k <;> decide
  · decide +kernel

/-- Client 1 and the shipment are visited by vehicle 1, in different orders. -/
def pickupBefore : SSol := swapState [client 0] [pickup 0, client 1, delivery 0]
def pickupAfter : SSol := swapState [client 0] [client 1, pickup 0, delivery 0]

theorem pickupBefore_ok : SearchState swapData [[client 0], [pickup 0, client 1, delivery 0]] pickupBefore :=
  swapState_ok (by refine ⟨?_, ?_, ?_, ?_⟩ <;> decide) (by decide)

theorem pickupAfter_ok : SearchState swapData [[client 0], [client 1, pickup 0, delivery 0]] pickupAfter :=
  swapState_ok (by refine ⟨?_, ?_, ?_, ?_⟩ <;> decide) (by decide)

/-- All hypotheses of `C48_unary_partial` hold for moving the pickup to after client 1. -/
example : (UnaryOp.evaluate .relocatePickup swapData swapEvaluator pickupBefore (pickup 0)).apply
    = true := by
  refine C48_unary_partial swapData swapEvaluator swapCost .relocatePickup _ _ _ _ pickupBefore_ok
    pickupAfter_ok (swapExclusive _) (pickup 0)
    (.relocatePickup (i := 1) (xs := []) (ms := [client 1]) (ys := []) (ps := [client 1]) (qs := [])
      (by decide) rfl rfl rfl (by unfold OneTrip; decide)) (swapFits _ _ ?_) (.inl ?_)
  · have : ∀ k < 2, (∀ a ∈ [[client 0], [client 1, pickup 0, delivery 0]].getD k [],
      a.type ≠ .depot) := by decide
    intro k hk
    refine ⟨?_, ?_, ?_, this k hk⟩ <;> revert k <;> decide
  · decide +kernel

end Demo
end PyVRP
