import Verif.Lemmas.SearchLoop
/-!
# C24: moves of the local search
-/
namespace PyVRP
open Spec
open SSol (RefOk)

/-! ## Specification -/

namespace Spec

/-- Each client, pickup and delivery is visited at most once. -/
def OnceEach (plan : List (List Activity)) : Prop :=
  ∀ a : Activity, a.type ≠ .depot → plan.flatten.count a ≤ 1

/-- The routes that a move of `u` and `v` is about. -/
def routesOf (s : SSol) (u : Activity) (v : NodeRef) : List Nat :=
  (s.place u).toList.map (·.1) ++ (s.find v).toList.map (·.1)

/-- `Route::update` of these routes. -/
def updateRoutes (data : ProblemData) (s : SSol) (ks : List Nat) : SSol :=
  ks.foldl (fun s k => s.updateRoute data k) s

/-- How the cache of an operator comes about. It is empty at first. Evaluations may change it. When
routes have changed, and were updated, the operator has been told so for each of them. -/
inductive CacheHistory (op : BinaryOp) (data : ProblemData) (ce : CostEvaluator) : SSol → Cache → Prop where
  | init (s : SSol) : CacheHistory op data ce s (op.init data)
  | evaluate {s : SSol} {cache : Cache} (h : CacheHistory op data ce s cache) (u : Activity)
      (hu : u ∈ allTasks data) (v : NodeRef) :
      CacheHistory op data ce s (op.evaluate data ce s cache u v).2
  | change {s s' : SSol} {cache : Cache} {plan plan' : List (List Activity)} (ks : List Nat)
      (h : CacheHistory op data ce s cache) (hs : SearchState data plan s)
      (hs' : SearchState data plan' s') (same : ∀ k, k ∉ ks → plan'.getD k [] = plan.getD k []) :
      CacheHistory op data ce s' (ks.foldl (fun cache k => op.update data (s'.route k) cache) cache)

/-- What is claimed of a move: from `s`, with routes `plan`, to `s'`. The routes in `ks` may have
changed, but no others. -/
structure MoveKeeps (data : ProblemData) (ks : List Nat) (plan plan' : List (List Activity)) (s' : SSol) :
    Prop where
  /-- Routes are well formed: a delivery comes after its pickup, in the same trip. Once the routes in
  `ks` are updated, everything else is up to date again. -/
  state : SearchState data plan' (updateRoutes data s' ks)
  once : OnceEach plan'
  others : ∀ k, k ∉ ks → plan'.getD k [] = plan.getD k []
  exclusive : Exclusive data plan'
  complete : CompletePlan data plan → CompletePlan data plan'

end Spec

/-! ## Lemmas -/

theorem Spec.SearchState.ok {data : ProblemData} {plan : List (List Activity)} {s : SSol}
    (h : SearchState data plan s) : SearchOk data plan s := ⟨h.clean, h.routeOk⟩

theorem SearchOk.state {data : ProblemData} {plan : List (List Activity)} {s : SSol}
    (hrel : ∀ v ∈ data.vehicleTypes, v.maxReloads ≤ SIZE_MAX) (h : SearchOk data plan s) :
    SearchState data plan s := by
  refine ⟨h.clean, fun i hi => (h.routes i hi).wellFormed, fun i => ?_⟩
  by_cases hi : i < data.numVehicles
  · have h1 := (h.routes i hi).trips
    have h2 := hrel _ (SSol.vehicleType_mem data (vehTypeAt_lt data hi))
    unfold VehicleType.maxTrips at h1
    unfold SIZE_MAX at h2 ⊢
    split at h1 <;> omega
  · rw [List.getD_eq_getElem?_getD, List.getElem?_eq_none (by rw [h.clean.1.length]; omega)]
    simp [depotVisits, SIZE_MAX]

theorem SSol.Holds.onceEach {data : ProblemData} {plan : List (List Activity)} {s : SSol}
    (h : SSol.Holds data plan s) : OnceEach plan := by
  intro a ha
  have hone := h.once a ha
  have huni : ∀ i j, a ∈ plan.getD i [] → a ∈ plan.getD j [] → i = j := fun i j => h.unique ha
  clear h
  induction plan with
  | nil => simp
  | cons l plan ih =>
    rw [List.flatten_cons, List.count_append]
    by_cases hl : a ∈ l
    · have : plan.flatten.count a = 0 := by
        rw [List.count_eq_zero]
        intro hm
        obtain ⟨m, hm1, hm2⟩ := List.mem_flatten.1 hm
        obtain ⟨j, hj, rfl⟩ := List.mem_iff_getElem.1 hm1
        have := huni 0 (j + 1) hl (by
          show a ∈ plan.getD j []
          rw [List.getD_eq_getElem?_getD, List.getElem?_eq_getElem hj]
          exact hm2)
        omega
      have h0 : l.count a ≤ 1 := hone 0
      omega
    · rw [List.count_eq_zero.2 hl, Nat.zero_add]
      exact ih (fun i => hone (i + 1)) (fun i j hi hj => by
        have := huni (i + 1) (j + 1) hi hj
        omega)

theorem updateRoutes_clean {data : ProblemData} {plan : List (List Activity)} : ∀ (ks : List Nat)
    {s : SSol} {D : Nat → Prop}, SSol.CleanBut data D plan s → (∀ k ∈ ks, k < data.numVehicles) →
    SSol.CleanBut data (fun k => D k ∧ k ∉ ks) plan (updateRoutes data s ks)
  | [], s, D, h, _ => h.weaken (fun _ _ hd => ⟨hd, by simp⟩)
  | k :: ks, s, D, h, hk =>
    (updateRoutes_clean ks (h.update (hk k (by simp))) (fun j hj => hk j (by simp [hj]))).weaken
      (fun j _ hj => ⟨hj.1.1, by simp [hj.1.2, hj.2]⟩)

theorem Spec.CacheHistory.ok {op : BinaryOp} {data : ProblemData} {ce : CostEvaluator} {s : SSol}
    {cache : Cache} (h : CacheHistory op data ce s cache) : op.CacheOk data ce s cache := by
  induction h with
  | init s => exact BinaryOp.init_ok op data ce s
  | evaluate h u hu v ih => exact ih.evaluate hu v
  | @change s s' cache plan plan' ks h hs hs' same ih =>
    have hsub : ∀ (ks : List Nat) (cache : Cache) (idx : Nat) (x : Int),
        (ks.foldl (fun cache k => op.update data (s'.route k) cache) cache).getD idx none = some x →
        cache.getD idx none = some x := by
      intro ks
      induction ks with
      | nil => intro cache idx x h; exact h
      | cons k ks ihk =>
        intro cache idx x h
        exact BinaryOp.update_sub op data _ _ _ _ (ihk _ _ _ h)
    refine ih.change hs.ok hs'.ok (D := fun k => k ∈ ks) same (fun idx x => hsub ks cache idx x) ?_
    intro k hk hkv a ha idx hidx
    have hmem : ∃ n ∈ (s'.route k).nodes, n.activity = a := by
      have hv : (s'.route k).nodes = _ := hs'.clean.1.visits k hkv
      have : a ∈ (s'.route k).nodes.map (·.activity) := by
        rw [hv, SRoute.canon_activities]
        unfold fullActs
        exact List.mem_append.2 (.inl (List.mem_cons_of_mem _ ha))
      obtain ⟨n, hn, rfl⟩ := List.mem_map.1 this
      exact ⟨n, hn, rfl⟩
    obtain ⟨n, hn, rfl⟩ := hmem
    clear hs' same ih h hs
    induction ks generalizing cache with
    | nil => cases hk
    | cons j ks ihk =>
      rw [List.foldl_cons]
      by_cases hj : k ∈ ks
      · exact ihk hj
      · rcases List.mem_cons.1 hk with rfl | hk
        · cases hc : (ks.foldl (fun cache k => op.update data (s'.route k) cache)
            (op.update data (s'.route k) cache)).getD idx none with
          | none => rfl
          | some x =>
            have := hsub ks _ idx x hc
            rw [BinaryOp.update_none op data _ cache hn hidx] at this
            cases this
        · exact absurd hk hj

theorem Moved.keeps {data : ProblemData} (hd : Consistent data)
    (hrel : ∀ v ∈ data.vehicleTypes, v.maxReloads ≤ SIZE_MAX)
    {plan plan' : List (List Activity)} {D : Nat → Prop} {δ : Int} {s' : SSol}
    (h : Moved data plan plan' D δ s') (hex : Exclusive data plan) {ks : List Nat}
    (hD : ∀ k, D k ↔ k ∈ ks) (hk : ∀ k ∈ ks, k < data.numVehicles) :
    MoveKeeps data ks plan plan' s' := by
  have hc := (updateRoutes_clean ks h.but hk).clean (fun i _ hi => hi.2 ((hD i).1 hi.1))
  exact ⟨SearchOk.state hrel ⟨hc, h.routes⟩, h.but.1.onceEach, fun k hk => h.kept k (fun h' => hk ((hD k).1 h')),
    h.tasks.exclusive hd hex, h.tasks.complete hd⟩

/-! ## C24 -/

/-- **C24**, operators on two nodes. When evaluating a move says that it should be applied, it can be:
nothing fails. Each client and shipment is still visited at most once, a delivery follows its pickup in
the same trip, other routes are as before, and no required client is lost. Provided that the new routes
can be evaluated exactly, see C21, the reported cost is the change in penalised cost; it is negative. -/
theorem C24_binary_partial (data : ProblemData) (hd : ProblemData.make data = .ok data)
    (hrel : ∀ v ∈ data.vehicleTypes, v.maxReloads ≤ SIZE_MAX) (ce : CostEvaluator)
    (op : BinaryOp) (hop : op.Valid) (plan : List (List Activity)) (s : SSol)
    (hs : SearchState data plan s) (hex : Exclusive data plan) (u : Activity) (hu : u ∈ allTasks data)
    (v : NodeRef) (hv : RefOk data v) (hvu : v ≠ .task u) (cache : Cache)
    (hc : CacheHistory op data ce s cache) :
    let verdict := (op.evaluate data ce s cache u v).1
    verdict.apply = true →
    verdict.cost < 0
    ∧ ∃ s' plan', op.apply data s u v verdict.move = .ok s'
      ∧ MoveKeeps data (routesOf s u v) plan plan' s'
      ∧ (CostOk data ce → FitsOn data (· ∈ routesOf s u v) plan' →
        ce.penalisedCostSSol data (updateRoutes data s' (routesOf s u v))
          = ce.penalisedCostSSol data s + verdict.cost) := by
  intro verdict hap
  have hcons := ((C37_accepts_exactly_consistent data data).1 hd).2
  refine ⟨BinaryOp.neg op data ce s cache u v hap, ?_⟩
  obtain ⟨plan', δ, s', h1, h2, h3⟩ := BinaryOp.outcome op hop ce hcons hs.ok hex hu hv hvu hc.ok hap
  have hD : ∀ k, Touched s u v k ↔ k ∈ routesOf s u v := by
    intro k
    unfold Touched routesOf
    cases s.place u <;> cases s.find v <;> simp [Prod.ext_iff, eq_comm]
  have hk : ∀ k ∈ routesOf s u v, k < data.numVehicles := by
    intro k hk
    rcases (hD k).2 hk with ⟨p, hp⟩ | ⟨p, hp⟩
    · exact (LState.place_le hs.clean.1 hp).1
    · exact (LState.find_le hs.clean.1 hv hp).1
  have hkeep := h2.keeps hcons hrel hex hD hk
  refine ⟨s', plan', h1, hkeep, fun hco hf => ?_⟩
  rw [planCost_eq hkeep.state.clean, planCost_eq hs.clean]
  have e1 := h2.tasks.prizes
  have e2 := h3 hco (fun k hk hD' => hf k hk ((hD k).1 hD')) trivial
  show planCost data ce plan' = planCost data ce plan + (op.evaluate data ce s cache u v).1.cost
  unfold planCost
  omega

/-- **C24**, operators on one node. The same, where the route that changes is the one that `u` is in, or,
if it is in none, the one that it is inserted in. The cost is negative, or zero if a visit to a reload
depot is removed. -/
theorem C24_unary_partial (data : ProblemData) (hd : ProblemData.make data = .ok data)
    (hrel : ∀ v ∈ data.vehicleTypes, v.maxReloads ≤ SIZE_MAX) (ce : CostEvaluator)
    (op : UnaryOp) (plan : List (List Activity)) (s : SSol)
    (hs : SearchState data plan s) (hex : Exclusive data plan) (u : Activity) (hu : u ∈ allTasks data) :
    let verdict := op.evaluate data ce s u
    verdict.apply = true →
    ∃ s' plan' k, op.apply data s u verdict.move = .ok s'
      ∧ ((∃ p, s.place u = some (k, p)) ∨ (s.place u = none ∧ s'.owner u = some k))
      ∧ MoveKeeps data [k] plan plan' s'
      ∧ (verdict.cost < 0 ∨ (verdict.cost ≤ 0 ∧ reloads plan' < reloads plan))
      ∧ (CostOk data ce → FitsOn data (· = k) plan' →
        ce.penalisedCostSSol data (updateRoutes data s' [k])
          = ce.penalisedCostSSol data s + verdict.cost) := by
  intro verdict hap
  have hcons := ((C37_accepts_exactly_consistent data data).1 hd).2
  obtain ⟨j, plan', δ, s', h1, hj, h2, h3, h4⟩ := UnaryOp.outcome op ce hcons hs.ok hu hap
  have hjn : j < data.numVehicles := by
    rcases hj with ⟨p, hp⟩ | ⟨-, hp⟩
    · exact (LState.place_le hs.clean.1 hp).1
    · have hty : u.type ≠ .depot := by
        rcases BinaryOp.mem_allTasks hu with ⟨h, -⟩ | ⟨h, -⟩ <;> rw [h] <;> simp
      exact h2.but.1.lt_of_mem ((h2.but.1.owner u hty j).1 hp)
  have hkeep := h2.keeps hcons hrel hex (ks := [j]) (by simp) (by simpa using hjn)
  refine ⟨s', plan', j, h1, hj, hkeep, ?_, fun hco hf => ?_⟩
  · rcases h4 with h | ⟨h, -, h'⟩
    · exact .inl h
    · exact .inr ⟨h, h'⟩
  · rw [planCost_eq hkeep.state.clean, planCost_eq hs.clean]
    have e1 := h2.tasks.prizes
    have e2 := h3 hco hf
    show planCost data ce plan' = planCost data ce plan + (op.evaluate data ce s u).cost
    unfold planCost
    omega

/-! ## Counterexample -/

namespace Demo

/-- One vehicle that may reload, with a limit on the duration of its route. Client 0 is released at
40. -/
def lateData : ProblemData :=
  { locations := [⟨0, 0, ""⟩, ⟨3, 4, ""⟩]
    clients := [
      -- location, delivery, pickup, service, early, late, release, prize, required, group, name
      ⟨1, [], [], 0, 0, 40, 40, 10, false, none, ""⟩,
      ⟨1, [], [], 0, 0, 20, 0, 10, false, none, ""⟩,
      ⟨1, [], [], 0, 0, 10, 0, 10, false, none, ""⟩]
    depots := [⟨0, 0, 40, 0, ""⟩]
    vehicleTypes := [
      { numAvailable := 1, startDepot := 0, endDepot := 0, capacity := [], twEarly := 0
        twLate := 100, shiftDuration := 10, maxDistance := MAX, fixedCost := 0
        unitDistanceCost := 0, unitDurationCost := 1, profile := 0, startLate := 100
        initialLoad := [], reloadDepots := [0], maxReloads := 2, maxOvertime := 0
        unitOvertimeCost := 0, maxDuration := 10, name := "" }]
    dists := [⟨2, 2, [0, 5, 5, 0]⟩]
    durs := [⟨2, 2, [0, 5, 5, 0]⟩]
    groups := []
    shipments := [] }

def lateActs : List Activity := [client 0, depot 0, client 1, client 2]
def lateEvaluator : CostEvaluator := ⟨[], ratPenalty 1 1, ratPenalty 1 1⟩
def lateRoutes : List Route := [Route.build lateData lateActs 0]

theorem lateGood : GoodData lateData where
  made := by decide
  vehicles := by
    intro v hv
    have h : ∀ v ∈ lateData.vehicleTypes, VehicleType.replace v {} = .ok v := by decide
    exact ⟨_, h v hv⟩
  times := by constructor <;> decide

theorem lateCost : CostOk lateData lateEvaluator :=
  ⟨lateGood, ⟨by simp [lateEvaluator], ratPenalty_isPenalty 1 1 (by decide) (by decide),
    ratPenalty_isPenalty 1 1 (by decide) (by decide)⟩, rfl⟩

theorem lateBuilt : Built lateData [(0, lateActs)] lateRoutes := by
  refine ⟨?_, ?_, ?_, ?_⟩ <;> decide

/-- The search solution for `lateRoutes`. -/
def lateState : SSol :=
  match Solution.make lateData lateRoutes with
  | .error _ => SSol.new lateData
  | .ok sol =>
    match SSol.load lateData (SSol.new lateData) sol with
    | .error _ => SSol.new lateData
    | .ok s => s

theorem lateState_ok : ∃ plan, SearchState lateData plan lateState := by
  have h : ∃ sol, Solution.make lateData lateRoutes = .ok sol := ⟨_, rfl⟩
  obtain ⟨sol, h⟩ := h
  obtain ⟨s', -, h', -⟩ := C26_load_unload lateData lateGood.times (by decide) _ _ sol lateBuilt h _ .new
  have e : lateState = s' := by unfold lateState; simp only [h, h']
  rw [e]
  exact C27_loaded lateData lateGood.times (by decide) _ _ sol lateBuilt h _ s' .new h'

end Demo

/-- **C24, negation.** In general the reported cost is not the change in penalised cost, and a move that
should be an improvement can make the solution worse. Here `RemoveOptionalClient` reports -5, and
applying the move increases the penalised cost by 5. -/
theorem C24_negation :
    CostOk Demo.lateData Demo.lateEvaluator ∧ (∀ c ∈ Demo.lateData.clients, Client.make c = .ok c)
    ∧ ∃ plan, SearchState Demo.lateData plan Demo.lateState ∧ Exclusive Demo.lateData plan
      ∧ ∃ s', UnaryOp.apply .removeOptionalClient Demo.lateData Demo.lateState (Demo.client 2) .none = .ok s'
        ∧ UnaryOp.evaluate .removeOptionalClient Demo.lateData Demo.lateEvaluator Demo.lateState
          (Demo.client 2) = ⟨-5, true, .none⟩
        ∧ Demo.lateEvaluator.penalisedCostSSol Demo.lateData (updateRoutes Demo.lateData s' [0])
          = Demo.lateEvaluator.penalisedCostSSol Demo.lateData Demo.lateState + 5 := by
  refine ⟨Demo.lateCost, by decide, ?_⟩
  obtain ⟨plan, h⟩ := Demo.lateState_ok
  refine ⟨plan, h, ?_, _, rfl, ?_, ?_⟩
  · intro g hg; cases hg
  · decide +kernel
  · decide +kernel

/-! ## Non-vacuity -/

namespace Demo

/-- The search solution for the example's routes. -/
def state : SSol :=
  match loadAll (SSol.new data) [routes] with
  | .error _ => SSol.new data
  | .ok s => s

theorem state_ok : ∃ plan, SearchState data plan state ∧ Exclusive data plan := by
  have h : ∃ sol, Solution.make data routes = .ok sol := ⟨_, rfl⟩
  obtain ⟨sol, h⟩ := h
  obtain ⟨s', -, h', -⟩ := C26_load_unload data timesOk groups_nodup plan routes sol built h _ .new
  have e : state = s' := by unfold state; simp only [loadAll, h, h']
  rw [e]
  obtain ⟨plan', hs⟩ := C27_loaded data timesOk groups_nodup _ _ sol built h _ s' .new h'
  refine ⟨plan', hs, ?_⟩
  intro g hg i hi j hj hvi hvj
  have hown : ∀ c, Visited plan' ⟨.client, c⟩ → state.owner ⟨.client, c⟩ ≠ none := by
    rintro c ⟨k, hk⟩ hn
    rw [e] at hn
    rw [(hs.clean.1.owner _ (by simp) k).2 hk] at hn
    cases hn
  have h4 : state.owner ⟨.client, 4⟩ = none := by decide +kernel
  have hnot : ¬ Visited plan' ⟨.client, 4⟩ := fun hv => hown 4 hv h4
  simp only [data, List.mem_cons, List.not_mem_nil, or_false] at hg
  subst hg
  simp only [List.mem_cons, List.not_mem_nil, or_false] at hi hj
  rcases hi with rfl | rfl <;> rcases hj with rfl | rfl
  · rfl
  · exact absurd hvj hnot
  · exact absurd hvi hnot
  · rfl

/-- Moves of different kinds that evaluations say to apply, with their costs. -/
example : (BinaryOp.evaluate (.relocate 1) data costEvaluator state ((BinaryOp.relocate 1).init data)
      (client 2) (.task (client 3))).1 = ⟨-61, true, .none⟩
    ∧ (BinaryOp.evaluate (.relocate 3) data costEvaluator state ((BinaryOp.relocate 3).init data)
      (pickup 0) (.start 2)).1 = ⟨-37, true, .none⟩
    ∧ (BinaryOp.evaluate (.swap 3 1) data costEvaluator state ((BinaryOp.swap 3 1).init data)
      (pickup 0) (.task (client 3))).1 = ⟨-35, true, .none⟩
    ∧ (BinaryOp.evaluate .relocateAlternative data costEvaluator state
      (BinaryOp.relocateAlternative.init data) (client 3) (.task (delivery 0))).1
        = ⟨-1, true, .node (client 4)⟩ := by decide +kernel

example : UnaryOp.evaluate .removeAdjacentDepot data costEvaluator state (client 2) = ⟨-75, true, .removePrev⟩
    ∧ UnaryOp.evaluate .removeOptionalClient data costEvaluator state (client 2) = ⟨-64, true, .none⟩ := by
  decide +kernel

/-- `FitsOn` holds for the route without client 2. -/
example : Fits data 0 [client 0, pickup 0, client 1, delivery 0, depot 0] := by
  refine ⟨⟨50, ?_⟩, ?_, ?_, ?_⟩
  · decide
  · decide
  · intro a ha d hd ht; revert a d; decide
  · exact .inr (.inr (by decide))

end Demo
end PyVRP
