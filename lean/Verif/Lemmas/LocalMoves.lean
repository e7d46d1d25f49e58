import Verif.Lemmas.LocalSearch
/-!
# The local search: moves, and the loops that make them
-/
namespace PyVRP
open Spec
open SSol (used ofActs_empty At RefOk CleanBut)

variable {data : ProblemData} {ce : CostEvaluator}

/-! ## Steps -/

namespace Spec

/-- Lower cost, or the same cost and fewer visits to reload depots. -/
def Better (data : ProblemData) (ce : CostEvaluator) (plan plan' : List (List Activity)) : Prop :=
  planCost data ce plan' < planCost data ce plan
    ∨ (planCost data ce plan' = planCost data ce plan ∧ reloads plan' < reloads plan)

/-- All routes that the search may look at in a plan with the property `I` are evaluated exactly, and
moves that improve keep the property. -/
structure Exact (data : ProblemData) (ce : CostEvaluator) (I : List (List Activity) → Prop) : Prop where
  cost : CostOk data ce
  fits : ∀ plan, I plan → ∀ k, k < data.numVehicles → ∀ acts,
    RouteOk data (data.vehicleType (vehTypeAt data k)) acts →
    (∀ a : Activity, a.type ≠ .depot → acts.count a ≤ 1) → used acts = true →
    depotVisits acts ≤ reloads plan + 1 → Fits data (vehTypeAt data k) acts
  keeps : ∀ plan plan' s s', I plan → SearchOk data plan s → SearchOk data plan' s' →
    reloads plan' ≤ reloads plan + 1 → Better data ce plan plan' → I plan'

/-- A number of moves from one state to another. -/
inductive Steps (data : ProblemData) (ce : CostEvaluator) (plan : List (List Activity)) (s : SSol) :
    Nat → List (List Activity) → SSol → Prop where
  | refl : Steps data ce plan s 0 plan s
  | step {n : Nat} {plan' plan'' : List (List Activity)} {s' s'' : SSol}
      (h : Steps data ce plan s n plan' s') (ok : SearchOk data plan'' s'')
      (complete : CompletePlan data plan' → CompletePlan data plan'')
      (near : reloads plan'' ≤ reloads plan' + 1)
      (better : ∀ I, Exact data ce I → I plan' → Better data ce plan' plan'') :
      Steps data ce plan s (n + 1) plan'' s''

end Spec

theorem depotVisits_le_reloads (plan : List (List Activity)) (k : Nat) :
    depotVisits (plan.getD k []) ≤ reloads plan := by
  unfold reloads
  induction plan generalizing k with
  | nil => exact Nat.zero_le _
  | cons acts plan ih =>
    rw [List.map_cons, List.sum_cons]
    cases k with
    | zero => exact Nat.le_add_right _ _
    | succ k =>
      have := ih k
      rw [List.getD_cons_succ]
      omega

theorem Spec.Steps.trans {plan plan' plan'' : List (List Activity)} {s s' s'' : SSol} {n m : Nat}
    (h : Steps data ce plan s n plan' s') (h' : Steps data ce plan' s' m plan'' s'') :
    Steps data ce plan s (n + m) plan'' s'' := by
  induction h' with
  | refl => exact h
  | step _ ok complete near better ih => exact .step ih ok complete near better

theorem Spec.Steps.complete {plan plan' : List (List Activity)} {s s' : SSol} {n : Nat}
    (h : Steps data ce plan s n plan' s') (hc : CompletePlan data plan) : CompletePlan data plan' := by
  induction h with
  | refl => exact hc
  | step _ _ complete _ _ ih => exact complete ih

theorem Spec.Better.trans {plan plan' plan'' : List (List Activity)} (h : Better data ce plan plan')
    (h' : Better data ce plan' plan'') : Better data ce plan plan'' := by
  unfold Better at *
  omega

theorem Spec.Steps.keeps {I : List (List Activity) → Prop} {plan plan' : List (List Activity)}
    {s s' : SSol} {n : Nat} (h : Steps data ce plan s n plan' s') (he : Exact data ce I)
    (hs : SearchOk data plan s) (hI : I plan) : I plan' ∧ SearchOk data plan' s' := by
  induction h with
  | refl => exact ⟨hI, hs⟩
  | step _ ok _ near better ih =>
    exact ⟨he.keeps _ _ _ _ ih.1 ih.2 ok near (better _ he ih.1), ok⟩

theorem Spec.Steps.better {I : List (List Activity) → Prop} {plan plan' : List (List Activity)}
    {s s' : SSol} {n : Nat} (h : Steps data ce plan s n plan' s') (he : Exact data ce I)
    (hs : SearchOk data plan s) (hI : I plan) : (n = 0 ∧ plan' = plan) ∨ Better data ce plan plan' := by
  induction h with
  | refl => exact .inl ⟨rfl, rfl⟩
  | step h _ _ _ better ih =>
    right
    have hb := better _ he (h.keeps he hs hI).1
    rcases ih with ⟨-, rfl⟩ | ih
    · exact hb
    · exact ih.trans hb

/-- A move that changes the cost as evaluated. -/
theorem Moved.better {plan plan' plan'' : List (List Activity)} {D : Nat → Prop} {δ : Int} {s : SSol}
    (h : Moved data plan plan' D δ s) (hs : Settled plan' plan'') {cost : Int}
    (hcost : CostOk data ce → FitsOn data D plan' →
      cost = δ + routesCost data ce plan' - routesCost data ce plan)
    (hlt : cost < 0 ∨ (cost ≤ 0 ∧ reloads plan' < reloads plan)) (I : List (List Activity) → Prop)
    (he : Exact data ce I) (hI : I plan) : Better data ce plan plan'' := by
  have hc := hcost he.cost (fun k hk _ hu => he.fits plan hI k hk _ (h.routes k hk)
    (fun a ha => h.but.1.once a ha k) hu
    (Nat.le_trans (depotVisits_le_reloads plan' k) h.near))
  have h1 := hs.routesCost (data := data) (ce := ce) h.routes
  have h2 := (h.tasks.congr (fun a ha => hs.visited ha)).prizes
  have h3 := hs.reloads
  unfold Better planCost
  omega

namespace LState

/-- A state of the search between moves. -/
structure Ok (data : ProblemData) (ce : CostEvaluator) (plan : List (List Activity)) (st : LState) :
    Prop where
  sol : SearchOk data plan st.sol
  exclusive : Exclusive data plan
  space : SpaceOk data st.space
  self : ∀ a ns, st.space.neighboursOf a = .ok ns → a ∉ ns
  caches : CachesOk data ce st.sol st.binary

/-- There is a stamp for each vehicle, and none is later than now. -/
structure Stamps (data : ProblemData) (st : LState) : Prop where
  length : st.lastUpdate.length = data.numVehicles
  range : ∀ k, k < data.numVehicles →
    0 ≤ st.lastUpdate.getD k 0 ∧ st.lastUpdate.getD k 0 ≤ st.numUpdates

/-- The routes that have changed carry new stamps. -/
structure Change (data : ProblemData) (plan : List (List Activity)) (st : LState)
    (plan' : List (List Activity)) (st' : LState) : Prop where
  ops : st'.binary.map (·.1) = st.binary.map (·.1)
  stamps : Stamps data st → Stamps data st'
  routes : Stamps data st → ∀ k, k < data.numVehicles →
    (st'.lastUpdate.getD k 0 = st.lastUpdate.getD k 0 ∧ plan'.getD k [] = plan.getD k [])
    ∨ st.numUpdates < st'.lastUpdate.getD k 0

theorem Change.refl (plan : List (List Activity)) {st st' : LState}
    (e1 : st'.binary.map (·.1) = st.binary.map (·.1)) (e2 : st'.lastUpdate = st.lastUpdate)
    (e3 : st'.numUpdates = st.numUpdates) : Change data plan st plan st' :=
  ⟨e1, fun h => ⟨by rw [e2]; exact h.length, by rw [e2, e3]; exact h.range⟩,
    fun _ k _ => .inl ⟨by rw [e2], rfl⟩⟩

theorem Change.trans {plan plan' plan'' : List (List Activity)} {st st' st'' : LState}
    (h : Change data plan st plan' st') (h' : Change data plan' st' plan'' st'')
    (hle : st.numUpdates ≤ st'.numUpdates) : Change data plan st plan'' st'' := by
  refine ⟨h'.ops.trans h.ops, fun hs => h'.stamps (h.stamps hs), fun hs k hk => ?_⟩
  rcases h'.routes (h.stamps hs) k hk with ⟨e1, e2⟩ | h2
  · rcases h.routes hs k hk with ⟨e3, e4⟩ | h1
    · exact .inl ⟨e1.trans e3, e2.trans e4⟩
    · right; rw [e1]; exact h1
  · right; omega

/-- From one state of the search to a later one. -/
structure Progress (data : ProblemData) (ce : CostEvaluator) (plan : List (List Activity)) (st : LState)
    (plan' : List (List Activity)) (st' : LState) : Prop where
  ok : Ok data ce plan' st'
  grows : SearchSpace.Grows data st.space st'.space
  change : Change data plan st plan' st'
  steps : ∃ n, Steps data ce plan st.sol n plan' st'.sol ∧ st'.numUpdates = st.numUpdates + n
    ∧ (n = 0 → st'.completed = st.completed) ∧ (n ≠ 0 → st'.completed = false)

theorem Progress.refl {plan : List (List Activity)} {st : LState} (h : Ok data ce plan st) :
    Progress data ce plan st plan st :=
  ⟨h, SearchSpace.Grows.refl _ _, .refl _ rfl rfl rfl, 0, .refl, rfl, fun _ => rfl,
    fun h => absurd rfl h⟩

theorem Progress.trans {plan plan' plan'' : List (List Activity)} {st st' st'' : LState}
    (h : Progress data ce plan st plan' st') (h' : Progress data ce plan' st' plan'' st'') :
    Progress data ce plan st plan'' st'' := by
  obtain ⟨n, h1, h2, h3, h4⟩ := h.steps
  obtain ⟨m, k1, k2, k3, k4⟩ := h'.steps
  refine ⟨h'.ok, h.grows.trans h'.grows, h.change.trans h'.change (by omega), n + m, h1.trans k1,
    by omega, ?_, ?_⟩
  · intro h0; rw [k3 (by omega), h3 (by omega)]
  · intro h0
    by_cases hm : m = 0
    · rw [k3 hm]; exact h4 (by omega)
    · exact k4 hm

theorem Progress.keeps {I : List (List Activity) → Prop} {plan plan' : List (List Activity)}
    {st st' : LState} (p : Progress data ce plan st plan' st') (he : Exact data ce I)
    (h : Ok data ce plan st) (hI : I plan) : I plan' := by
  obtain ⟨n, h1, -⟩ := p.steps
  exact (h1.keeps he h.sol hI).1

theorem self_grows {st : LState} {sp : SearchSpace} (h : SearchSpace.Grows data st.space sp)
    (hs : ∀ a ns, st.space.neighboursOf a = .ok ns → a ∉ ns) :
    ∀ a ns, sp.neighboursOf a = .ok ns → a ∉ ns := by
  intro a ns hn
  apply hs
  unfold SearchSpace.neighboursOf at hn ⊢
  rw [← h.neighbours]
  exact hn

/-- Marking a node of a route. -/
theorem mark_grows {plan : List (List Activity)} {st : LState} {i pos : Nat}
    (hh : SSol.Holds data plan st.sol)
    (hr : ∀ k, k < data.numVehicles →
      RouteOk data (data.vehicleType (vehTypeAt data k)) (plan.getD k []))
    (hs : data.numClients + data.numShipments ≤ st.space.promising.size)
    (hi : i < data.numVehicles) (hp : pos ≤ (plan.getD i []).length) :
    SearchSpace.Grows data st.space (mark st (i, pos)).space :=
  (SearchSpace.markNode_grows hs (hh.visits i hi) (hr i hi).inRange (by omega)).1

theorem find_le {plan : List (List Activity)} {s : SSol} (hh : SSol.Holds data plan s) {v : NodeRef}
    (hv : RefOk data v) {j q : Nat} (hf : s.find v = some (j, q)) :
    j < data.numVehicles ∧ q ≤ (plan.getD j []).length := by
  obtain ⟨vs, ws, hat, rfl⟩ := hh.find_some hv hf
  exact ⟨hat.1, by rw [hat.2.1]; simp⟩

theorem place_le {plan : List (List Activity)} {s : SSol} (hh : SSol.Holds data plan s) {u : Activity}
    {j q : Nat} (hf : s.place u = some (j, q)) :
    j < data.numVehicles ∧ q ≤ (plan.getD j []).length :=
  find_le hh (v := .task u) trivial hf

theorem markIf_grows {plan : List (List Activity)} {st : LState} {u : Activity}
    (hh : SSol.Holds data plan st.sol)
    (hr : ∀ k, k < data.numVehicles →
      RouteOk data (data.vehicleType (vehTypeAt data k)) (plan.getD k []))
    (hs : data.numClients + data.numShipments ≤ st.space.promising.size) :
    SearchSpace.Grows data st.space (markIf st (st.sol.place u)).space := by
  cases hp : st.sol.place u with
  | none => exact SearchSpace.Grows.refl _ _
  | some ip =>
    obtain ⟨h1, h2⟩ := place_le hh hp
    exact mark_grows hh hr hs h1 h2

theorem markIf_rest (st : LState) (node : Option (Nat × Nat)) :
    (markIf st node).sol = st.sol ∧ (markIf st node).binary = st.binary
      ∧ (markIf st node).numUpdates = st.numUpdates ∧ (markIf st node).completed = st.completed
      ∧ (markIf st node).lastUpdate = st.lastUpdate := by
  cases node <;> exact ⟨rfl, rfl, rfl, rfl, rfl⟩

/-- Applying a move: what is common to unary and binary operators. -/
theorem progress_move {plan plan' : List (List Activity)} {st : LState} (h : Ok data ce plan st)
    (hd : Consistent data) {D : Nat → Prop} {δ : Int} {s' : SSol}
    (hm : Moved data plan plan' D δ s') {cost : Int}
    (hcost : CostOk data ce → FitsOn data D plan' →
      cost = δ + routesCost data ce plan' - routesCost data ce plan)
    (hlt : cost < 0 ∨ (cost ≤ 0 ∧ reloads plan' < reloads plan))
    {u : Option Nat} {v : Nat} (hD : ∀ k, D k → u = some k ∨ k = v)
    (hu : ∀ i, u = some i → i < data.numVehicles) (hv : v < data.numVehicles)
    {st' : LState} (e1 : st'.sol = s') (e2 : st'.binary = st.binary)
    (e3 : st'.numUpdates = st.numUpdates) (e4 : st'.lastUpdate = st.lastUpdate)
    (hg : SearchSpace.Grows data st.space st'.space) :
    ∃ plan'', Progress data ce plan st plan'' (update data st' u v)
      ∧ (update data st' u v).completed = false := by
  subst e1
  obtain ⟨plan'', hs, hok, hc, hkept⟩ := update_spec (ce := ce) (st := st') h.sol (by rw [e2]; exact h.caches)
    hm.but hm.routes hm.kept hD hu hv
  obtain ⟨r1, r2, r3⟩ := update_rest (data := data) st' u v
  have htask := hm.tasks.congr (fun a ha => hs.visited ha)
  obtain ⟨t1, t2, -, t4⟩ := update_stamps (data := data) st' u v
  rw [e4] at t1 t4
  have hch : Change data plan st plan'' (update data st' u v) := by
    refine ⟨by rw [t2, e2], fun hst => ⟨by rw [t1]; exact hst.length, fun k hk => ?_⟩, fun hst k hk => ?_⟩
    · have := hst.range k hk
      rw [t4 k (by rw [hst.length]; exact hk), r2, e3]
      split <;> omega
    · rw [t4 k (by rw [hst.length]; exact hk), e3]
      by_cases hk' : u = some k ∨ k = v
      · rw [if_pos hk']; right; omega
      · rw [if_neg hk']; exact .inl ⟨rfl, hkept k hk'⟩
  refine ⟨plan'', ⟨⟨hok, htask.exclusive hd h.exclusive, ?_, ?_, hc⟩, by rw [r1]; exact hg, hch,
    1, .step .refl hok (htask.complete hd) (Nat.le_trans hs.reloads hm.near) (hm.better hs hcost hlt), by omega, by simp, fun _ => r3⟩, r3⟩
  · rw [r1]; exact hg.ok h.space
  · rw [r1]; exact self_grows hg h.self

theorem findUnary_some {s : SSol} {u : Activity} : ∀ {ops : List UnaryOp} {op : UnaryOp} {v : Verdict},
    findUnary data ce s u ops = some (op, v) → v = op.evaluate data ce s u ∧ v.apply = true
  | [], _, _, h => by cases h
  | op :: rest, op', v, h => by
    unfold findUnary at h
    dsimp only at h
    split at h
    · cases h; exact ⟨rfl, by assumption⟩
    · exact findUnary_some h

/-- Testing a node with unary operators. -/
theorem applyUnaryOps_spec {plan : List (List Activity)} {st : LState} (h : Ok data ce plan st)
    (hd : Consistent data) (ops : List UnaryOp) {u : Activity} (hu : u ∈ allTasks data) :
    ∃ plan' st' b, applyUnaryOps data ce ops st u = .ok (st', b)
      ∧ Progress data ce plan st plan' st'
      ∧ (b = false → st' = st) ∧ (b = true → st'.completed = false) := by
  unfold applyUnaryOps
  split
  · exact ⟨plan, st, false, rfl, .refl h, fun _ => rfl, fun h => (by cases h)⟩
  · rename_i op verdict hf
    obtain ⟨rfl, hap⟩ := findUnary_some hf
    obtain ⟨j, plan', δ, s', h1, h2, h3, h4, h5⟩ := UnaryOp.outcome op ce hd h.sol hu hap
    obtain ⟨m1, m2, m3, m4⟩ := markIf_rest st (st.sol.place u)
    have hg := markIf_grows (u := u) h.sol.clean.1 h.sol.routes h.space.size
    have hlt : (op.evaluate data ce st.sol u).cost < 0
        ∨ ((op.evaluate data ce st.sol u).cost ≤ 0 ∧ reloads plan' < reloads plan) := by
      rcases h5 with h5 | h5
      · exact .inl h5
      · exact .inr ⟨h5.1, h5.2.2⟩
    dsimp only
    rw [m1, h1]
    dsimp only
    rcases h2 with ⟨p, hp⟩ | ⟨hp, ho⟩
    · rw [hp] at hg ⊢
      dsimp only
      obtain ⟨hj, -⟩ := place_le h.sol.clean.1 hp
      obtain ⟨plan'', hpr, hc⟩ := progress_move h hd h3 h4 hlt (u := some j) (v := j)
        (st' := { markIf st (some (j, p)) with sol := s' })
        (fun k hk => .inr hk) (fun i hi => by cases hi; exact hj) hj rfl
        (markIf_rest st (some (j, p))).2.1 (markIf_rest st (some (j, p))).2.2.1
        (markIf_rest st (some (j, p))).2.2.2.2 hg
      exact ⟨plan'', _, true, rfl, hpr, fun h => (by cases h), fun _ => hc⟩
    · rw [hp] at hg ⊢
      dsimp only
      have hud : u.type ≠ .depot := by
        rcases BinaryOp.mem_allTasks hu with ⟨h, -⟩ | ⟨h, -⟩ <;> rw [h] <;> simp
      have hmem := (h3.but.1.owner u hud j).1 ho
      obtain ⟨xs, ys, he⟩ := List.append_of_mem hmem
      have hj := h3.but.1.lt_of_mem hmem
      have hpl := h3.but.1.place hj hud he
      rw [hpl]
      dsimp only
      obtain ⟨hj, hq⟩ := place_le h3.but.1 hpl
      have hg2 := mark_grows (st := { markIf st none with sol := s' }) h3.but.1 h3.routes
        (by rw [hg.size]; exact h.space.size) hj hq
      obtain ⟨plan'', hpr, hc⟩ := progress_move h hd h3 h4 hlt (u := some j) (v := j)
        (st' := mark { markIf st none with sol := s' } (j, xs.length + 1))
        (fun k hk => .inr hk) (fun i hi => by cases hi; exact hj) hj rfl rfl rfl rfl (hg.trans hg2)
      exact ⟨plan'', _, true, rfl, hpr, fun h => (by cases h), fun _ => hc⟩

theorem findBinary_ops (s : SSol) (u : Activity) (v : NodeRef) :
    ∀ binary, (findBinary data ce s u v binary).1.map (·.1) = binary.map (·.1)
  | [] => rfl
  | (op, cache) :: rest => by
    have ih := findBinary_ops s u v rest
    unfold findBinary
    dsimp only
    split
    · rfl
    · simp only [List.map_cons, ih]

theorem findBinary_spec {s : SSol} {u : Activity} (hu : u ∈ allTasks data) (v : NodeRef) :
    ∀ {binary : List (BinaryOp × Cache)}, CachesOk data ce s binary →
    CachesOk data ce s (findBinary data ce s u v binary).1
    ∧ ∀ op verdict, (findBinary data ce s u v binary).2 = some (op, verdict) →
      ∃ cache, (op, cache) ∈ binary ∧ verdict = (op.evaluate data ce s cache u v).1
        ∧ verdict.apply = true
  | [], h => ⟨h, fun _ _ h => by cases h⟩
  | (op, cache) :: rest, h => by
    have h0 := h (op, cache) (by simp)
    have hrest : CachesOk data ce s rest := fun p hp => h p (by simp [hp])
    have hnew : op.Valid ∧ op.CacheOk data ce s (op.evaluate data ce s cache u v).2 :=
      ⟨h0.1, h0.2.evaluate hu v⟩
    obtain ⟨i1, i2⟩ := findBinary_spec hu v hrest
    unfold findBinary
    dsimp only
    split
    · rename_i hap
      constructor
      · intro p hp
        rcases List.mem_cons.1 hp with rfl | hp
        · exact hnew
        · exact hrest p hp
      · intro op' verdict he
        cases he
        exact ⟨cache, by simp, rfl, hap⟩
    · constructor
      · intro p hp
        rcases List.mem_cons.1 hp with rfl | hp
        · exact hnew
        · exact i1 p hp
      · intro op' verdict he
        obtain ⟨c, hc, hx⟩ := i2 op' verdict he
        exact ⟨c, by simp [hc], hx⟩

/-- Testing a pair of nodes with binary operators. -/
theorem applyBinaryOps_spec {plan : List (List Activity)} {st : LState} (h : Ok data ce plan st)
    (hd : Consistent data) {u : Activity} (hu : u ∈ allTasks data) {v : NodeRef} (hv : RefOk data v)
    (hvu : v ≠ .task u) :
    ∃ plan' st' b, applyBinaryOps data ce st u v = .ok (st', b)
      ∧ Progress data ce plan st plan' st'
      ∧ (b = false → plan' = plan ∧ st'.sol = st.sol) ∧ (b = true → st'.completed = false) := by
  obtain ⟨f1, f2⟩ := findBinary_spec (ce := ce) (s := st.sol) hu v h.caches
  unfold applyBinaryOps
  generalize hfb : findBinary data ce st.sol u v st.binary = fb at f1 f2
  obtain ⟨binary, found⟩ := fb
  dsimp only at f1 f2 ⊢
  have hok : Ok data ce plan { st with binary := binary } :=
    ⟨h.sol, h.exclusive, h.space, h.self, f1⟩
  have hch : Change data plan st plan { st with binary := binary } := by
    refine .refl _ ?_ rfl rfl
    have := findBinary_ops (data := data) (ce := ce) st.sol u v st.binary
    rw [hfb] at this
    exact this
  cases found with
  | none =>
    exact ⟨plan, _, false, rfl, ⟨hok, SearchSpace.Grows.refl _ _, hch, 0, .refl, rfl, fun _ => rfl,
      fun h => absurd rfl h⟩, fun _ => ⟨rfl, rfl⟩, fun h => (by cases h)⟩
  | some found =>
    obtain ⟨op, verdict⟩ := found
    obtain ⟨cache, hmem, rfl, hap⟩ := f2 op verdict rfl
    obtain ⟨hval, hco⟩ := h.caches _ hmem
    obtain ⟨j, q, hf⟩ := BinaryOp.find_of_apply op hap
    obtain ⟨plan', δ, s', h1, h2, h3⟩ := op.outcome hval ce hd h.sol h.exclusive hu hv hvu hco hap
    have hneg := BinaryOp.neg op data ce st.sol cache u v hap
    obtain ⟨hj, hq⟩ := find_le h.sol.clean.1 hv hf
    obtain ⟨m1, m2, m3, m4, m5⟩ := markIf_rest { st with binary := binary } (st.sol.place u)
    have hg := markIf_grows (st := { st with binary := binary }) (u := u) h.sol.clean.1 h.sol.routes
      h.space.size
    have hg2 := mark_grows (st := markIf { st with binary := binary } (st.sol.place u))
      (by rw [m1]; exact h.sol.clean.1) h.sol.routes (by rw [hg.size]; exact h.space.size) hj hq
    dsimp only
    rw [hf]
    dsimp only
    have hsol : (mark (markIf { st with binary := binary } (st.sol.place u)) (j, q)).sol = st.sol := m1
    rw [hsol, h1]
    dsimp only
    obtain ⟨plan'', hpr, hc⟩ := progress_move hok hd h2 (fun a b => h3 a b trivial) (.inl hneg)
      (u := (st.sol.place u).map (·.1)) (v := j)
      (st' := { mark (markIf { st with binary := binary } (st.sol.place u)) (j, q) with sol := s' })
      (by
        intro k hk
        unfold Touched at hk
        rcases hk with ⟨p, hp⟩ | ⟨p, hp⟩
        · left; rw [hp]; rfl
        · right; rw [hf] at hp; cases hp; rfl)
      (by
        intro i hi
        cases hp : st.sol.place u with
        | none => rw [hp] at hi; cases hi
        | some ip =>
          rw [hp] at hi
          cases hi
          exact (place_le h.sol.clean.1 hp).1)
      hj rfl m2 m3 m5 (hg.trans hg2)
    exact ⟨plan'', _, true, rfl, ⟨hpr.ok, hpr.grows, hch.trans hpr.change (Nat.le_refl _), hpr.steps⟩,
      fun h => (by cases h), fun _ => hc⟩

/-! ## The loops -/

theorem testNeighbour_spec {plan : List (List Activity)} {st : LState} (h : Ok data ce plan st)
    (hd : Consistent data) (lastTest : Int) {u : Activity} (hu : u ∈ allTasks data) {v : Activity}
    (hvu : v ≠ u) :
    ∃ plan' st', testNeighbour data ce lastTest st u v = .ok st' ∧ Progress data ce plan st plan' st' := by
  unfold testNeighbour
  split
  · exact ⟨plan, st, rfl, .refl h⟩
  · rename_i idx pos hp
    have hidx := (place_le h.sol.clean.1 hp).1
    split
    · obtain ⟨plan1, st1, b, e1, p1, k1, -⟩ := applyBinaryOps_spec h hd hu (v := .task v) trivial
        (by simpa using hvu)
      rw [e1]
      cases b with
      | true => exact ⟨plan1, st1, rfl, p1⟩
      | false =>
        dsimp only
        split
        · obtain ⟨plan2, st2, b, e2, p2, -, -⟩ := applyBinaryOps_spec p1.ok hd hu (v := .start idx) hidx
            (by simp)
          rw [e2]
          exact ⟨plan2, st2, rfl, p1.trans p2⟩
        · exact ⟨plan1, st1, rfl, p1⟩
    · exact ⟨plan, st, rfl, .refl h⟩

theorem testNeighbours_spec (hd : Consistent data) (lastTest : Int) {u : Activity}
    (hu : u ∈ allTasks data) : ∀ (vs : List Activity), u ∉ vs →
    ∀ {plan : List (List Activity)} {st : LState}, Ok data ce plan st →
    ∃ plan' st', testNeighbours data ce lastTest u st vs = .ok st' ∧ Progress data ce plan st plan' st'
  | [], _, plan, st, h => ⟨plan, st, rfl, .refl h⟩
  | v :: vs, hn, plan, st, h => by
    rw [List.mem_cons, not_or] at hn
    obtain ⟨plan1, st1, e1, p1⟩ := testNeighbour_spec h hd lastTest hu (v := v) (fun h => hn.1 h.symm)
    obtain ⟨plan2, st2, e2, p2⟩ := testNeighbours_spec hd lastTest hu vs hn.2 p1.ok
    refine ⟨plan2, st2, ?_, p1.trans p2⟩
    unfold testNeighbours
    rw [e1]
    exact e2

theorem applyEmptyRouteMoves_spec (hd : Consistent data) {u : Activity}
    (hu : u ∈ allTasks data) : ∀ (order : List (Nat × Nat)),
    (∀ p ∈ order, p.1 < data.numVehicleTypes ∧ p.2 = vehiclesBefore data p.1) →
    ∀ {plan : List (List Activity)} {st : LState}, Ok data ce plan st →
    ∃ plan' st', applyEmptyRouteMoves data ce u st order = .ok st' ∧ Progress data ce plan st plan' st'
  | [], _, plan, st, h => ⟨plan, st, rfl, .refl h⟩
  | (t, offset) :: order, ho, plan, st, h => by
    have h0 := ho (t, offset) (by simp)
    have hrest := fun p hp => ho p (List.mem_cons_of_mem _ hp)
    unfold applyEmptyRouteMoves
    split
    · exact applyEmptyRouteMoves_spec hd hu order hrest h
    · rename_i idx hf
      obtain ⟨plan1, st1, b, e1, p1, -, -⟩ := applyBinaryOps_spec h hd hu (v := .start idx)
        (SSol.firstEmpty_lt h0.1 h0.2 hf).1 (by simp)
      rw [e1]
      cases b with
      | true => exact ⟨plan1, st1, rfl, p1⟩
      | false =>
        obtain ⟨plan2, st2, e2, p2⟩ := applyEmptyRouteMoves_spec hd hu order hrest p1.ok
        exact ⟨plan2, st2, e2, p1.trans p2⟩

theorem testActivity_spec {plan : List (List Activity)} {st : LState} (h : Ok data ce plan st)
    (hd : Consistent data) (ops : List UnaryOp) {u : Activity} (hu : u ∈ allTasks data) :
    ∃ plan' st', testActivity data ce ops st u = .ok st' ∧ Progress data ce plan st plan' st' := by
  unfold testActivity
  split
  · exact ⟨plan, st, rfl, .refl h⟩
  · dsimp only
    generalize st.lastTest.getD (testIdx data u) 0 = lastTest
    generalize st.lastTest.set (testIdx data u) st.numUpdates = tests
    have h0 : Progress data ce plan st plan { st with lastTest := tests } :=
      ⟨⟨h.sol, h.exclusive, h.space, h.self, h.caches⟩, SearchSpace.Grows.refl _ _,
        .refl _ rfl rfl rfl, 0, .refl, rfl, fun _ => rfl, fun h => absurd rfl h⟩
    obtain ⟨plan1, st1, b, e1, p1, -, -⟩ := applyUnaryOps_spec h0.ok hd ops hu
    rw [e1]
    dsimp only
    obtain ⟨ns, hns, -⟩ := p1.ok.space.neighbours u hu
    rw [hns]
    dsimp only
    obtain ⟨plan2, st2, e2, p2⟩ := testNeighbours_spec hd lastTest hu ns (p1.ok.self u ns hns) p1.ok
    rw [e2]
    dsimp only
    obtain ⟨plan3, st3, e3, p3⟩ := applyEmptyRouteMoves_spec hd hu _ p2.ok.space.types p2.ok
    exact ⟨plan3, st3, e3, h0.trans (p1.trans (p2.trans p3))⟩

theorem testAll_spec (hd : Consistent data) (ops : List UnaryOp) : ∀ (us : List Activity),
    (∀ u ∈ us, u ∈ allTasks data) → ∀ {plan : List (List Activity)} {st : LState}, Ok data ce plan st →
    ∃ plan' st', testAll data ce ops st us = .ok st' ∧ Progress data ce plan st plan' st'
  | [], _, plan, st, h => ⟨plan, st, rfl, .refl h⟩
  | u :: us, hu, plan, st, h => by
    obtain ⟨plan1, st1, e1, p1⟩ := testActivity_spec h hd ops (hu u (by simp))
    obtain ⟨plan2, st2, e2, p2⟩ := testAll_spec hd ops us (fun v hv => hu v (by simp [hv])) p1.ok
    refine ⟨plan2, st2, ?_, p1.trans p2⟩
    unfold testAll
    rw [e1]
    exact e2

end LState
end PyVRP
