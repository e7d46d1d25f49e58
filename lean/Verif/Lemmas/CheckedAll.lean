import Verif.Lemmas.CheckedApply3
import Verif.Lemmas.CheckedOps3
import Verif.Lemmas.LocalMoves
/-!
# No assertion fails in operators, in marking and in updating
-/
namespace PyVRP.Checked
open Spec
open SSol (Holds CleanBut At RefOk)

variable {data : ProblemData} {ce : CostEvaluator} {plan : List (List Activity)} {s : SSol}

theorem task_of {u : Activity} (hu : u ∈ allTasks data) : Task data u := by
  obtain ⟨ty, k⟩ := u
  rcases BinaryOp.mem_allTasks hu with ⟨h1, h2⟩ | ⟨h1, h2⟩
  · exact .inl ⟨by simp only at h1; subst h1; rfl, h2⟩
  · exact .inr ⟨by simp only at h1; subst h1; rfl, h2⟩

/-! ## Operators -/

theorem evaluateUnary_eq (op : UnaryOp) (hco : CostOk data ce) (hdist : DistancesOk data)
    (h : SearchOk data plan s) {u : Activity} (hu : u ∈ allTasks data) :
    evaluateUnary op data ce s u = some (op.evaluate data ce s u) := by
  have ht := task_of hu
  cases op
  · exact RemoveAdjacentDepot.evaluate_eq hco hdist h ht
  · exact RemoveOptionalClient.evaluate_eq hco hdist h ht
  · exact ReplaceGroup.evaluate_eq hco hdist h ht
  · exact RemoveOptionalShipment.evaluate_eq hco hdist h ht
  · exact RelocatePickup.evaluate_eq hco hdist h
  · exact RelocateDelivery.evaluate_eq hco hdist h

theorem evaluateBinary_eq (op : BinaryOp) (hop : op.Valid) (hco : CostOk data ce)
    (hdist : DistancesOk data) (h : SearchOk data plan s) {u : Activity} (hu : u ∈ allTasks data)
    {v : NodeRef} (hv : RefOk data v) (hvu : v ≠ .task u) (hin : (s.find v).isSome = true) {cache : Cache}
    (hc : cache.length = op.cacheSize data) :
    evaluateBinary op data ce s cache u v = some (op.evaluate data ce s cache u v) := by
  have ht := task_of hu
  have wrap : ∀ {x : Option Verdict} {y : Verdict}, x = some y → x.map (·, cache) = some (y, cache) := by
    intro x y hx; rw [hx]; rfl
  cases op
  · exact Relocate.evaluate_eq hco hdist h hop cache ht hv hc
  · exact wrap (Swap.evaluate_eq hco hdist h (Nat.le_trans hop.1 hop.2) hop.1 hv)
  · exact wrap (SwapTails.evaluate_eq hco hdist h ht hv)
  · exact RelocateWithDepot.evaluate_eq hco hdist h cache ht hv hvu hc
  · exact RelocateAlternative.evaluate_eq hco hdist h cache ht hv hc
  · exact wrap (InsertOptionalClient.evaluate_eq hco hdist h ht hv)
  · exact wrap (ReplaceOptionalClient.evaluate_eq hco hdist h ht hv)
  · exact wrap (InsertOptionalShipment.evaluate_eq hco hdist h ht hv)
  · exact wrap (ReplaceOptionalShipment.evaluate_eq hco hdist h ht hv)
  · exact RelocateShipment.evaluate_eq hco hdist h cache hv hin hc

theorem applyUnary_eq (op : UnaryOp) (h : SearchOk data plan s) {u : Activity}
    (hap : (op.evaluate data ce s u).apply = true) :
    applyUnary op data s u (op.evaluate data ce s u).move
      = some (op.apply data s u (op.evaluate data ce s u).move) := by
  have wrap : ∀ {x : Option SSol} {y : SSol}, x = some y →
      x.map (Except.ok (ε := Error)) = some (.ok y) := by
    intro x y hx; rw [hx]; rfl
  cases op
  · exact wrap (RemoveAdjacentDepot.apply_eq ce h hap)
  · exact wrap (RemoveOptionalClient.apply_eq ce h hap)
  · exact ReplaceGroup.apply_eq ce h hap
  · exact wrap (RemoveOptionalShipment.apply_eq ce h hap)
  · exact RelocatePickup.apply_eq ce h hap
  · exact RelocateDelivery.apply_eq ce h hap

theorem applyBinary_eq (op : BinaryOp) (hop : op.Valid) (hd : Consistent data)
    (h : SearchOk data plan s) (hex : Exclusive data plan) {u : Activity} (hu : u ∈ allTasks data)
    {v : NodeRef} (hv : RefOk data v) (hvu : v ≠ .task u) {cache : Cache}
    (hap : (op.evaluate data ce s cache u v).1.apply = true) :
    applyBinary op data s u v (op.evaluate data ce s cache u v).1.move
      = some (op.apply data s u v (op.evaluate data ce s cache u v).1.move) := by
  have wrap : ∀ {x : Option SSol} {y : SSol}, x = some y →
      x.map (Except.ok (ε := Error)) = some (.ok y) := by
    intro x y hx; rw [hx]; rfl
  cases op
  · exact Relocate.apply_eq ce h hop hv cache hap
  · exact Swap.apply_eq ce h hop.1 hop.2 hv hap
  · exact SwapTails.apply_eq ce h hv hap
  · exact RelocateWithDepot.apply_eq ce h hv hvu cache _ hap
  · exact RelocateAlternative.apply_eq ce hd h hex hv cache hap
  · exact InsertOptionalClient.apply_eq ce h hv hap
  · exact ReplaceOptionalClient.apply_eq ce h hap hv
  · exact InsertOptionalShipment.apply_eq ce h hv hap
  · exact wrap (ReplaceOptionalShipment.apply_eq ce h (BinaryOp.inRange_of_task hu) hv hap)
  · exact RelocateShipment.apply_eq ce h hv cache hap

/-! ## The search space -/

theorem idx_lt {space : SearchSpace} {a : Activity} (hs : data.numClients + data.numShipments ≤ space.promising.size)
    (ha : IsTask data a) : a.idx < space.promising.size := by
  obtain ⟨ty, k⟩ := a
  obtain ⟨h1, h2⟩ := ha
  show k < _
  cases ty with
  | depot => exact absurd rfl h1
  | client => have : k < data.numClients := h2; omega
  | pickup => have : k < data.numShipments := h2; omega
  | delivery => have : k < data.numShipments := h2; omega

theorem isPromising_eq {space : SearchSpace} {a : Activity}
    (hs : data.numClients + data.numShipments ≤ space.promising.size) (ha : IsTask data a) :
    isPromising space a = some (space.isPromising a) := by
  unfold isPromising
  rw [ensure_true ⟨ha.1, idx_lt hs ha⟩]; rfl

theorem markPromising_size (space : SearchSpace) (a : Activity) :
    (space.markPromising a).promising.size = space.promising.size := by
  unfold SearchSpace.markPromising
  split <;> simp [Bitset.size, Bitset.put]

theorem markIfTask_eq {space : SearchSpace} {n : SNode}
    (hs : data.numClients + data.numShipments ≤ space.promising.size)
    (hn : n.activity.type = .depot ∨ IsTask data n.activity) :
    markIfTask space n = some (space.markIfTask n)
      ∧ (space.markIfTask n).promising.size = space.promising.size := by
  unfold markIfTask SearchSpace.markIfTask
  by_cases hc : (n.isClient || n.isShipment) = true
  · rw [if_pos hc, if_pos hc]
    have ha : IsTask data n.activity := by
      rcases hn with hn | hn
      · exfalso
        revert hc
        simp [SNode.isClient, SNode.isShipment, Activity.isClient,
          Activity.isPickup, Activity.isDelivery, Activity.isShipment, hn]
      · exact hn
    unfold markPromising
    rw [ensure_true ⟨ha.1, idx_lt hs ha⟩]
    exact ⟨rfl, markPromising_size _ _⟩
  · rw [if_neg hc, if_neg hc]
    exact ⟨rfl, rfl⟩

theorem visits_start {vt : VehicleType} {r : SRoute} {acts : List Activity} (hv : r.nodes = canon vt acts) :
    (r.node 0).isStartDepot = true := by
  unfold SRoute.node
  rw [hv]; rfl

theorem markNode_in {space : SearchSpace} (h : Holds data plan s)
    (hs : data.numClients + data.numShipments ≤ space.promising.size) {i pos : Nat}
    (hi : i < data.numVehicles) (hin : ∀ a ∈ plan.getD i [], Spec.InRange data a)
    (hp : pos ≤ (plan.getD i []).length) :
    markNode space s (i, pos) = some (space.markPromisingNode (s.route i) pos) := by
  have ht := fun {k : Nat} (hk : k ≤ (plan.getD i []).length + 1) =>
    SearchSpace.node_task (h.visits i hi) hin hk
  unfold markNode SearchSpace.markPromisingNode
  dsimp only
  rw [holds_route h hi]
  simp only [Option.bind_eq_bind, Option.bind_some]
  obtain ⟨e1, z1⟩ := markIfTask_eq hs (ht (k := pos) (by omega))
  rw [holds_node h hi (by omega), Option.bind_some, e1, Option.bind_some]
  generalize space.markIfTask ((s.route i).node pos) = sp1 at z1 ⊢
  have fin : ∀ sp2 : SearchSpace, sp2.promising.size = space.promising.size →
      (if (!((s.route i).node pos).isEndDepot) = true then
        (node (s.route i) (pos + 1)).bind fun n => markIfTask sp2 n else pure sp2)
      = some (if (!((s.route i).node pos).isEndDepot) = true then
        sp2.markIfTask ((s.route i).node (pos + 1)) else sp2) := by
    intro sp2 z2
    split
    · obtain ⟨e4, z4⟩ := markIfTask_eq (space := sp2) (by omega) (ht (k := pos + 1) (by omega))
      rw [holds_node h hi (by omega), Option.bind_some]
      exact e4
    · rfl
  by_cases hst : (!((s.route i).node pos).isStartDepot) = true
  · rw [if_pos hst, if_pos hst]
    have h1 : 1 ≤ pos := by
      rcases Nat.eq_zero_or_pos pos with rfl | h1
      · rw [visits_start (h.visits i hi)] at hst; cases hst
      · exact h1
    obtain ⟨e3, z3⟩ := markIfTask_eq (space := sp1) (by omega) (ht (k := pos - 1) (by omega))
    rw [minus_eq h1, Option.bind_some, holds_node h hi (by omega), Option.bind_some, e3, Option.bind_some]
    exact fin _ (by omega)
  · rw [if_neg hst, if_neg hst]
    exact fin sp1 (by omega)

theorem markNode_eq {space : SearchSpace} (h : Holds data plan s)
    (hr : ∀ k, k < data.numVehicles →
      RouteOk data (data.vehicleType (vehTypeAt data k)) (plan.getD k []))
    (hs : data.numClients + data.numShipments ≤ space.promising.size) {i pos : Nat}
    (hi : i < data.numVehicles) (hp : pos ≤ (plan.getD i []).length) :
    markNode space s (i, pos) = some (space.markPromisingNode (s.route i) pos) :=
  markNode_in h hs hi (hr i hi).inRange hp

theorem mark_eq {st : LState} (h : Holds data plan st.sol)
    (hr : ∀ k, k < data.numVehicles →
      RouteOk data (data.vehicleType (vehTypeAt data k)) (plan.getD k []))
    (hs : data.numClients + data.numShipments ≤ st.space.promising.size) {i pos : Nat}
    (hi : i < data.numVehicles) (hp : pos ≤ (plan.getD i []).length) :
    mark st (i, pos) = some (LState.mark st (i, pos)) := by
  unfold mark
  rw [markNode_eq h hr hs hi hp]; rfl

theorem markIf_eq {st : LState} (h : Holds data plan st.sol)
    (hr : ∀ k, k < data.numVehicles →
      RouteOk data (data.vehicleType (vehTypeAt data k)) (plan.getD k []))
    (hs : data.numClients + data.numShipments ≤ st.space.promising.size) (u : Activity) :
    markIf st (st.sol.place u) = some (LState.markIf st (st.sol.place u)) := by
  cases hp : st.sol.place u with
  | none => rfl
  | some ip =>
    obtain ⟨h1, h2⟩ := LState.place_le h hp
    exact mark_eq h hr hs h1 h2

/-! ## Updating -/

theorem locationOf_lt (hd : Consistent data) {a : Activity} (ha : Spec.InRange data a) :
    data.locationOf a < data.numLocations := by
  obtain ⟨ty, i⟩ := a
  cases ty with
  | depot => exact hd.depotLocation _ (depot_mem ha)
  | client => exact hd.clientLocation _ (client_mem ha)
  | pickup => exact hd.pickupLocation _ (shipment_mem ha)
  | delivery => exact hd.deliveryLocation _ (shipment_mem ha)

theorem inRange_nodes (hd : Consistent data) (h : Holds data plan s)
    (hr : ∀ k, k < data.numVehicles →
      RouteOk data (data.vehicleType (vehTypeAt data k)) (plan.getD k [])) {i : Nat}
    (hi : i < data.numVehicles) : ∀ n ∈ (s.route i).nodes, Spec.InRange data n.activity := by
  intro n hn
  have hvm := SSol.vehicleType_mem data (vehTypeAt_lt data hi)
  have hsd : (data.vehicleType (vehTypeAt data i)).startDepot < data.depots.length := by
    obtain ⟨_, h1, -⟩ := hd.startDepot _ hvm
    exact (List.getElem?_eq_some_iff.1 h1).1
  have hed : (data.vehicleType (vehTypeAt data i)).endDepot < data.depots.length := by
    obtain ⟨_, h1, -⟩ := hd.endDepot _ hvm
    exact (List.getElem?_eq_some_iff.1 h1).1
  have hm : n.activity ∈ (s.route i).nodes.map SNode.activity := List.mem_map_of_mem hn
  have hv := h.visits i hi
  unfold SRoute.Visits at hv
  rw [hv, SRoute.canon_activities, h.types i hi] at hm
  simp only [fullActs, List.mem_cons, List.mem_append, List.not_mem_nil, or_false] at hm
  rcases hm with (hm | hm) | hm
  · rw [hm]; exact hsd
  · exact (hr i hi).inRange _ hm
  · rw [hm]; exact hed

theorem present_of {a : Activity} (ha : Spec.InRange data a) : present data a = true := by
  obtain ⟨ty, i⟩ := a
  cases ty <;> exact decide_eq_true ha

theorem readable_eq (hd : Consistent data) (h : Holds data plan s)
    (hr : ∀ k, k < data.numVehicles →
      RouteOk data (data.vehicleType (vehTypeAt data k)) (plan.getD k [])) {i : Nat}
    (hi : i < data.numVehicles) : readable data (s.route i) = some () := by
  have hlt := vehTypeAt_lt data hi
  have hvm := SSol.vehicleType_mem data hlt
  have hin := inRange_nodes hd h hr hi
  have hsz := holds_size h hi
  unfold readable
  have hvt : vehicleType data (s.route i).vehicleType = some (data.vehicleType (vehTypeAt data i)) := by
    rw [h.types i hi]
    have h' : vehTypeAt data i < data.vehicleTypes.length := hlt
    show data.vehicleTypes[vehTypeAt data i]? = some (data.vehicleTypes.getD (vehTypeAt data i) _)
    rw [List.getD_eq_getElem?_getD, List.getElem?_eq_getElem h']; rfl
  simp only [Option.bind_eq_bind]
  rw [hvt, Option.bind_some, ensure_true (hd.profile _ hvm), Option.bind_some,
    ensure_true (show 2 ≤ (s.route i).size by omega), Option.bind_some]
  exact ensure_true (fun n hn => ⟨present_of (hin n hn), locationOf_lt hd (hin n hn)⟩)

theorem cacheIdx_lt (op : BinaryOp) {a : Activity} (ha : Spec.InRange data a) {idx : Nat}
    (h : op.cacheIdx data a = some idx) : idx < op.cacheSize data := by
  obtain ⟨ty, i⟩ := a
  cases op <;> cases ty <;> simp [BinaryOp.cacheIdx] at h <;> subst h <;>
    simp only [Spec.InRange] at ha <;> simp only [BinaryOp.cacheSize] <;>
    first
    | exact ha
    | (have h1 : i < data.numClients := ha; omega)
    | (have h1 : i < data.numShipments := ha; omega)

theorem update_length (op : BinaryOp) (data : ProblemData) (r : SRoute) (cache : Cache) :
    (op.update data r cache).length = cache.length := by
  unfold BinaryOp.update
  generalize r.nodes = l
  induction l generalizing cache with
  | nil => rfl
  | cons n l ih =>
    rw [List.foldl_cons, ih]
    split
    · exact List.length_set
    · rfl

/-- The sizes of the arrays of a state. -/
structure Sized (data : ProblemData) (st : LState) : Prop where
  tests : st.lastTest.length = data.numClients + data.numShipments
  stamps : st.lastUpdate.length = data.numVehicles
  caches : ∀ p ∈ st.binary, p.2.length = p.1.cacheSize data

theorem mapM_eq {α β : Type} {f : α → Option β} {g : α → β} : ∀ {l : List α},
    (∀ x ∈ l, f x = some (g x)) → l.mapM f = some (l.map g)
  | [], _ => rfl
  | x :: l, h => by
    rw [List.mapM_cons, h x (by simp), Option.bind_eq_bind, Option.bind_some,
      mapM_eq (fun y hy => h y (by simp [hy]))]
    rfl

theorem updateRoute_eq (hd : Consistent data) {D : Nat → Prop} {st : LState}
    (h : CleanBut data D plan st.sol)
    (hr : ∀ k, k < data.numVehicles →
      RouteOk data (data.vehicleType (vehTypeAt data k)) (plan.getD k [])) (hz : Sized data st)
    {i : Nat} (hi : i < data.numVehicles) :
    updateRoute data st i = some (LState.updateRoute data st i) := by
  obtain ⟨plan', hs, -, hc, -⟩ := LState.updateRoute_spec h hr hi
  have hr' := fun k hk => hs.routeOk (hr k hk)
  have hroute := holds_route hc.1 hi
  have hread := readable_eq hd hc.1 hr' hi
  have hin := inRange_nodes hd hc.1 hr' hi
  unfold LState.updateRoute at hroute hread hin ⊢
  unfold updateRoute
  dsimp only at hroute hread hin ⊢
  rw [holds_route h.1 hi]
  simp only [Option.bind_eq_bind, Option.bind_some]
  rw [readable_eq hd h.1 hr hi, Option.bind_some, hroute, Option.bind_some, hread, Option.bind_some,
    ensure_true (by rw [hz.stamps]; exact hi), Option.bind_some, mapM_eq
      (g := fun p => (p.1, p.1.update data
        ((if ((SSol.updateRoute data st.sol i).route i).empty = true then
            SSol.clearRoute data (SSol.updateRoute data st.sol i) i
          else SSol.updateRoute data st.sol i).route i) p.2))]
  · rfl
  · intro p hp
    unfold updateCache
    rw [ensure_true]
    · rfl
    · intro n hn idx hidx
      rw [hz.caches p hp]
      exact cacheIdx_lt p.1 (hin n hn) hidx

theorem Sized.updateRoute {st : LState} (h : Sized data st) (i : Nat) :
    Sized data (LState.updateRoute data st i) := by
  refine ⟨h.tests, ?_, ?_⟩
  · show (st.lastUpdate.set i _).length = _
    rw [List.length_set]; exact h.stamps
  · intro p hp
    obtain ⟨q, hq, rfl⟩ := List.mem_map.1 hp
    rw [update_length]; exact h.caches q hq

theorem Sized.update {st : LState} (h : Sized data st) (u : Option Nat) (v : Nat) :
    Sized data (LState.update data st u v) := by
  rw [LState.update_eq]
  have h0 : Sized data { st with numUpdates := st.numUpdates + 1, completed := false } := ⟨h.1, h.2, h.3⟩
  generalize { st with numUpdates := st.numUpdates + 1, completed := false } = st0 at h0
  generalize LState.updated u v = ks
  induction ks generalizing st0 with
  | nil => exact h0
  | cons i ks ih => exact ih _ (h0.updateRoute i)

theorem update_eq (hd : Consistent data) {D : Nat → Prop} {st : LState} (h : CleanBut data D plan st.sol)
    (hr : ∀ k, k < data.numVehicles →
      RouteOk data (data.vehicleType (vehTypeAt data k)) (plan.getD k [])) (hz : Sized data st)
    {u : Option Nat} {v : Nat} (hu : ∀ i, u = some i → i < data.numVehicles) (hv : v < data.numVehicles) :
    update data st u v = some (LState.update data st u v) := by
  have h0 : Sized data { st with numUpdates := st.numUpdates + 1, completed := false } := ⟨hz.1, hz.2, hz.3⟩
  unfold update LState.update
  dsimp only
  cases u with
  | none =>
    simp only [Option.pure_def, Option.bind_eq_bind, Option.bind_some]
    rw [if_pos (by simp), if_pos (by simp)]
    exact updateRoute_eq hd (st := { st with numUpdates := st.numUpdates + 1, completed := false }) h hr h0 hv
  | some i =>
    have hi := hu i rfl
    dsimp only
    rw [updateRoute_eq hd (st := { st with numUpdates := st.numUpdates + 1, completed := false }) h hr h0 hi]
    simp only [Option.bind_eq_bind, Option.bind_some]
    obtain ⟨plan', hs, -, hc, -⟩ := LState.updateRoute_spec
      (st := { st with numUpdates := st.numUpdates + 1, completed := false }) h hr hi
    by_cases hiv : some i ≠ some v
    · rw [if_pos hiv, if_pos hiv]
      exact updateRoute_eq hd hc (fun k hk => hs.routeOk (hr k hk)) (h0.updateRoute i) hv
    · rw [if_neg hiv, if_neg hiv]; rfl

/-! ## Costs -/

theorem solutionCost_eq (hco : CostOk data ce) (hdist : DistancesOk data) (h : SearchOk data plan s) :
    solutionCost data ce s = some (planCost data ce plan) := by
  have hsz := h.clean.1.sized
  unfold solutionCost
  rw [ensure_true ⟨by rw [hsz.clients]; exact Nat.le_refl _, by rw [hsz.shipments]; exact Nat.le_refl _⟩]
  simp only [Option.bind_eq_bind, Option.bind_some]
  rw [mapM_eq (g := ce.penalisedCostSearch data)]
  · rw [Option.bind_some, planCost_eq h.clean]; rfl
  · intro r hr
    obtain ⟨i, hi, rfl⟩ := List.mem_iff_getElem.1 hr
    have hi' : i < data.numVehicles := by rw [← hsz.routes]; exact hi
    have hs := sound_route hco hdist h hi'
    have : s.route i = s.routes[i] := by
      unfold SSol.route
      rw [List.getD_eq_getElem?_getD, List.getElem?_eq_getElem hi]; rfl
    rw [this] at hs
    exact penalisedCost_eq hco hs

theorem settle_eq (hco : CostOk data ce) (hdist : DistancesOk data) {st : LState}
    (h : SearchOk data plan st.sol) {before delta : Int} (hc : planCost data ce plan = before + delta) :
    settle data ce before delta st = some (.ok (st, true)) := by
  unfold settle
  rw [solutionCost_eq hco hdist h, Option.bind_eq_bind, Option.bind_some, ensure_true hc]; rfl

/-- The cost after a move is what the move's evaluation said. -/
theorem moved_cost {plan' plan'' : List (List Activity)} {D : Nat → Prop} {δ : Int}
    (h : Moved data plan plan' D δ s) (hs : Settled plan' plan'') {cost : Int}
    (hcost : CostOk data ce → FitsOn data D plan' →
      cost = δ + routesCost data ce plan' - routesCost data ce plan)
    {I : List (List Activity) → Prop} (he : Exact data ce I) (hI : I plan) :
    planCost data ce plan'' = planCost data ce plan + cost := by
  have hc := hcost he.cost (fun k hk _ hu => he.fits plan hI k hk _ (h.routes k hk)
    (fun a ha => h.but.1.once a ha k) hu (Nat.le_trans (depotVisits_le_reloads plan' k) h.near))
  have h1 := hs.routesCost (data := data) (ce := ce) h.routes
  have h2 := (h.tasks.congr (fun a ha => hs.visited ha)).prizes
  unfold planCost
  omega

end PyVRP.Checked
