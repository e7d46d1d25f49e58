import Verif.Lemmas.OpsSwap
import Verif.Lemmas.OpsTails
import Verif.Lemmas.OpsAlternative
import Verif.Lemmas.OpsPair
/-!
# All operators: improvements, caches, outcomes
-/
namespace PyVRP
open Spec
open SSol (used ofActs_empty At RefOk CleanBut)

variable {data : ProblemData} {plan : List (List Activity)} {s : SSol}

/-! ## Applicable moves improve -/

/-- A move is only applied when it improves. -/
def Verdict.Neg (v : Verdict) : Prop := v.apply = true → v.cost < 0

theorem Verdict.neg_no : Verdict.no.Neg := fun h => by cases h
theorem Verdict.neg_of (cost : Int) (m : Move) : (Verdict.of cost m).Neg := Verdict.of_apply.1
theorem Verdict.neg_neg {cost : Int} (h : cost < 0) (b : Bool) (m : Move) :
    (Verdict.mk cost b m).Neg := fun _ => h
theorem Verdict.neg_false (cost : Int) (m : Move) : (Verdict.mk cost false m).Neg :=
  fun h => by cases h

theorem Verdict.neg_ite {cost : Int} {m : Move} {v : Verdict} (h : v.Neg) :
    (if cost < 0 then ⟨cost, true, m⟩ else v).Neg := by
  split
  · rename_i hc; exact Verdict.neg_neg hc _ _
  · exact h

theorem RelocateAlternative.search_neg (u : Nat) (cost : Nat → Int) :
    ∀ members, (search u cost members).Neg
  | [] => Verdict.neg_no
  | c :: rest => by
    unfold search
    split
    · exact search_neg u cost rest
    · split
      · rename_i h; exact Verdict.neg_neg h _ _
      · exact search_neg u cost rest

theorem InsertOptionalShipment.later_neg (data : ProblemData) (ce : CostEvaluator) (r : SRoute) (v : Nat)
    (out : Int) (pk dl : Seg) : ∀ nodes next, (later data ce r v out pk dl nodes next).Neg
  | [], _ => Verdict.neg_no
  | n :: nodes, next => by
    unfold later
    split
    · exact Verdict.neg_no
    · dsimp only
      split
      · rename_i h; exact Verdict.neg_neg h _ _
      · exact later_neg data ce r v out pk dl nodes (next + 1)

theorem InsertOptionalShipment.search_neg (data : ProblemData) (ce : CostEvaluator) (r : SRoute) (v : Nat)
    (out : Int) (pk dl : Seg) : (search data ce r v out pk dl).Neg := by
  unfold search
  dsimp only
  split
  · rename_i h; exact Verdict.neg_neg h _ _
  · exact later_neg _ _ _ _ _ _ _ _ _

theorem RelocatePickup.search_neg (data : ProblemData) (ce : CostEvaluator) (r : SRoute) (k u : Nat) :
    ∀ nodes pos, (search data ce r k u nodes pos).Neg
  | [], _ => by unfold search; first | exact Verdict.neg_no | exact Verdict.neg_false _ _
  | n :: nodes, pos => by
    unfold search
    split
    · exact Verdict.neg_false _ _
    · split
      · exact search_neg data ce r k u nodes _
      · exact Verdict.neg_ite (search_neg data ce r k u nodes _)

theorem RelocateDelivery.search_neg (data : ProblemData) (ce : CostEvaluator) (r : SRoute) (k d : Nat) :
    ∀ nodes pos, (search data ce r k d nodes pos).Neg
  | [], _ => by unfold search; first | exact Verdict.neg_no | exact Verdict.neg_false _ _
  | n :: nodes, pos => by
    unfold search
    split
    · exact Verdict.neg_false _ _
    · split
      · exact search_neg data ce r k d nodes _
      · exact Verdict.neg_ite (search_neg data ce r k d nodes _)

theorem BinaryOp.neg (op : BinaryOp) (data : ProblemData) (ce : CostEvaluator) (s : SSol) (cache : Cache)
    (u : Activity) (v : NodeRef) : (op.evaluate data ce s cache u v).1.Neg := by
  cases op <;> simp only [BinaryOp.evaluate]
  case relocate n =>
    unfold Relocate.evaluate Relocate.same Relocate.different
    (try dsimp only)
    repeat' (split <;> (try dsimp only))
    all_goals first | exact Verdict.neg_no | exact Verdict.neg_of _ _
  case swap n m =>
    unfold Swap.evaluate Swap.same Swap.different
    (try dsimp only)
    repeat' (split <;> (try dsimp only))
    all_goals first | exact Verdict.neg_no | exact Verdict.neg_of _ _
  case swapTails =>
    unfold SwapTails.evaluate
    (try dsimp only)
    repeat' (split <;> (try dsimp only))
    all_goals first | exact Verdict.neg_no | exact Verdict.neg_of _ _
  case relocateWithDepot =>
    unfold RelocateWithDepot.evaluate
    (try dsimp only)
    repeat' (split <;> (try dsimp only))
    all_goals first | exact Verdict.neg_no | exact Verdict.neg_of _ _
  case relocateAlternative =>
    unfold RelocateAlternative.evaluate
    (try dsimp only)
    repeat' (split <;> (try dsimp only))
    all_goals first | exact Verdict.neg_no | exact RelocateAlternative.search_neg _ _ _
  case insertOptionalClient =>
    unfold InsertOptionalClient.evaluate
    (try dsimp only)
    repeat' (split <;> (try dsimp only))
    all_goals first | exact Verdict.neg_no | exact Verdict.neg_of _ _
  case replaceOptionalClient =>
    unfold ReplaceOptionalClient.evaluate
    (try dsimp only)
    repeat' (split <;> (try dsimp only))
    all_goals first | exact Verdict.neg_no | exact Verdict.neg_of _ _
  case insertOptionalShipment =>
    unfold InsertOptionalShipment.evaluate
    (try dsimp only)
    repeat' (split <;> (try dsimp only))
    all_goals first | exact Verdict.neg_no | exact InsertOptionalShipment.search_neg _ _ _ _ _ _ _
  case replaceOptionalShipment =>
    unfold ReplaceOptionalShipment.evaluate
    (try dsimp only)
    repeat' (split <;> (try dsimp only))
    all_goals first | exact Verdict.neg_no | exact Verdict.neg_of _ _
  case relocateShipment =>
    unfold RelocateShipment.evaluate
    (try dsimp only)
    repeat' (split <;> (try dsimp only))
    all_goals first | exact Verdict.neg_no | exact InsertOptionalShipment.search_neg _ _ _ _ _ _ _

theorem UnaryOp.neg (op : UnaryOp) (data : ProblemData) (ce : CostEvaluator) (s : SSol)
    (u : Activity) (h : op ≠ .removeAdjacentDepot) : (op.evaluate data ce s u).Neg := by
  cases op <;> simp only [UnaryOp.evaluate]
  case removeAdjacentDepot => exact absurd rfl h
  case removeOptionalClient =>
    unfold RemoveOptionalClient.evaluate
    (try dsimp only)
    repeat' (split <;> (try dsimp only))
    all_goals first | exact Verdict.neg_no | exact Verdict.neg_of _ _
  case replaceGroup =>
    unfold ReplaceGroup.evaluate
    (try dsimp only)
    repeat' (split <;> (try dsimp only))
    all_goals first | exact Verdict.neg_no | exact Verdict.neg_of _ _
  case removeOptionalShipment =>
    unfold RemoveOptionalShipment.evaluate
    (try dsimp only)
    repeat' (split <;> (try dsimp only))
    all_goals first | exact Verdict.neg_no | exact Verdict.neg_of _ _
  case relocatePickup =>
    unfold RelocatePickup.evaluate
    (try dsimp only)
    repeat' (split <;> (try dsimp only))
    all_goals first | exact Verdict.neg_no | exact RelocatePickup.search_neg _ _ _ _ _ _ _
  case relocateDelivery =>
    unfold RelocateDelivery.evaluate
    (try dsimp only)
    repeat' (split <;> (try dsimp only))
    all_goals first | exact Verdict.neg_no | exact RelocateDelivery.search_neg _ _ _ _ _ _ _

theorem RemoveAdjacentDepot.le (data : ProblemData) (ce : CostEvaluator) (s : SSol) (u : Activity)
    (h : (evaluate data ce s u).apply = true) : (evaluate data ce s u).cost ≤ 0 := by
  unfold evaluate at h ⊢
  split at h
  · cases h
  · simpa using h

/-! ## Caches -/

namespace BinaryOp

/-- The value to be cached for an activity in a route. -/
def fresh (op : BinaryOp) (data : ProblemData) (ce : CostEvaluator) (s : SSol) (a : Activity) : Int :=
  match s.place a with
  | none => 0
  | some (i, p) =>
    match op with
    | .relocate n => Relocate.removeCost n data ce (s.route i) p
    | .relocateWithDepot => RelocateWithDepot.removeCost data ce (s.route i) p 0
    | .relocateAlternative =>
      RelocateWithDepot.removeCost data ce (s.route i) p (data.client a.idx).prize
    | .relocateShipment =>
      match s.place ⟨.delivery, a.idx⟩ with
      | none => 0
      | some (_, d) => RemoveOptionalShipment.cost true data ce (s.route i) p d 0
    | _ => 0

/-- Entries of the cache for activities in routes hold. -/
def CacheOk (op : BinaryOp) (data : ProblemData) (ce : CostEvaluator) (s : SSol) (cache : Cache) :
    Prop :=
  ∀ a ∈ allTasks data, ∀ node, s.place a = some node → ∀ idx x, op.cacheIdx data a = some idx →
    cache.getD idx none = some x → x = op.fresh data ce s a

theorem mem_allTasks {a : Activity} (h : a ∈ allTasks data) :
    (a.type = .client ∧ a.idx < data.numClients) ∨ (a.type = .pickup ∧ a.idx < data.numShipments) := by
  unfold allTasks at h
  simp only [List.mem_append, List.mem_map, List.mem_range] at h
  rcases h with ⟨i, hi, rfl⟩ | ⟨i, hi, rfl⟩
  · exact .inl ⟨rfl, hi⟩
  · exact .inr ⟨rfl, hi⟩

theorem cacheIdx_inj (op : BinaryOp) {a b : Activity} (ha : a ∈ allTasks data) (hb : b ∈ allTasks data)
    {idx : Nat} (h1 : op.cacheIdx data a = some idx) (h2 : op.cacheIdx data b = some idx) : a = b := by
  obtain ⟨ta, ia⟩ := a
  obtain ⟨tb, ib⟩ := b
  rcases mem_allTasks ha with ⟨k1, k2⟩ | ⟨k1, k2⟩ <;> rcases mem_allTasks hb with ⟨k3, k4⟩ | ⟨k3, k4⟩ <;>
    dsimp only at k1 k2 k3 k4 <;> subst k1 <;> subst k3 <;>
    cases op <;> simp [cacheIdx] at h1 h2 <;> simp <;> omega

theorem lookup_fresh {op : BinaryOp} {ce : CostEvaluator} {cache : Cache}
    (h : op.CacheOk data ce s cache) {u : Activity} (hu : u ∈ allTasks data) {node : Nat × Nat}
    (hp : s.place u = some node) {idx : Nat} (hidx : op.cacheIdx data u = some idx) :
    cache.lookup idx (op.fresh data ce s u) = op.fresh data ce s u := by
  unfold Cache.lookup
  cases hc : cache.getD idx none with
  | none => rfl
  | some x => exact h u hu node hp idx x hidx hc

theorem cache_getD_set (cache : Cache) (i j : Nat) (x : Option Int) :
    (cache.set i x).getD j none = if j = i ∧ i < cache.length then x else cache.getD j none := by
  simp only [List.getD_eq_getElem?_getD, List.getElem?_set]
  by_cases h : i = j
  · subst h
    by_cases h' : i < cache.length
    · simp [h']
    · simp [h']
  · have : ¬ j = i := fun h' => h h'.symm
    simp [h, this]

theorem CacheOk.store {op : BinaryOp} {ce : CostEvaluator} {cache : Cache}
    (h : op.CacheOk data ce s cache) {u : Activity} (hu : u ∈ allTasks data) {node : Nat × Nat}
    (hp : s.place u = some node) {idx : Nat} (hidx : op.cacheIdx data u = some idx) {x : Int}
    (hx : x = op.fresh data ce s u) : op.CacheOk data ce s (cache.store idx (cache.lookup idx x)) := by
  subst hx
  rw [lookup_fresh h hu hp hidx]
  intro a ha node' hpa idx' y hidx' hy
  unfold Cache.store at hy
  rw [cache_getD_set] at hy
  split at hy
  · rename_i hi
    rw [hi.1] at hidx'
    rw [cacheIdx_inj op ha hu hidx' hidx]
    exact (Option.some.inj hy).symm
  · exact h a ha node' hpa idx' y hidx' hy

theorem relocate_cacheIdx {u : Activity} (hu : u ∈ allTasks data) (n : Nat) :
    (BinaryOp.relocate n).cacheIdx data u = some (Relocate.cacheIdx data u) := by
  obtain ⟨ty, k⟩ := u
  rcases mem_allTasks hu with ⟨rfl, -⟩ | ⟨rfl, -⟩ <;> simp [cacheIdx, Relocate.cacheIdx, Activity.isClient]

theorem client_of_flag {u : Activity} (h : u.isClient = true) : u.type = .client := by
  obtain ⟨ty, k⟩ := u
  cases ty <;> simp [Activity.isClient] at h ⊢

theorem pickup_of_flag {u : Activity} (h : u.isPickup = true) : u.type = .pickup := by
  obtain ⟨ty, k⟩ := u
  cases ty <;> simp [Activity.isPickup] at h ⊢

/-- Evaluating keeps the cache in order. -/
theorem CacheOk.evaluate {op : BinaryOp} {ce : CostEvaluator} {cache : Cache}
    (h : op.CacheOk data ce s cache) {u : Activity} (hu : u ∈ allTasks data) (v : NodeRef) :
    op.CacheOk data ce s (op.evaluate data ce s cache u v).2 := by
  cases op <;> simp only [BinaryOp.evaluate] <;> try exact h
  case relocate n =>
    unfold Relocate.evaluate
    split
    · rename_i i p j q hp hv
      dsimp only
      repeat' split
      all_goals first
        | exact h
        | exact h.store hu hp (relocate_cacheIdx hu n) (by simp only [fresh, hp])
    · exact h
  case relocateWithDepot =>
    unfold RelocateWithDepot.evaluate
    split
    · rename_i i p j q hp hv
      dsimp only
      split
      · exact h
      · rename_i hf
        simp only [Bool.or_eq_true, not_or, Bool.not_eq_true, Bool.not_eq_false'] at hf
        have hty := client_of_flag hf.1.1
        repeat' split
        all_goals first
          | exact h
          | exact h.store hu hp (by simp [cacheIdx, hty]) (by simp only [fresh, hp])
    · exact h
  case relocateAlternative =>
    unfold RelocateAlternative.evaluate
    split
    · rename_i i p j q hp hv
      dsimp only
      split
      · exact h
      · rename_i hf
        simp only [Bool.or_eq_true, not_or, Bool.not_eq_true, Bool.not_eq_false'] at hf
        have hty := client_of_flag hf.1.1
        repeat' split
        all_goals first
          | exact h
          | exact h.store hu hp (by simp [cacheIdx, hty]) (by simp only [fresh, hp])
    · exact h
  case relocateShipment =>
    unfold RelocateShipment.evaluate
    split
    · rename_i i p j q k d hp hd hv
      dsimp only
      split
      · exact h
      · rename_i hf
        simp only [Bool.or_eq_true, not_or, Bool.not_eq_true, Bool.not_eq_false'] at hf
        have hty := pickup_of_flag hf.1
        exact h.store hu hp (by simp [cacheIdx, hty]) (by simp only [fresh, hp, hd])
    · exact h

/-- A new cache is empty. -/
theorem init_ok (op : BinaryOp) (data : ProblemData) (ce : CostEvaluator) (s : SSol) :
    op.CacheOk data ce s (op.init data) := by
  intro a _ _ _ idx x _ hx
  unfold init at hx
  rw [List.getD_eq_getElem?_getD, List.getElem?_replicate] at hx
  split at hx <;> cases hx

/-- Updating only drops entries. -/
theorem update_sub (op : BinaryOp) (data : ProblemData) (r : SRoute) (cache : Cache) (idx : Nat) (x : Int)
    (h : (op.update data r cache).getD idx none = some x) : cache.getD idx none = some x := by
  unfold update at h
  generalize r.nodes = nodes at h
  induction nodes generalizing cache with
  | nil => exact h
  | cons n nodes ih =>
    have := ih _ h
    dsimp only at this
    split at this
    · rw [cache_getD_set] at this
      split at this
      · cases this
      · exact this
    · exact this

theorem update_none (op : BinaryOp) (data : ProblemData) (r : SRoute) (cache : Cache) {n : SNode}
    (hn : n ∈ r.nodes) {idx : Nat} (hi : op.cacheIdx data n.activity = some idx) :
    (op.update data r cache).getD idx none = none := by
  unfold update
  generalize r.nodes = nodes at hn
  induction nodes generalizing cache with
  | nil => cases hn
  | cons m nodes ih =>
    rw [List.foldl_cons]
    rcases List.mem_cons.1 hn with rfl | hn
    · rw [hi]
      dsimp only
      cases hc : (nodes.foldl (fun cache n =>
        match op.cacheIdx data n.activity with
        | some idx => cache.set idx none
        | none => cache) (cache.set idx none)).getD idx none with
      | none => rfl
      | some x =>
        have := update_sub op data { vehicleType := 0, nodes := nodes } (cache.set idx none) idx x hc
        rw [cache_getD_set] at this
        split at this
        · cases this
        · rename_i hlen
          have hlen : ¬ idx < cache.length := fun h => hlen ⟨rfl, h⟩
          rw [List.getD_eq_getElem?_getD, List.getElem?_eq_none (by omega)] at this
          cases this
    · exact ih _ hn

/-- The value for an activity in an unchanged route is unchanged. -/
theorem fresh_congr {plan' : List (List Activity)} {s' : SSol} (op : BinaryOp) (ce : CostEvaluator)
    (h : SearchOk data plan s) (h' : SearchOk data plan' s') {k : Nat}
    (hk : plan'.getD k [] = plan.getD k []) {a : Activity} {idx : Nat}
    (hidx : op.cacheIdx data a = some idx) {p : Nat} (hp : s'.place a = some (k, p)) :
    s.place a = some (k, p) ∧ op.fresh data ce s a = op.fresh data ce s' a := by
  obtain ⟨hkv, hat, xs, ys, he, rfl⟩ := h'.clean.1.place_some hp
  have hp0 : s.place a = some (k, xs.length + 1) :=
    h.clean.1.place hkv hat (by rw [← hk]; exact he)
  have hr : s.route k = s'.route k := by rw [h.route hkv, h'.route hkv, hk]
  refine ⟨hp0, ?_⟩
  unfold fresh
  rw [hp, hp0]
  dsimp only
  rw [hr]
  cases op <;> try rfl
  dsimp only
  obtain ⟨ty, j⟩ := a
  have hty : ty = .pickup := by
    cases ty <;> simp [cacheIdx] at hidx ⊢
  subst hty
  obtain ⟨xs1, ms, ys1, h1, -, -, -, -, -, h2⟩ := h'.shipment hkv (k := j)
    (.inl (by rw [he]; simp))
  have h3 : s.place ⟨.delivery, j⟩ = some (k, xs1.length + 1 + ms.length + 1) := by
    rw [h.clean.1.place hkv (xs := xs1 ++ ⟨.pickup, j⟩ :: ms) (ys := ys1) (by simp)
      (by rw [← hk, h1]; simp)]
    simp; omega
  rw [h2, h3]

/-- The cache is in order after changing routes and updating it with these. -/
theorem CacheOk.change {plan' : List (List Activity)} {s' : SSol} {op : BinaryOp} {ce : CostEvaluator}
    {cache cache' : Cache} (hc : op.CacheOk data ce s cache) (h : SearchOk data plan s)
    (h' : SearchOk data plan' s') {D : Nat → Prop}
    (hkept : ∀ k, ¬ D k → plan'.getD k [] = plan.getD k [])
    (hsub : ∀ idx x, cache'.getD idx none = some x → cache.getD idx none = some x)
    (hdrop : ∀ k, D k → k < data.numVehicles → ∀ a ∈ plan'.getD k [], ∀ idx,
      op.cacheIdx data a = some idx → cache'.getD idx none = none) :
    op.CacheOk data ce s' cache' := by
  intro a ha node hp idx x hidx hx
  obtain ⟨k, p⟩ := node
  by_cases hD : D k
  · obtain ⟨hkv, -, xs, ys, he, -⟩ := h'.clean.1.place_some hp
    rw [hdrop k hD hkv a (by rw [he]; simp) idx hidx] at hx
    cases hx
  · obtain ⟨h1, h2⟩ := fresh_congr op ce h h' (hkept k hD) hidx hp
    rw [← h2]
    exact hc a ha _ h1 idx x hidx (hsub idx x hx)

/-! ## What operators do -/

/-- The operators that there are. -/
def Valid : BinaryOp → Prop
  | .relocate n => 1 ≤ n
  | .swap n m => 1 ≤ m ∧ m ≤ n
  | _ => True

theorem inRange_of_task {u : Activity} (hu : u ∈ allTasks data) : InRange data u := by
  obtain ⟨ty, k⟩ := u
  rcases mem_allTasks hu with ⟨rfl, h⟩ | ⟨rfl, h⟩ <;> exact h

theorem outcome (op : BinaryOp) (hop : op.Valid) (ce : CostEvaluator) (hd : Consistent data)
    (h : SearchOk data plan s) (hex : Exclusive data plan) {u : Activity} (hu : u ∈ allTasks data)
    {v : NodeRef} (hv : RefOk data v) (hvu : v ≠ .task u) {cache : Cache}
    (hc : op.CacheOk data ce s cache) (hap : (op.evaluate data ce s cache u v).1.apply = true) :
    Outcome data ce plan (Touched s u v) (op.evaluate data ce s cache u v).1.cost True
      (op.apply data s u v (op.evaluate data ce s cache u v).1.move) := by
  have hr := inRange_of_task hu
  cases op <;> simp only [BinaryOp.evaluate, BinaryOp.apply] at hap ⊢
  case relocate n =>
    refine (Relocate.outcome ce h hop hv cache hap).fresh (fun _ i p hp => ?_)
    have := lookup_fresh hc hu hp (relocate_cacheIdx hu n)
    simpa only [fresh, hp] using this
  case swap n m => exact Swap.outcome ce h hop.1 hop.2 hv hap
  case swapTails => exact SwapTails.outcome ce h hv hap
  case relocateWithDepot =>
    have hty : u.type = .client := by
      unfold RelocateWithDepot.evaluate at hap
      split at hap
      · dsimp only at hap
        split at hap
        · cases hap
        · rename_i hf
          simp only [Bool.or_eq_true, not_or, Bool.not_eq_true, Bool.not_eq_false'] at hf
          exact client_of_flag hf.1.1
      · cases hap
    refine (RelocateWithDepot.outcome ce hd h hv hvu cache hap).fresh (fun _ i p hp => ?_)
    have := lookup_fresh hc hu hp (idx := u.idx) (by simp [cacheIdx, hty])
    simpa only [fresh, hp] using this
  case relocateAlternative =>
    have hty : u.type = .client := by
      unfold RelocateAlternative.evaluate at hap
      split at hap
      · dsimp only at hap
        split at hap
        · cases hap
        · rename_i hf
          simp only [Bool.or_eq_true, not_or, Bool.not_eq_true, Bool.not_eq_false'] at hf
          exact client_of_flag hf.1.1
      · cases hap
    refine (RelocateAlternative.outcome ce hd h hex hv cache hap).fresh (fun _ i p hp => ?_)
    have := lookup_fresh hc hu hp (idx := u.idx) (by simp [cacheIdx, hty])
    simpa only [fresh, hp] using this
  case insertOptionalClient => exact InsertOptionalClient.outcome ce h hr hv hap
  case replaceOptionalClient => exact ReplaceOptionalClient.outcome ce h hr hv hap
  case insertOptionalShipment => exact InsertOptionalShipment.outcome ce h hr hv hap
  case replaceOptionalShipment => exact ReplaceOptionalShipment.outcome ce h hr hv hap
  case relocateShipment =>
    have hty : u.type = .pickup := by
      unfold RelocateShipment.evaluate at hap
      split at hap
      · dsimp only at hap
        split at hap
        · cases hap
        · rename_i hf
          simp only [Bool.or_eq_true, not_or, Bool.not_eq_true, Bool.not_eq_false'] at hf
          exact pickup_of_flag hf.1
      · cases hap
    refine (RelocateShipment.outcome ce h hv cache hap).fresh (fun _ i p j d hp hpd => ?_)
    have := lookup_fresh hc hu hp (idx := u.idx) (by simp [cacheIdx, hty])
    simpa only [fresh, hp, hpd] using this

/-- Where an applicable move looks. -/
theorem find_of_apply (op : BinaryOp) {ce : CostEvaluator} {cache : Cache} {u : Activity} {v : NodeRef}
    (hap : (op.evaluate data ce s cache u v).1.apply = true) : ∃ j q, s.find v = some (j, q) := by
  cases hv : s.find v with
  | some jq => exact ⟨jq.1, jq.2, rfl⟩
  | none =>
    exfalso
    cases op <;> simp only [BinaryOp.evaluate, Relocate.evaluate, Swap.evaluate, SwapTails.evaluate,
      RelocateWithDepot.evaluate, RelocateAlternative.evaluate, InsertOptionalClient.evaluate,
      ReplaceOptionalClient.evaluate, InsertOptionalShipment.evaluate, ReplaceOptionalShipment.evaluate,
      RelocateShipment.evaluate, hv] at hap <;>
      (split at hap <;> first | cases hap | (rename_i h1 h2; cases h2) | (rename_i h; cases h))

end BinaryOp

namespace UnaryOp

/-- A unary move changes one route: that of `u`, or the one that `u` is inserted in. -/
theorem outcome (op : UnaryOp) (ce : CostEvaluator) (hd : Consistent data) (h : SearchOk data plan s)
    {u : Activity} (hu : u ∈ allTasks data) (hap : (op.evaluate data ce s u).apply = true) :
    ∃ j plan' δ s', op.apply data s u (op.evaluate data ce s u).move = .ok s'
      ∧ ((∃ p, s.place u = some (j, p)) ∨ (s.place u = none ∧ s'.owner u = some j))
      ∧ Moved data plan plan' (fun k => k = j) δ s'
      ∧ (CostOk data ce → FitsOn data (fun k => k = j) plan' →
        (op.evaluate data ce s u).cost = δ + routesCost data ce plan' - routesCost data ce plan)
      ∧ ((op.evaluate data ce s u).cost < 0
        ∨ ((op.evaluate data ce s u).cost ≤ 0 ∧ δ = 0 ∧ reloads plan' < reloads plan)) := by
  have hr := BinaryOp.inRange_of_task hu
  have hneg := fun hne => UnaryOp.neg op data ce s u hne hap
  -- operators that need `u` in a route
  have routed : ∀ {result : Except Error SSol}, (∃ i p, s.place u = some (i, p)) →
      Outcome data ce plan (fun k => ∃ p, s.place u = some (k, p)) (op.evaluate data ce s u).cost True
        result → op.apply data s u (op.evaluate data ce s u).move = result →
      (op.evaluate data ce s u).cost < 0 →
      ∃ j plan' δ s', op.apply data s u (op.evaluate data ce s u).move = .ok s'
        ∧ ((∃ p, s.place u = some (j, p)) ∨ (s.place u = none ∧ s'.owner u = some j))
        ∧ Moved data plan plan' (fun k => k = j) δ s'
        ∧ (CostOk data ce → FitsOn data (fun k => k = j) plan' →
          (op.evaluate data ce s u).cost = δ + routesCost data ce plan' - routesCost data ce plan)
        ∧ ((op.evaluate data ce s u).cost < 0
          ∨ ((op.evaluate data ce s u).cost ≤ 0 ∧ δ = 0 ∧ reloads plan' < reloads plan)) := by
    rintro result ⟨i, p, hp⟩ hout hres hlt
    have hD : (fun k => ∃ p, s.place u = some (k, p)) = (fun k => k = i) := by
      funext k
      rw [hp]
      simp [eq_comm]
    rw [hD] at hout
    obtain ⟨plan', δ, s', h1, h2, h3⟩ := hout
    exact ⟨i, plan', δ, s', by rw [hres]; exact h1, .inl ⟨p, hp⟩, h2, fun a b => h3 a b trivial, .inl hlt⟩
  have hplaced : op ≠ .replaceGroup → ∃ i p, s.place u = some (i, p) := by
    intro hne
    cases hp : s.place u with
    | some ip => exact ⟨ip.1, ip.2, rfl⟩
    | none =>
      exfalso
      cases op <;> simp only [UnaryOp.evaluate, RemoveAdjacentDepot.evaluate, RemoveOptionalClient.evaluate,
        RemoveOptionalShipment.evaluate, RelocatePickup.evaluate, RelocateDelivery.evaluate, hp] at hap <;>
        first
        | (cases hap; done)
        | exact hne rfl
  cases op
  case removeAdjacentDepot =>
    obtain ⟨i, p, hp⟩ := hplaced (by simp)
    have hD : (fun k => ∃ p, s.place u = some (k, p)) = (fun k => k = i) := by
      funext k
      rw [hp]
      simp [eq_comm]
    obtain ⟨plan', s', h1, h2, h3, h4⟩ := RemoveAdjacentDepot.outcome ce h hap
    rw [hD] at h2 h4
    exact ⟨i, plan', 0, s', by simp only [UnaryOp.apply]; rw [← h1]; rfl, .inl ⟨p, hp⟩, h2,
      fun a b => by rw [Int.zero_add]; exact h4 a b,
      .inr ⟨RemoveAdjacentDepot.le data ce s u hap, rfl, by omega⟩⟩
  case removeOptionalClient =>
    exact routed (hplaced (by simp)) (RemoveOptionalClient.outcome ce h hap) rfl (hneg (by simp))
  case replaceGroup =>
    obtain ⟨j, ⟨plan', δ, s', h1, h2, h3⟩, h4, h5⟩ := ReplaceGroup.outcome ce hd h hr hap
    exact ⟨j, plan', δ, s', h1, .inr ⟨h4, h5 s' h1⟩, h2, fun a b => h3 a b trivial,
      .inl (hneg (by simp))⟩
  case removeOptionalShipment =>
    exact routed (hplaced (by simp)) (RemoveOptionalShipment.outcome ce h hap) rfl (hneg (by simp))
  case relocatePickup =>
    exact routed (hplaced (by simp)) (RelocatePickup.outcome ce h hap) rfl (hneg (by simp))
  case relocateDelivery =>
    exact routed (hplaced (by simp)) (RelocateDelivery.outcome ce h hap) rfl (hneg (by simp))

end UnaryOp
end PyVRP
