import Verif.Lemmas.OpsAll
import Verif.Model.LocalSearch
/-!
# The local search: states, updates, moves
-/
namespace PyVRP
open Spec
open SSol (used ofActs_empty At RefOk CleanBut)

variable {data : ProblemData} {ce : CostEvaluator}

/-! ## Clearing unused routes -/

theorem TaskChange.congr {P Q Q' : Activity → Prop} {δ : Int} (h : TaskChange data P Q δ)
    (hq : ∀ a : Activity, a.type ≠ .depot → (Q' a ↔ Q a)) : TaskChange data P Q' δ := by
  cases h with
  | same h => exact .same fun a ha => (hq a ha).trans (h a ha)
  | addClient c hc hn hg h => exact .addClient c hc hn hg fun a ha => (hq a ha).trans (h a ha)
  | removeClient c hc hp hr hg h =>
    exact .removeClient c hc hp hr hg fun a ha => (hq a ha).trans (h a ha)
  | replaceClient c c' hc hc' hp hn hr hg h =>
    exact .replaceClient c c' hc hc' hp hn hr hg fun a ha => (hq a ha).trans (h a ha)
  | addShipment k hk hn h => exact .addShipment k hk hn fun a ha => (hq a ha).trans (h a ha)
  | removeShipment k hk hp hr h =>
    exact .removeShipment k hk hp hr fun a ha => (hq a ha).trans (h a ha)
  | replaceShipment k k' hk hk' hp hn hr h =>
    exact .replaceShipment k k' hk hk' hp hn hr fun a ha => (hq a ha).trans (h a ha)

/-- The same routes, but some that do nothing have been cleared. -/
structure Settled (plan plan' : List (List Activity)) : Prop where
  length : plan'.length = plan.length
  routes : ∀ k, plan'.getD k [] = plan.getD k []
    ∨ (used (plan.getD k []) = false ∧ plan'.getD k [] = [])

theorem used_false {acts : List Activity} (h : used acts = false) {a : Activity} (ha : a ∈ acts) :
    a.type = .depot := by
  unfold used at h
  rw [List.any_eq_false] at h
  simpa using h a ha

namespace Settled

variable {plan plan' plan'' : List (List Activity)}

theorem refl (plan : List (List Activity)) : Settled plan plan := ⟨rfl, fun _ => .inl rfl⟩

theorem trans (h : Settled plan plan') (h' : Settled plan' plan'') : Settled plan plan'' := by
  refine ⟨h'.length.trans h.length, fun k => ?_⟩
  rcases h.routes k with h1 | h1 <;> rcases h'.routes k with h2 | h2
  · exact .inl (h2.trans h1)
  · exact .inr ⟨h1 ▸ h2.1, h2.2⟩
  · exact .inr ⟨h1.1, h2.trans h1.2⟩
  · exact .inr ⟨h1.1, h2.2⟩

theorem sub (h : Settled plan plan') {k : Nat} {a : Activity} (ha : a ∈ plan'.getD k []) :
    a ∈ plan.getD k [] := by
  rcases h.routes k with h1 | h1
  · rwa [h1] at ha
  · rw [h1.2] at ha; cases ha

theorem visited (h : Settled plan plan') {a : Activity} (ha : a.type ≠ .depot) :
    Visited plan' a ↔ Visited plan a := by
  constructor
  · rintro ⟨k, hk⟩; exact ⟨k, h.sub hk⟩
  · rintro ⟨k, hk⟩
    rcases h.routes k with h1 | h1
    · exact ⟨k, by rw [h1]; exact hk⟩
    · exact absurd (used_false h1.1 hk) ha

theorem routeOk (h : Settled plan plan') {k : Nat} {v : VehicleType}
    (hr : RouteOk data v (plan.getD k [])) : RouteOk data v (plan'.getD k []) := by
  rcases h.routes k with h1 | h1
  · rw [h1]; exact hr
  · rw [h1.2]
    refine ⟨fun a ha => (by cases ha), fun s => by simp [Phase.run, Phase.Ok], ?_⟩
    have := hr.trips
    have : depotVisits [] = 0 := rfl
    omega

theorem routesCost (h : Settled plan plan')
    (hr : ∀ k, k < data.numVehicles →
      RouteOk data (data.vehicleType (vehTypeAt data k)) (plan.getD k [])) :
    PyVRP.routesCost data ce plan' = PyVRP.routesCost data ce plan := by
  unfold PyVRP.routesCost
  apply sum_range_same
  intro k hk
  rcases h.routes k with h1 | h1
  · rw [h1]
  · rw [h1.2, routeCost_nil, routeCost_unused ce _ (hr k hk).wellFormed h1.1]

theorem reloads (h : Settled plan plan') : Spec.reloads plan' ≤ Spec.reloads plan := by
  obtain ⟨hl, hr⟩ := h
  unfold Spec.reloads
  induction plan generalizing plan' with
  | nil => rw [List.eq_nil_of_length_eq_zero hl]; exact Nat.le_refl _
  | cons x plan ih =>
    cases plan' with
    | nil => cases hl
    | cons y plan' =>
      simp only [List.map_cons, List.sum_cons]
      have h0 : depotVisits y ≤ depotVisits x := by
        rcases hr 0 with h1 | h1
        · have : y = x := h1
          rw [this]; exact Nat.le_refl _
        · have : y = [] := h1.2
          rw [this]; exact Nat.zero_le _
      have h1 := ih (plan' := plan') (by simpa using hl) (fun k => hr (k + 1))
      omega

end Settled

/-! ## Updating -/

/-- All binary operators are valid, and their caches up to date. -/
def CachesOk (data : ProblemData) (ce : CostEvaluator) (s : SSol) (binary : List (BinaryOp × Cache)) :
    Prop :=
  ∀ p ∈ binary, p.1.Valid ∧ p.1.CacheOk data ce s p.2

namespace LState

/-- What remains of caches after updating the routes in `ks`. -/
structure Dropped (data : ProblemData) (plan : List (List Activity)) (ks : Nat → Prop)
    (p p' : BinaryOp × Cache) : Prop where
  op : p'.1 = p.1
  sub : ∀ idx x, p'.2.getD idx none = some x → p.2.getD idx none = some x
  drop : ∀ k, ks k → ∀ a ∈ plan.getD k [], ∀ idx, p.1.cacheIdx data a = some idx →
    p'.2.getD idx none = none

theorem updateRoute_spec {plan : List (List Activity)} {D : Nat → Prop} {st : LState}
    (h : CleanBut data D plan st.sol)
    (hr : ∀ k, k < data.numVehicles →
      RouteOk data (data.vehicleType (vehTypeAt data k)) (plan.getD k []))
    {i : Nat} (hi : i < data.numVehicles) :
    ∃ plan', Settled plan plan' ∧ (∀ k, k ≠ i → plan'.getD k [] = plan.getD k [])
      ∧ CleanBut data (fun j => D j ∧ j ≠ i) plan' (updateRoute data st i).sol
      ∧ ∀ p' ∈ (updateRoute data st i).binary, ∃ p ∈ st.binary, Dropped data plan' (fun k => k = i) p p' := by
  have h1 := h.update hi
  have hroute : (st.sol.updateRoute data i).route i
      = SRoute.ofActs data (vehTypeAt data i) (plan.getD i []) := h1.2 i hi (fun h => h.2 rfl)
  have hemp : ((st.sol.updateRoute data i).route i).empty = !used (plan.getD i []) := by
    rw [hroute]; exact ofActs_empty (hr i hi).wellFormed
  have hlen : i < plan.length := by rw [h.1.length]; exact hi
  -- the caches
  have key : ∀ (plan' : List (List Activity)) (s : SSol),
      (s.route i).Visits data (plan'.getD i []) →
      ∀ p' ∈ st.binary.map (fun p => (p.1, p.1.update data (s.route i) p.2)), ∃ p ∈ st.binary,
        Dropped data plan' (fun k => k = i) p p' := by
    intro plan' s hv p' hp'
    obtain ⟨p, hp, rfl⟩ := List.mem_map.1 hp'
    refine ⟨p, hp, rfl, fun idx x hx => BinaryOp.update_sub _ _ _ _ _ _ hx, ?_⟩
    rintro k rfl a ha idx hidx
    have hmem : a ∈ (s.route k).nodes.map SNode.activity := by
      rw [hv, SRoute.canon_activities]
      exact List.mem_cons_of_mem _ (List.mem_append.2 (.inl ha))
    obtain ⟨n, hn, rfl⟩ := List.mem_map.1 hmem
    exact BinaryOp.update_none _ _ _ _ hn hidx
  unfold updateRoute
  dsimp only
  rw [hemp]
  cases hu : used (plan.getD i []) with
  | true =>
    simp only [Bool.not_true, Bool.false_eq_true, if_false]
    exact ⟨plan, Settled.refl _, fun _ _ => rfl, h1, key plan _ (h1.1.visits i hi)⟩
  | false =>
    simp only [Bool.not_false, if_true]
    have h2 := h1.clear hi (fun h => h.2 rfl) (fun a ha => used_false hu ha)
    refine ⟨plan.set i [], ⟨by simp, fun k => ?_⟩, fun k hk => getD_set_ne _ hk _, h2,
      key _ _ (h2.1.visits i hi)⟩
    by_cases hk : k = i
    · subst hk; exact .inr ⟨hu, getD_set_self hlen _⟩
    · exact .inl (getD_set_ne _ hk _)

/-- Updating several routes. -/
theorem updates_spec (ks : List Nat) : ∀ {plan : List (List Activity)} {D : Nat → Prop} {st : LState},
    CleanBut data D plan st.sol →
    (∀ k, k < data.numVehicles →
      RouteOk data (data.vehicleType (vehTypeAt data k)) (plan.getD k [])) →
    (∀ k ∈ ks, k < data.numVehicles) →
    ∃ plan', Settled plan plan' ∧ (∀ k, k ∉ ks → plan'.getD k [] = plan.getD k [])
      ∧ CleanBut data (fun j => D j ∧ j ∉ ks) plan' (ks.foldl (updateRoute data) st).sol
      ∧ ∀ p' ∈ (ks.foldl (updateRoute data) st).binary, ∃ p ∈ st.binary,
          Dropped data plan' (fun k => k ∈ ks) p p' := by
  induction ks with
  | nil =>
    intro plan D st h _ _
    exact ⟨plan, Settled.refl _, fun _ _ => rfl, h.weaken (fun _ _ h => ⟨h, by simp⟩),
      fun p hp => ⟨p, hp, rfl, fun _ _ h => h, fun _ h => (by cases h)⟩⟩
  | cons i ks ih =>
    intro plan D st h hr hks
    obtain ⟨plan1, s1, k1, c1, d1⟩ := updateRoute_spec h hr (hks i (by simp))
    obtain ⟨plan2, s2, k2, c2, d2⟩ := ih c1 (fun k hk => s1.routeOk (hr k hk))
      (fun k hk => hks k (by simp [hk]))
    refine ⟨plan2, s1.trans s2, ?_, ?_, ?_⟩
    · intro k hk
      rw [List.mem_cons, not_or] at hk
      rw [k2 k hk.2, k1 k hk.1]
    · refine c2.weaken (fun j _ hj => ⟨hj.1.1, ?_⟩)
      rw [List.mem_cons, not_or]
      exact ⟨hj.1.2, hj.2⟩
    · intro p2 hp2
      obtain ⟨p1, hp1, e2, b2, f2⟩ := d2 p2 hp2
      obtain ⟨p, hp, e1, b1, f1⟩ := d1 p1 hp1
      refine ⟨p, hp, e2.trans e1, fun idx x hx => b1 idx x (b2 idx x hx), ?_⟩
      intro k hk a ha idx hidx
      rcases List.mem_cons.1 hk with rfl | hk
      · cases hx : p2.2.getD idx none with
        | none => rfl
        | some x =>
          have := b2 idx x hx
          rw [f1 k rfl a (s2.sub ha) idx hidx] at this
          cases this
      · exact f2 k hk a ha idx (by rw [e1]; exact hidx)

/-- The routes that `update(U, V)` updates. -/
def updated (u : Option Nat) (v : Nat) : List Nat := u.toList ++ (if u ≠ some v then [v] else [])

theorem mem_updated (u : Option Nat) (v k : Nat) : k ∈ updated u v ↔ u = some k ∨ k = v := by
  unfold updated
  cases u with
  | none => simp
  | some i =>
    by_cases h : i = v
    · subst h; simp [eq_comm]
    · rw [if_pos (by simpa using h)]
      simp [eq_comm]

theorem update_eq (st : LState) (u : Option Nat) (v : Nat) :
    update data st u v = (updated u v).foldl (updateRoute data)
      { st with numUpdates := st.numUpdates + 1, completed := false } := by
  unfold update updated
  cases u with
  | none => simp
  | some i =>
    by_cases h : i = v
    · subst h; simp
    · simp [h]

theorem updateRoute_rest (st : LState) (i : Nat) :
    (updateRoute data st i).space = st.space ∧ (updateRoute data st i).lastTest = st.lastTest
      ∧ (updateRoute data st i).numUpdates = st.numUpdates
      ∧ (updateRoute data st i).completed = st.completed := ⟨rfl, rfl, rfl, rfl⟩

theorem updates_rest (ks : List Nat) : ∀ st : LState,
    (ks.foldl (updateRoute data) st).space = st.space
      ∧ (ks.foldl (updateRoute data) st).lastTest = st.lastTest
      ∧ (ks.foldl (updateRoute data) st).numUpdates = st.numUpdates
      ∧ (ks.foldl (updateRoute data) st).completed = st.completed := by
  induction ks with
  | nil => intro st; exact ⟨rfl, rfl, rfl, rfl⟩
  | cons i ks ih => intro st; exact ih _

theorem update_rest (st : LState) (u : Option Nat) (v : Nat) :
    (update data st u v).space = st.space
      ∧ (update data st u v).numUpdates = st.numUpdates + 1
      ∧ (update data st u v).completed = false := by
  rw [update_eq]
  obtain ⟨h1, -, h3, h4⟩ := updates_rest (data := data) (updated u v)
    { st with numUpdates := st.numUpdates + 1, completed := false }
  exact ⟨h1, h3, h4⟩

theorem updates_stamps (ks : List Nat) : ∀ st : LState,
    (ks.foldl (updateRoute data) st).lastUpdate.length = st.lastUpdate.length
      ∧ (ks.foldl (updateRoute data) st).binary.map (·.1) = st.binary.map (·.1)
      ∧ ∀ k, k < st.lastUpdate.length → (ks.foldl (updateRoute data) st).lastUpdate.getD k 0
        = if k ∈ ks then (st.numUpdates : Int) else st.lastUpdate.getD k 0 := by
  induction ks with
  | nil => intro st; exact ⟨rfl, rfl, fun k _ => by simp⟩
  | cons i ks ih =>
    intro st
    obtain ⟨h1, h2, h3⟩ := ih (updateRoute data st i)
    have hl : (updateRoute data st i).lastUpdate.length = st.lastUpdate.length := by
      simp [updateRoute]
    have hb : (updateRoute data st i).binary.map (·.1) = st.binary.map (·.1) := by
      simp [updateRoute, Function.comp_def]
    refine ⟨h1.trans hl, h2.trans hb, fun k hk => ?_⟩
    rw [List.foldl_cons, h3 k (by omega)]
    have hn : (updateRoute data st i).numUpdates = st.numUpdates := rfl
    have hu : (updateRoute data st i).lastUpdate = st.lastUpdate.set i st.numUpdates := rfl
    rw [hn, hu]
    by_cases hks : k ∈ ks
    · simp [hks]
    · by_cases hki : k = i
      · subst hki
        simp [hks, List.getD_eq_getElem?_getD, hk]
      · have : ¬ i = k := fun h => hki h.symm
        simp [hks, hki, this, List.getD_eq_getElem?_getD, List.getElem?_set]

/-- The stamps after an update. -/
theorem update_stamps (st : LState) (u : Option Nat) (v : Nat) :
    (update data st u v).lastUpdate.length = st.lastUpdate.length
      ∧ (update data st u v).binary.map (·.1) = st.binary.map (·.1)
      ∧ (update data st u v).lastTest = st.lastTest
      ∧ ∀ k, k < st.lastUpdate.length → (update data st u v).lastUpdate.getD k 0
        = if u = some k ∨ k = v then (st.numUpdates : Int) + 1 else st.lastUpdate.getD k 0 := by
  rw [update_eq]
  obtain ⟨h1, h2, h3⟩ := updates_stamps (data := data) (updated u v)
    { st with numUpdates := st.numUpdates + 1, completed := false }
  refine ⟨h1, h2, (updates_rest (data := data) (updated u v) _).2.1, fun k hk => ?_⟩
  rw [h3 k hk]
  simp only [mem_updated]
  rfl

/-- After a change of routes and an update with these, everything is up to date. -/
theorem update_spec {plan plan' : List (List Activity)} {D : Nat → Prop} {s : SSol} {st : LState}
    (h0 : SearchOk data plan s) (hc : CachesOk data ce s st.binary)
    (h : CleanBut data D plan' st.sol)
    (hr : ∀ k, k < data.numVehicles →
      RouteOk data (data.vehicleType (vehTypeAt data k)) (plan'.getD k []))
    (kept : ∀ k, ¬ D k → plan'.getD k [] = plan.getD k [])
    {u : Option Nat} {v : Nat} (hD : ∀ k, D k → u = some k ∨ k = v)
    (hu : ∀ i, u = some i → i < data.numVehicles) (hv : v < data.numVehicles) :
    ∃ plan'', Settled plan' plan'' ∧ SearchOk data plan'' (update data st u v).sol
      ∧ CachesOk data ce (update data st u v).sol (update data st u v).binary
      ∧ ∀ k, ¬ (u = some k ∨ k = v) → plan''.getD k [] = plan.getD k [] := by
  rw [update_eq]
  obtain ⟨plan2, s2, k2, c2, d2⟩ := updates_spec (st :=
    { st with numUpdates := st.numUpdates + 1, completed := false }) (updated u v) h hr (by
      intro k hk
      rcases (mem_updated u v k).1 hk with h | h
      · exact hu k h
      · rw [h]; exact hv)
  have hclean : SearchOk data plan2 ((updated u v).foldl (updateRoute data)
      { st with numUpdates := st.numUpdates + 1, completed := false }).sol :=
    ⟨c2.clean (fun k _ hk => hk.2 ((mem_updated u v k).2 (hD k hk.1))),
      fun k hk => s2.routeOk (hr k hk)⟩
  refine ⟨plan2, s2, hclean, ?_, ?_⟩
  case refine_2 =>
    intro k hk
    rw [k2 k (fun h => hk ((mem_updated u v k).1 h))]
    exact kept k (fun h => hk (hD k h))
  intro p' hp'
  obtain ⟨p, hp, e, hsub, hdrop⟩ := d2 p' hp'
  obtain ⟨hval, hok⟩ := hc p hp
  refine ⟨by rw [e]; exact hval, ?_⟩
  rw [e]
  refine hok.change h0 hclean (D := fun k => k ∈ updated u v) ?_ hsub
    (fun k hk _ a ha idx hidx => hdrop k hk a ha idx hidx)
  intro k hk
  rw [k2 k hk]
  refine kept k (fun hd => hk ((mem_updated u v k).2 (hD k hd)))

end LState
end PyVRP
