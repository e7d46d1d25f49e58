import Verif.Lemmas.Structural
/-!
# The local search: the outer loop and its termination
-/
namespace PyVRP
open Spec
open SSol (used ofActs_empty At RefOk CleanBut)

variable {data : ProblemData} {ce : CostEvaluator}

/-! ## Bounds on the cost of a plan -/

/-- A function on lists of bounded length over finitely many elements is bounded from below. -/
theorem bounded_lists {α : Type} (A : List α) : ∀ (n : Nat) (f : List α → Int),
    ∃ L, ∀ l : List α, l.length ≤ n → (∀ a ∈ l, a ∈ A) → L ≤ f l
  | 0, f => ⟨f [], fun l hl _ => by
      rw [List.length_eq_zero_iff.1 (Nat.le_zero.1 hl)]; exact Int.le_refl _⟩
  | n + 1, f => by
    have key : ∀ B : List α, ∃ L, ∀ a ∈ B, ∀ l : List α, l.length ≤ n → (∀ x ∈ l, x ∈ A) → L ≤ f (a :: l) := by
      intro B
      induction B with
      | nil => exact ⟨0, fun a ha => by cases ha⟩
      | cons b B ih =>
        obtain ⟨L, hL⟩ := ih
        obtain ⟨M, hM⟩ := bounded_lists A n (fun l => f (b :: l))
        refine ⟨min L M, fun a ha l h1 h2 => ?_⟩
        rcases List.mem_cons.1 ha with rfl | ha
        · have := hM l h1 h2; omega
        · have := hL a ha l h1 h2; omega
    obtain ⟨L, hL⟩ := key A
    refine ⟨min L (f []), fun l h1 h2 => ?_⟩
    cases l with
    | nil => omega
    | cons a l =>
      have := hL a (h2 a (by simp)) l (by simpa using h1) (fun x hx => h2 x (by simp [hx]))
      omega

/-- All activities of an instance. -/
def allActivities (data : ProblemData) : List Activity :=
  (List.range data.depots.length).map (⟨.depot, ·⟩) ++ ((List.range data.clients.length).map (⟨.client, ·⟩)
    ++ ((List.range data.shipments.length).map (⟨.pickup, ·⟩)
      ++ (List.range data.shipments.length).map (⟨.delivery, ·⟩)))

theorem mem_allActivities {a : Activity} (h : InRange data a) : a ∈ allActivities data := by
  obtain ⟨t, i⟩ := a
  unfold allActivities
  simp only [List.mem_append, List.mem_map, List.mem_range]
  cases t with
  | depot => exact .inl ⟨i, h, rfl⟩
  | client => exact .inr (.inl ⟨i, h, rfl⟩)
  | pickup => exact .inr (.inr (.inl ⟨i, h, rfl⟩))
  | delivery => exact .inr (.inr (.inr ⟨i, h, rfl⟩))

/-- The length of a route. -/
theorem RouteOk.length_le {v : VehicleType} {acts : List Activity} (h : RouteOk data v acts)
    (hon : ∀ a : Activity, a.type ≠ .depot → acts.count a ≤ 1) :
    acts.length ≤ data.numClients + 2 * data.numShipments + depotVisits acts := by
  have h1 : acts.length = (acts.filter (fun a => a.type ≠ .depot)).length + depotVisits acts := by
    unfold depotVisits
    rw [← List.countP_eq_length_filter]
    clear h hon
    induction acts with
    | nil => rfl
    | cons a l ih =>
      rw [List.countP_cons, List.countP_cons, List.length_cons]
      by_cases ha : a.type = .depot
      · rw [if_neg (by simp [ha]), if_pos (by simp [ha])]; omega
      · rw [if_pos (by simp [ha]), if_neg (by simp [ha])]; omega
  have h2 : (acts.filter (fun a => a.type ≠ .depot)).Nodup := by
    rw [List.nodup_iff_count]
    intro a
    by_cases ha : a.type = .depot
    · rw [List.count_eq_zero_of_not_mem]
      · omega
      · simp [ha]
    · exact Nat.le_trans (List.filter_sublist.count_le _) (hon a ha)
  have h3 : (acts.filter (fun a => a.type ≠ .depot)).length
      ≤ ((List.range data.clients.length).map (fun i => (⟨.client, i⟩ : Activity))
        ++ ((List.range data.shipments.length).map (fun i => (⟨.pickup, i⟩ : Activity))
          ++ (List.range data.shipments.length).map (fun i => (⟨.delivery, i⟩ : Activity)))).length := by
    apply length_le_of_nodup h2
    intro a ha
    rw [List.mem_filter] at ha
    have hm := mem_allActivities (h.inRange a ha.1)
    unfold allActivities at hm
    rcases List.mem_append.1 hm with hm | hm
    · obtain ⟨i, -, rfl⟩ := List.mem_map.1 hm
      exact absurd ha.2 (by simp)
    · exact hm
  simp only [List.length_append, List.length_map, List.length_range] at h3
  have e1 : data.numClients = data.clients.length := rfl
  have e2 : data.numShipments = data.shipments.length := rfl
  omega

theorem sum_range_bound (f : Nat → List (List Activity) → Int) (P : List (List Activity) → Prop) :
    ∀ n, (∀ k, k < n → ∃ L, ∀ plan, P plan → L ≤ f k plan) →
    ∃ L, ∀ plan, P plan → L ≤ ((List.range n).map (fun k => f k plan)).sum
  | 0, _ => ⟨0, fun _ _ => by simp⟩
  | n + 1, h => by
    obtain ⟨L, hL⟩ := sum_range_bound f P n (fun k hk => h k (by omega))
    obtain ⟨M, hM⟩ := h n (by omega)
    refine ⟨L + M, fun plan hp => ?_⟩
    rw [List.range_succ, List.map_append, List.sum_append]
    simp only [List.map_cons, List.map_nil, List.sum_cons, List.sum_nil]
    have := hL plan hp
    have := hM plan hp
    omega

/-- Costs of plans are bounded from below. -/
theorem planCost_bounded (data : ProblemData) (ce : CostEvaluator) :
    ∃ L, ∀ plan, (∃ s, SearchOk data plan s) → L ≤ planCost data ce plan := by
  obtain ⟨L1, h1⟩ := sum_range_bound (fun i plan =>
      if visits plan ⟨.client, i⟩ then 0 else (data.client i).prize) (fun _ => True) data.numClients
    (fun k _ => ⟨min 0 (data.client k).prize, fun plan _ => by split <;> omega⟩)
  obtain ⟨L2, h2⟩ := sum_range_bound (fun i plan =>
      if visits plan ⟨.pickup, i⟩ then 0 else (data.shipment i).prize) (fun _ => True) data.numShipments
    (fun k _ => ⟨min 0 (data.shipment k).prize, fun plan _ => by split <;> omega⟩)
  obtain ⟨L3, h3⟩ := sum_range_bound (fun k plan => routeCost data ce (vehTypeAt data k) (plan.getD k []))
    (fun plan => ∃ s, SearchOk data plan s) data.numVehicles (by
      intro k hk
      obtain ⟨L, hL⟩ := bounded_lists (allActivities data)
        (data.numClients + 2 * data.numShipments + (data.vehicleType (vehTypeAt data k)).maxTrips)
        (routeCost data ce (vehTypeAt data k))
      refine ⟨L, fun plan ⟨s, hs⟩ => hL _ ?_ ?_⟩
      · have ho := (hs.routes k hk).length_le (hs.once k)
        have ht := (hs.routes k hk).trips
        omega
      · exact fun a ha => mem_allActivities ((hs.routes k hk).inRange a ha))
  refine ⟨L1 + L2 + L3, fun plan hs => ?_⟩
  have := h1 plan trivial
  have := h2 plan trivial
  have := h3 plan hs
  unfold planCost missedPrizes routesCost
  omega

/-- The number of reloads is bounded. -/
theorem reloads_bounded (data : ProblemData) : ∃ R, ∀ plan, (∃ s, SearchOk data plan s) → reloads plan ≤ R := by
  refine ⟨((List.range data.numVehicles).map
    (fun k => (data.vehicleType (vehTypeAt data k)).maxTrips)).sum, fun plan ⟨s, hs⟩ => ?_⟩
  have h1 : plan.map depotVisits
      = (List.range data.numVehicles).map (fun k => depotVisits (plan.getD k [])) := by
    apply List.ext_getElem
    · simp [hs.clean.1.length]
    · intro i h1 h2
      simp only [List.length_map] at h1
      simp [List.getElem?_eq_getElem h1]
  unfold reloads
  rw [h1]
  have key : ∀ n, n ≤ data.numVehicles → ((List.range n).map (fun k => depotVisits (plan.getD k []))).sum
      ≤ ((List.range n).map (fun k => (data.vehicleType (vehTypeAt data k)).maxTrips)).sum := by
    intro n
    induction n with
    | zero => intro _; simp
    | succ n ih =>
      intro hn
      have := ih (by omega)
      have := (hs.routes n (by omega)).trips
      rw [List.range_succ, List.map_append, List.map_append, List.sum_append, List.sum_append]
      simp only [List.map_cons, List.map_nil, List.sum_cons, List.sum_nil]
      omega
  exact key _ (Nat.le_refl _)

theorem weight_lt {L R c c' r r' : Int} (hr : 0 ≤ r)
    (hR : r ≤ R) (hR' : r' ≤ R) (h : c' < c ∨ (c' = c ∧ r' < r)) :
    (c' - L) * (R + 1) + r' < (c - L) * (R + 1) + r := by
  rcases h with h | ⟨rfl, h⟩
  · have h1 : (c' - L + 1) * (R + 1) ≤ (c - L) * (R + 1) :=
      Int.mul_le_mul_of_nonneg_right (by omega) (by omega)
    rw [Int.add_mul, Int.one_mul] at h1
    omega
  · omega

/-- **Finitely many moves.** The number of moves from a state is bounded. -/
theorem steps_bounded {I : List (List Activity) → Prop} (he : Exact data ce I)
    {plan : List (List Activity)} {s : SSol} (h : SearchOk data plan s) (hI : I plan) : ∃ N, ∀ n plan' s', Steps data ce plan s n plan' s' → n ≤ N := by
  obtain ⟨L, hL⟩ := planCost_bounded data ce
  obtain ⟨R, hR⟩ := reloads_bounded data
  refine ⟨((planCost data ce plan - L) * (R + 1) + reloads plan).toNat, fun n plan' s' hs => ?_⟩
  have key : SearchOk data plan' s' ∧ (planCost data ce plan' - L) * (R + 1) + reloads plan' + n
      ≤ (planCost data ce plan - L) * (R + 1) + reloads plan := by
    induction hs with
    | refl => exact ⟨h, by omega⟩
    | step h0 ok _ _ better ih =>
      refine ⟨ok, ?_⟩
      have hb := better _ he (h0.keeps he h hI).1
      have := weight_lt (L := L) (Int.natCast_nonneg _)
        (Int.ofNat_le.2 (hR _ ⟨_, ih.1⟩)) (Int.ofNat_le.2 (hR _ ⟨_, ok⟩))
        (by rcases hb with hb | ⟨h1, h2⟩
            · exact .inl hb
            · exact .inr ⟨h1, by omega⟩)
      have := ih.2
      omega
  have h1 := hL _ ⟨_, key.1⟩
  have h2 : 0 ≤ (planCost data ce plan' - L) * (R + 1) := Int.mul_nonneg (by omega) (by omega)
  omega

namespace LState

/-- From one state of the search to a later one. -/
structure Run (data : ProblemData) (ce : CostEvaluator) (plan : List (List Activity)) (st : LState)
    (plan' : List (List Activity)) (st' : LState) : Prop where
  ok : Ok data ce plan' st'
  grows : SearchSpace.Grows data st.space st'.space
  steps : ∃ n, Steps data ce plan st.sol n plan' st'.sol ∧ st'.numUpdates = st.numUpdates + n

theorem Run.refl {plan : List (List Activity)} {st : LState} (h : Ok data ce plan st) :
    Run data ce plan st plan st := ⟨h, SearchSpace.Grows.refl _ _, 0, .refl, rfl⟩

theorem Run.trans {plan plan' plan'' : List (List Activity)} {st st' st'' : LState}
    (h : Run data ce plan st plan' st') (h' : Run data ce plan' st' plan'' st'') :
    Run data ce plan st plan'' st'' := by
  obtain ⟨n, h1, h2⟩ := h.steps
  obtain ⟨m, k1, k2⟩ := h'.steps
  exact ⟨h'.ok, h.grows.trans h'.grows, n + m, h1.trans k1, by omega⟩

/-- One round. -/
theorem round_spec (hd : Consistent data) (ops : List UnaryOp) {plan : List (List Activity)} {st : LState}
    (h : Ok data ce plan st) :
    ∃ plan' st', testAll data ce ops { st with completed := true } st.space.activityOrder = .ok st'
      ∧ Ok data ce plan' st' ∧ SearchSpace.Grows data st.space st'.space
      ∧ ∃ n, Steps data ce plan st.sol n plan' st'.sol ∧ st'.numUpdates = st.numUpdates + n
        ∧ (st'.completed = true ↔ n = 0) := by
  obtain ⟨plan', st', e, p⟩ := testAll_spec (ce := ce) hd ops st.space.activityOrder
    (fun a ha => h.space.order.mem_iff.1 ha) (plan := plan) (st := { st with completed := true })
    ⟨h.sol, h.exclusive, h.space, h.self, h.caches⟩
  obtain ⟨n, h1, h2, h3, h4⟩ := p.steps
  refine ⟨plan', st', e, p.ok, p.grows, n, h1, h2, ?_⟩
  constructor
  · intro hc
    rcases Decidable.em (n = 0) with h0 | h0
    · exact h0
    · rw [h4 h0] at hc; cases hc
  · intro h0; rw [h3 h0]

/-- **The outer loop** never fails, and leads to a later state. -/
theorem searchLoop_spec (hd : Consistent data) (ops : List UnaryOp) : ∀ (fuel : Nat)
    {plan : List (List Activity)} {st : LState}, Ok data ce plan st →
    ∃ r, searchLoop data ce ops fuel st = .ok r ∧ ∀ st', r = some st' →
      st'.completed = true ∧ ∃ plan', Run data ce plan st plan' st'
  | 0, plan, st, h => by
    refine ⟨_, rfl, ?_⟩
    intro st' he
    split at he
    · rename_i hc
      cases he
      exact ⟨hc, plan, .refl h⟩
    · cases he
  | fuel + 1, plan, st, h => by
    unfold searchLoop
    split
    · rename_i hc
      refine ⟨_, rfl, ?_⟩
      intro st' he
      cases he
      exact ⟨hc, plan, .refl h⟩
    · obtain ⟨plan1, st1, e1, ok1, g1, n, s1, u1, -⟩ := round_spec (ce := ce) hd ops h
      rw [e1]
      dsimp only
      obtain ⟨r, e2, hr⟩ := searchLoop_spec hd ops fuel ok1
      refine ⟨r, e2, fun st' he => ?_⟩
      obtain ⟨hc, plan', hrun⟩ := hr st' he
      exact ⟨hc, plan', Run.trans ⟨ok1, g1, n, s1, u1⟩ hrun⟩

/-- More rounds allowed do not change the result. -/
theorem searchLoop_mono (ops : List UnaryOp) : ∀ (fuel : Nat) {st st' : LState},
    searchLoop data ce ops fuel st = .ok (some st') →
    searchLoop data ce ops (fuel + 1) st = .ok (some st')
  | 0, st, st', h => by
    unfold searchLoop at h
    unfold searchLoop
    split at h
    · rename_i hc; rw [if_pos hc]; exact h
    · cases h
  | fuel + 1, st, st', h => by
    unfold searchLoop at h
    unfold searchLoop
    split at h
    · rename_i hc; rw [if_pos hc]; exact h
    · rename_i hc
      rw [if_neg hc]
      revert h
      generalize testAll data ce ops _ _ = t
      intro h
      cases t with
      | error e => cases h
      | ok st1 => exact searchLoop_mono ops fuel h

theorem searchLoop_le (ops : List UnaryOp) {fuel fuel' : Nat} (hf : fuel ≤ fuel') {st st' : LState}
    (h : searchLoop data ce ops fuel st = .ok (some st')) :
    searchLoop data ce ops fuel' st = .ok (some st') := by
  induction hf with
  | refl => exact h
  | step _ ih => exact searchLoop_mono ops _ ih

/-- A search that has not stopped after so many rounds has made so many moves. -/
theorem searchLoop_none (hd : Consistent data) (ops : List UnaryOp) : ∀ (fuel : Nat)
    {plan : List (List Activity)} {st : LState}, Ok data ce plan st →
    searchLoop data ce ops fuel st = .ok none →
    ∃ n plan' s', fuel ≤ n ∧ Steps data ce plan st.sol n plan' s'
  | 0, plan, st, h, _ => ⟨0, plan, st.sol, Nat.le_refl _, .refl⟩
  | fuel + 1, plan, st, h, hs => by
    unfold searchLoop at hs
    split at hs
    · cases hs
    · obtain ⟨plan1, st1, e1, ok1, g1, n, s1, u1, hn⟩ := round_spec (ce := ce) hd ops h
      rw [e1] at hs
      dsimp only at hs
      obtain ⟨m, plan', s', hm, hs'⟩ := searchLoop_none hd ops fuel ok1 hs
      refine ⟨n + m, plan', s', ?_, s1.trans hs'⟩
      rcases Nat.eq_zero_or_pos n with h0 | h0
      · have hc := hn.2 h0
        cases fuel with
        | zero =>
          unfold searchLoop at hs
          rw [hc] at hs
          cases hs
        | succ fuel =>
          unfold searchLoop at hs
          rw [if_pos hc] at hs
          cases hs
      · omega

/-- **The outer loop stops.** -/
theorem searchLoop_stops {I : List (List Activity) → Prop} (hd : Consistent data) (he : Exact data ce I)
    (ops : List UnaryOp) {plan : List (List Activity)} {st : LState} (h : Ok data ce plan st) (hI : I plan) :
    ∃ fuel st', searchLoop data ce ops fuel st = .ok (some st') := by
  obtain ⟨N, hN⟩ := steps_bounded he h.sol hI
  refine ⟨N + 1, ?_⟩
  obtain ⟨r, hr, -⟩ := searchLoop_spec (ce := ce) hd ops (N + 1) h
  cases r with
  | some st' => exact ⟨st', hr⟩
  | none =>
    obtain ⟨n, plan', s', hn, hs⟩ := searchLoop_none hd ops (N + 1) h hr
    have := hN n plan' s' hs
    omega

end LState
end PyVRP
