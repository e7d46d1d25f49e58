import Verif.Lemmas.OpsDepot
/-!
# Operators for shipments
-/
namespace PyVRP
open Spec
open SSol (used ofActs_empty At RefOk CleanBut)
open PerturbationManager (routes_set)

variable {data : ProblemData} {plan : List (List Activity)} {s : SSol}

/-! ## Shipments in a solution -/

/-- The route and the place of a shipment that is visited. -/
theorem SearchOk.shipment (h : SearchOk data plan s) {i : Nat} (hi : i < data.numVehicles) {k : Nat}
    (hm : (⟨.pickup, k⟩ : Activity) ∈ plan.getD i [] ∨ (⟨.delivery, k⟩ : Activity) ∈ plan.getD i []) :
    ∃ xs ms ys, plan.getD i [] = xs ++ ⟨.pickup, k⟩ :: (ms ++ ⟨.delivery, k⟩ :: ys) ∧ Phase.NoDepot ms
      ∧ Phase.Free k (xs ++ ms ++ ys) ∧ k < data.numShipments
      ∧ RouteOk data (data.vehicleType (vehTypeAt data i)) (xs ++ ms ++ ys)
      ∧ s.place ⟨.pickup, k⟩ = some (i, xs.length + 1)
      ∧ s.place ⟨.delivery, k⟩ = some (i, xs.length + 1 + ms.length + 1) := by
  have hr := h.routes i hi
  obtain ⟨xs, ms, ys, he, h1, h2⟩ := hr.shipment_split hm
  rw [he] at hr
  refine ⟨xs, ms, ys, he, h1, h2, hr.inRange ⟨.pickup, k⟩ (by simp [pickupOf]), hr.remove_shipment h2,
    h.clean.1.place hi (by simp) he, ?_⟩
  have := h.clean.1.place hi (a := ⟨.delivery, k⟩) (by simp) (xs := xs ++ ⟨.pickup, k⟩ :: ms) (ys := ys)
    (by rw [he]; simp [pickupOf, deliveryOf])
  rw [this]
  simp
  omega

theorem SearchOk.visited_delivery (h : SearchOk data plan s) {k : Nat} :
    Visited plan ⟨.delivery, k⟩ ↔ Visited plan ⟨.pickup, k⟩ := by
  constructor
  · rintro ⟨i, hi⟩
    obtain ⟨xs, ms, ys, he, -⟩ := h.shipment (h.clean.1.lt_of_mem hi) (.inr hi)
    exact ⟨i, by rw [he]; simp⟩
  · rintro ⟨i, hi⟩
    obtain ⟨xs, ms, ys, he, -⟩ := h.shipment (h.clean.1.lt_of_mem hi) (.inl hi)
    exact ⟨i, by rw [he]; simp⟩

theorem free_of_unvisited {k : Nat} (hp : ¬ Visited plan ⟨.pickup, k⟩) (hd : ¬ Visited plan ⟨.delivery, k⟩)
    (j : Nat) : Phase.Free k (plan.getD j []) := by
  rintro a ha (rfl | rfl)
  · exact hp ⟨j, ha⟩
  · exact hd ⟨j, ha⟩

theorem visited_two {j : Nat} (hj : j < plan.length) (xs ms ys : List Activity) (p d a : Activity) :
    Visited (plan.set j (xs ++ p :: (ms ++ d :: ys))) a
      ↔ Visited (plan.set j (xs ++ ms ++ ys)) a ∨ a = p ∨ a = d := by
  rw [visited_set hj, visited_set hj]
  simp only [List.mem_append, List.mem_cons]
  grind

/-! ## Inserting a shipment -/

namespace InsertOptionalShipment

theorem later_some (ce : CostEvaluator) (r : SRoute) (v : Nat) (out : Int) (pk dl : Seg) (e : SNode)
    (he : e.isDepot = true) : ∀ (acts : List Activity) (pos trip : Nat),
    (later data ce r v out pk dl (innerNodes pos trip acts ++ [e]) pos).apply = true →
    ∃ ms ws, acts = ms ++ ws ∧ ms ≠ [] ∧ Phase.NoDepot ms
      ∧ (ce.deltaCost false data out ⟨r, r.before v,
          [pk, r.between data (v + 1) (pos + ms.length - 1), dl, r.after (pos + ms.length)]⟩).1 < 0
      ∧ later data ce r v out pk dl (innerNodes pos trip acts ++ [e]) pos
        = ⟨(ce.deltaCost false data out ⟨r, r.before v,
          [pk, r.between data (v + 1) (pos + ms.length - 1), dl, r.after (pos + ms.length)]⟩).1, true,
          .pos (pos + ms.length)⟩
  | [], pos, trip, h => by
    simp only [innerNodes, List.nil_append, later] at h
    rw [if_pos he] at h
    cases h
  | a :: rest, pos, trip, h => by
    simp only [innerNodes, List.cons_append] at h ⊢
    generalize (if a.type = .depot then trip + 1 else trip) = t at h ⊢
    unfold later at h ⊢
    split at h
    · cases h
    rename_i hd
    rw [if_neg hd]
    have hda : a.type ≠ .depot := by
      intro hc
      apply hd
      simp [SNode.isDepot, Activity.isDepot, hc]
    dsimp only at h ⊢
    split at h
    · rename_i hneg
      rw [if_pos hneg]
      refine ⟨[a], rest, rfl, by simp, ?_, ?_, ?_⟩
      · intro b hb; simp at hb; subst hb; exact hda
      · simpa using hneg
      · simp
    · rename_i hneg
      rw [if_neg hneg]
      obtain ⟨ms, ws, h1, h2, h3, h4, h5⟩ := later_some ce r v out pk dl e he rest (pos + 1) _ h
      refine ⟨a :: ms, ws, by rw [h1]; rfl, by simp, ?_, ?_, ?_⟩
      · intro b hb
        simp at hb
        rcases hb with rfl | hb
        · exact hda
        · exact h3 b hb
      · have e1 : pos + (a :: ms).length = pos + 1 + ms.length := by simp; omega
        rw [e1]
        exact h4
      · have e1 : pos + (a :: ms).length = pos + 1 + ms.length := by simp; omega
        rw [e1]
        exact h5

/-- What the search for places for a pickup and a delivery finds. -/
theorem search_spec (ce : CostEvaluator) (h : SearchOk data plan s) {j : Nat} (hj : j < data.numVehicles)
    {vs ws : List Activity} (hsp : plan.getD j [] = vs ++ ws) (out : Int) {pk dl : Seg} {a b : Activity}
    (hpk : Piece data pk [a]) (hdl : Piece data dl [b]) (ha : a.type ≠ .depot)
    (hap : (search data ce (s.route j) vs.length out pk dl).apply = true) :
    ∃ ms ws', ws = ms ++ ws' ∧ Phase.NoDepot ms
      ∧ (search data ce (s.route j) vs.length out pk dl).move = .pos (vs.length + ms.length + 1)
      ∧ ∀ {D : Nat → Prop} {plan' : List (List Activity)}, CostOk data ce → FitsOn data D plan' → D j →
        plan'.getD j [] = vs ++ a :: (ms ++ b :: ws') →
        RouteOk data (data.vehicleType (vehTypeAt data j)) (vs ++ a :: (ms ++ b :: ws')) →
        (search data ce (s.route j) vs.length out pk dl).cost
          = out + routeCost data ce (vehTypeAt data j) (vs ++ a :: (ms ++ b :: ws'))
            - routeCost data ce (vehTypeAt data j) (plan.getD j []) := by
  unfold search at hap ⊢
  dsimp only at hap ⊢
  split at hap
  · rename_i hneg
    rw [if_pos hneg]
    refine ⟨[], ws, rfl, (by intro a ha; cases ha), by simp, ?_⟩
    intro D plan' hco hfit hD hnew hro
    exact delta_route false hco h hj hfit hD hnew hro hsp (as := [[a], [b]])
      (All2.cons hpk (All2.cons hdl All2.nil)) (h.after hj hsp rfl) (by simp)
      (used_of_mem (a := a) (by simp) ha) _ (.inr hneg)
  · rename_i hneg0
    rw [if_neg hneg0]
    have e : (s.route j).nodes.drop (vs.length + 1) = innerNodes (vs.length + 1) (depotVisits vs) ws
        ++ [endNode (data.vehicleType (vehTypeAt data j)) (vs.length + ws.length + 1)
          (depotVisits vs + depotVisits ws + 1)] := by
      rw [h.route hj, hsp, SRoute.ofActs_drop]
    rw [e] at hap ⊢
    obtain ⟨ms, ws', h1, h2, h3, hneg, h5⟩ := later_some ce (s.route j) vs.length out pk dl _ rfl
      ws _ _ hap
    rw [h5]
    refine ⟨ms, ws', h1, h3, by simp only [Move.pos.injEq]; omega, ?_⟩
    intro D plan' hco hfit hD hnew hro
    have hsp' : plan.getD j [] = vs ++ ms ++ ws' := by rw [hsp, h1]; simp
    have hb := h.between hj hsp' h2 h3 (a := vs.length + 1) (b := vs.length + 1 + ms.length - 1)
      rfl (by omega)
    exact delta_route false hco h hj hfit hD hnew hro hsp (as := [[a], ms, [b]])
      (All2.cons hpk (All2.cons hb (All2.cons hdl All2.nil)))
      (h.after hj hsp' (by rw [List.length_append]; omega)) (by simp)
      (used_of_mem (a := a) (by simp) ha) _ (.inr hneg)

theorem insertBoth_spec {D : Nat → Prop} {plan1 : List (List Activity)} {s1 : SSol}
    (h : CleanBut data D plan1 s1) {v : NodeRef} {j : Nat} {vs ms ws : List Activity}
    (hat : At data plan1 v j vs (ms ++ ws)) {k : Nat} (hk : k < data.numShipments)
    (hp : ∀ i, (⟨.pickup, k⟩ : Activity) ∉ plan1.getD i [])
    (hd : ∀ i, (⟨.delivery, k⟩ : Activity) ∉ plan1.getD i [])
    (ht : depotVisits (vs ++ (ms ++ ws)) + 1 ≤ (data.vehicleType (vehTypeAt data j)).maxTrips) :
    ∃ s', insertBoth data s1 ⟨.pickup, k⟩ v (.pos (vs.length + ms.length + 1)) = .ok s'
      ∧ CleanBut data (fun i => D i ∨ i = j)
        (plan1.set j (vs ++ ⟨.pickup, k⟩ :: (ms ++ ⟨.delivery, k⟩ :: ws))) s' := by
  unfold insertBoth
  rw [h.1.find hat]
  dsimp only
  have hjl := h.1.lt_length hat.1
  have hlen : vs.length + ms.length = (vs ++ ms).length := by simp
  obtain ⟨s2, h1, h2⟩ := h.insert hat.1 (xs := vs ++ ms) (ys := ws) (a := ⟨.delivery, k⟩)
    (by rw [hat.2.1]; simp) (.inr ⟨⟨by simp, hk⟩, hd⟩) (by
      rw [depotVisits_mid _ _ (by simp)]
      simpa using ht)
  rw [hlen, h1]
  dsimp only
  have hnew : (plan1.set j (vs ++ ms ++ ⟨.delivery, k⟩ :: ws)).getD j []
      = vs ++ (ms ++ ⟨.delivery, k⟩ :: ws) := by rw [getD_set_self hjl]; simp
  have habs : ∀ i, (⟨.pickup, k⟩ : Activity) ∉ (plan1.set j (vs ++ ms ++ ⟨.delivery, k⟩ :: ws)).getD i [] := by
    intro i hi
    by_cases hij : i = j
    · subst hij
      rw [hnew] at hi
      have := hp i
      rw [hat.2.1] at this
      simp only [List.mem_append, List.mem_cons] at hi this
      rcases hi with hi | hi | hi | hi
      · exact this (.inl hi)
      · exact this (.inr (.inl hi))
      · cases hi
      · exact this (.inr (.inr hi))
    · rw [getD_set_ne _ hij] at hi
      exact hp i hi
  obtain ⟨s3, h3, h4⟩ := h2.insert hat.1 hnew (a := ⟨.pickup, k⟩)
    (.inr ⟨⟨by simp, hk⟩, habs⟩) (by
      rw [depotVisits_mid _ _ (by simp)]
      have : depotVisits ((vs ++ ms) ++ (⟨.delivery, k⟩ : Activity) :: ws)
        = depotVisits ((vs ++ ms) ++ ws) := depotVisits_mid _ _ (by simp)
      rw [List.append_assoc, List.append_assoc] at this
      rw [this]
      exact ht)
  rw [List.set_set] at h4
  exact ⟨s3, h3, h4.weaken (fun i _ hi => by tauto)⟩

theorem outcome (ce : CostEvaluator) (h : SearchOk data plan s) {u : Activity} (hu : InRange data u)
    {v : NodeRef} (hv : RefOk data v) (hap : (evaluate data ce s u v).apply = true) :
    Outcome data ce plan (Touched s u v) (evaluate data ce s u v).cost True
      (apply data s u v (evaluate data ce s u v).move) := by
  unfold evaluate at hap ⊢
  unfold apply
  cases hpu : s.place u with
  | some ip => rw [hpu] at hap; cases hap
  | none =>
  cases hpv : s.find v with
  | none => rw [hpu, hpv] at hap; cases hap
  | some jq =>
  obtain ⟨j, q⟩ := jq
  rw [hpu, hpv] at hap
  dsimp only at hap ⊢
  split at hap
  · cases hap
  rename_i hf1
  rw [if_neg hf1]
  obtain ⟨ty, k⟩ := u
  have hty : ty = .pickup := by
    cases ty <;> simp [Activity.isPickup] at hf1 ⊢
  subst hty
  have hk : k < data.numShipments := hu
  obtain ⟨vs, ws, hat, rfl⟩ := h.clean.1.find_some hv hpv
  have hj := hat.1
  have hjl := h.clean.1.lt_length hj
  have hn := (h.not_placed (by simp)).1 hpu
  have hn' : ¬ Visited plan ⟨.delivery, k⟩ := fun e => hn (h.visited_delivery.1 e)
  obtain ⟨ms, ws', rfl, hnd, hmove, hcost⟩ := search_spec ce h hj hat.2.1 _ (Piece.pickup k)
    (Piece.delivery k) (by simp) hap
  rw [hmove]
  have hr0 := h.routes j hj
  have hfree := free_of_unvisited hn hn' j
  rw [hat.2.1] at hr0 hfree
  obtain ⟨s', h1, h2⟩ := insertBoth_spec (h.clean.but (fun _ => False)) hat hk
    (fun i hi => hn ⟨i, hi⟩) (fun i hi => hn' ⟨i, hi⟩) hr0.trips
  have hr : RouteOk data (data.vehicleType (vehTypeAt data j))
      (vs ++ ⟨.pickup, k⟩ :: (ms ++ ⟨.delivery, k⟩ :: ws')) :=
    RouteOk.insert_shipment (by rw [List.append_assoc]; exact hr0) hk
      (by rw [List.append_assoc]; exact hfree) hnd
  refine Outcome.congr (D := fun k => k = j) ?_ (fun k => touched_none hpu hpv k)
  refine ⟨_, _, s', h1, ⟨h2.weaken (fun k _ hk => by tauto), routes_set h.routes hr,
    .addShipment k hk hn ?_, fun k hk => kept_set k hk, near_set hjl (by rw [hat.2.1]; count_depots)⟩, ?_⟩
  · intro a _
    rw [visited_set hjl, visited_split plan j, hat.2.1]
    simp only [List.mem_append, List.mem_cons]
    grind
  · intro hco hfit _
    rw [routesCost_set data ce h.clean.1.length hj, hcost hco hfit rfl (getD_set_self hjl _) hr]
    dsimp only
    omega

end InsertOptionalShipment

/-! ## Removing a shipment -/

namespace RemoveOptionalShipment

theorem removed (h : SearchOk data plan s) {i : Nat} (hi : i < data.numVehicles) {k : Nat}
    {xs ms ys : List Activity}
    (hsp : plan.getD i [] = xs ++ ⟨.pickup, k⟩ :: (ms ++ ⟨.delivery, k⟩ :: ys)) :
    CleanBut data (fun j => j = i) (plan.set i (xs ++ ms ++ ys)) (apply s ⟨.pickup, k⟩) := by
  have hil := h.clean.1.lt_length hi
  have hsp' : plan.getD i [] = (xs ++ ⟨.pickup, k⟩ :: ms) ++ ⟨.delivery, k⟩ :: ys := by rw [hsp]; simp
  have h1 := (h.clean.but (fun _ => False)).remove hi hsp'
  rw [← SSol.takeOut_eq h.clean.1 hi (by simp) hsp'] at h1
  have hnew : (plan.set i ((xs ++ ⟨.pickup, k⟩ :: ms) ++ ys)).getD i []
      = xs ++ ⟨.pickup, k⟩ :: (ms ++ ys) := by rw [getD_set_self hil]; simp
  have h2 := h1.remove hi hnew
  rw [← SSol.takeOut_eq h1.1 hi (by simp) hnew, List.set_set] at h2
  rw [List.append_assoc]
  exact h2.weaken (fun j _ hj => by tauto)

theorem visited_removed (h : SearchOk data plan s) {i : Nat} (hi : i < data.numVehicles) {k : Nat}
    {xs ms ys : List Activity}
    (hsp : plan.getD i [] = xs ++ ⟨.pickup, k⟩ :: (ms ++ ⟨.delivery, k⟩ :: ys))
    (hfree : Phase.Free k (xs ++ ms ++ ys)) (a : Activity) :
    Visited (plan.set i (xs ++ ms ++ ys)) a
      ↔ Visited plan a ∧ a ≠ ⟨.pickup, k⟩ ∧ a ≠ ⟨.delivery, k⟩ := by
  have hil := h.clean.1.lt_length hi
  have hu : ∀ ty, ty ≠ .depot → (⟨ty, k⟩ : Activity) ∈ plan.getD i [] →
      ∀ j, (⟨ty, k⟩ : Activity) ∈ plan.getD j [] → j = i := fun ty hty h1 j h2 =>
    h.clean.1.unique (a := ⟨ty, k⟩) hty h2 h1
  have hp := hu .pickup (by simp) (by rw [hsp]; simp)
  have hd := hu .delivery (by simp) (by rw [hsp]; simp)
  constructor
  · rintro ⟨j, hj⟩
    by_cases hji : j = i
    · subst hji
      rw [getD_set_self hil] at hj
      refine ⟨⟨j, ?_⟩, fun e => hfree a hj (.inl e), fun e => hfree a hj (.inr e)⟩
      rw [hsp]
      simp only [List.mem_append, List.mem_cons] at hj ⊢
      tauto
    · rw [getD_set_ne _ hji] at hj
      exact ⟨⟨j, hj⟩, fun e => hji (hp j (e ▸ hj)), fun e => hji (hd j (e ▸ hj))⟩
  · rintro ⟨⟨j, hj⟩, h1, h2⟩
    refine ⟨j, ?_⟩
    by_cases hji : j = i
    · subst hji
      rw [getD_set_self hil]
      rw [hsp] at hj
      simp only [List.mem_append, List.mem_cons] at hj ⊢
      tauto
    · rw [getD_set_ne _ hji]; exact hj

theorem cost_spec {ce : CostEvaluator} (exact : Bool) (hco : CostOk data ce) (h : SearchOk data plan s)
    {i : Nat} (hi : i < data.numVehicles) {D : Nat → Prop} {plan' : List (List Activity)}
    (hfit : FitsOn data D plan') (hD : D i) {k : Nat} {xs ms ys : List Activity}
    (hnew : plan'.getD i [] = xs ++ ms ++ ys)
    (hro : RouteOk data (data.vehicleType (vehTypeAt data i)) (xs ++ ms ++ ys))
    (hsp : plan.getD i [] = xs ++ ⟨.pickup, k⟩ :: (ms ++ ⟨.delivery, k⟩ :: ys)) (hnd : Phase.NoDepot ms)
    (out : Int)
    (hneg : exact = true ∨ cost exact data ce (s.route i) (xs.length + 1) (xs.length + 1 + ms.length + 1)
      out < 0) :
    cost exact data ce (s.route i) (xs.length + 1) (xs.length + 1 + ms.length + 1) out
      = out + routeCost data ce (vehTypeAt data i) (xs ++ ms ++ ys)
        - routeCost data ce (vehTypeAt data i) (plan.getD i []) := by
  have hcount : (s.route i).numClients + 2 * (s.route i).numShipments
      = 2 + taskCount (xs ++ ms ++ ys) := by
    rw [h.route hi, route_taskCount _ (h.closed hi) (h.once i), hsp]
    have e : ∀ ty, ty ≠ .depot → ∀ l, taskCount ((⟨ty, k⟩ : Activity) :: l) = taskCount l + 1 := by
      intro ty hty l
      simp [taskCount, hty]
    simp only [taskCount_append, e .pickup (by simp), e .delivery (by simp)]
    omega
  have hship : 1 ≤ (s.route i).numShipments := by
    rw [h.route hi, (SRoute.ofActs_counts data _ _).2.1, hsp]
    apply List.countP_pos_iff.2
    exact ⟨⟨.pickup, k⟩, by simp, by simp⟩
  unfold cost at hneg ⊢
  by_cases hone : (s.route i).numShipments = 1 ∧ (s.route i).numClients = 0
  · rw [if_pos hone]
    have hu : used (xs ++ ms ++ ys) = false := by rw [used_eq_false_iff]; omega
    rw [routeCost_unused ce _ hro.wellFormed hu, h.route hi]
    show _ = out + 0 - routeCost _ _ _ _
    unfold routeCost
    omega
  · rw [if_neg hone] at hneg ⊢
    have hu : used (xs ++ ms ++ ys) = true := by rw [used_iff_taskCount]; omega
    have haf := h.after hi (xs := xs ++ ⟨.pickup, k⟩ :: (ms ++ [⟨.delivery, k⟩])) (ys := ys)
      (by rw [hsp]; simp) (a := xs.length + 1 + ms.length + 1 + 1) (by simp; omega)
    by_cases hadj : xs.length + 1 + 1 = xs.length + 1 + ms.length + 1
    · rw [if_pos hadj] at hneg ⊢
      have hms : ms = [] := List.eq_nil_of_length_eq_zero (by omega)
      subst hms
      exact delta_route exact hco h hi hfit hD hnew hro hsp (as := []) All2.nil haf (by simp) hu _ hneg
    · rw [if_neg hadj] at hneg ⊢
      have hms : ms ≠ [] := by rintro rfl; simp at hadj
      have hb := h.between hi (xs := xs ++ [⟨.pickup, k⟩]) (m := ms) (ys := ⟨.delivery, k⟩ :: ys)
        (by rw [hsp]; simp) hms hnd (a := xs.length + 1 + 1) (b := xs.length + 1 + ms.length + 1 - 1)
        (by simp) (by simp)
      exact delta_route exact hco h hi hfit hD hnew hro hsp (as := [ms]) (All2.cons hb All2.nil) haf
        (by simp) hu _ hneg

theorem outcome (ce : CostEvaluator) (h : SearchOk data plan s) {u : Activity}
    (hap : (evaluate data ce s u).apply = true) :
    Outcome data ce plan (fun k => ∃ p, s.place u = some (k, p)) (evaluate data ce s u).cost True
      (.ok (apply s u)) := by
  unfold evaluate at hap ⊢
  cases hpu : s.place u with
  | none => rw [hpu] at hap; cases hap
  | some ip =>
  cases hpd : s.place ⟨.delivery, u.idx⟩ with
  | none => rw [hpu, hpd] at hap; obtain ⟨i, p⟩ := ip; cases hap
  | some jq =>
  obtain ⟨i, p⟩ := ip
  obtain ⟨j, q⟩ := jq
  rw [hpu, hpd] at hap
  dsimp only at hap ⊢
  split at hap
  · cases hap
  rename_i hf1
  rw [if_neg hf1]
  simp only [Bool.or_eq_true, not_or, Bool.not_eq_true] at hf1
  obtain ⟨ty, k⟩ := u
  have hty : ty = .pickup := by
    have := hf1.1
    cases ty <;> simp [Activity.isPickup] at this ⊢
  subst hty
  obtain ⟨hi, hut, xs0, ys0, hsp0, -⟩ := h.clean.1.place_some hpu
  obtain ⟨xs, ms, ys, hsp, hnd, hfree, hk, hro, hp1, hp2⟩ := h.shipment hi (k := k)
    (.inl (by rw [hsp0]; simp))
  rw [hpu] at hp1
  rw [hpd] at hp2
  obtain ⟨-, rfl⟩ := Prod.mk.inj (Option.some.inj hp1)
  obtain ⟨rfl, rfl⟩ := Prod.mk.inj (Option.some.inj hp2)
  have hil := h.clean.1.lt_length hi
  refine Outcome.congr (D := fun k => k = j) ?_ (fun k => by simp [eq_comm])
  refine ⟨_, _, _, rfl, ⟨removed h hi hsp, routes_set h.routes hro,
    .removeShipment k hk ⟨j, by rw [hsp]; simp⟩ hf1.2 (fun a _ => visited_removed h hi hsp hfree a),
    fun k hk => kept_set k hk, near_set hil (by rw [hsp]; count_depots)⟩, ?_⟩
  intro hco hfit _
  rw [routesCost_set data ce h.clean.1.length hi]
  have := cost_spec false hco h hi hfit rfl (getD_set_self hil _) hro hsp hnd _
    (.inr (Verdict.of_apply.1 hap))
  refine Eq.trans this ?_
  dsimp only
  omega

end RemoveOptionalShipment

/-! ## Replacing a shipment -/

namespace ReplaceOptionalShipment

theorem outcome (ce : CostEvaluator) (h : SearchOk data plan s) {u : Activity} (hu : InRange data u)
    {v : NodeRef} (hv : RefOk data v) (hap : (evaluate data ce s u v).apply = true) :
    Outcome data ce plan (Touched s u v) (evaluate data ce s u v).cost True (.ok (apply s u v)) := by
  unfold evaluate at hap ⊢
  unfold apply
  cases hpu : s.place u with
  | some ip => rw [hpu] at hap; cases hap
  | none =>
  cases hpv : s.find v with
  | none => rw [hpu, hpv] at hap; cases hap
  | some jq =>
  obtain ⟨j, q⟩ := jq
  rw [hpu, hpv] at hap
  dsimp only at hap ⊢
  by_cases hf1 : (!u.isPickup || !((s.route j).node q).activity.isShipment) = true
  · rw [if_pos hf1] at hap; cases hap
  rw [if_neg hf1] at hap ⊢
  by_cases hf2 : (data.shipment ((s.route j).node q).activity.idx).required = true
  · rw [if_pos hf2] at hap; cases hap
  rw [if_neg hf2] at hap ⊢
  simp only [Bool.or_eq_true, not_or, Bool.not_eq_true, Bool.not_eq_false'] at hf1
  obtain ⟨hf1, hf3⟩ := hf1
  obtain ⟨ty, k'⟩ := u
  have hty : ty = .pickup := by
    cases ty <;> simp [Activity.isPickup] at hf1 ⊢
  subst hty
  have hk' : k' < data.numShipments := hu
  obtain ⟨vs, ws, hat, rfl⟩ := h.clean.1.find_some hv hpv
  have hj := hat.1
  have hjl := h.clean.1.lt_length hj
  rcases hat.2.2 with ⟨-, h0⟩ | ⟨⟨ty', k⟩, vs', hbt, -, h0⟩
  · subst h0
    have : ((s.route j).node ([] : List Activity).length).activity.isShipment = false := by
      rw [h.route hj]; rfl
    rw [this] at hf3
    simp at hf3
  · subst h0
    have hsp0 : plan.getD j [] = vs' ++ ⟨ty', k⟩ :: ws := by rw [hat.2.1]; simp
    have hlen : (vs' ++ [(⟨ty', k⟩ : Activity)]).length = vs'.length + 1 := by simp
    rw [hlen] at hf2 hf3 hap ⊢
    have hact : ((s.route j).node (vs'.length + 1)).activity = ⟨ty', k⟩ := by
      rw [h.route hj, hsp0, SRoute.ofActs_inner]
    rw [hact] at hf2 hf3 hap ⊢
    have hty' : ty' = .pickup ∨ ty' = .delivery := by
      cases ty' <;> simp [Activity.isShipment, Activity.isPickup, Activity.isDelivery] at hf3 ⊢
    obtain ⟨xs, ms, ys, hsp, hnd, hfree, hk, hro, hp1, hp2⟩ := h.shipment hj (k := k) (by
      rw [hsp0]
      rcases hty' with rfl | rfl <;> simp)
    dsimp only at hap hf2 ⊢
    rw [hp1, hp2] at hap
    rw [hp1, hp2]
    dsimp only
    have hn := (h.not_placed (by simp)).1 hpu
    have hn' : ¬ Visited plan ⟨.delivery, k'⟩ := fun e => hn (h.visited_delivery.1 e)
    have hkk : k ≠ k' := by
      rintro rfl
      exact hn ⟨j, by rw [hsp]; simp⟩
    have hfree' := free_of_unvisited hn hn' j
    have hfr : Phase.Free k' (xs ++ ms ++ ys) := by
      rw [hsp] at hfree'
      intro a ha
      exact hfree' a (by simp only [List.mem_append, List.mem_cons] at ha ⊢; tauto)
    have hr : RouteOk data (data.vehicleType (vehTypeAt data j))
        (xs ++ ⟨.pickup, k'⟩ :: (ms ++ ⟨.delivery, k'⟩ :: ys)) := hro.insert_shipment hk' hfr hnd
    -- the two swaps
    have h1 := (h.clean.but (fun _ => False)).swap_out (b := ⟨.pickup, k'⟩) ⟨by simp, hk'⟩ (by simp)
      (by simp) hsp (fun i hi => hn ⟨i, hi⟩)
    have hnew1 : (plan.set j (xs ++ ⟨.pickup, k'⟩ :: (ms ++ ⟨.delivery, k⟩ :: ys))).getD j []
        = (xs ++ ⟨.pickup, k'⟩ :: ms) ++ ⟨.delivery, k⟩ :: ys := by rw [getD_set_self hjl]; simp
    have h2 := h1.swap_out (b := ⟨.delivery, k'⟩) ⟨by simp, hk'⟩ (by simp) (by simp) hnew1 (by
      intro i hi
      by_cases hij : i = j
      · subst hij
        rw [hnew1] at hi
        apply hn'
        refine ⟨i, ?_⟩
        rw [hsp]
        simp only [List.mem_append, List.mem_cons, Activity.mk.injEq] at hi ⊢
        rcases hi with (hi | hi | hi) | hi | hi
        · exact .inl hi
        · exact absurd hi.1 (by decide)
        · exact .inr (.inr (.inl hi))
        · exact absurd hi.2.symm hkk
        · exact .inr (.inr (.inr (.inr hi)))
      · rw [getD_set_ne _ hij] at hi
        exact hn' ⟨i, hi⟩)
    rw [List.set_set] at h2
    have e : (xs ++ ⟨.pickup, k'⟩ :: ms) ++ (⟨.delivery, k'⟩ : Activity) :: ys
        = xs ++ ⟨.pickup, k'⟩ :: (ms ++ ⟨.delivery, k'⟩ :: ys) := by simp
    rw [e] at h2
    have hnew : (plan.set j (xs ++ ⟨.pickup, k'⟩ :: (ms ++ ⟨.delivery, k'⟩ :: ys))).getD j []
        = xs ++ ⟨.pickup, k'⟩ :: (ms ++ ⟨.delivery, k'⟩ :: ys) := getD_set_self hjl _
    refine Outcome.congr (D := fun k => k = j) ?_ (fun k => touched_none hpu hpv k)
    refine ⟨_, _, _, rfl, ⟨h2.weaken (fun k _ hk => RelocateWithDepot.or_false_self hk),
      routes_set h.routes hr,
      .replaceShipment k k' hk hk' ⟨j, by rw [hsp]; simp⟩ hn (by simpa using hf2) ?_,
      fun k hk => kept_set k hk, near_set hjl (by rw [hsp]; count_depots)⟩, ?_⟩
    · intro a _
      have := RemoveOptionalShipment.visited_removed h hj hsp hfree a
      rw [← this]
      exact visited_two hjl xs ms ys _ _ a
    · intro hco hfit _
      rw [routesCost_set data ce h.clean.1.length hj]
      have haf := h.after hj (xs := xs ++ ⟨.pickup, k⟩ :: (ms ++ [⟨.delivery, k⟩])) (ys := ys)
        (by rw [hsp]; simp) (a := xs.length + 1 + ms.length + 1 + 1) (by simp; omega)
      have hu : used (xs ++ ⟨.pickup, k'⟩ :: (ms ++ ⟨.delivery, k'⟩ :: ys)) = true :=
        used_of_mem (a := ⟨.pickup, k'⟩) (by simp) (by simp)
      have hneg := Verdict.of_apply.1 hap
      show cost data ce (s.route j) (xs.length + 1) (xs.length + 1 + ms.length + 1) k k' = _
      unfold cost at hneg ⊢
      dsimp only at hneg ⊢
      by_cases hadj : xs.length + 1 + 1 = xs.length + 1 + ms.length + 1
      · rw [if_pos hadj] at hneg ⊢
        have hms : ms = [] := List.eq_nil_of_length_eq_zero (by omega)
        subst hms
        refine Eq.trans (delta_route false hco h hj hfit rfl hnew hr hsp
          (as := [[⟨.pickup, k'⟩], [⟨.delivery, k'⟩]])
          (All2.cons (Piece.pickup k') (All2.cons (Piece.delivery k') All2.nil)) haf (by simp) hu _
          (.inr hneg)) ?_
        omega
      · rw [if_neg hadj] at hneg ⊢
        have hms : ms ≠ [] := by rintro rfl; simp at hadj
        have hb := h.between hj (xs := xs ++ [⟨.pickup, k⟩]) (m := ms) (ys := ⟨.delivery, k⟩ :: ys)
          (by rw [hsp]; simp) hms hnd (a := xs.length + 1 + 1) (b := xs.length + 1 + ms.length + 1 - 1)
          (by simp) (by simp)
        refine Eq.trans (delta_route false hco h hj hfit rfl hnew hr hsp
          (as := [[⟨.pickup, k'⟩], ms, [⟨.delivery, k'⟩]])
          (All2.cons (Piece.pickup k') (All2.cons hb (All2.cons (Piece.delivery k') All2.nil))) haf
          (by simp) hu _ (.inr hneg)) ?_
        omega

end ReplaceOptionalShipment
end PyVRP
