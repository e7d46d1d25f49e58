import Verif.Lemmas.FoundDepot
/-!
# Improving moves of shipments are found
-/
namespace PyVRP
open Spec
open SSol (used ofActs_empty At RefOk)

variable {data : ProblemData} {plan : List (List Activity)} {s s' : SSol} {ce : CostEvaluator}

theorem shape {xs ms ys : List Activity} (p d : Activity) :
    xs ++ [p] ++ ms ++ [d] ++ ys = xs ++ p :: (ms ++ d :: ys) := by simp

/-- What holds of a shipment in a route. -/
theorem SearchOk.shipment_at (h : SearchOk data plan s) {i : Nat} (hi : i < data.numVehicles) {k : Nat}
    {xs ms ys : List Activity}
    (hsp : plan.getD i [] = xs ++ ⟨.pickup, k⟩ :: (ms ++ ⟨.delivery, k⟩ :: ys)) :
    OneTrip ms ∧ Phase.Free k (xs ++ ms ++ ys) ∧ k < data.numShipments
      ∧ s.place ⟨.pickup, k⟩ = some (i, xs.length + 1)
      ∧ s.place ⟨.delivery, k⟩ = some (i, xs.length + 1 + ms.length + 1) := by
  obtain ⟨xs', ms', ys', he, hnd, hfree, hk, -, hp1, hp2⟩ := h.shipment hi (k := k) (.inl (by rw [hsp]; simp))
  have hq1 := h.clean.1.place hi (a := ⟨.pickup, k⟩) (by simp) hsp
  have hq2 := h.clean.1.place hi (a := ⟨.delivery, k⟩) (by simp) (xs := xs ++ ⟨.pickup, k⟩ :: ms) (ys := ys)
    (by rw [hsp]; simp)
  have h1 := hp1
  have h2 := hp2
  rw [hq1] at h1
  rw [hq2] at h2
  obtain ⟨-, h1⟩ := Prod.mk.inj (Option.some.inj h1)
  obtain ⟨-, h2⟩ := Prod.mk.inj (Option.some.inj h2)
  simp at h1 h2
  have e := hsp.symm.trans he
  obtain ⟨rfl, e1⟩ := List.append_inj e (by omega)
  simp only [List.cons.injEq, true_and] at e1
  obtain ⟨rfl, e2⟩ := List.append_inj e1 (by omega)
  simp only [List.cons.injEq, true_and] at e2
  obtain rfl := e2
  exact ⟨hnd, hfree, hk, hp1, hp2⟩

namespace InsertOptionalShipment

theorem later_found (ce : CostEvaluator) (r : SRoute) (v : Nat) (out : Int) (pk dl : Seg) (e : SNode) :
    ∀ (ms ws : List Activity) (pos trip : Nat), ms ≠ [] → OneTrip ms →
    (ce.deltaCost false data out ⟨r, r.before v,
      [pk, r.between data (v + 1) (pos + ms.length - 1), dl, r.after (pos + ms.length)]⟩).1 < 0 →
    (later data ce r v out pk dl (innerNodes pos trip (ms ++ ws) ++ [e]) pos).apply = true
  | [], _, _, _, h, _, _ => absurd rfl h
  | a :: ms, ws, pos, trip, _, hd, hneg => by
    simp only [innerNodes, List.cons_append]
    generalize (if a.type = .depot then trip + 1 else trip) = t
    unfold later
    rw [if_neg (by simp [SNode.isDepot, Activity.isDepot, hd a (by simp)])]
    dsimp only
    split
    · rfl
    · rename_i hn
      cases ms with
      | nil => exact absurd (by simpa using hneg) hn
      | cons b ms =>
        refine later_found ce r v out pk dl e (b :: ms) ws (pos + 1) t (by simp)
          (fun c hc => hd c (by simp [List.mem_cons.1 hc])) ?_
        have e1 : pos + (a :: b :: ms).length = pos + 1 + (b :: ms).length := by simp; omega
        rw [e1] at hneg
        exact hneg

theorem search_found {plan' : List (List Activity)} (h : SearchOk data plan s)
    (h' : SearchOk data plan' s') (hco : CostOk data ce) (hfit : FitsAll data plan')
    {j : Nat} (hj : j < data.numVehicles) {vs ms ws : List Activity}
    (hsp : plan.getD j [] = vs ++ ms ++ ws) (hms : OneTrip ms) (out : Int) {pk dl : Seg} {a b : Activity}
    (hpk : Piece data pk [a]) (hdl : Piece data dl [b]) (ha : a.type ≠ .depot)
    (hnew : plan'.getD j [] = vs ++ a :: (ms ++ b :: ws))
    (hneg : out + routeCost data ce (vehTypeAt data j) (vs ++ a :: (ms ++ b :: ws))
      - routeCost data ce (vehTypeAt data j) (plan.getD j []) < 0) :
    (search data ce (s.route j) vs.length out pk dl).apply = true := by
  have hus : used (vs ++ a :: (ms ++ b :: ws)) = true := used_of_mem (a := a) (by simp) ha
  have hsp0 : plan.getD j [] = vs ++ (ms ++ ws) := by rw [hsp]; simp
  unfold search
  dsimp only
  split
  · rfl
  · rename_i hn
    have e : (s.route j).nodes.drop (vs.length + 1) = innerNodes (vs.length + 1) (depotVisits vs) (ms ++ ws)
        ++ [endNode (data.vehicleType (vehTypeAt data j)) (vs.length + (ms ++ ws).length + 1)
          (depotVisits vs + depotVisits (ms ++ ws) + 1)] := by
      rw [h.route hj, hsp0, SRoute.ofActs_drop]
    rw [e]
    by_cases h0 : ms = []
    · subst h0
      exfalso
      apply hn
      have hcost := delta_le false hco h h' hj hfit trivial hnew hsp0 (as := [[a], [b]])
        (All2.cons hpk (All2.cons hdl All2.nil)) (h.after hj hsp0 rfl) (by simp) hus out
      exact Int.lt_of_le_of_lt hcost hneg
    · refine later_found ce _ _ _ _ _ _ ms ws _ _ h0 hms ?_
      have hb := h.between hj hsp h0 hms (a := vs.length + 1) (b := vs.length + 1 + ms.length - 1)
        rfl (by omega)
      have hcost := delta_le false hco h h' hj hfit trivial hnew hsp0 (as := [[a], ms, [b]])
        (All2.cons hpk (All2.cons hb (All2.cons hdl All2.nil)))
        (h.after hj hsp (a := vs.length + 1 + ms.length) (by rw [List.length_append]; omega)) (by simp) hus out
      exact Int.lt_of_le_of_lt hcost hneg

theorem found {j : Nat} {vs ms ws : List Activity} {u : Activity} {v : NodeRef}
    (h : SearchOk data plan s)
    (h' : SearchOk data (plan.set j (vs ++ [u] ++ ms ++ [⟨.delivery, u.idx⟩] ++ ws)) s')
    (hco : CostOk data ce)
    (hfit : FitsAll data (plan.set j (vs ++ [u] ++ ms ++ [⟨.delivery, u.idx⟩] ++ ws)))
    (hlt : planCost data ce (plan.set j (vs ++ [u] ++ ms ++ [⟨.delivery, u.idx⟩] ++ ws))
      < planCost data ce plan)
    (hj : j < data.numVehicles) (hV : plan.getD j [] = vs ++ ms ++ ws) (hu : u.type = .pickup)
    (hun : Unvisited plan u) (hv : EndsAt j v vs) (hms : OneTrip ms) :
    (evaluate data ce s u v).apply = true := by
  obtain ⟨ty, k⟩ := u
  dsimp only at hu
  subst hu
  rw [shape] at h' hfit hlt
  have hjl := h.clean.1.lt_length hj
  have hsp : plan.getD j [] = vs ++ (ms ++ ws) := by rw [hV]; simp
  have hpv := h.clean.1.find (hv.at hj hsp)
  have hnew := getD_set_self hjl (vs ++ ⟨.pickup, k⟩ :: (ms ++ ⟨.delivery, k⟩ :: ws))
  have hro := h'.routes j hj
  rw [hnew] at hro
  have hk : k < data.numShipments := hro.inRange ⟨.pickup, k⟩ (by simp)
  have ht : TaskChange data (Visited plan)
      (Visited (plan.set j (vs ++ ⟨.pickup, k⟩ :: (ms ++ ⟨.delivery, k⟩ :: ws))))
      (-(data.shipment k).prize) := by
    refine .addShipment k hk hun.not_visited ?_
    intro a _
    rw [visited_set hjl, visited_split plan j, hV]
    simp only [List.mem_append, List.mem_cons]
    grind
  have hneg := change_neg ht hlt
  rw [routesCost_set data ce h.clean.1.length hj] at hneg
  unfold evaluate
  rw [hun.place h (by simp), hpv]
  dsimp only
  rw [if_neg (by simp [Activity.isPickup])]
  exact search_found h h' hco hfit hj hV hms _ (Piece.pickup k) (Piece.delivery k) (by simp) hnew
    (by omega)

end InsertOptionalShipment

namespace RemoveOptionalShipment

theorem cost_le {plan' : List (List Activity)} (exact : Bool) (h : SearchOk data plan s)
    (h' : SearchOk data plan' s') (hco : CostOk data ce) (hfit : FitsAll data plan')
    {i : Nat} (hi : i < data.numVehicles) {k : Nat} {xs ms ys : List Activity}
    (hnew : plan'.getD i [] = xs ++ ms ++ ys)
    (hsp : plan.getD i [] = xs ++ ⟨.pickup, k⟩ :: (ms ++ ⟨.delivery, k⟩ :: ys)) (out : Int) :
    cost exact data ce (s.route i) (xs.length + 1) (xs.length + 1 + ms.length + 1) out
      ≤ out + routeCost data ce (vehTypeAt data i) (xs ++ ms ++ ys)
        - routeCost data ce (vehTypeAt data i) (plan.getD i []) := by
  have hro := h'.routes i hi
  rw [hnew] at hro
  have hnd := (h.shipment_at hi hsp).1
  by_cases hx : exact = true ∨ cost exact data ce (s.route i) (xs.length + 1)
      (xs.length + 1 + ms.length + 1) out < 0
  · rw [cost_spec exact hco h hi hfit trivial hnew hro hsp hnd out hx]
    exact Int.le_refl _
  · -- the same as above
    have hcount : (s.route i).numClients + 2 * (s.route i).numShipments
        = 2 + taskCount (xs ++ ms ++ ys) := by
      rw [h.route hi, route_taskCount _ (h.closed hi) (h.once i), hsp]
      have e : ∀ ty, ty ≠ .depot → ∀ l, taskCount ((⟨ty, k⟩ : Activity) :: l) = taskCount l + 1 := by
        intro ty hty l
        simp [taskCount, hty]
      simp only [taskCount_append, e .pickup (by simp), e .delivery (by simp)]
      omega
    have hship : 1 ≤ (s.route i).numShipments := by
      rw [h.route hi, (SRoute.ofActs_counts data _ _).2.1, hsp]
      apply List.countP_pos_iff.2
      exact ⟨⟨.pickup, k⟩, by simp, by simp⟩
    unfold cost
    by_cases hone : (s.route i).numShipments = 1 ∧ (s.route i).numClients = 0
    · rw [if_pos hone]
      have hu : used (xs ++ ms ++ ys) = false := by rw [used_eq_false_iff]; omega
      rw [routeCost_unused ce _ hro.wellFormed hu, h.route hi]
      show _ ≤ out + 0 - routeCost _ _ _ _
      unfold routeCost
      omega
    · rw [if_neg hone]
      have hu : used (xs ++ ms ++ ys) = true := by rw [used_iff_taskCount]; omega
      have haf := h.after hi (xs := xs ++ ⟨.pickup, k⟩ :: (ms ++ [⟨.delivery, k⟩])) (ys := ys)
        (by rw [hsp]; simp) (a := xs.length + 1 + ms.length + 1 + 1) (by simp; omega)
      by_cases hadj : xs.length + 1 + 1 = xs.length + 1 + ms.length + 1
      · rw [if_pos hadj]
        have hms : ms = [] := List.eq_nil_of_length_eq_zero (by omega)
        subst hms
        exact delta_le exact hco h h' hi hfit trivial hnew hsp (as := []) All2.nil haf (by simp) hu _
      · rw [if_neg hadj]
        have hms : ms ≠ [] := by rintro rfl; simp at hadj
        have hb := h.between hi (xs := xs ++ [⟨.pickup, k⟩]) (m := ms) (ys := ⟨.delivery, k⟩ :: ys)
          (by rw [hsp]; simp) hms hnd (a := xs.length + 1 + 1) (b := xs.length + 1 + ms.length + 1 - 1)
          (by simp) (by simp)
        exact delta_le exact hco h h' hi hfit trivial hnew hsp (as := [ms]) (All2.cons hb All2.nil) haf
          (by simp) hu _

theorem found {i : Nat} {xs ms ys : List Activity} {u : Activity}
    (h : SearchOk data plan s) (h' : SearchOk data (plan.set i (xs ++ ms ++ ys)) s')
    (hco : CostOk data ce) (hfit : FitsAll data (plan.set i (xs ++ ms ++ ys)))
    (hlt : planCost data ce (plan.set i (xs ++ ms ++ ys)) < planCost data ce plan)
    (hi : i < data.numVehicles) (hu : u.type = .pickup)
    (hU : plan.getD i [] = xs ++ [u] ++ ms ++ [⟨.delivery, u.idx⟩] ++ ys)
    (hr : (data.shipment u.idx).required = false) :
    (evaluate data ce s u).apply = true := by
  obtain ⟨ty, k⟩ := u
  dsimp only at hu hr
  subst hu
  rw [shape] at hU
  dsimp only at hU
  obtain ⟨-, hfree, hk, hp1, hp2⟩ := h.shipment_at hi hU
  have hil := h.clean.1.lt_length hi
  have ht : TaskChange data (Visited plan) (Visited (plan.set i (xs ++ ms ++ ys))) (data.shipment k).prize :=
    .removeShipment k hk ⟨i, by rw [hU]; simp⟩ hr (fun a _ => visited_removed h hi hU hfree a)
  have hneg := change_neg ht hlt
  rw [routesCost_set data ce h.clean.1.length hi] at hneg
  unfold evaluate
  dsimp only
  rw [hp1, hp2]
  dsimp only
  rw [hr, if_neg (by simp [Activity.isPickup]), Verdict.of_apply]
  refine Int.lt_of_le_of_lt (cost_le false h h' hco hfit hi (getD_set_self hil _) hU _) ?_
  omega

end RemoveOptionalShipment

namespace ReplaceOptionalShipment

theorem found {j k : Nat} {xs ms ys : List Activity} {u b : Activity}
    (h : SearchOk data plan s)
    (h' : SearchOk data (plan.set j (xs ++ [u] ++ ms ++ [⟨.delivery, u.idx⟩] ++ ys)) s')
    (hco : CostOk data ce)
    (hfit : FitsAll data (plan.set j (xs ++ [u] ++ ms ++ [⟨.delivery, u.idx⟩] ++ ys)))
    (hlt : planCost data ce (plan.set j (xs ++ [u] ++ ms ++ [⟨.delivery, u.idx⟩] ++ ys))
      < planCost data ce plan)
    (hj : j < data.numVehicles)
    (hV : plan.getD j [] = xs ++ [⟨.pickup, k⟩] ++ ms ++ [⟨.delivery, k⟩] ++ ys)
    (hu : u.type = .pickup) (hun : Unvisited plan u) (hb : b = ⟨.pickup, k⟩ ∨ b = ⟨.delivery, k⟩)
    (hr : (data.shipment k).required = false) :
    (evaluate data ce s u (.task b)).apply = true := by
  obtain ⟨ty, k'⟩ := u
  dsimp only at hu
  subst hu
  rw [shape] at hV h' hfit hlt
  dsimp only at h' hfit hlt
  obtain ⟨hnd, hfree, hk, hp1, hp2⟩ := h.shipment_at hj hV
  have hjl := h.clean.1.lt_length hj
  have hnew := getD_set_self hjl (xs ++ ⟨.pickup, k'⟩ :: (ms ++ ⟨.delivery, k'⟩ :: ys))
  have hro := h'.routes j hj
  rw [hnew] at hro
  have hk' : k' < data.numShipments := hro.inRange ⟨.pickup, k'⟩ (by simp)
  have ht : TaskChange data (Visited plan)
      (Visited (plan.set j (xs ++ ⟨.pickup, k'⟩ :: (ms ++ ⟨.delivery, k'⟩ :: ys))))
      ((data.shipment k).prize - (data.shipment k').prize) := by
    refine .replaceShipment k k' hk hk' ⟨j, by rw [hV]; simp⟩ hun.not_visited hr ?_
    intro a _
    rw [← RemoveOptionalShipment.visited_removed h hj hV hfree a]
    exact visited_two hjl xs ms ys _ _ a
  have hneg := change_neg ht hlt
  rw [routesCost_set data ce h.clean.1.length hj] at hneg
  have hcost : cost data ce (s.route j) (xs.length + 1) (xs.length + 1 + ms.length + 1) k k' < 0 := by
    have haf := h.after hj (xs := xs ++ ⟨.pickup, k⟩ :: (ms ++ [⟨.delivery, k⟩])) (ys := ys)
      (by rw [hV]; simp) (a := xs.length + 1 + ms.length + 1 + 1) (by simp; omega)
    have hus : used (xs ++ ⟨.pickup, k'⟩ :: (ms ++ ⟨.delivery, k'⟩ :: ys)) = true :=
      used_of_mem (a := ⟨.pickup, k'⟩) (by simp) (by simp)
    unfold cost
    dsimp only
    by_cases hadj : xs.length + 1 + 1 = xs.length + 1 + ms.length + 1
    · rw [if_pos hadj]
      have hms : ms = [] := List.eq_nil_of_length_eq_zero (by omega)
      subst hms
      refine Int.lt_of_le_of_lt (delta_le false hco h h' hj hfit trivial hnew hV
        (as := [[⟨.pickup, k'⟩], [⟨.delivery, k'⟩]])
        (All2.cons (Piece.pickup k') (All2.cons (Piece.delivery k') All2.nil)) haf (by simp) hus _) ?_
      omega
    · rw [if_neg hadj]
      have hms : ms ≠ [] := by rintro rfl; simp at hadj
      have hb := h.between hj (xs := xs ++ [⟨.pickup, k⟩]) (m := ms) (ys := ⟨.delivery, k⟩ :: ys)
        (by rw [hV]; simp) hms hnd (a := xs.length + 1 + 1) (b := xs.length + 1 + ms.length + 1 - 1)
        (by simp) (by simp)
      refine Int.lt_of_le_of_lt (delta_le false hco h h' hj hfit trivial hnew hV
        (as := [[⟨.pickup, k'⟩], ms, [⟨.delivery, k'⟩]])
        (All2.cons (Piece.pickup k') (All2.cons hb (All2.cons (Piece.delivery k') All2.nil))) haf
        (by simp) hus _) ?_
      omega
  unfold evaluate
  rw [hun.place h (by simp)]
  rcases hb with rfl | rfl
  · have hpv : s.find (.task ⟨.pickup, k⟩) = some (j, xs.length + 1) := hp1
    rw [hpv]
    dsimp only
    rw [h.node_at hj hV rfl]
    dsimp only
    rw [hr, hp1, hp2, if_neg (by simp [Activity.isPickup, Activity.isShipment]), if_neg (by simp)]
    dsimp only
    rw [Verdict.of_apply]
    exact hcost
  · have hpv : s.find (.task ⟨.delivery, k⟩) = some (j, xs.length + 1 + ms.length + 1) := hp2
    rw [hpv]
    dsimp only
    rw [h.node_at hj (xs := xs ++ ⟨.pickup, k⟩ :: ms) (ys := ys) (a := ⟨.delivery, k⟩) (by rw [hV]; simp)
      (by simp; omega)]
    dsimp only
    rw [hr, hp1, hp2, if_neg (by simp [Activity.isPickup, Activity.isDelivery, Activity.isShipment]),
      if_neg (by simp)]
    dsimp only
    rw [Verdict.of_apply]
    exact hcost

end ReplaceOptionalShipment

namespace RelocateShipment

theorem found {i j : Nat} {xs ms ys vs ns ws : List Activity} {u : Activity} {v : NodeRef}
    (h : SearchOk data plan s)
    (h' : SearchOk data
      ((plan.set i (xs ++ ms ++ ys)).set j (vs ++ [u] ++ ns ++ [⟨.delivery, u.idx⟩] ++ ws)) s')
    (hco : CostOk data ce)
    (hfit : FitsAll data
      ((plan.set i (xs ++ ms ++ ys)).set j (vs ++ [u] ++ ns ++ [⟨.delivery, u.idx⟩] ++ ws)))
    (hlt : planCost data ce
      ((plan.set i (xs ++ ms ++ ys)).set j (vs ++ [u] ++ ns ++ [⟨.delivery, u.idx⟩] ++ ws))
      < planCost data ce plan)
    (hi : i < data.numVehicles) (hj : j < data.numVehicles) (hij : i ≠ j) (hu : u.type = .pickup)
    (hU : plan.getD i [] = xs ++ [u] ++ ms ++ [⟨.delivery, u.idx⟩] ++ ys)
    (hV : plan.getD j [] = vs ++ ns ++ ws) (hv : EndsAt j v vs) (hns : OneTrip ns) (cache : Cache)
    (hfresh : ∀ i p j d, s.place u = some (i, p) → s.place ⟨.delivery, u.idx⟩ = some (j, d) →
        cache.lookup u.idx (RemoveOptionalShipment.cost true data ce (s.route i) p d 0)
          = RemoveOptionalShipment.cost true data ce (s.route i) p d 0) :
    (evaluate data ce s cache u v).1.apply = true := by
  obtain ⟨ty, k⟩ := u
  dsimp only at hu
  subst hu
  rw [shape] at hU h' hfit hlt
  dsimp only at hU h' hfit hlt
  obtain ⟨hnd, hfree, hk, hp1, hp2⟩ := h.shipment_at hi hU
  have hil := h.clean.1.lt_length hi
  have hjl := h.clean.1.lt_length hj
  have hsp : plan.getD j [] = vs ++ (ns ++ ws) := by rw [hV]; simp
  have hpv := h.clean.1.find (hv.at hj hsp)
  have hi' : ((plan.set i (xs ++ ms ++ ys)).set j
      (vs ++ ⟨.pickup, k⟩ :: (ns ++ ⟨.delivery, k⟩ :: ws))).getD i [] = xs ++ ms ++ ys := by
    rw [getD_set_ne _ hij, getD_set_self hil]
  have hj' : ((plan.set i (xs ++ ms ++ ys)).set j
      (vs ++ ⟨.pickup, k⟩ :: (ns ++ ⟨.delivery, k⟩ :: ws))).getD j []
        = vs ++ ⟨.pickup, k⟩ :: (ns ++ ⟨.delivery, k⟩ :: ws) := by
    rw [getD_set_self (by simpa using hjl)]
  have ht : TaskChange data (Visited plan) (Visited ((plan.set i (xs ++ ms ++ ys)).set j
      (vs ++ ⟨.pickup, k⟩ :: (ns ++ ⟨.delivery, k⟩ :: ws)))) 0 := by
    apply same_tasks2 hij hil hjl
    intro a _
    rw [hU, hV]
    simp only [List.mem_append, List.mem_cons]
    grind
  have hneg := change_neg ht hlt
  rw [routesCost_set2 data ce h.clean.1.length hij hi hj] at hneg
  have hrem := RemoveOptionalShipment.cost_le true h h' hco hfit hi hi' hU 0
  have hpp : Piece data ((s.route i).at data (xs.length + 1)) [⟨.pickup, k⟩] := h.at hi hU (by simp) rfl
  have hpl : Piece data ((s.route i).at data (xs.length + 1 + ms.length + 1)) [⟨.delivery, k⟩] :=
    h.at hi (xs := xs ++ ⟨.pickup, k⟩ :: ms) (ys := ys) (by rw [hU]; simp) (by simp) (by simp; omega)
  have hfr := hfresh i _ i _ hp1 hp2
  unfold evaluate
  dsimp only at hfr ⊢
  rw [hp1, hp2, hpv]
  dsimp only
  rw [if_neg (by simp [Activity.isPickup, hij]), hfr]
  exact InsertOptionalShipment.search_found h h' hco hfit hj hV hns _ hpp hpl (by simp) hj' (by omega)

end RelocateShipment

namespace RelocatePickup

theorem search_found (ce : CostEvaluator) (r : SRoute) (k u : Nat) (e : SNode) {ps : List Activity}
    {a : Activity} (hne : ps.length + 1 ≠ u) (hne' : ps.length ≠ u)
    (hneg : cost data ce r k u (ps.length + 1) < 0) (qs : List Activity) :
    OneTrip (a :: qs) →
    (search data ce r k u (e :: innerNodes 1 0 (ps ++ a :: qs)).reverse (ps ++ a :: qs).length).apply
      = true := by
  have step : ∀ (pre : List Activity) (b : Activity), b.type ≠ .depot →
      search data ce r k u (e :: innerNodes 1 0 (pre ++ [b])).reverse (pre ++ [b]).length
        = if pre.length + 1 = u ∨ pre.length = u
          then search data ce r k u (e :: innerNodes 1 0 pre).reverse pre.length
          else if cost data ce r k u (pre.length + 1) < 0
          then (⟨cost data ce r k u (pre.length + 1), true, .node b⟩ : Verdict)
          else search data ce r k u (e :: innerNodes 1 0 pre).reverse pre.length := by
    intro pre b hb
    have e1 : (e :: innerNodes 1 0 (pre ++ [b])).reverse
        = { activity := b, pos := pre.length + 1,
            trip := if b.type = .depot then depotVisits pre + 1 else depotVisits pre }
          :: (e :: innerNodes 1 0 pre).reverse := by
      rw [innerNodes_append]
      simp only [innerNodes, List.reverse_cons, List.reverse_append, List.reverse_nil, List.nil_append,
        List.cons_append, List.append_assoc]
      simp [Nat.add_comm]
    have e2 : (pre ++ [b]).length = pre.length + 1 := by simp
    rw [e1, e2]
    generalize (if b.type = .depot then depotVisits pre + 1 else depotVisits pre) = t
    rw [search, if_neg (by simp [SNode.isDepot, Activity.isDepot, hb]), Nat.add_sub_cancel]
    rfl
  induction qs using snoc_induction with
  | h0 =>
    intro hd
    rw [step _ _ (hd a (by simp)), if_neg (by omega), if_pos hneg]
  | hs qs b ih =>
    intro hd
    have hd' : OneTrip (a :: qs) := fun c hc => hd c (by
      rw [List.mem_cons] at hc ⊢
      rcases hc with hc | hc
      · exact .inl hc
      · exact .inr (List.mem_append_left _ hc))
    have e3 : ps ++ a :: (qs ++ [b]) = (ps ++ a :: qs) ++ [b] := by simp
    rw [e3, step _ _ (hd b (by simp))]
    split
    · exact ih hd'
    · split
      · rfl
      · exact ih hd'

theorem found {i : Nat} {xs ms ys ps qs : List Activity} {u : Activity}
    (h : SearchOk data plan s)
    (h' : SearchOk data (plan.set i (ps ++ [u] ++ qs ++ [⟨.delivery, u.idx⟩] ++ ys)) s')
    (hco : CostOk data ce)
    (hfit : FitsAll data (plan.set i (ps ++ [u] ++ qs ++ [⟨.delivery, u.idx⟩] ++ ys)))
    (hlt : planCost data ce (plan.set i (ps ++ [u] ++ qs ++ [⟨.delivery, u.idx⟩] ++ ys))
      < planCost data ce plan)
    (hi : i < data.numVehicles) (hu : u.type = .pickup)
    (hU : plan.getD i [] = xs ++ [u] ++ ms ++ [⟨.delivery, u.idx⟩] ++ ys)
    (hnew : ps ++ qs = xs ++ ms) (hqs : OneTrip qs) :
    (evaluate data ce s u).apply = true := by
  obtain ⟨ty, k⟩ := u
  dsimp only at hu
  subst hu
  rw [shape] at hU h' hfit hlt
  dsimp only at hU h' hfit hlt
  obtain ⟨hnd, hfree, hk, hp1, hp2⟩ := h.shipment_at hi hU
  have hil := h.clean.1.lt_length hi
  have hnew' := getD_set_self hil (ps ++ ⟨.pickup, k⟩ :: (qs ++ ⟨.delivery, k⟩ :: ys))
  have hus : used (ps ++ ⟨.pickup, k⟩ :: (qs ++ ⟨.delivery, k⟩ :: ys)) = true :=
    used_of_mem (a := ⟨.pickup, k⟩) (by simp) (by simp)
  have ht : TaskChange data (Visited plan)
      (Visited (plan.set i (ps ++ ⟨.pickup, k⟩ :: (qs ++ ⟨.delivery, k⟩ :: ys)))) 0 := by
    apply same_tasks hil
    intro b _
    have : b ∈ ps ++ qs ↔ b ∈ xs ++ ms := by rw [hnew]
    rw [hU]
    simp only [List.mem_append, List.mem_cons] at this ⊢
    grind
  have hneg := change_neg ht hlt
  rw [routesCost_set data ce h.clean.1.length hi] at hneg
  have hpre : plan.getD i [] = (xs ++ ⟨.pickup, k⟩ :: (ms ++ [⟨.delivery, k⟩])) ++ ys := by
    rw [hU]; simp
  have hl : xs.length + 1 + ms.length + 1
      = (xs ++ (⟨.pickup, k⟩ : Activity) :: (ms ++ [⟨.delivery, k⟩])).length := by
    simp; omega
  have hnodes : ((s.route i).nodes.take (xs.length + 1 + ms.length + 1 + 1)).reverse
      = (startNode (data.vehicleType (vehTypeAt data i))
        :: innerNodes 1 0 (xs ++ ⟨.pickup, k⟩ :: (ms ++ [⟨.delivery, k⟩]))).reverse := by
    rw [h.route hi, hpre, hl]
    congr 1
    show (canon _ _).take _ = _
    rw [canon_split]
    exact List.take_left' (by simp [innerNodes_length])
  unfold evaluate
  dsimp only
  rw [hp1, hp2]
  dsimp only
  rw [if_neg (by simp [Activity.isPickup]), hnodes, hl]
  rcases Nat.lt_trichotomy ps.length xs.length with hc | hc | hc
  · -- earlier
    obtain ⟨m1, rfl, rfl⟩ := split_le hnew (by omega)
    cases m1 with
    | nil => simp at hc
    | cons a m1 =>
    have e : ps ++ a :: m1 ++ ⟨.pickup, k⟩ :: (ms ++ [⟨.delivery, k⟩])
        = ps ++ a :: (m1 ++ ⟨.pickup, k⟩ :: (ms ++ [⟨.delivery, k⟩])) := by simp
    rw [e]
    have hml : (ps ++ a :: m1).length = ps.length + (m1.length + 1) := by simp
    have hnd1 : OneTrip (a :: m1) := fun b hb => hqs b (List.mem_append_left _ hb)
    refine search_found ce _ _ _ _ (by omega) (by omega) ?_ _ ?_
    · unfold cost
      rw [if_neg (by omega)]
      have hb := h.between hi (xs := ps) (m := a :: m1) (ys := ⟨.pickup, k⟩ :: (ms ++ ⟨.delivery, k⟩ :: ys))
        hU (by simp) hnd1 (a := ps.length + 1) (b := (ps ++ a :: m1).length + 1 - 1) rfl (by simp)
      have haf := h.after hi (xs := ps ++ a :: m1 ++ [⟨.pickup, k⟩]) (ys := ms ++ ⟨.delivery, k⟩ :: ys)
        (by rw [hU]; simp) (a := (ps ++ a :: m1).length + 1 + 1) (by simp; omega)
      refine Int.lt_of_le_of_lt (delta_le false hco h h' hi hfit trivial hnew' (xs := ps)
        (rest := (a :: m1) ++ ⟨.pickup, k⟩ :: (ms ++ ⟨.delivery, k⟩ :: ys)) (by rw [hU]; simp)
        (as := [[⟨.pickup, k⟩], a :: m1])
        (All2.cons (Piece.pickup k) (All2.cons hb All2.nil)) haf (by simp) hus 0) ?_
      omega
    · intro b hb
      simp only [List.mem_cons, List.mem_append, List.not_mem_nil, or_false] at hb
      rcases hb with rfl | hb | rfl | hb | rfl
      · exact hnd1 _ (by simp)
      · exact hnd1 _ (by simp [hb])
      · simp
      · exact hnd _ hb
      · simp
  · -- the same place
    obtain ⟨rfl, rfl⟩ := List.append_inj hnew hc
    rw [hU] at hneg
    omega
  · -- later
    obtain ⟨m1, rfl, rfl⟩ := split_le hnew.symm (by omega)
    have hm1l : m1 ≠ [] := by rintro rfl; simp at hc
    have hpos := List.length_pos_of_ne_nil hm1l
    have hnd1 : OneTrip m1 := fun b hb => hnd b (List.mem_append_left _ hb)
    obtain ⟨a, q', hq⟩ : ∃ a q', qs ++ [(⟨.delivery, k⟩ : Activity)] = a :: q' := by
      cases qs with
      | nil => exact ⟨_, _, rfl⟩
      | cons b qs => exact ⟨_, _, rfl⟩
    have e : xs ++ ⟨.pickup, k⟩ :: ((m1 ++ qs) ++ [⟨.delivery, k⟩])
        = (xs ++ ⟨.pickup, k⟩ :: m1) ++ a :: q' := by
      rw [← hq]; simp
    rw [e]
    have hml : (xs ++ (⟨.pickup, k⟩ : Activity) :: m1).length = xs.length + 1 + m1.length := by
      simp; omega
    refine search_found ce _ _ _ _ (by omega) (by omega) ?_ _ ?_
    · unfold cost
      rw [if_pos (by omega)]
      have hb := h.between hi (xs := xs ++ [⟨.pickup, k⟩]) (m := m1) (ys := qs ++ ⟨.delivery, k⟩ :: ys)
        (by rw [hU]; simp) hm1l hnd1 (a := xs.length + 1 + 1)
        (b := (xs ++ (⟨.pickup, k⟩ : Activity) :: m1).length + 1 - 1) (by simp) (by simp; omega)
      have haf := h.after hi (xs := xs ++ ⟨.pickup, k⟩ :: m1) (ys := qs ++ ⟨.delivery, k⟩ :: ys)
        (by rw [hU]; simp) rfl
      refine Int.lt_of_le_of_lt (delta_le false hco h h' hi hfit trivial hnew' (xs := xs)
        (rest := ⟨.pickup, k⟩ :: ((m1 ++ qs) ++ ⟨.delivery, k⟩ :: ys)) hU
        (as := [m1, [⟨.pickup, k⟩]])
        (All2.cons hb (All2.cons (Piece.pickup k) All2.nil)) haf (by simp) hus 0) ?_
      omega
    · intro b hb
      rw [← hq, List.mem_append] at hb
      rcases hb with hb | hb
      · exact hqs b hb
      · simp at hb; subst hb; simp

end RelocatePickup

namespace RelocateDelivery

theorem search_found (ce : CostEvaluator) (r : SRoute) (k d : Nat) (e : SNode) :
    ∀ (ps : List Activity) (a : Activity) (qs : List Activity) (pos trip : Nat), OneTrip (ps ++ [a]) →
    pos + ps.length ≠ d → pos + ps.length + 1 ≠ d → cost data ce r k d (pos + ps.length) < 0 →
    (search data ce r k d (innerNodes pos trip (ps ++ a :: qs) ++ [e]) pos).apply = true := by
  have step : ∀ (b : Activity) (rest : List Activity) (pos trip : Nat), b.type ≠ .depot →
      search data ce r k d (innerNodes pos trip (b :: rest) ++ [e]) pos
        = if pos = d ∨ pos + 1 = d
          then search data ce r k d (innerNodes (pos + 1) trip rest ++ [e]) (pos + 1)
          else if cost data ce r k d pos < 0 then (⟨cost data ce r k d pos, true, .node b⟩ : Verdict)
          else search data ce r k d (innerNodes (pos + 1) trip rest ++ [e]) (pos + 1) := by
    intro b rest pos trip hb
    simp only [innerNodes, List.cons_append]
    rw [if_neg hb, search, if_neg (by simp [SNode.isDepot, Activity.isDepot, hb])]
    rfl
  intro ps
  induction ps with
  | nil =>
    intro a qs pos trip hd hne hne' hneg
    rw [List.nil_append, step _ _ _ _ (hd a (by simp)), if_neg (by simp at hne hne'; omega),
      if_pos (by simpa using hneg)]
  | cons b ps ih =>
    intro a qs pos trip hd hne hne' hneg
    have e1 : pos + (b :: ps).length = pos + 1 + ps.length := by simp; omega
    rw [e1] at hne hne' hneg
    have := ih a qs (pos + 1) trip (fun c hc => hd c (by
      rw [List.cons_append]; exact List.mem_cons_of_mem _ hc)) hne hne' hneg
    rw [List.cons_append, step _ _ _ _ (hd b (by simp))]
    split
    · exact this
    · split
      · rfl
      · exact this

theorem found {i : Nat} {xs ms ys ps qs : List Activity} {u : Activity}
    (h : SearchOk data plan s)
    (h' : SearchOk data (plan.set i (xs ++ [u] ++ ps ++ [⟨.delivery, u.idx⟩] ++ qs)) s')
    (hco : CostOk data ce)
    (hfit : FitsAll data (plan.set i (xs ++ [u] ++ ps ++ [⟨.delivery, u.idx⟩] ++ qs)))
    (hlt : planCost data ce (plan.set i (xs ++ [u] ++ ps ++ [⟨.delivery, u.idx⟩] ++ qs))
      < planCost data ce plan)
    (hi : i < data.numVehicles) (hu : u.type = .pickup)
    (hU : plan.getD i [] = xs ++ [u] ++ ms ++ [⟨.delivery, u.idx⟩] ++ ys)
    (hnew : ps ++ qs = ms ++ ys) (hps : OneTrip ps) :
    (evaluate data ce s u).apply = true := by
  obtain ⟨ty, k⟩ := u
  dsimp only at hu
  subst hu
  rw [shape] at hU h' hfit hlt
  dsimp only at hU h' hfit hlt
  obtain ⟨hnd, hfree, hk, hp1, hp2⟩ := h.shipment_at hi hU
  have hil := h.clean.1.lt_length hi
  have hnew' := getD_set_self hil (xs ++ ⟨.pickup, k⟩ :: (ps ++ ⟨.delivery, k⟩ :: qs))
  have hus : used (xs ++ ⟨.pickup, k⟩ :: (ps ++ ⟨.delivery, k⟩ :: qs)) = true :=
    used_of_mem (a := ⟨.pickup, k⟩) (by simp) (by simp)
  have ht : TaskChange data (Visited plan)
      (Visited (plan.set i (xs ++ ⟨.pickup, k⟩ :: (ps ++ ⟨.delivery, k⟩ :: qs)))) 0 := by
    apply same_tasks hil
    intro b _
    have : b ∈ ps ++ qs ↔ b ∈ ms ++ ys := by rw [hnew]
    rw [hU]
    simp only [List.mem_append, List.mem_cons] at this ⊢
    grind
  have hneg := change_neg ht hlt
  rw [routesCost_set data ce h.clean.1.length hi] at hneg
  have hnodes : (s.route i).nodes.drop (xs.length + 1)
      = innerNodes (xs.length + 1) (depotVisits xs) (⟨.pickup, k⟩ :: (ms ++ ⟨.delivery, k⟩ :: ys))
        ++ [endNode (data.vehicleType (vehTypeAt data i))
          (xs.length + (⟨.pickup, k⟩ :: (ms ++ (⟨.delivery, k⟩ : Activity) :: ys)).length + 1)
          (depotVisits xs + depotVisits (⟨.pickup, k⟩ :: (ms ++ (⟨.delivery, k⟩ : Activity) :: ys)) + 1)] := by
    rw [h.route hi, hU, SRoute.ofActs_drop]
  have hspd : plan.getD i [] = (xs ++ ⟨.pickup, k⟩ :: ms) ++ ⟨.delivery, k⟩ :: ys := by rw [hU]; simp
  unfold evaluate
  dsimp only
  rw [hp1, hp2]
  dsimp only
  rw [if_neg (by simp [Activity.isPickup]), hnodes]
  rcases Nat.lt_trichotomy ps.length ms.length with hc | hc | hc
  · -- earlier
    obtain ⟨m2, rfl, rfl⟩ := split_le hnew (by omega)
    have hm2l : m2 ≠ [] := by rintro rfl; simp at hc
    have hpos := List.length_pos_of_ne_nil hm2l
    have hnd2 : OneTrip m2 := fun b hb => hnd b (List.mem_append_right _ hb)
    obtain ⟨p', a, hp⟩ : ∃ p' a, (⟨.pickup, k⟩ : Activity) :: ps = p' ++ [a] := by
      rcases List.eq_nil_or_concat ps with rfl | ⟨p', a, rfl⟩
      · exact ⟨[], _, rfl⟩
      · exact ⟨⟨.pickup, k⟩ :: p', a, by simp⟩
    have hpl : p'.length = ps.length := by
      have := congrArg List.length hp
      simpa using this.symm
    have e : (⟨.pickup, k⟩ : Activity) :: ((ps ++ m2) ++ ⟨.delivery, k⟩ :: ys)
        = p' ++ a :: (m2 ++ ⟨.delivery, k⟩ :: ys) := by
      have : (⟨.pickup, k⟩ : Activity) :: ((ps ++ m2) ++ ⟨.delivery, k⟩ :: ys)
        = (⟨.pickup, k⟩ :: ps) ++ (m2 ++ ⟨.delivery, k⟩ :: ys) := by simp
      rw [this, hp]; simp
    rw [e]
    have hml : (ps ++ m2).length = ps.length + m2.length := by simp
    refine search_found ce _ _ _ _ _ _ _ _ _ ?_ (by omega) (by omega) ?_
    · rw [← hp]
      intro b hb
      rcases List.mem_cons.1 hb with rfl | hb
      · simp
      · exact hps b hb
    · unfold cost
      rw [if_neg (by omega)]
      have hsp2 : plan.getD i [] = (xs ++ ⟨.pickup, k⟩ :: ps) ++ m2 ++ (⟨.delivery, k⟩ :: ys) := by
        rw [hU]; simp
      have hb := h.between hi hsp2 hm2l hnd2 (a := xs.length + 1 + p'.length + 1)
        (b := xs.length + 1 + (ps ++ m2).length + 1 - 1) (by simp; omega) (by simp; omega)
      have haf := h.after hi (xs := xs ++ ⟨.pickup, k⟩ :: ((ps ++ m2) ++ [⟨.delivery, k⟩])) (ys := ys)
        (by rw [hU]; simp) (a := xs.length + 1 + (ps ++ m2).length + 1 + 1) (by simp; omega)
      have e5 : xs.length + 1 + p'.length = (xs ++ (⟨.pickup, k⟩ : Activity) :: ps).length := by
        simp; omega
      rw [e5] at hb ⊢
      refine Int.lt_of_le_of_lt (delta_le false hco h h' hi hfit trivial hnew' (xs := xs ++ ⟨.pickup, k⟩ :: ps)
        (rest := m2 ++ ⟨.delivery, k⟩ :: ys) (by rw [hU]; simp)
        (as := [[⟨.delivery, k⟩], m2])
        (All2.cons (Piece.delivery k) (All2.cons hb All2.nil)) haf (by simp) hus 0) ?_
      omega
  · -- the same place
    obtain ⟨rfl, rfl⟩ := List.append_inj hnew hc
    rw [hU] at hneg
    omega
  · -- later
    obtain ⟨y1, rfl, rfl⟩ := split_le hnew.symm (by omega)
    rcases List.eq_nil_or_concat y1 with rfl | ⟨y0, a, rfl⟩
    · simp at hc
    rw [List.concat_eq_append] at *
    have e : (⟨.pickup, k⟩ : Activity) :: (ms ++ ⟨.delivery, k⟩ :: ((y0 ++ [a]) ++ qs))
        = (⟨.pickup, k⟩ :: (ms ++ ⟨.delivery, k⟩ :: y0)) ++ a :: qs := by simp
    rw [e]
    have hnd1 : OneTrip (y0 ++ [a]) := fun b hb => hps b (List.mem_append_right _ hb)
    have hpl : ((⟨.pickup, k⟩ : Activity) :: (ms ++ ⟨.delivery, k⟩ :: y0)).length
        = ms.length + 2 + y0.length := by simp; omega
    refine search_found ce _ _ _ _ _ _ _ _ _ ?_ (by rw [hpl]; omega) (by rw [hpl]; omega) ?_
    · intro b hb
      simp only [List.mem_cons, List.mem_append, List.cons_append, List.not_mem_nil, or_false] at hb
      rcases hb with rfl | (hb | rfl | hb) | rfl
      · simp
      · exact hnd b hb
      · simp
      · exact hnd1 b (by simp [hb])
      · exact hnd1 _ (by simp)
    · unfold cost
      rw [if_pos (by rw [hpl]; omega)]
      have hb := h.between hi (xs := xs ++ ⟨.pickup, k⟩ :: (ms ++ [⟨.delivery, k⟩])) (m := y0 ++ [a])
        (ys := qs) (by rw [hU]; simp) (by simp) hnd1 (a := xs.length + 1 + ms.length + 1 + 1)
        (b := xs.length + 1 + ((⟨.pickup, k⟩ : Activity) :: (ms ++ ⟨.delivery, k⟩ :: y0)).length)
        (by simp; omega) (by rw [hpl]; simp; omega)
      have haf := h.after hi (xs := xs ++ ⟨.pickup, k⟩ :: (ms ++ ⟨.delivery, k⟩ :: (y0 ++ [a]))) (ys := qs)
        (by rw [hU]; simp)
        (a := xs.length + 1 + ((⟨.pickup, k⟩ : Activity) :: (ms ++ ⟨.delivery, k⟩ :: y0)).length + 1)
        (by rw [hpl]; simp; omega)
      have e5 : xs.length + 1 + ms.length + 1 - 1 = (xs ++ (⟨.pickup, k⟩ : Activity) :: ms).length := by
        simp; omega
      rw [e5]
      refine Int.lt_of_le_of_lt (delta_le false hco h h' hi hfit trivial hnew' hspd
        (as := [y0 ++ [a], [⟨.delivery, k⟩]])
        (All2.cons hb (All2.cons (Piece.delivery k) All2.nil)) haf (by simp) hus 0) ?_
      omega

end RelocateDelivery
end PyVRP
