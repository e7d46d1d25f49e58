import Verif.Lemmas.FoundClient
/-!
# Improving moves that insert or remove reload depots are found
-/
namespace PyVRP
open Spec
open SSol (used ofActs_empty At RefOk)

variable {data : ProblemData} {plan : List (List Activity)} {s s' : SSol} {ce : CostEvaluator}

/-- A move to a plan that is not more expensive. -/
theorem change_le {plan' : List (List Activity)} {δ : Int}
    (ht : TaskChange data (Visited plan) (Visited plan') δ)
    (hle : planCost data ce plan' ≤ planCost data ce plan) :
    δ + routesCost data ce plan' - routesCost data ce plan ≤ 0 := by
  have := ht.prizes
  unfold planCost at hle
  omega

/-- The node after `vs` is not `u`, which is elsewhere. -/
theorem SearchOk.next_ne (h : SearchOk data plan s) {i j p : Nat} {vs ws : List Activity} {u : Activity}
    (hut : u.type ≠ .depot) (hj : j < data.numVehicles) (hV : plan.getD j [] = vs ++ ws)
    (hpu : s.place u = some (i, p)) (hne : i ≠ j ∨ p ≠ vs.length + 1) :
    (((s.route j).node (vs.length + 1)).activity == u) = false := by
  rw [beq_eq_false_iff_ne]
  intro hn
  cases ws with
  | nil =>
    rw [h.route hj, hV, List.append_nil, SRoute.ofActs_end] at hn
    rw [← hn] at hut
    exact hut rfl
  | cons w ws =>
    rw [h.route hj, hV, SRoute.ofActs_inner] at hn
    dsimp only at hn
    have := h.clean.1.place hj (xs := vs) (ys := ws) hut (by rw [hV, hn])
    rw [hpu] at this
    injection this with this
    injection this with h1 h2
    rcases hne with h3 | h3
    · exact h3 h1
    · exact h3 h2

/-- The node where `vs` ends is no reload depot. -/
theorem Spec.EndsAt.not_reload (h : SearchOk data plan s) {j : Nat} {v : NodeRef} {vs ws : List Activity}
    (hv : EndsAt j v vs) (hj : j < data.numVehicles) (hV : plan.getD j [] = vs ++ ws) :
    ((s.route j).node vs.length).isReloadDepot = false := by
  rcases hv with ⟨-, rfl⟩ | ⟨a, vs', hat, -, rfl⟩
  · rw [h.route hj]; rfl
  · rw [List.length_append, List.length_singleton, h.route hj,
      show plan.getD j [] = vs' ++ a :: ws by rw [hV]; simp, SRoute.ofActs_inner]
    simp [SNode.isReloadDepot, SNode.isDepot, Activity.isDepot, hat]

/-- Nor is the node after it. -/
theorem SearchOk.next_not_reload (h : SearchOk data plan s) {j : Nat} {vs ws : List Activity}
    (hj : j < data.numVehicles) (hV : plan.getD j [] = vs ++ ws)
    (hw : ∀ a, ws.head? = some a → a.type ≠ .depot) :
    ((s.route j).node (vs.length + 1)).isReloadDepot = false := by
  cases ws with
  | nil =>
    have : ((SRoute.ofActs data (vehTypeAt data j) vs).node (vs.length + 1)).isEndDepot = true := by
      have := SRoute.ofActs_isEnd data (vehTypeAt data j) vs []
      simpa using this
    rw [h.route hj, hV, List.append_nil]
    unfold SNode.isReloadDepot
    rw [this]
    simp
  | cons w ws =>
    rw [h.route hj, hV, SRoute.ofActs_inner]
    simp [SNode.isReloadDepot, SNode.isDepot, Activity.isDepot, hw w rfl]

namespace RemoveAdjacentDepot

theorem best_le {cost : Int} {best : Int × Move} {move : Move} (h : cost ≤ 0) :
    (RelocateWithDepot.better best cost move).1 ≤ 0 := by
  unfold RelocateWithDepot.better
  split
  · exact h
  · omega

theorem better_le {cost : Int} {best : Int × Move} {move : Move} (h : best.1 ≤ 0) :
    (RelocateWithDepot.better best cost move).1 ≤ 0 := by
  unfold RelocateWithDepot.better
  split
  · dsimp only; omega
  · exact h

theorem found_previous {i depot : Nat} {xs ys : List Activity} {u : Activity}
    (h : SearchOk data plan s) (h' : SearchOk data (plan.set i (xs ++ u :: ys)) s')
    (hco : CostOk data ce) (hfit : FitsAll data (plan.set i (xs ++ u :: ys)))
    (hle : planCost data ce (plan.set i (xs ++ u :: ys)) ≤ planCost data ce plan)
    (hi : i < data.numVehicles) (hU : plan.getD i [] = xs ++ [⟨.depot, depot⟩] ++ u :: ys)
    (hu : u.type ≠ .depot) : (evaluate data ce s u).apply = true := by
  have hil := h.clean.1.lt_length hi
  have hpu : s.place u = some (i, (xs ++ [(⟨.depot, depot⟩ : Activity)]).length + 1) := h.clean.1.place hi hu hU
  have hsp : plan.getD i [] = xs ++ ⟨.depot, depot⟩ :: u :: ys := by rw [hU]; simp
  have hl : (xs ++ [(⟨.depot, depot⟩ : Activity)]).length + 1 - 1 = xs.length + 1 := by simp
  have hre : ((s.route i).node ((xs ++ [(⟨.depot, depot⟩ : Activity)]).length + 1 - 1)).isReloadDepot = true := by
    rw [hl, h.route hi, hsp, SRoute.ofActs_inner]
    rfl
  have ht : TaskChange data (Visited plan) (Visited (plan.set i (xs ++ u :: ys))) 0 := by
    apply same_tasks hil
    intro b hb
    have : b ≠ ⟨.depot, depot⟩ := by rintro rfl; exact hb rfl
    rw [hU]
    simp only [List.mem_append, List.mem_cons, List.not_mem_nil]
    tauto
  have hneg := change_le ht hle
  rw [routesCost_set data ce h.clean.1.length hi] at hneg
  have hcost := delta_le true hco h h' hi hfit trivial (getD_set_self hil _) hsp (as := []) All2.nil
    (h.after hi hU rfl) (by simp) (used_of_mem (a := u) (by simp) hu) 0
  have hl2 : (xs ++ [(⟨.depot, depot⟩ : Activity)]).length + 1 - 2 = xs.length := by simp
  unfold evaluate
  rw [hpu]
  dsimp only
  rw [if_pos hre, hl2]
  have h1 : (RelocateWithDepot.better (MAX, Move.none) (ce.deltaCost true data 0 ⟨s.route i,
      (s.route i).before xs.length,
      [(s.route i).after ((xs ++ [(⟨.depot, depot⟩ : Activity)]).length + 1)]⟩).1 .removePrev).1 ≤ 0 := by
    apply best_le
    refine Int.le_trans hcost ?_
    omega
  rw [decide_eq_true_iff]
  split
  · exact better_le h1
  · exact h1

theorem found_next {i depot : Nat} {xs ys : List Activity} {u : Activity}
    (h : SearchOk data plan s) (h' : SearchOk data (plan.set i (xs ++ u :: ys)) s')
    (hco : CostOk data ce) (hfit : FitsAll data (plan.set i (xs ++ u :: ys)))
    (hle : planCost data ce (plan.set i (xs ++ u :: ys)) ≤ planCost data ce plan)
    (hi : i < data.numVehicles) (hU : plan.getD i [] = xs ++ u :: ⟨.depot, depot⟩ :: ys)
    (hu : u.type ≠ .depot) : (evaluate data ce s u).apply = true := by
  have hil := h.clean.1.lt_length hi
  have hpu : s.place u = some (i, xs.length + 1) := h.clean.1.place hi hu hU
  have hsp : plan.getD i [] = (xs ++ [u]) ++ ⟨.depot, depot⟩ :: ys := by rw [hU]; simp
  have hl : xs.length + 1 = (xs ++ [u]).length := by simp
  have hre : ((s.route i).node (xs.length + 1 + 1)).isReloadDepot = true := by
    rw [hl, h.route hi, hsp, SRoute.ofActs_inner]
    rfl
  have ht : TaskChange data (Visited plan) (Visited (plan.set i (xs ++ u :: ys))) 0 := by
    apply same_tasks hil
    intro b hb
    have : b ≠ ⟨.depot, depot⟩ := by rintro rfl; exact hb rfl
    rw [hU]
    simp only [List.mem_append, List.mem_cons]
    tauto
  have hneg := change_le ht hle
  rw [routesCost_set data ce h.clean.1.length hi] at hneg
  have hcost := delta_le true hco h h' hi hfit trivial (getD_set_self hil _) hsp (as := []) All2.nil
    (h.after hi (xs := xs ++ [u] ++ [⟨.depot, depot⟩]) (ys := ys) (a := xs.length + 1 + 2)
      (by rw [hU]; simp) (by simp)) (by simp) (used_of_mem (a := u) (by simp) hu) 0
  rw [← hl] at hcost
  unfold evaluate
  rw [hpu]
  dsimp only
  rw [if_pos hre, decide_eq_true_iff]
  apply best_le
  refine Int.le_trans hcost ?_
  omega

end RemoveAdjacentDepot

namespace RelocateWithDepot

theorem fold_le (depots : List Nat) (f : Nat → Int) (mk : Nat → Move) : ∀ (best : Int × Move),
    (depots.foldl (fun best depot => better best (f depot) (mk depot)) best).1 ≤ best.1
      ∧ ∀ d ∈ depots, (depots.foldl (fun best depot => better best (f depot) (mk depot)) best).1 ≤ f d := by
  induction depots with
  | nil => intro best; exact ⟨Int.le_refl _, by simp⟩
  | cons d depots ih =>
    intro best
    rw [List.foldl_cons]
    obtain ⟨h1, h2⟩ := ih (better best (f d) (mk d))
    have h3 : (better best (f d) (mk d)).1 ≤ best.1 ∧ (better best (f d) (mk d)).1 ≤ f d := by
      unfold better
      split
      · rename_i h; exact ⟨by dsimp only; omega, Int.le_refl _⟩
      · rename_i h; exact ⟨Int.le_refl _, by omega⟩
    refine ⟨by omega, ?_⟩
    intro d' hd'
    rcases List.mem_cons.1 hd' with rfl | hd'
    · omega
    · exact h2 d' hd'

theorem search_le {rV : SRoute} {v : Nat} {depots : List Nat} {f g : Nat → Int}
    (h1 : (rV.node v).isReloadDepot = false) {d : Nat} (hd : d ∈ depots) :
    (search rV v depots f g).1 ≤ f d
      ∧ ((rV.node (v + 1)).isReloadDepot = false → (search rV v depots f g).1 ≤ g d) := by
  unfold search
  dsimp only
  have h0 : (!(rV.node v).isReloadDepot) = true := by rw [h1]; rfl
  rw [if_pos h0]
  have hf := (fold_le depots f .depotU (MAX, Move.none)).2 d hd
  have hg := fold_le depots g .uDepot
    (depots.foldl (fun best depot => better best (f depot) (.depotU depot)) (MAX, Move.none))
  constructor
  · split
    · exact Int.le_trans hg.1 hf
    · exact hf
  · intro h2
    rw [h2, if_pos (by rfl)]
    exact hg.2 d hd

/-- The checks pass. -/
theorem evaluate_eq (h : SearchOk data plan s) {i j p : Nat} {vs ws : List Activity} {u : Activity}
    {v : NodeRef} (hj : j < data.numVehicles) (hV : plan.getD j [] = vs ++ ws) (hu : u.type = .client)
    (hpu : s.place u = some (i, p)) (hv : EndsAt j v vs) (hne : i ≠ j ∨ p ≠ vs.length + 1)
    (hused : used (plan.getD j []) = true)
    (hroom : depotVisits (plan.getD j []) + 2 ≤ (data.vehicleType (vehTypeAt data j)).maxTrips)
    (htrip : i = j → ((s.route i).node p).trip = depotVisits vs) (hw : Whole vs) (cache : Cache) :
    (evaluate data ce s cache u v).1
      = if i = j then
          .of (search (s.route j) vs.length (data.vehicleType (vehTypeAt data j)).reloadDepots
              (sameDepotU data ce (s.route j) p vs.length) (sameUDepot data ce (s.route j) p vs.length)).1
            (search (s.route j) vs.length (data.vehicleType (vehTypeAt data j)).reloadDepots
              (sameDepotU data ce (s.route j) p vs.length) (sameUDepot data ce (s.route j) p vs.length)).2
        else
          let cost := cache.lookup u.idx (removeCost data ce (s.route i) p 0)
          let best := search (s.route j) vs.length (data.vehicleType (vehTypeAt data j)).reloadDepots
            (fun depot => differentDepotU data ce (s.route i) p (s.route j) vs.length depot cost)
            (fun depot => differentUDepot data ce (s.route i) p (s.route j) vs.length depot cost)
          .of best.1 best.2 := by
  have hut : u.type ≠ .depot := by rw [hu]; decide
  have hpv := h.clean.1.find (hv.at hj hV)
  have hvt : (s.route j).vehicleType = vehTypeAt data j := by
    rw [h.route hj, SRoute.ofActs_vehicleType]
  have hemp : (s.route j).empty = false := by
    rw [h.route hj, ofActs_empty (h.routes j hj).wellFormed, hused]; rfl
  have hnt : (s.route j).numTrips ≠ (data.vehicleType (vehTypeAt data j)).maxTrips := by
    rw [h.route hj, (SRoute.ofActs_counts data _ _).2.2.2.1]
    omega
  unfold evaluate
  rw [hpu, hpv]
  dsimp only
  rw [h.next_ne hut hj hV hpu hne, hemp, hvt, if_neg (by simp [Activity.isClient, hu]), if_neg hnt,
    if_neg (by
      rintro ⟨rfl, h1⟩
      exact h1 (by rw [htrip rfl, h.trip_at hj hV rfl])),
    if_neg (by rw [h.balanced hj hV hw]; simp)]
  split <;> rfl

theorem found_different {i j depot : Nat} {xs ys vs ws block : List Activity} {u : Activity} {v : NodeRef}
    (h : SearchOk data plan s)
    (h' : SearchOk data ((plan.set i (xs ++ ys)).set j (vs ++ block ++ ws)) s')
    (hco : CostOk data ce) (hfit : FitsAll data ((plan.set i (xs ++ ys)).set j (vs ++ block ++ ws)))
    (hlt : planCost data ce ((plan.set i (xs ++ ys)).set j (vs ++ block ++ ws)) < planCost data ce plan)
    (hi : i < data.numVehicles) (hj : j < data.numVehicles) (hij : i ≠ j)
    (hU : plan.getD i [] = xs ++ [u] ++ ys) (hV : plan.getD j [] = vs ++ ws)
    (hu : u.type = .client) (hv : EndsAt j v vs) (hw : Whole vs)
    (hused : ∃ a ∈ plan.getD j [], a.type ≠ .depot)
    (hdepot : depot ∈ (data.vehicleType (vehTypeAt data j)).reloadDepots)
    (hblock : WithDepot u depot ws block) (cache : Cache)
    (hfresh : ∀ i p, s.place u = some (i, p) →
        cache.lookup u.idx (removeCost data ce (s.route i) p 0) = removeCost data ce (s.route i) p 0) :
    (evaluate data ce s cache u v).1.apply = true := by
  obtain ⟨ty, d⟩ := u
  dsimp only at hu
  subst hu
  have hil := h.clean.1.lt_length hi
  have hjl := h.clean.1.lt_length hj
  have hsp : plan.getD i [] = xs ++ ⟨.client, d⟩ :: ys := by rw [hU]; simp
  have hpu : s.place ⟨.client, d⟩ = some (i, xs.length + 1) := h.clean.1.place hi (by simp) hsp
  have hi' : ((plan.set i (xs ++ ys)).set j (vs ++ block ++ ws)).getD i [] = xs ++ ys := by
    rw [getD_set_ne _ hij, getD_set_self hil]
  have hj' : ((plan.set i (xs ++ ys)).set j (vs ++ block ++ ws)).getD j [] = vs ++ block ++ ws := by
    rw [getD_set_self (by simpa using hjl)]
  have hbm : ∀ a : Activity, a.type ≠ .depot → (a ∈ block ↔ a = ⟨.client, d⟩) := by
    intro a ha
    have : a ≠ ⟨.depot, depot⟩ := by rintro rfl; exact ha rfl
    rcases hblock with rfl | ⟨rfl, -⟩ <;> simp [this]
  have hbd : depotVisits block = 1 := by
    rcases hblock with rfl | ⟨rfl, -⟩ <;> rfl
  have hus : used (vs ++ block ++ ws) = true :=
    used_of_mem (a := ⟨.client, d⟩) (by simp [hbm ⟨.client, d⟩ (by simp)]) (by simp)
  have hri := h'.routes i hi
  rw [hi'] at hri
  have hrj := (h'.routes j hj).trips
  rw [hj', depotVisits_append, depotVisits_append, hbd] at hrj
  obtain ⟨a, ham, hat⟩ := hused
  have hev := evaluate_eq (ce := ce) h hj hV rfl hpu hv (.inl hij) (used_of_mem ham hat) (by
    rw [hV, depotVisits_append]; omega) (fun e => absurd e hij) hw cache
  rw [hev, if_neg hij, hfresh _ _ hpu]
  dsimp only
  rw [Verdict.of_apply]
  have ht : TaskChange data (Visited plan)
      (Visited ((plan.set i (xs ++ ys)).set j (vs ++ block ++ ws))) 0 := by
    apply same_tasks2 hij hil hjl
    intro b hb
    rw [hsp, hV]
    simp only [List.mem_append, List.mem_cons, hbm b hb]
    tauto
  have hneg := change_neg ht hlt
  rw [routesCost_set2 data ce h.clean.1.length hij hi hj] at hneg
  have hrc := removed_client hco h hi hfit trivial hi' hri hsp 0
  have hu1 := h.at hi hsp (by simp) rfl
  have hl := h.after hj hV rfl
  obtain ⟨hs1, hs2⟩ := search_le (rV := s.route j) (v := vs.length)
    (f := fun depot => differentDepotU data ce (s.route i) (xs.length + 1) (s.route j) vs.length depot
      (removeCost data ce (s.route i) (xs.length + 1) 0))
    (g := fun depot => differentUDepot data ce (s.route i) (xs.length + 1) (s.route j) vs.length depot
      (removeCost data ce (s.route i) (xs.length + 1) 0))
    (hv.not_reload h hj hV) hdepot
  rcases hblock with rfl | ⟨rfl, hhead⟩
  · refine Int.lt_of_le_of_lt hs1 ?_
    have hcost := delta_le false hco h h' hj hfit trivial hj' hV
      (as := [[⟨.depot, depot⟩], [⟨.client, d⟩]])
      (All2.cons (Piece.depot depot) (All2.cons hu1 All2.nil)) hl (by simp) hus
      (removeCost data ce (s.route i) (xs.length + 1) 0)
    refine Int.lt_of_le_of_lt hcost ?_
    rw [hrc]
    omega
  · refine Int.lt_of_le_of_lt (hs2 (h.next_not_reload hj hV hhead)) ?_
    have hcost := delta_le false hco h h' hj hfit trivial hj' hV
      (as := [[⟨.client, d⟩], [⟨.depot, depot⟩]])
      (All2.cons hu1 (All2.cons (Piece.depot depot) All2.nil)) hl (by simp) hus
      (removeCost data ce (s.route i) (xs.length + 1) 0)
    refine Int.lt_of_le_of_lt hcost ?_
    rw [hrc]
    omega

theorem found_later {i depot : Nat} {xs ms ws block : List Activity} {u : Activity} {v : NodeRef}
    (h : SearchOk data plan s)
    (h' : SearchOk data (plan.set i (xs ++ ms ++ block ++ ws)) s')
    (hco : CostOk data ce) (hfit : FitsAll data (plan.set i (xs ++ ms ++ block ++ ws)))
    (hlt : planCost data ce (plan.set i (xs ++ ms ++ block ++ ws)) < planCost data ce plan)
    (hi : i < data.numVehicles) (hU : plan.getD i [] = xs ++ [u] ++ ms ++ ws)
    (hu : u.type = .client) (hv : EndsAt i v (xs ++ [u] ++ ms)) (hw : Whole (xs ++ [u] ++ ms))
    (hne : ms ≠ []) (hms : OneTrip ms)
    (hdepot : depot ∈ (data.vehicleType (vehTypeAt data i)).reloadDepots)
    (hblock : WithDepot u depot ws block) (cache : Cache) :
    (evaluate data ce s cache u v).1.apply = true := by
  obtain ⟨ty, d⟩ := u
  dsimp only at hu
  subst hu
  have hil := h.clean.1.lt_length hi
  have hmpos := List.length_pos_of_ne_nil hne
  have hlen : (xs ++ [(⟨.client, d⟩ : Activity)] ++ ms).length = xs.length + 1 + ms.length := by simp; omega
  have hsp : plan.getD i [] = xs ++ ⟨.client, d⟩ :: (ms ++ ws) := by rw [hU]; simp
  have hpu : s.place ⟨.client, d⟩ = some (i, xs.length + 1) := h.clean.1.place hi (by simp) hsp
  have hi' : (plan.set i (xs ++ ms ++ block ++ ws)).getD i [] = xs ++ ms ++ block ++ ws :=
    getD_set_self hil _
  have hbm : ∀ a : Activity, a.type ≠ .depot → (a ∈ block ↔ a = ⟨.client, d⟩) := by
    intro a ha
    have : a ≠ ⟨.depot, depot⟩ := by rintro rfl; exact ha rfl
    rcases hblock with rfl | ⟨rfl, -⟩ <;> simp [this]
  have hbd : depotVisits block = 1 := by
    rcases hblock with rfl | ⟨rfl, -⟩ <;> rfl
  have hus : used (xs ++ ms ++ block ++ ws) = true :=
    used_of_mem (a := ⟨.client, d⟩) (by simp [hbm ⟨.client, d⟩ (by simp)]) (by simp)
  have hri := (h'.routes i hi).trips
  rw [hi', depotVisits_append, depotVisits_append, depotVisits_append, hbd, hms.visits] at hri
  have hsv : depotVisits [(⟨.client, d⟩ : Activity)] = 0 := depotVisits_single (by simp)
  have hev := evaluate_eq (ce := ce) h hi hU rfl hpu hv (.inr (by rw [hlen]; omega))
    (used_of_mem (a := ⟨.client, d⟩) (by rw [hsp]; simp) (by simp))
    (by rw [hU, depotVisits_append, depotVisits_append, depotVisits_append, hms.visits, hsv]; omega)
    (fun _ => by
      rw [h.trip_at hi (xs := xs ++ [⟨.client, d⟩]) (ys := ms ++ ws) (by rw [hU]; simp) (by simp),
        depotVisits_append _ ms, hms.visits]; rfl) hw cache
  rw [hev, if_pos rfl, Verdict.of_apply]
  have ht : TaskChange data (Visited plan) (Visited (plan.set i (xs ++ ms ++ block ++ ws))) 0 := by
    apply same_tasks hil
    intro b hb
    rw [hU]
    simp only [List.mem_append, List.mem_singleton, hbm b hb]
    tauto
  have hneg := change_neg ht hlt
  rw [routesCost_set data ce h.clean.1.length hi] at hneg
  have hu1 := h.at hi hsp (by simp) rfl
  have hb := h.between hi hU hne hms (a := xs.length + 1 + 1)
    (b := (xs ++ [(⟨.client, d⟩ : Activity)] ++ ms).length) (by simp) (by simp; omega)
  have hl := h.after hi hU rfl
  obtain ⟨hs1, hs2⟩ := search_le (rV := s.route i) (v := (xs ++ [(⟨.client, d⟩ : Activity)] ++ ms).length)
    (f := sameDepotU data ce (s.route i) (xs.length + 1) (xs ++ [(⟨.client, d⟩ : Activity)] ++ ms).length)
    (g := sameUDepot data ce (s.route i) (xs.length + 1) (xs ++ [(⟨.client, d⟩ : Activity)] ++ ms).length)
    (hv.not_reload h hi hU) hdepot
  rcases hblock with rfl | ⟨rfl, hhead⟩
  · refine Int.lt_of_le_of_lt hs1 ?_
    unfold sameDepotU
    rw [if_pos (by rw [hlen]; omega)]
    have hcost := delta_le false hco h h' hi hfit trivial hi' hsp
      (as := [ms, [⟨.depot, depot⟩], [⟨.client, d⟩]])
      (All2.cons hb (All2.cons (Piece.depot depot) (All2.cons hu1 All2.nil))) hl (by simp) hus 0
    refine Int.lt_of_le_of_lt hcost ?_
    omega
  · refine Int.lt_of_le_of_lt (hs2 (h.next_not_reload hi hU hhead)) ?_
    unfold sameUDepot
    rw [if_pos (by rw [hlen]; omega)]
    have hcost := delta_le false hco h h' hi hfit trivial hi' hsp
      (as := [ms, [⟨.client, d⟩], [⟨.depot, depot⟩]])
      (All2.cons hb (All2.cons hu1 (All2.cons (Piece.depot depot) All2.nil))) hl (by simp) hus 0
    refine Int.lt_of_le_of_lt hcost ?_
    omega

theorem found_earlier {i depot : Nat} {vs ms ys block : List Activity} {u : Activity} {v : NodeRef}
    (h : SearchOk data plan s)
    (h' : SearchOk data (plan.set i (vs ++ block ++ ms ++ ys)) s')
    (hco : CostOk data ce) (hfit : FitsAll data (plan.set i (vs ++ block ++ ms ++ ys)))
    (hlt : planCost data ce (plan.set i (vs ++ block ++ ms ++ ys)) < planCost data ce plan)
    (hi : i < data.numVehicles) (hU : plan.getD i [] = vs ++ ms ++ [u] ++ ys)
    (hu : u.type = .client) (hv : EndsAt i v vs) (hw : Whole vs)
    (hne : ms ≠ []) (hms : OneTrip ms)
    (hdepot : depot ∈ (data.vehicleType (vehTypeAt data i)).reloadDepots)
    (hblock : WithDepot u depot ms block) (cache : Cache) :
    (evaluate data ce s cache u v).1.apply = true := by
  obtain ⟨ty, d⟩ := u
  dsimp only at hu
  subst hu
  have hil := h.clean.1.lt_length hi
  have hmpos := List.length_pos_of_ne_nil hne
  have hlen : (vs ++ ms).length = vs.length + ms.length := by simp
  have hsp : plan.getD i [] = (vs ++ ms) ++ ⟨.client, d⟩ :: ys := by rw [hU]; simp
  have hV : plan.getD i [] = vs ++ (ms ++ ⟨.client, d⟩ :: ys) := by rw [hU]; simp
  have hpu : s.place ⟨.client, d⟩ = some (i, (vs ++ ms).length + 1) := h.clean.1.place hi (by simp) hsp
  have hi' : (plan.set i (vs ++ block ++ ms ++ ys)).getD i [] = vs ++ block ++ ms ++ ys :=
    getD_set_self hil _
  have hbm : ∀ a : Activity, a.type ≠ .depot → (a ∈ block ↔ a = ⟨.client, d⟩) := by
    intro a ha
    have : a ≠ ⟨.depot, depot⟩ := by rintro rfl; exact ha rfl
    rcases hblock with rfl | ⟨rfl, -⟩ <;> simp [this]
  have hbd : depotVisits block = 1 := by
    rcases hblock with rfl | ⟨rfl, -⟩ <;> rfl
  have hus : used (vs ++ block ++ ms ++ ys) = true :=
    used_of_mem (a := ⟨.client, d⟩) (by simp [hbm ⟨.client, d⟩ (by simp)]) (by simp)
  have hri := (h'.routes i hi).trips
  rw [hi', depotVisits_append, depotVisits_append, depotVisits_append, hbd, hms.visits] at hri
  have hsv : depotVisits [(⟨.client, d⟩ : Activity)] = 0 := depotVisits_single (by simp)
  have hev := evaluate_eq (ce := ce) h hi hV rfl hpu hv (.inr (by rw [hlen]; omega))
    (used_of_mem (a := ⟨.client, d⟩) (by rw [hsp]; simp) (by simp))
    (by rw [hU, depotVisits_append, depotVisits_append, depotVisits_append, hms.visits, hsv]; omega)
    (fun _ => by
      rw [h.trip_at hi (xs := vs ++ ms ++ [⟨.client, d⟩]) (ys := ys) hU (by simp; omega),
        depotVisits_append, depotVisits_append, hms.visits, hsv]; omega) hw cache
  rw [hev, if_pos rfl, Verdict.of_apply]
  have ht : TaskChange data (Visited plan) (Visited (plan.set i (vs ++ block ++ ms ++ ys))) 0 := by
    apply same_tasks hil
    intro b hb
    rw [hU]
    simp only [List.mem_append, List.mem_singleton, hbm b hb]
    tauto
  have hneg := change_neg ht hlt
  rw [routesCost_set data ce h.clean.1.length hi] at hneg
  have hu1 := h.at hi hsp (by simp) rfl
  have hb := h.between hi (xs := vs) (m := ms) (ys := ⟨.client, d⟩ :: ys) (by rw [hU]; simp) hne hms
    (a := vs.length + 1) (b := (vs ++ ms).length + 1 - 1) rfl (by simp)
  have hl := h.after hi (xs := vs ++ ms ++ [⟨.client, d⟩]) (ys := ys) hU (a := (vs ++ ms).length + 1 + 1)
    (by simp; omega)
  obtain ⟨hs1, hs2⟩ := search_le (rV := s.route i) (v := vs.length)
    (f := sameDepotU data ce (s.route i) ((vs ++ ms).length + 1) vs.length)
    (g := sameUDepot data ce (s.route i) ((vs ++ ms).length + 1) vs.length)
    (hv.not_reload h hi hV) hdepot
  rcases hblock with rfl | ⟨rfl, hhead⟩
  · refine Int.lt_of_le_of_lt hs1 ?_
    unfold sameDepotU
    rw [if_neg (by rw [hlen]; omega)]
    have hcost := delta_le false hco h h' hi hfit trivial hi' hV
      (as := [[⟨.depot, depot⟩], [⟨.client, d⟩], ms])
      (All2.cons (Piece.depot depot) (All2.cons hu1 (All2.cons hb All2.nil))) hl (by simp) hus 0
    refine Int.lt_of_le_of_lt hcost ?_
    omega
  · refine Int.lt_of_le_of_lt (hs2 (h.next_not_reload hi hV (fun a ha => ?_))) ?_
    · cases ms with
      | nil => exact absurd rfl hne
      | cons m ms => exact hhead a ha
    unfold sameUDepot
    rw [if_neg (by rw [hlen]; omega)]
    have hcost := delta_le false hco h h' hi hfit trivial hi' hV
      (as := [[⟨.client, d⟩], [⟨.depot, depot⟩], ms])
      (All2.cons hu1 (All2.cons (Piece.depot depot) (All2.cons hb All2.nil))) hl (by simp) hus 0
    refine Int.lt_of_le_of_lt hcost ?_
    omega

end RelocateWithDepot
end PyVRP
