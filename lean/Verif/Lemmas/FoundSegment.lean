import Verif.Lemmas.FoundBase
/-!
# Improving moves of segments and tails are found
-/
namespace PyVRP
open Spec
open SSol (used ofActs_empty At RefOk)

variable {data : ProblemData} {plan : List (List Activity)} {s s' : SSol} {ce : CostEvaluator}

namespace Relocate

theorem found_different {i j : Nat} {xs rest ys vs ws : List Activity} {u : Activity} {v : NodeRef}
    (h : SearchOk data plan s)
    (h' : SearchOk data ((plan.set i (xs ++ ys)).set j (vs ++ (u :: rest) ++ ws)) s')
    (hco : CostOk data ce) (hfit : FitsAll data ((plan.set i (xs ++ ys)).set j (vs ++ (u :: rest) ++ ws)))
    (hlt : planCost data ce ((plan.set i (xs ++ ys)).set j (vs ++ (u :: rest) ++ ws))
      < planCost data ce plan)
    (hi : i < data.numVehicles) (hj : j < data.numVehicles) (hij : i ≠ j)
    (hU : plan.getD i [] = xs ++ (u :: rest) ++ ys) (hV : plan.getD j [] = vs ++ ws)
    (hv : EndsAt j v vs) (hm : Movable xs (u :: rest)) (cache : Cache)
    (hfresh : ∀ i p, s.place u = some (i, p) → cache.lookup (cacheIdx data u)
      (removeCost (rest.length + 1) data ce (s.route i) p)
        = removeCost (rest.length + 1) data ce (s.route i) p) :
    (evaluate (rest.length + 1) data ce s cache u v).1.apply = true := by
  have hil := h.clean.1.lt_length hi
  have hjl := h.clean.1.lt_length hj
  have hut : u.type ≠ .depot := hm.oneTrip u (by simp)
  have hpu : s.place u = some (i, xs.length + 1) :=
    h.clean.1.place hi (ys := rest ++ ys) hut (by rw [hU]; simp)
  have hpv := h.clean.1.find (hv.at hj hV)
  obtain ⟨hf1, hf2⟩ := h.flags hi hU hm rfl
  unfold evaluate
  rw [hpu, hpv]
  dsimp only
  rw [hf1, hf2, if_neg (by simp), if_neg (by simp [hij]), if_pos hij, hfresh _ _ hpu]
  dsimp only
  unfold different
  rw [Verdict.of_apply]
  have hi' : ((plan.set i (xs ++ ys)).set j (vs ++ (u :: rest) ++ ws)).getD i [] = xs ++ ys := by
    rw [getD_set_ne _ hij, getD_set_self hil]
  have hj' : ((plan.set i (xs ++ ys)).set j (vs ++ (u :: rest) ++ ws)).getD j []
      = vs ++ (u :: rest) ++ ws := by
    rw [getD_set_self (by simpa using hjl)]
  have hu : used (vs ++ (u :: rest) ++ ws) = true := used_of_mem (a := u) (by simp) hut
  have hb := h.between hi hU (by simp) hm.oneTrip (a := xs.length + 1)
    (b := xs.length + 1 + (rest.length + 1) - 1) rfl (by simp; omega)
  have hl := h.after hj hV rfl
  have hcost := delta_le false hco h h' hj hfit trivial hj' hV
    (ms := [(s.route i).between data (xs.length + 1) (xs.length + 1 + (rest.length + 1) - 1)])
    (as := [u :: rest]) (All2.cons hb All2.nil) hl (by simp) hu
    (removeCost (rest.length + 1) data ce (s.route i) (xs.length + 1))
  have hri := h'.routes i hi
  rw [hi'] at hri
  have hrem := removed_cost hco h hi hfit trivial hi' hri hU hm.oneTrip 0
  have e1 : removeCost (rest.length + 1) data ce (s.route i) (xs.length + 1)
      = 0 + routeCost data ce (vehTypeAt data i) (xs ++ ys)
        - routeCost data ce (vehTypeAt data i) (plan.getD i []) := by
    rw [← hrem]
    unfold removeCost
    have e2 : xs.length + 1 + (rest.length + 1) = xs.length + (u :: rest).length + 1 := by simp; omega
    rw [e2, Nat.add_sub_cancel, List.length_cons]
  have ht : TaskChange data (Visited plan) (Visited ((plan.set i (xs ++ ys)).set j
      (vs ++ (u :: rest) ++ ws))) 0 := by
    apply same_tasks2 hij hil hjl
    intro b _
    rw [hU, hV]
    simp only [List.mem_append]
    grind
  have hneg := change_neg ht hlt
  rw [routesCost_set2 data ce h.clean.1.length hij hi hj] at hneg
  refine Int.lt_of_le_of_lt hcost ?_
  rw [e1]
  omega

theorem found_later {i : Nat} {xs rest ms ws : List Activity} {u : Activity} {v : NodeRef}
    (h : SearchOk data plan s)
    (h' : SearchOk data (plan.set i (xs ++ ms ++ (u :: rest) ++ ws)) s')
    (hco : CostOk data ce) (hfit : FitsAll data (plan.set i (xs ++ ms ++ (u :: rest) ++ ws)))
    (hlt : planCost data ce (plan.set i (xs ++ ms ++ (u :: rest) ++ ws)) < planCost data ce plan)
    (hi : i < data.numVehicles) (hU : plan.getD i [] = xs ++ (u :: rest) ++ ms ++ ws)
    (hv : EndsAt i v (xs ++ (u :: rest) ++ ms)) (hm : Movable xs (u :: rest))
    (hne : ms ≠ []) (hms : OneTrip ms) (cache : Cache) :
    (evaluate (rest.length + 1) data ce s cache u v).1.apply = true := by
  have hil := h.clean.1.lt_length hi
  have hut : u.type ≠ .depot := hm.oneTrip u (by simp)
  have hU' : plan.getD i [] = xs ++ (u :: rest) ++ (ms ++ ws) := by rw [hU]; simp
  have hpu : s.place u = some (i, xs.length + 1) :=
    h.clean.1.place hi (ys := rest ++ ms ++ ws) hut (by rw [hU]; simp)
  have hpv := h.clean.1.find (hv.at hi hU)
  obtain ⟨hf1, hf2⟩ := h.flags hi hU' hm rfl
  have hmpos := List.length_pos_of_ne_nil hne
  have hvl : (xs ++ (u :: rest) ++ ms).length = xs.length + 1 + rest.length + ms.length := by
    simp; omega
  have htu : ((s.route i).node (xs.length + 1)).trip = depotVisits xs := by
    rw [h.route hi, show plan.getD i [] = xs ++ u :: (rest ++ ms ++ ws) by rw [hU]; simp,
      SRoute.ofActs_inner]
    show depotVisits (xs ++ [u]) = _
    rw [depotVisits_append, depotVisits_cons, if_neg hut]
    rfl
  have htv : ((s.route i).node (xs ++ (u :: rest) ++ ms).length).trip = depotVisits xs := by
    rw [h.route hi, hU, SRoute.ofActs_trip, depotVisits_append, depotVisits_append,
      (noDepot_iff _).1 hm.oneTrip, (noDepot_iff _).1 hms]
    rfl
  have hnx : ((s.route i).node ((xs ++ (u :: rest) ++ ms).length + 1)).activity ≠ u := by
    intro hn
    have ho := h.once i u hut
    cases ws with
    | nil =>
      rw [h.route hi, hU, List.append_nil, SRoute.ofActs_end] at hn
      rw [← hn] at hut
      exact hut rfl
    | cons w ws =>
      rw [h.route hi, hU, SRoute.ofActs_inner] at hn
      dsimp only at hn
      rw [hU, hn] at ho
      simp only [List.count_append, List.count_cons_self] at ho
      omega
  unfold evaluate
  rw [hpu, hpv]
  dsimp only
  rw [hf1, hf2, if_neg (by simp), if_neg, if_neg (by simp)]
  · dsimp only
    unfold same
    rw [if_pos (by rw [hvl]; omega), Verdict.of_apply]
    have hi' : (plan.set i (xs ++ ms ++ (u :: rest) ++ ws)).getD i [] = xs ++ ms ++ (u :: rest) ++ ws :=
      getD_set_self hil _
    have hu : used (xs ++ ms ++ (u :: rest) ++ ws) = true := used_of_mem (a := u) (by simp) hut
    have hb1 := h.between hi hU' (by simp) hm.oneTrip (a := xs.length + 1)
      (b := xs.length + 1 + (rest.length + 1) - 1) rfl (by simp; omega)
    have hb2 := h.between hi (xs := xs ++ (u :: rest)) (m := ms) (ys := ws) hU hne hms
      (a := xs.length + 1 + (rest.length + 1)) (b := (xs ++ (u :: rest) ++ ms).length)
      (by simp; omega) (by simp; omega)
    have hl := h.after hi (xs := xs ++ (u :: rest) ++ ms) (ys := ws) hU rfl
    have hcost := delta_le false hco h h' hi hfit trivial hi' (xs := xs)
      (rest := (u :: rest) ++ (ms ++ ws)) (by rw [hU]; simp)
      (as := [ms, u :: rest]) (All2.cons hb2 (All2.cons hb1 All2.nil)) hl (by simp) hu 0
    have ht : TaskChange data (Visited plan) (Visited (plan.set i (xs ++ ms ++ (u :: rest) ++ ws))) 0 := by
      apply same_tasks hil
      intro b _
      rw [hU]
      simp only [List.mem_append]
      grind
    have hneg := change_neg ht hlt
    rw [routesCost_set data ce h.clean.1.length hi] at hneg
    refine Int.lt_of_le_of_lt hcost ?_
    omega
  · rw [htu, htv]
    simp only [decide_true, bne_self_eq_false, Bool.false_or, Bool.true_and, Bool.or_eq_true, not_or,
      Bool.not_eq_true, beq_iff_eq]
    refine ⟨?_, hnx⟩
    unfold overlap
    simp only [Bool.and_eq_false_iff, decide_eq_false_iff_not]
    rw [hvl]
    omega

theorem found_earlier {i : Nat} {vs ms rest ys : List Activity} {u : Activity} {v : NodeRef}
    (h : SearchOk data plan s)
    (h' : SearchOk data (plan.set i (vs ++ (u :: rest) ++ ms ++ ys)) s')
    (hco : CostOk data ce) (hfit : FitsAll data (plan.set i (vs ++ (u :: rest) ++ ms ++ ys)))
    (hlt : planCost data ce (plan.set i (vs ++ (u :: rest) ++ ms ++ ys)) < planCost data ce plan)
    (hi : i < data.numVehicles) (hU : plan.getD i [] = vs ++ ms ++ (u :: rest) ++ ys)
    (hv : EndsAt i v vs) (hm : Movable (vs ++ ms) (u :: rest))
    (hne : ms ≠ []) (hms : OneTrip ms) (cache : Cache) :
    (evaluate (rest.length + 1) data ce s cache u v).1.apply = true := by
  have hil := h.clean.1.lt_length hi
  have hut : u.type ≠ .depot := hm.oneTrip u (by simp)
  have hV : plan.getD i [] = vs ++ (ms ++ (u :: rest) ++ ys) := by rw [hU]; simp
  have hpu : s.place u = some (i, (vs ++ ms).length + 1) :=
    h.clean.1.place hi (ys := rest ++ ys) hut (by rw [hU]; simp)
  have hpv := h.clean.1.find (hv.at hi hV)
  obtain ⟨hf1, hf2⟩ := h.flags hi hU hm rfl
  have hmpos := List.length_pos_of_ne_nil hne
  have hvl : (vs ++ ms).length = vs.length + ms.length := by simp
  have htu : ((s.route i).node ((vs ++ ms).length + 1)).trip = depotVisits vs := by
    rw [h.route hi, show plan.getD i [] = (vs ++ ms) ++ u :: (rest ++ ys) by rw [hU]; simp,
      SRoute.ofActs_inner]
    show depotVisits (vs ++ ms ++ [u]) = _
    rw [depotVisits_append, depotVisits_append, depotVisits_cons, if_neg hut, (noDepot_iff _).1 hms]
    rfl
  have htv : ((s.route i).node vs.length).trip = depotVisits vs := by
    rw [h.route hi, hV, SRoute.ofActs_trip]
  have hnx : ((s.route i).node (vs.length + 1)).activity ≠ u := by
    intro hn
    have ho := h.once i u hut
    cases ms with
    | nil => exact hne rfl
    | cons w ws =>
      rw [h.route hi, show plan.getD i [] = vs ++ w :: (ws ++ (u :: rest) ++ ys) by rw [hU]; simp,
        SRoute.ofActs_inner] at hn
      dsimp only at hn
      rw [hU, hn] at ho
      simp only [List.count_append, List.count_cons_self] at ho
      omega
  unfold evaluate
  rw [hpu, hpv]
  dsimp only
  rw [hf1, hf2, if_neg (by simp), if_neg, if_neg (by simp)]
  · dsimp only
    unfold same
    rw [if_neg (by rw [hvl]; omega), Verdict.of_apply]
    have hi' : (plan.set i (vs ++ (u :: rest) ++ ms ++ ys)).getD i [] = vs ++ (u :: rest) ++ ms ++ ys :=
      getD_set_self hil _
    have hu : used (vs ++ (u :: rest) ++ ms ++ ys) = true := used_of_mem (a := u) (by simp) hut
    have hb1 := h.between hi hU (by simp) hm.oneTrip (a := (vs ++ ms).length + 1)
      (b := (vs ++ ms).length + 1 + (rest.length + 1) - 1) rfl (by simp; omega)
    have hb2 := h.between hi (xs := vs) (m := ms) (ys := (u :: rest) ++ ys) (by rw [hU]; simp) hne hms
      (a := vs.length + 1) (b := (vs ++ ms).length + 1 - 1) rfl (by simp)
    have hl := h.after hi (xs := vs ++ ms ++ (u :: rest)) (ys := ys) hU
      (a := (vs ++ ms).length + 1 + (rest.length + 1)) (by simp; omega)
    have hcost := delta_le false hco h h' hi hfit trivial hi' (xs := vs)
      (rest := ms ++ (u :: rest) ++ ys) (by rw [hU]; simp)
      (as := [u :: rest, ms]) (All2.cons hb1 (All2.cons hb2 All2.nil)) hl (by simp) hu 0
    have ht : TaskChange data (Visited plan) (Visited (plan.set i (vs ++ (u :: rest) ++ ms ++ ys))) 0 := by
      apply same_tasks hil
      intro b _
      rw [hU]
      simp only [List.mem_append]
      grind
    have hneg := change_neg ht hlt
    rw [routesCost_set data ce h.clean.1.length hi] at hneg
    refine Int.lt_of_le_of_lt hcost ?_
    omega
  · rw [htu, htv]
    simp only [decide_true, bne_self_eq_false, Bool.false_or, Bool.true_and, Bool.or_eq_true, not_or,
      Bool.not_eq_true, beq_iff_eq]
    refine ⟨?_, hnx⟩
    unfold overlap
    simp only [Bool.and_eq_false_iff, decide_eq_false_iff_not]
    rw [hvl]
    omega

end Relocate
end PyVRP
