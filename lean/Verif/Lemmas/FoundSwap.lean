import Verif.Lemmas.FoundSegment
/-!
# Improving swaps are found
-/
namespace PyVRP
open Spec
open SSol (used ofActs_empty At RefOk)

variable {data : ProblemData} {plan : List (List Activity)} {s s' : SSol} {ce : CostEvaluator}

namespace Swap

theorem found_different {i j : Nat} {xs rest ys vs rest' ws : List Activity} {u b : Activity}
    (h : SearchOk data plan s)
    (h' : SearchOk data ((plan.set i (xs ++ (b :: rest') ++ ys)).set j (vs ++ (u :: rest) ++ ws)) s')
    (hco : CostOk data ce)
    (hfit : FitsAll data ((plan.set i (xs ++ (b :: rest') ++ ys)).set j (vs ++ (u :: rest) ++ ws)))
    (hlt : planCost data ce ((plan.set i (xs ++ (b :: rest') ++ ys)).set j (vs ++ (u :: rest) ++ ws))
      < planCost data ce plan)
    (hi : i < data.numVehicles) (hj : j < data.numVehicles) (hij : i ≠ j)
    (hU : plan.getD i [] = xs ++ (u :: rest) ++ ys) (hV : plan.getD j [] = vs ++ (b :: rest') ++ ws)
    (hm : Movable xs (u :: rest)) (hm' : Movable vs (b :: rest'))
    (hidx : rest.length = rest'.length → u.idx < b.idx) :
    (evaluate (rest.length + 1) (rest'.length + 1) data ce s u (.task b)).apply = true := by
  have hil := h.clean.1.lt_length hi
  have hjl := h.clean.1.lt_length hj
  have hut : u.type ≠ .depot := hm.oneTrip u (by simp)
  have hbt : b.type ≠ .depot := hm'.oneTrip b (by simp)
  have hpu : s.place u = some (i, xs.length + 1) :=
    h.clean.1.place hi (ys := rest ++ ys) hut (by rw [hU]; simp)
  have hpv : s.find (.task b) = some (j, vs.length + 1) :=
    h.clean.1.place hj (ys := rest' ++ ws) hbt (by rw [hV]; simp)
  obtain ⟨hf1, hf2⟩ := h.flags hi hU hm rfl
  obtain ⟨hf3, hf4⟩ := h.flags hj hV hm' rfl
  have hnb := h.node_at hj (xs := vs) (a := b) (ys := rest' ++ ws) (by rw [hV]; simp) rfl
  unfold evaluate
  rw [hpu, hpv]
  dsimp only
  rw [hf1, hf2, hf3, hf4, if_neg (by simp), if_neg (by simp [hij]), if_neg, if_pos hij]
  · unfold different
    rw [Verdict.of_apply]
    have hi' : ((plan.set i (xs ++ (b :: rest') ++ ys)).set j (vs ++ (u :: rest) ++ ws)).getD i []
        = xs ++ (b :: rest') ++ ys := by
      rw [getD_set_ne _ hij, getD_set_self hil]
    have hj' : ((plan.set i (xs ++ (b :: rest') ++ ys)).set j (vs ++ (u :: rest) ++ ws)).getD j []
        = vs ++ (u :: rest) ++ ws := by
      rw [getD_set_self (by simpa using hjl)]
    have hb1 := h.between hi hU (by simp) hm.oneTrip (a := xs.length + 1)
      (b := xs.length + 1 + (rest.length + 1) - 1) rfl (by simp; omega)
    have hb2 := h.between hj hV (by simp) hm'.oneTrip (a := vs.length + 1)
      (b := vs.length + 1 + (rest'.length + 1) - 1) rfl (by simp; omega)
    have hl1 := h.after hi hU (a := xs.length + 1 + (rest.length + 1)) (by simp; omega)
    have hl2 := h.after hj hV (a := vs.length + 1 + (rest'.length + 1)) (by simp; omega)
    have hcost := delta2_le hco h h' hi hj hfit trivial trivial hi' hj'
      (xs := xs) (rest := (u :: rest) ++ ys) (by rw [hU]; simp)
      (vs := vs) (rest' := (b :: rest') ++ ws) (by rw [hV]; simp)
      (as := [b :: rest']) (as' := [u :: rest]) (All2.cons hb2 All2.nil) hl1 (All2.cons hb1 All2.nil) hl2
      (by simp) (used_of_mem (a := b) (by simp) hbt) (by simp) (used_of_mem (a := u) (by simp) hut) 0
    have ht : TaskChange data (Visited plan) (Visited ((plan.set i (xs ++ (b :: rest') ++ ys)).set j
        (vs ++ (u :: rest) ++ ws))) 0 := by
      apply same_tasks2 hij hil hjl
      intro b _
      rw [hU, hV]
      simp only [List.mem_append]
      grind
    have hneg := change_neg ht hlt
    rw [routesCost_set2 data ce h.clean.1.length hij hi hj] at hneg
    refine Int.lt_of_le_of_lt hcost ?_
    omega
  · rw [hnb]
    rintro ⟨h1, h2⟩
    have := hidx (by omega)
    omega

theorem found_later {i : Nat} {xs rest ms rest' ws : List Activity} {u b : Activity}
    (h : SearchOk data plan s)
    (h' : SearchOk data (plan.set i (xs ++ (b :: rest') ++ ms ++ (u :: rest) ++ ws)) s')
    (hco : CostOk data ce)
    (hfit : FitsAll data (plan.set i (xs ++ (b :: rest') ++ ms ++ (u :: rest) ++ ws)))
    (hlt : planCost data ce (plan.set i (xs ++ (b :: rest') ++ ms ++ (u :: rest) ++ ws))
      < planCost data ce plan)
    (hi : i < data.numVehicles)
    (hU : plan.getD i [] = xs ++ (u :: rest) ++ ms ++ (b :: rest') ++ ws)
    (hm : Movable xs (u :: rest)) (hm' : Movable (xs ++ (u :: rest) ++ ms) (b :: rest'))
    (hne : ms ≠ []) (hms : OneTrip ms) (hidx : rest.length = rest'.length → u.idx < b.idx) :
    (evaluate (rest.length + 1) (rest'.length + 1) data ce s u (.task b)).apply = true := by
  have hil := h.clean.1.lt_length hi
  have hut : u.type ≠ .depot := hm.oneTrip u (by simp)
  have hbt : b.type ≠ .depot := hm'.oneTrip b (by simp)
  have hU' : plan.getD i [] = xs ++ (u :: rest) ++ (ms ++ (b :: rest') ++ ws) := by rw [hU]; simp
  have hpu : s.place u = some (i, xs.length + 1) :=
    h.clean.1.place hi (ys := rest ++ (ms ++ (b :: rest') ++ ws)) hut (by rw [hU]; simp)
  have hpv : s.find (.task b) = some (i, (xs ++ (u :: rest) ++ ms).length + 1) :=
    h.clean.1.place hi (ys := rest' ++ ws) hbt (by rw [hU]; simp)
  obtain ⟨hf1, hf2⟩ := h.flags hi hU' hm rfl
  obtain ⟨hf3, hf4⟩ := h.flags hi hU hm' rfl
  have hnb := h.node_at hi (xs := xs ++ (u :: rest) ++ ms) (a := b) (ys := rest' ++ ws)
    (by rw [hU]; simp) rfl
  have hmpos := List.length_pos_of_ne_nil hne
  have hvl : (xs ++ (u :: rest) ++ ms).length = xs.length + 1 + rest.length + ms.length := by
    simp; omega
  have htu := h.trip_at hi (xs := xs ++ [u]) (ys := rest ++ (ms ++ (b :: rest') ++ ws))
    (by rw [hU]; simp) (p := xs.length + 1) (by simp)
  have htv := h.trip_at hi (xs := (xs ++ (u :: rest) ++ ms) ++ [b]) (ys := rest' ++ ws)
    (by rw [hU]; simp) (p := (xs ++ (u :: rest) ++ ms).length + 1) (by simp; omega)
  simp only [depotVisits_append, hm.oneTrip.visits, hms.visits, depotVisits_single hut,
    depotVisits_single hbt] at htu htv
  unfold evaluate
  rw [hpu, hpv]
  dsimp only
  rw [hf1, hf2, hf3, hf4, if_neg (by simp), if_neg, if_neg, if_neg (by simp)]
  · unfold same
    rw [if_pos (by rw [hvl]; omega), Verdict.of_apply]
    have hi' : (plan.set i (xs ++ (b :: rest') ++ ms ++ (u :: rest) ++ ws)).getD i []
        = xs ++ (b :: rest') ++ ms ++ (u :: rest) ++ ws := getD_set_self hil _
    have hb1 := h.between hi hU' (by simp) hm.oneTrip (a := xs.length + 1)
      (b := xs.length + 1 + (rest.length + 1) - 1) rfl (by simp; omega)
    have hb2 := h.between hi hU (by simp) hm'.oneTrip (a := (xs ++ (u :: rest) ++ ms).length + 1)
      (b := (xs ++ (u :: rest) ++ ms).length + 1 + (rest'.length + 1) - 1) rfl (by simp; omega)
    have hb3 := h.between hi (xs := xs ++ (u :: rest)) (m := ms) (ys := (b :: rest') ++ ws)
      (by rw [hU]; simp) hne hms
      (a := xs.length + 1 + (rest.length + 1)) (b := (xs ++ (u :: rest) ++ ms).length + 1 - 1)
      (by simp; omega) (by simp; omega)
    have hl := h.after hi hU (a := (xs ++ (u :: rest) ++ ms).length + 1 + (rest'.length + 1))
      (by simp; omega)
    have hcost := delta_le false hco h h' hi hfit trivial hi'
      (xs := xs) (rest := (u :: rest) ++ ms ++ (b :: rest') ++ ws) (by rw [hU]; simp)
      (as := [b :: rest', ms, u :: rest]) (All2.cons hb2 (All2.cons hb3 (All2.cons hb1 All2.nil))) hl
      (by simp) (used_of_mem (a := b) (by simp) hbt) 0
    have ht : TaskChange data (Visited plan)
        (Visited (plan.set i (xs ++ (b :: rest') ++ ms ++ (u :: rest) ++ ws))) 0 := by
      apply same_tasks hil
      intro b _
      rw [hU]
      simp only [List.mem_append]
      grind
    have hneg := change_neg ht hlt
    rw [routesCost_set data ce h.clean.1.length hi] at hneg
    refine Int.lt_of_le_of_lt hcost ?_
    omega
  · rw [hnb]
    rintro ⟨h1, h2⟩
    have := hidx (by omega)
    omega
  · rw [htu, htv]
    simp only [decide_true, Nat.add_zero, bne_self_eq_false, Bool.false_or, Bool.true_and, Bool.or_eq_true,
      not_or, Bool.not_eq_true]
    unfold overlap adjacent
    simp only [Bool.and_eq_false_iff, Bool.or_eq_false_iff, decide_eq_false_iff_not]
    rw [hvl]
    omega

theorem found_earlier {i : Nat} {vs rest' ms rest ys : List Activity} {u b : Activity}
    (h : SearchOk data plan s)
    (h' : SearchOk data (plan.set i (vs ++ (u :: rest) ++ ms ++ (b :: rest') ++ ys)) s')
    (hco : CostOk data ce)
    (hfit : FitsAll data (plan.set i (vs ++ (u :: rest) ++ ms ++ (b :: rest') ++ ys)))
    (hlt : planCost data ce (plan.set i (vs ++ (u :: rest) ++ ms ++ (b :: rest') ++ ys))
      < planCost data ce plan)
    (hi : i < data.numVehicles)
    (hU : plan.getD i [] = vs ++ (b :: rest') ++ ms ++ (u :: rest) ++ ys)
    (hm : Movable (vs ++ (b :: rest') ++ ms) (u :: rest)) (hm' : Movable vs (b :: rest'))
    (hne : ms ≠ []) (hms : OneTrip ms) (hidx : rest.length = rest'.length → u.idx < b.idx) :
    (evaluate (rest.length + 1) (rest'.length + 1) data ce s u (.task b)).apply = true := by
  have hil := h.clean.1.lt_length hi
  have hut : u.type ≠ .depot := hm.oneTrip u (by simp)
  have hbt : b.type ≠ .depot := hm'.oneTrip b (by simp)
  have hU' : plan.getD i [] = vs ++ (b :: rest') ++ (ms ++ (u :: rest) ++ ys) := by rw [hU]; simp
  have hpu : s.place u = some (i, (vs ++ (b :: rest') ++ ms).length + 1) :=
    h.clean.1.place hi (ys := rest ++ ys) hut (by rw [hU]; simp)
  have hpv : s.find (.task b) = some (i, vs.length + 1) :=
    h.clean.1.place hi (ys := rest' ++ (ms ++ (u :: rest) ++ ys)) hbt (by rw [hU]; simp)
  obtain ⟨hf1, hf2⟩ := h.flags hi hU hm rfl
  obtain ⟨hf3, hf4⟩ := h.flags hi hU' hm' rfl
  have hnb := h.node_at hi (xs := vs) (a := b) (ys := rest' ++ (ms ++ (u :: rest) ++ ys))
    (by rw [hU]; simp) rfl
  have hmpos := List.length_pos_of_ne_nil hne
  have hvl : (vs ++ (b :: rest') ++ ms).length = vs.length + 1 + rest'.length + ms.length := by
    simp; omega
  have htu := h.trip_at hi (xs := (vs ++ (b :: rest') ++ ms) ++ [u]) (ys := rest ++ ys)
    (by rw [hU]; simp) (p := (vs ++ (b :: rest') ++ ms).length + 1) (by simp; omega)
  have htv := h.trip_at hi (xs := vs ++ [b]) (ys := rest' ++ (ms ++ (u :: rest) ++ ys))
    (by rw [hU]; simp) (p := vs.length + 1) (by simp)
  simp only [depotVisits_append, hm'.oneTrip.visits, hms.visits, depotVisits_single hut,
    depotVisits_single hbt] at htu htv
  unfold evaluate
  rw [hpu, hpv]
  dsimp only
  rw [hf1, hf2, hf3, hf4, if_neg (by simp), if_neg, if_neg, if_neg (by simp)]
  · unfold same
    rw [if_neg (by rw [hvl]; omega), Verdict.of_apply]
    have hi' : (plan.set i (vs ++ (u :: rest) ++ ms ++ (b :: rest') ++ ys)).getD i []
        = vs ++ (u :: rest) ++ ms ++ (b :: rest') ++ ys := getD_set_self hil _
    have hb1 := h.between hi hU (by simp) hm.oneTrip (a := (vs ++ (b :: rest') ++ ms).length + 1)
      (b := (vs ++ (b :: rest') ++ ms).length + 1 + (rest.length + 1) - 1) rfl (by simp; omega)
    have hb2 := h.between hi hU' (by simp) hm'.oneTrip (a := vs.length + 1)
      (b := vs.length + 1 + (rest'.length + 1) - 1) rfl (by simp; omega)
    have hb3 := h.between hi (xs := vs ++ (b :: rest')) (m := ms) (ys := (u :: rest) ++ ys)
      (by rw [hU]; simp) hne hms
      (a := vs.length + 1 + (rest'.length + 1)) (b := (vs ++ (b :: rest') ++ ms).length + 1 - 1)
      (by simp; omega) (by simp; omega)
    have hl := h.after hi hU (a := (vs ++ (b :: rest') ++ ms).length + 1 + (rest.length + 1))
      (by simp; omega)
    have hcost := delta_le false hco h h' hi hfit trivial hi'
      (xs := vs) (rest := (b :: rest') ++ ms ++ (u :: rest) ++ ys) (by rw [hU]; simp)
      (as := [u :: rest, ms, b :: rest']) (All2.cons hb1 (All2.cons hb3 (All2.cons hb2 All2.nil))) hl
      (by simp) (used_of_mem (a := b) (by simp) hbt) 0
    have ht : TaskChange data (Visited plan)
        (Visited (plan.set i (vs ++ (u :: rest) ++ ms ++ (b :: rest') ++ ys))) 0 := by
      apply same_tasks hil
      intro b _
      rw [hU]
      simp only [List.mem_append]
      grind
    have hneg := change_neg ht hlt
    rw [routesCost_set data ce h.clean.1.length hi] at hneg
    refine Int.lt_of_le_of_lt hcost ?_
    omega
  · rw [hnb]
    rintro ⟨h1, h2⟩
    have := hidx (by omega)
    omega
  · rw [htu, htv]
    simp only [decide_true, Nat.add_zero, bne_self_eq_false, Bool.false_or, Bool.true_and, Bool.or_eq_true,
      not_or, Bool.not_eq_true]
    unfold overlap adjacent
    simp only [Bool.and_eq_false_iff, Bool.or_eq_false_iff, decide_eq_false_iff_not]
    rw [hvl]
    omega

end Swap

namespace SwapTails

theorem found {i j : Nat} {xs ys vs ws : List Activity} {u : Activity} {v : NodeRef}
    (h : SearchOk data plan s)
    (h' : SearchOk data ((plan.set i (xs ++ [u] ++ ws)).set j (vs ++ ys)) s')
    (hco : CostOk data ce) (hfit : FitsAll data ((plan.set i (xs ++ [u] ++ ws)).set j (vs ++ ys)))
    (hlt : planCost data ce ((plan.set i (xs ++ [u] ++ ws)).set j (vs ++ ys)) < planCost data ce plan)
    (hut : u.type ≠ .depot)
    (hi : i < data.numVehicles) (hj : j < data.numVehicles)
    (hij' : i < j ∨ (i ≠ j ∧ ∀ a ∈ plan.getD j [], a.type = .depot))
    (hsi : plan.getD i [] = xs ++ [u] ++ ys) (hsj : plan.getD j [] = vs ++ ws)
    (hv : EndsAt j v vs) (hdy : OneTrip ys) (hdw : OneTrip ws) (hw : Whole (xs ++ [u]))
    (hw' : Whole vs) :
    (evaluate data ce s u v).apply = true := by
  have hij : i ≠ j := by rcases hij' with h | h <;> omega
  have hil := h.clean.1.lt_length hi
  have hjl := h.clean.1.lt_length hj
  have hpu : s.place u = some (i, xs.length + 1) :=
    h.clean.1.place hi (ys := ys) hut (by rw [hsi]; simp)
  have hpv := h.clean.1.find (hv.at hj hsj)
  have hlx : xs.length + 1 = (xs ++ [u]).length := by simp
  have hlast : ∀ {k : Nat} {l m : List Activity}, k < data.numVehicles → plan.getD k [] = l ++ m →
      OneTrip m → onLastTrip (s.route k) l.length = true := by
    intro k l m hk he hd
    unfold onLastTrip
    rw [h.trip_at hk he rfl, h.route hk, (SRoute.ofActs_counts data _ _).2.2.2.1, he, depotVisits_append,
      hd.visits]
    simp
  have hsplits : ∀ {k : Nat} {l m : List Activity}, k < data.numVehicles → plan.getD k [] = l ++ m →
      Whole l → splitsShipment (s.route k) l.length = false := by
    intro k l m hk he hwl
    unfold splitsShipment
    rw [h.balanced hk he hwl]
    simp
  unfold evaluate
  rw [hpu, hpv]
  dsimp only
  rw [hlx, if_neg hij, if_neg, hlast hi hsi hdy, hlast hj hsj hdw, hsplits hi hsi hw, hsplits hj hsj hw',
    if_neg (by simp), if_neg (by simp), Verdict.of_apply]
  · have hi' : ((plan.set i (xs ++ [u] ++ ws)).set j (vs ++ ys)).getD i [] = xs ++ [u] ++ ws := by
      rw [getD_set_ne _ hij, getD_set_self hil]
    have hj' : ((plan.set i (xs ++ [u] ++ ws)).set j (vs ++ ys)).getD j [] = vs ++ ys := by
      rw [getD_set_self (by simpa using hjl)]
    have ht : TaskChange data (Visited plan) (Visited ((plan.set i (xs ++ [u] ++ ws)).set j (vs ++ ys))) 0 := by
      apply same_tasks2 hij hil hjl
      intro c _
      rw [hsi, hsj]
      simp only [List.mem_append]
      grind
    have hneg := change_neg ht hlt
    have hui : used (xs ++ [u] ++ ws) = true := used_of_mem (a := u) (by simp) hut
    have hfi : LastPiece data (vehTypeAt data i) ((s.route i).at data ((s.route i).size - 1)) [] := by
      rw [h.route hi]; exact last_finish (h.routes i hi).trips
    have hfj : LastPiece data (vehTypeAt data j) ((s.route j).at data ((s.route j).size - 1)) [] := by
      rw [h.route hj]; exact last_finish (h.routes j hj).trips
    have hsui : (s.route i).size = (xs ++ [u]).length + ys.length + 2 := by
      rw [h.route hi, SRoute.ofActs_size, hsi, List.length_append]
    have hsvj : (s.route j).size = vs.length + ws.length + 2 := by
      rw [h.route hj, SRoute.ofActs_size, hsj, List.length_append]
    have hby : ys ≠ [] → Piece data ((s.route i).between data ((xs ++ [u]).length + 1)
        ((s.route i).size - 2)) ys := fun hne =>
      h.between hi (xs := xs ++ [u]) (ys := []) (by rw [hsi]; simp) hne hdy rfl (by omega)
    have hbw : ws ≠ [] → Piece data ((s.route j).between data (vs.length + 1)
        ((s.route j).size - 2)) ws := fun hne =>
      h.between hj (xs := vs) (ys := []) (by rw [hsj]; simp) hne hdw rfl (by omega)
    rw [routesCost_set2 data ce h.clean.1.length hij hi hj] at hneg
    have hue : ((s.route i).node ((xs ++ [u]).length + 1)).isEndDepot = ys.isEmpty := by
      rw [h.route hi, hsi]; exact SRoute.ofActs_isEnd _ _ _ _
    have hve : ((s.route j).node (vs.length + 1)).isEndDepot = ws.isEmpty := by
      rw [h.route hj, hsj]; exact SRoute.ofActs_isEnd _ _ _ _
    have huj : ys ≠ [] → used (vs ++ ys) = true := by
      intro hne
      obtain ⟨c, hc⟩ := List.exists_mem_of_ne_nil ys hne
      exact used_of_mem (a := c) (by simp [hc]) (hdy c hc)
    unfold cost
    rw [hue, hve]
    cases hyn : ys with
    | cons y ys' =>
      have hne : ys ≠ [] := by rw [hyn]; simp
      rw [← hyn]
      have hye : ys.isEmpty = false := by rw [hyn]; rfl
      rw [hye]
      cases hwn : ws with
      | cons w ws' =>
        have hne' : ws ≠ [] := by rw [hwn]; simp
        rw [← hwn]
        have hwe : ws.isEmpty = false := by rw [hwn]; rfl
        rw [hwe]
        have hcost := delta2_le hco h h' hi hj hfit trivial trivial hi' hj' hsi hsj
          (as := [ws]) (as' := [ys]) (All2.cons (hbw hne') All2.nil) hfi (All2.cons (hby hne) All2.nil) hfj
          (by simp) hui (by simp) (huj hne) 0
        refine Int.lt_of_le_of_lt hcost ?_
        omega
      | nil =>
        subst hwn
        have hcost := delta2_le hco h h' hi hj hfit trivial trivial hi' hj' hsi hsj
          (as := []) (as' := [ys]) All2.nil hfi (All2.cons (hby hne) All2.nil) hfj
          (by simp) hui (by simp) (huj hne) 0
        refine Int.lt_of_le_of_lt hcost ?_
        omega
    | nil =>
      subst hyn
      cases hwn : ws with
      | nil =>
        rw [hwn] at hneg hsj
        rw [hsi, hsj] at hneg
        omega
      | cons w ws' =>
        have hne' : ws ≠ [] := by rw [hwn]; simp
        rw [← hwn]
        have hwe : ws.isEmpty = false := by rw [hwn]; rfl
        rw [hwe]
        rcases hv with ⟨-, h0⟩ | ⟨b, vs', hbt, -, h0⟩
        · subst h0
          have hst : ((s.route j).node ([] : List Activity).length).isStartDepot = true := by
            rw [h.route hj]; rfl
          rw [hst]
          have hcost := delta_le false hco h h' hi hfit trivial hi' hsi
            (as := [ws]) (All2.cons (hbw hne') All2.nil) hfi (by simp) hui
            (0 - ce.penalisedCostSearch data (s.route j))
          refine Int.lt_of_le_of_lt hcost ?_
          have hnil : routeCost data ce (vehTypeAt data j) ([] ++ []) = 0 := routeCost_nil _ _ _
          have hcj : ce.penalisedCostSearch data (s.route j)
              = routeCost data ce (vehTypeAt data j) (plan.getD j []) := by
            rw [h.route hj]; rfl
          rw [hnil] at hneg
          rw [hcj]
          omega
        · have hst : ((s.route j).node vs.length).isStartDepot = false := by
            rw [h.route hj, hsj, h0]
            have e1 : (vs' ++ [b]) ++ ws = vs' ++ b :: ws := by simp
            have e2 : (vs' ++ [b]).length = vs'.length + 1 := by simp
            rw [e1, e2, SRoute.ofActs_inner]; rfl
          rw [hst]
          have hcost := delta2_le hco h h' hi hj hfit trivial trivial hi' hj' hsi hsj
            (as := [ws]) (as' := []) (All2.cons (hbw hne') All2.nil) hfi All2.nil hfj
            (by simp) hui (by simp) (used_of_mem (a := b) (by rw [h0]; simp) hbt) 0
          refine Int.lt_of_le_of_lt hcost ?_
          omega
  · rintro ⟨h1, -, h3⟩
    rcases hij' with h2 | ⟨-, h2⟩
    · omega
    · have hw := (h.routes j hj).wellFormed
      rw [h.route hj, ofActs_empty hw, (used_false_iff _).2 h2] at h3
      simp at h3

end SwapTails
end PyVRP
