import Verif.Lemmas.OpsSwap
/-!
# `SwapTails`
-/
namespace PyVRP
open Spec
open SSol (used ofActs_empty At RefOk CleanBut)
open PerturbationManager (routes_set)

variable {data : ProblemData} {plan : List (List Activity)} {s : SSol}

theorem innerNodes_role (pos trip : Nat) (acts : List Activity) :
    ∀ n ∈ innerNodes pos trip acts, n.role = .inner := by
  induction acts generalizing pos trip with
  | nil => intro n hn; cases hn
  | cons a rest ih =>
    intro n hn
    simp only [innerNodes, List.mem_cons] at hn
    rcases hn with rfl | hn
    · rfl
    · exact ih _ _ n hn

/-- The nodes after those of `xs`. -/
theorem SRoute.ofActs_drop (data : ProblemData) (vt : Nat) (xs ys : List Activity) :
    (SRoute.ofActs data vt (xs ++ ys)).nodes.drop (xs.length + 1)
      = innerNodes (xs.length + 1) (depotVisits xs) ys
        ++ [endNode (data.vehicleType vt) (xs.length + ys.length + 1)
          (depotVisits xs + depotVisits ys + 1)] := by
  show (canon _ _).drop _ = _
  rw [canon_split]
  exact List.drop_left' (by simp [innerNodes_length])

theorem SRoute.ofActs_isEnd (data : ProblemData) (vt : Nat) (xs ys : List Activity) :
    ((SRoute.ofActs data vt (xs ++ ys)).node (xs.length + 1)).isEndDepot = ys.isEmpty := by
  cases ys with
  | nil => rw [List.append_nil, SRoute.ofActs_end]; rfl
  | cons b ys => rw [SRoute.ofActs_inner]; rfl

namespace SwapTails

theorem tail_ofActs (data : ProblemData) (vt : Nat) (xs ys : List Activity) :
    tail (SRoute.ofActs data vt (xs ++ ys)) xs.length = ys := by
  unfold tail
  rw [SRoute.ofActs_drop, List.takeWhile_append_of_pos]
  · simp only [List.map_append]
    rw [innerNodes_activity]
    simp [endNode, SNode.isEndDepot]
  · intro n hn
    simp [SNode.isEndDepot, innerNodes_role _ _ _ n hn]

/-- The parts before and after a node on the last trip with all shipments delivered. -/
theorem parts (h : SearchOk data plan s) {i : Nat} (hi : i < data.numVehicles) {xs ys : List Activity}
    (hsp : plan.getD i [] = xs ++ ys) (h1 : onLastTrip (s.route i) xs.length = true)
    (h2 : splitsShipment (s.route i) xs.length = false) :
    Phase.NoDepot ys ∧ Closed xs ∧ Closed ys := by
  unfold onLastTrip at h1
  unfold splitsShipment at h2
  have hc := h.closed hi
  have ho := h.once i
  rw [hsp] at hc ho
  rw [h.route hi, hsp] at h1 h2
  rw [SRoute.ofActs_trip, (SRoute.ofActs_counts data _ _).2.2.2.1, depotVisits_append] at h1
  rw [SRoute.ofActs_numPickupsAt, SRoute.ofActs_numDeliveriesAt] at h2
  simp only [beq_iff_eq, bne_eq_false_iff_eq] at h1 h2
  have hx := closed_of_counts hc ho h2
  exact ⟨by rw [noDepot_iff]; omega, hx, hx.right hc⟩

/-- The route with another route's tail. -/
theorem swapped (h : SearchOk data plan s) {i j : Nat} (hij : i ≠ j) (hi : i < data.numVehicles)
    (hj : j < data.numVehicles) {xs ys vs ws : List Activity}
    (hsi : plan.getD i [] = xs ++ ys) (hsj : plan.getD j [] = vs ++ ws)
    (hx : Closed xs) (hw : Closed ws) (hdw : Phase.NoDepot ws) :
    RouteOk data (data.vehicleType (vehTypeAt data i)) (xs ++ ws) := by
  have hr := h.routes i hi
  have hr' := h.routes j hj
  rw [hsi] at hr
  rw [hsj] at hr'
  have hap := h.apart_routes hij
  rw [hsi, hsj] at hap
  refine ⟨?_, hx.append hw (hap.sub (fun a ha => by simp [ha]) (fun a ha => by simp [ha])), ?_⟩
  · intro a ha
    rcases List.mem_append.1 ha with ha | ha
    · exact hr.inRange a (by simp [ha])
    · exact hr'.inRange a (by simp [ha])
  · have := hr.trips
    rw [depotVisits_append] at this
    rw [depotVisits_append, (noDepot_iff ws).1 hdw]
    omega

theorem outcome (ce : CostEvaluator) (h : SearchOk data plan s)
    {u : Activity} {v : NodeRef} (hv : RefOk data v) (hap : (evaluate data ce s u v).apply = true) :
    Outcome data ce plan (Touched s u v) (evaluate data ce s u v).cost True
      (apply data s u v) := by
  unfold evaluate at hap ⊢
  unfold apply
  cases hpu : s.place u with
  | none => rw [hpu] at hap; cases hap
  | some ip =>
  cases hpv : s.find v with
  | none => rw [hpu, hpv] at hap; obtain ⟨i, p⟩ := ip; cases hap
  | some jq =>
  obtain ⟨i, p⟩ := ip
  obtain ⟨j, q⟩ := jq
  rw [hpu, hpv] at hap
  dsimp only at hap ⊢
  split at hap
  · cases hap
  rename_i hij
  rw [if_neg hij]
  split at hap
  · cases hap
  rename_i hf1
  rw [if_neg hf1]
  split at hap
  · cases hap
  rename_i hf2
  rw [if_neg hf2]
  split at hap
  · cases hap
  rename_i hf3
  rw [if_neg hf3]
  obtain ⟨hi, hut, xs, ys, hsp, rfl⟩ := h.clean.1.place_some hpu
  obtain ⟨vs, ws, hat, rfl⟩ := h.clean.1.find_some hv hpv
  have hj := hat.1
  have hil := h.clean.1.lt_length hi
  have hjl := h.clean.1.lt_length hj
  have hsi : plan.getD i [] = (xs ++ [u]) ++ ys := by rw [hsp]; simp
  have hsj := hat.2.1
  have hlx : xs.length + 1 = (xs ++ [u]).length := by simp
  rw [hlx] at hap hf2 hf3 ⊢
  simp only [Bool.or_eq_true, not_or, Bool.not_eq_true, Bool.not_eq_eq_eq_not, Bool.not_true,
    Bool.not_eq_false] at hf2 hf3
  obtain ⟨hdy, hcx, hcy⟩ := parts h hi hsi hf2.1 hf3.1
  obtain ⟨hdw, hcv, hcw⟩ := parts h hj hsj hf2.2 hf3.2
  have hri := swapped h hij hi hj hsi hsj hcx hcw hdw
  have hrj := swapped h (Ne.symm hij) hj hi hsj hsi hcv hcy hdy
  have htu : tail (s.route i) (xs ++ [u]).length = ys := by
    rw [h.route hi, hsi]; exact tail_ofActs _ _ _ _
  have htv : tail (s.route j) vs.length = ws := by
    rw [h.route hj, hsj]; exact tail_ofActs _ _ _ _
  rw [htu, htv]
  have ht1 := (h.routes i hi).trips
  rw [hsi] at ht1
  have ht2 := hrj.trips
  rw [depotVisits_append] at ht2
  obtain ⟨s1, h1, h2⟩ := SSol.moveAll_spec hij hi hj ws (l := xs ++ [u]) (r := ys) (vs := vs) (ws := [])
    (h.clean.but (fun _ => False)) hsi (by rw [hsj]; simp) hdw ht1
  have g1 : ((plan.set i (xs ++ [u] ++ ws ++ ys)).set j (vs ++ [])).getD i []
      = (xs ++ [u] ++ ws) ++ ys ++ [] := by rw [getD_set_ne _ hij, getD_set_self hil]; simp
  have g2 : ((plan.set i (xs ++ [u] ++ ws ++ ys)).set j (vs ++ [])).getD j [] = vs ++ [] := by
    rw [getD_set_self (by simpa using hjl)]
  obtain ⟨s2, h3, h4⟩ := SSol.moveAll_spec (Ne.symm hij) hj hi ys h2 g2 g1 hdy (by
    rw [List.append_nil]; omega)
  have e : ((((plan.set i (xs ++ [u] ++ ws ++ ys)).set j (vs ++ [])).set j (vs ++ ys ++ [])).set i
      (xs ++ [u] ++ ws ++ [])) = (plan.set i (xs ++ [u] ++ ws)).set j (vs ++ ys) := by
    rw [List.set_set, set2_left _ hij, List.append_nil, List.append_nil]
  rw [e] at h4
  rw [h1]
  have hi' : ((plan.set i (xs ++ [u] ++ ws)).set j (vs ++ ys)).getD i [] = xs ++ [u] ++ ws := by
    rw [getD_set_ne _ hij, getD_set_self hil]
  have hj' : ((plan.set i (xs ++ [u] ++ ws)).set j (vs ++ ys)).getD j [] = vs ++ ys := by
    rw [getD_set_self (by simpa using hjl)]
  refine Outcome.congr (D := fun k => k = i ∨ k = j) ?_ (fun k => touched_iff hpu hpv k)
  refine ⟨_, 0, s2, h3, ⟨h4.weaken (fun k _ hk => ?_), routes_set2 h.routes hri hrj, ?_,
    fun k hk => kept_set2 k hk, near_set2 hij hil hjl (by rw [hsi, hsj]; count_depots)⟩, ?_⟩
  · rcases hk with (hk | hk) | hk
    · exact hk.elim
    · exact hk
    · exact hk.symm
  · apply same_tasks2 hij hil hjl
    intro c _
    rw [hsi, hsj]
    simp only [List.mem_append]
    grind
  · intro hco hfit _
    have hneg := Verdict.of_apply.1 hap
    show cost data ce (s.route i) (xs ++ [u]).length (s.route j) vs.length = _
    have hui : used (xs ++ [u] ++ ws) = true := used_of_mem (a := u) (by simp) hut
    have hfi : LastPiece data (vehTypeAt data i) ((s.route i).at data ((s.route i).size - 1)) [] := by
      rw [h.route hi]; exact last_finish (h.routes i hi).trips
    have hfj : LastPiece data (vehTypeAt data j) ((s.route j).at data ((s.route j).size - 1)) [] := by
      rw [h.route hj]; exact last_finish (h.routes j hj).trips
    have hsui : (s.route i).size = (xs ++ [u]).length + ys.length + 2 := by
      rw [h.route hi, SRoute.ofActs_size, hsi, List.length_append]
    have hsvj : (s.route j).size = vs.length + ws.length + 2 := by
      rw [h.route hj, SRoute.ofActs_size, hsj, List.length_append]
    have hby : ys ≠ [] → Piece data ((s.route i).between data ((xs ++ [u]).length + 1)
        ((s.route i).size - 2)) ys := fun hne =>
      h.between hi (xs := xs ++ [u]) (ys := []) (by rw [hsi]; simp) hne hdy rfl (by omega)
    have hbw : ws ≠ [] → Piece data ((s.route j).between data (vs.length + 1)
        ((s.route j).size - 2)) ws := fun hne =>
      h.between hj (xs := vs) (ys := []) (by rw [hsj]; simp) hne hdw rfl (by omega)
    rw [routesCost_set2 data ce h.clean.1.length hij hi hj]
    have hue : ((s.route i).node ((xs ++ [u]).length + 1)).isEndDepot = ys.isEmpty := by
      rw [h.route hi, hsi]; exact SRoute.ofActs_isEnd _ _ _ _
    have hve : ((s.route j).node (vs.length + 1)).isEndDepot = ws.isEmpty := by
      rw [h.route hj, hsj]; exact SRoute.ofActs_isEnd _ _ _ _
    have huj : ys ≠ [] → used (vs ++ ys) = true := by
      intro hne
      obtain ⟨c, hc⟩ := List.exists_mem_of_ne_nil ys hne
      exact used_of_mem (a := c) (by simp [hc]) (hdy c hc)
    have hneg' : cost data ce (s.route i) (xs ++ [u]).length (s.route j) vs.length < 0 := hneg
    unfold cost at hneg' ⊢
    rw [hue, hve] at hneg' ⊢
    cases hyn : ys with
    | cons y ys' =>
      have hne : ys ≠ [] := by rw [hyn]; simp
      rw [← hyn]
      have hye : ys.isEmpty = false := by rw [hyn]; rfl
      rw [hye] at hneg' ⊢
      cases hwn : ws with
      | cons w ws' =>
        have hne' : ws ≠ [] := by rw [hwn]; simp
        rw [← hwn]
        have hwe : ws.isEmpty = false := by rw [hwn]; rfl
        rw [hwe] at hneg' ⊢
        have hcost := delta_route2 hco h hi hj hfit (.inl rfl) (.inr rfl) hi' hj' hri hrj hsi hsj
          (as := [ws]) (as' := [ys]) (All2.cons (hbw hne') All2.nil) hfi (All2.cons (hby hne) All2.nil) hfj
          (by simp) hui (by simp) (huj hne) 0 hneg'
        refine Eq.trans hcost ?_
        omega
      | nil =>
        subst hwn
        have hcost := delta_route2 hco h hi hj hfit (.inl rfl) (.inr rfl) hi' hj' hri hrj hsi hsj
          (as := []) (as' := [ys]) All2.nil hfi (All2.cons (hby hne) All2.nil) hfj
          (by simp) hui (by simp) (huj hne) 0 hneg'
        refine Eq.trans hcost ?_
        omega
    | nil =>
      subst hyn
      cases hwn : ws with
      | nil =>
        rw [hwn] at hneg'
        exact absurd hneg' (by simp)
      | cons w ws' =>
        have hne' : ws ≠ [] := by rw [hwn]; simp
        rw [← hwn]
        have hwe : ws.isEmpty = false := by rw [hwn]; rfl
        rw [hwe] at hneg' ⊢
        rcases hat.2.2 with ⟨-, h0⟩ | ⟨b, vs', hbt, -, h0⟩
        · subst h0
          have hst : ((s.route j).node ([] : List Activity).length).isStartDepot = true := by
            rw [h.route hj]; rfl
          rw [hst] at hneg' ⊢
          have hcost := delta_route false hco h hi hfit (.inl rfl) hi' hri hsi
            (as := [ws]) (All2.cons (hbw hne') All2.nil) hfi (by simp) hui
            (0 - ce.penalisedCostSearch data (s.route j)) (.inr hneg')
          refine Eq.trans hcost ?_
          have hnil : routeCost data ce (vehTypeAt data j) ([] ++ []) = 0 := routeCost_nil _ _ _
          have hcj : ce.penalisedCostSearch data (s.route j)
              = routeCost data ce (vehTypeAt data j) (plan.getD j []) := by
            rw [h.route hj]; rfl
          rw [hnil, hcj]
          omega
        · have hst : ((s.route j).node vs.length).isStartDepot = false := by
            rw [h.route hj, hsj, h0]
            have e1 : (vs' ++ [b]) ++ ws = vs' ++ b :: ws := by simp
            have e2 : (vs' ++ [b]).length = vs'.length + 1 := by simp
            rw [e1, e2, SRoute.ofActs_inner]; rfl
          rw [hst] at hneg' ⊢
          have hcost := delta_route2 hco h hi hj hfit (.inl rfl) (.inr rfl) hi' hj' hri hrj hsi hsj
            (as := [ws]) (as' := []) (All2.cons (hbw hne') All2.nil) hfi All2.nil hfj
            (by simp) hui (by simp) (used_of_mem (a := b) (by rw [h0]; simp) hbt) 0 hneg'
          refine Eq.trans hcost ?_
          omega

end SwapTails
end PyVRP
