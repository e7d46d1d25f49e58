import Verif.Lemmas.OpsClient
/-!
# `RelocateAlternative`
-/
namespace PyVRP
open Spec
open SSol (used ofActs_empty At RefOk CleanBut)
open PerturbationManager (routes_set)

variable {data : ProblemData} {plan : List (List Activity)} {s : SSol}

/-- Where a client is and where it may go in the same route: later, or earlier. -/
theorem same_route_places {xs ys : List Activity} {u : Activity} {vs ws : List Activity} {v : NodeRef} {i : Nat}
    (hut : u.type ≠ .depot) (hsp : plan.getD i [] = xs ++ u :: ys) (hat : At data plan v i vs ws)
    (hne : v ≠ .task u) (htrip : depotVisits (xs ++ [u]) = depotVisits vs) :
    (xs.length + 1 < vs.length ∧ ∃ ms b, b.type ≠ .depot ∧ v = .task b ∧ Phase.NoDepot (ms ++ [b])
        ∧ vs = xs ++ u :: (ms ++ [b]) ∧ ys = (ms ++ [b]) ++ ws)
      ∨ (¬ xs.length + 1 < vs.length ∧ ∃ ms, Phase.NoDepot ms ∧ xs = vs ++ ms ∧ ws = ms ++ u :: ys) := by
  rw [depotVisits_append, depotVisits_cons] at htrip
  simp only [hut, if_false] at htrip
  have h0 : depotVisits ([] : List Activity) = 0 := rfl
  by_cases hlt : xs.length + 1 < vs.length
  · left
    refine ⟨hlt, ?_⟩
    have e : (xs ++ [u]) ++ ys = vs ++ ws := by rw [← hat.2.1, hsp]; simp
    obtain ⟨m, hm1, hm2⟩ := split_le e (by simp; omega)
    rcases hat.2.2 with ⟨-, h1⟩ | ⟨b, vs', hbt, hvb, h1⟩
    · rw [h1] at hlt; simp at hlt
    · rcases List.eq_nil_or_concat m with rfl | ⟨ms, b', rfl⟩
      · rw [hm1] at hlt; simp at hlt
      · rw [List.concat_eq_append] at hm1 hm2
        have hb : b = b' := by
          rw [h1, ← List.append_assoc] at hm1
          have := List.append_inj_right' hm1 rfl
          simpa using this
        subst hb
        refine ⟨ms, b, hbt, hvb, ?_, by rw [hm1]; simp, hm2⟩
        rw [noDepot_iff]
        rw [hm1, depotVisits_append, depotVisits_append, depotVisits_cons] at htrip
        simp only [hut, if_false] at htrip
        omega
  · right
    refine ⟨hlt, ?_⟩
    have hle : vs.length ≤ xs.length := by
      refine Classical.byContradiction (fun hc => hne ?_)
      have hl : vs.length = (xs ++ [u]).length := by simp; omega
      have e : vs ++ ws = (xs ++ [u]) ++ ys := by rw [← hat.2.1, hsp]; simp
      have e1 := List.append_inj_left e hl
      rcases hat.2.2 with ⟨-, h1⟩ | ⟨b, vs', hbt, hvb, h1⟩
      · rw [h1] at hl; simp at hl
      · rw [hvb]
        rw [h1] at e1
        have := List.append_inj_right' e1 rfl
        simp at this
        rw [this]
    have e : vs ++ ws = xs ++ (u :: ys) := by rw [← hat.2.1, hsp]
    obtain ⟨ms, hm1, hm2⟩ := split_le e hle
    refine ⟨ms, ?_, hm1, hm2⟩
    rw [noDepot_iff]
    rw [hm1, depotVisits_append] at htrip
    omega

namespace RelocateAlternative

theorem search_some (u : Nat) (cost : Nat → Int) : ∀ (members : List Nat),
    (search u cost members).apply = true →
    ∃ c ∈ members, c ≠ u ∧ cost c < 0 ∧ search u cost members = ⟨cost c, true, .node ⟨.client, c⟩⟩
  | [], h => by cases h
  | c :: rest, h => by
    unfold search at h ⊢
    by_cases h1 : c = u
    · rw [if_pos h1] at h ⊢
      obtain ⟨d, h2, h3⟩ := search_some u cost rest h
      exact ⟨d, by simp [h2], h3⟩
    · rw [if_neg h1] at h ⊢
      by_cases h2 : cost c < 0
      · rw [if_pos h2]
        exact ⟨c, by simp, h1, h2, rfl⟩
      · rw [if_neg h2] at h ⊢
        obtain ⟨d, h3, h4⟩ := search_some u cost rest h
        exact ⟨d, by simp [h3], h4⟩

theorem outcome (ce : CostEvaluator) (hd : Consistent data) (h : SearchOk data plan s)
    (hex : Exclusive data plan) {u : Activity} {v : NodeRef} (hv : RefOk data v) (cache : Cache)
    (hap : (evaluate data ce s cache u v).1.apply = true) :
    Outcome data ce plan (Touched s u v) (evaluate data ce s cache u v).1.cost
      (∀ i p, s.place u = some (i, p) →
        cache.lookup u.idx
            (RelocateWithDepot.removeCost data ce (s.route i) p (data.client u.idx).prize)
          = RelocateWithDepot.removeCost data ce (s.route i) p (data.client u.idx).prize)
      (apply data s u v (evaluate data ce s cache u v).1.move) := by
  unfold evaluate at hap ⊢
  cases hpu : s.place u with
  | none => rw [hpu] at hap; cases hap
  | some ip =>
  cases hpv : s.find v with
  | none => rw [hpu, hpv] at hap; obtain ⟨i, p⟩ := ip; cases hap
  | some jq =>
  obtain ⟨i, p⟩ := ip
  obtain ⟨j, q⟩ := jq
  rw [hpu, hpv] at hap
  dsimp only at hap ⊢
  by_cases hf1 : (!u.isClient || v == .task u || ((s.route j).node (q + 1)).activity == u) = true
  · rw [if_pos hf1] at hap; cases hap
  rw [if_neg hf1] at hap ⊢
  cases hg : (data.client u.idx).group with
  | none => rw [hg] at hap; cases hap
  | some g =>
  rw [hg] at hap
  dsimp only at hap ⊢
  simp only [Bool.or_eq_true, not_or, Bool.not_eq_true, beq_iff_eq] at hf1
  obtain ⟨⟨hf1, hvu⟩, hnx⟩ := hf1
  obtain ⟨ty, c⟩ := u
  have hty : ty = .client := by
    cases ty <;> simp [Activity.isClient] at hf1 ⊢
  subst hty
  obtain ⟨hi, hut, xs, ys, hsp, rfl⟩ := h.clean.1.place_some hpu
  obtain ⟨vs, ws, hat, rfl⟩ := h.clean.1.find_some hv hpv
  have hil := h.clean.1.lt_length hi
  have hr0 := h.routes i hi
  rw [hsp] at hr0
  have hc : c < data.numClients := hr0.inRange ⟨.client, c⟩ (by simp)
  have hr1 := hr0.remove_client
  obtain ⟨hcm, hreq, hgm⟩ := mem_group hd hc hg
  -- what holds of the client that takes its place
  have hmember : ∀ c' ∈ (data.group g).clients, c' ≠ c →
      c' < data.numClients ∧ ¬ Visited plan ⟨.client, c'⟩
        ∧ (data.client c).group = (data.client c').group := by
    intro c' hm hne
    obtain ⟨g', -, hcg, hc'⟩ := group_of_mem hd hgm hm
    refine ⟨hc', fun hvis => hne (hex _ hgm c' hm c hcm hvis ⟨i, by rw [hsp]; simp⟩), ?_⟩
    obtain ⟨grp, h1, -, -⟩ := hd.clientGroup c _ g (client_getElem hc) hg
    obtain ⟨cl, h2, h3⟩ := (hd.groupClients g grp h1).2 c' (by rw [← group_getD h1]; exact hm)
    rw [client_getElem hc'] at h2
    cases h2
    rw [h3]; exact hg
  have hrem := (h.clean.but (fun _ => False)).remove hi hsp
  have htake := SSol.takeOut_eq h.clean.1 hi hut hsp
  have hvr := h.visited_remove hi hut hsp
  have hnew : (plan.set i (xs ++ ys)).getD i [] = xs ++ ys := getD_set_self hil _
  by_cases hij : i = j
  · subst hij
    rw [if_pos rfl] at hap ⊢
    by_cases htr : ((s.route i).node (xs.length + 1)).trip ≠ ((s.route i).node vs.length).trip
    · rw [if_pos htr] at hap; cases hap
    rw [if_neg htr] at hap ⊢
    dsimp only at hap ⊢
    obtain ⟨c', hm, hne, hneg, he⟩ := search_some _ _ _ hap
    rw [he]
    obtain ⟨hc', hn, hgg⟩ := hmember c' hm hne
    have htrip : depotVisits (xs ++ [(⟨.client, c⟩ : Activity)]) = depotVisits vs := by
      have h1 : ((s.route i).node (xs.length + 1)).trip = depotVisits (xs ++ [(⟨.client, c⟩ : Activity)]) := by
        rw [h.route hi, hsp, SRoute.ofActs_inner]
      have h2 : ((s.route i).node vs.length).trip = depotVisits vs := by
        rw [h.route hi, hat.2.1, SRoute.ofActs_trip]
      rw [← h1, ← h2]
      exact Decidable.not_not.1 htr
    refine Outcome.congr (D := fun k => k = i) ?_ (fun k => by rw [← touched_iff hpu hpv]; simp)
    refine Outcome.fresh (fresh := True) ?_ (fun _ => trivial)
    show Outcome _ _ _ _ _ _ ((s.takeOut ⟨.client, c⟩).insertAfter data v ⟨.client, c'⟩)
    rw [htake]
    unfold same at hneg ⊢
    -- the rest is the same for both directions
    have finish : ∀ {ps qs : List Activity}, xs ++ ys = ps ++ qs →
        At data (plan.set i (xs ++ ys)) v i ps qs → ∀ {cost : Int},
        (CostOk data ce → FitsOn data (fun k => k = i) (plan.set i (ps ++ ⟨.client, c'⟩ :: qs)) →
          RouteOk data (data.vehicleType (vehTypeAt data i)) (ps ++ ⟨.client, c'⟩ :: qs) →
          (plan.set i (ps ++ ⟨.client, c'⟩ :: qs)).getD i [] = ps ++ ⟨.client, c'⟩ :: qs →
          used (ps ++ ⟨.client, c'⟩ :: qs) = true →
          cost = (data.client c).prize - (data.client c').prize
            + routeCost data ce (vehTypeAt data i) (ps ++ ⟨.client, c'⟩ :: qs)
            - routeCost data ce (vehTypeAt data i) (plan.getD i [])) →
        Outcome data ce plan (fun k => k = i) cost True
          ((s.removeAt i (xs.length + 1)).insertAfter data v ⟨.client, c'⟩) := by
      intro ps qs hpq hat' cost hcost
      rw [hpq] at hr1
      have hr2 := hr1.insert_client hc'
      obtain ⟨s', h3, h4⟩ := hrem.insertAfter hat' (a := ⟨.client, c'⟩)
        (.inr ⟨⟨by simp, hc'⟩, fun k hk => hn ((hvr _).1 ⟨k, hk⟩).1⟩) hr2.trips
      have hins := visited_insert (plan := plan.set i (xs ++ ys)) (by simpa using hil) hat'.2.1
        ⟨.client, c'⟩
      rw [List.set_set] at h4 hins
      have hnew' : (plan.set i (ps ++ ⟨.client, c'⟩ :: qs)).getD i [] = ps ++ ⟨.client, c'⟩ :: qs :=
        getD_set_self hil _
      refine ⟨_, _, s', h3, ⟨h4.weaken (fun k _ hk => ?_), routes_set h.routes hr2,
        .replaceClient c c' hc hc' ⟨i, by rw [hsp]; simp⟩ hn hreq hgg ?_, fun k hk => kept_set k hk,
        near_set hil ?near⟩, ?_⟩
      case near =>
        have e := congrArg depotVisits hpq
        rw [depotVisits_append, depotVisits_append] at e
        rw [hsp]
        count_depots
      · rcases hk with (hk | hk) | hk
        · exact hk.elim
        · exact hk
        · exact hk
      · intro a _
        rw [hins, hvr]
      · intro hco hfit _
        rw [routesCost_set data ce h.clean.1.length hi,
          hcost hco hfit hr2 hnew' (used_of_mem (a := ⟨.client, c'⟩) (by simp) (by simp))]
        omega
    rcases same_route_places hut hsp hat hvu htrip with ⟨hlt, ms, b, hbt, rfl, hnd, hvs, hys⟩ |
      ⟨hlt, ms, hnd, hxs, hws⟩
    · rw [if_pos hlt] at hneg ⊢
      have hlen : vs.length = xs.length + 1 + (ms ++ [b]).length := by
        rw [hvs]; simp; omega
      have hsp' : plan.getD i [] = (xs ++ [⟨.client, c⟩]) ++ (ms ++ [b]) ++ ws := by
        rw [hsp, hys]; simp
      refine finish (ps := xs ++ (ms ++ [b])) (qs := ws) (by rw [hys]; simp)
        ⟨hi, by rw [hnew, hys]; simp, .inr ⟨b, xs ++ ms, hbt, rfl, by simp⟩⟩ ?_
      intro hco hfit hr2 hnew' hu
      have hb := h.between hi hsp' (by simp) hnd (a := xs.length + 1 + 1) (b := vs.length)
        (by simp) (by rw [hlen]; simp)
      exact delta_route false hco h hi hfit rfl hnew' hr2 hsp
        (as := [ms ++ [b], [⟨.client, c'⟩]]) (All2.cons hb (All2.cons (Piece.client c') All2.nil))
        (h.after hi hsp' (a := vs.length + 1) (by rw [hlen]; simp; omega))
        (by simp) hu _ (.inr hneg)
    · rw [if_neg hlt] at hneg ⊢
      have hms : ms ≠ [] := by
        rintro rfl
        apply hnx
        rw [List.append_nil] at hxs
        rw [← hxs, h.route hi, hsp, SRoute.ofActs_inner]
      have hsp' : plan.getD i [] = vs ++ ms ++ (⟨.client, c⟩ :: ys) := by rw [hsp, hxs]
      have hsp2 : plan.getD i [] = (vs ++ ms ++ [⟨.client, c⟩]) ++ ys := by rw [hsp']; simp
      have hlen : xs.length = vs.length + ms.length := by rw [hxs]; simp
      refine finish (ps := vs) (qs := ms ++ ys) (by rw [hxs]; simp)
        (hat.same (by rw [hnew, hxs]; simp)) ?_
      intro hco hfit hr2 hnew' hu
      have hb := h.between hi hsp' hms hnd (a := vs.length + 1) (b := xs.length + 1 - 1)
        (by simp) (by rw [hlen]; simp)
      exact delta_route false hco h hi hfit rfl hnew' hr2 hat.2.1
        (as := [[⟨.client, c'⟩], ms]) (All2.cons (Piece.client c') (All2.cons hb All2.nil))
        (h.after hi hsp2 (a := xs.length + 1 + 1) (by rw [hlen]; simp; omega))
        (by simp) hu _ (.inr hneg)
  · rw [if_neg hij] at hap ⊢
    dsimp only at hap ⊢
    obtain ⟨c', hm, hne, hneg, he⟩ := search_some _ _ _ hap
    rw [he]
    obtain ⟨hc', hn, hgg⟩ := hmember c' hm hne
    have hj := hat.1
    have hjl := h.clean.1.lt_length hj
    refine Outcome.congr (D := fun k => k = i ∨ k = j) ?_ (fun k => touched_iff hpu hpv k)
    show Outcome _ _ _ _ _ _ ((s.takeOut ⟨.client, c⟩).insertAfter data v ⟨.client, c'⟩)
    rw [htake]
    have hr2 : RouteOk data (data.vehicleType (vehTypeAt data j)) (vs ++ ⟨.client, c'⟩ :: ws) := by
      have := h.routes j hj
      rw [hat.2.1] at this
      exact this.insert_client hc'
    have hat' : At data (plan.set i (xs ++ ys)) v j vs ws :=
      hat.same (by rw [getD_set_ne _ (Ne.symm hij), hat.2.1])
    obtain ⟨s', h3, h4⟩ := hrem.insertAfter hat' (a := ⟨.client, c'⟩)
      (.inr ⟨⟨by simp, hc'⟩, fun k hk => hn ((hvr _).1 ⟨k, hk⟩).1⟩) hr2.trips
    have hins := visited_insert (plan := plan.set i (xs ++ ys)) (by simpa using hjl) hat'.2.1
      ⟨.client, c'⟩
    have hi' : ((plan.set i (xs ++ ys)).set j (vs ++ ⟨.client, c'⟩ :: ws)).getD i [] = xs ++ ys := by
      rw [getD_set_ne _ hij, getD_set_self hil]
    have hj' : ((plan.set i (xs ++ ys)).set j (vs ++ ⟨.client, c'⟩ :: ws)).getD j []
        = vs ++ ⟨.client, c'⟩ :: ws := by
      rw [getD_set_self (by simpa using hjl)]
    refine ⟨_, _, s', h3, ⟨h4.weaken (fun k _ hk => ?_), routes_set2 h.routes hr1 hr2,
      .replaceClient c c' hc hc' ⟨i, by rw [hsp]; simp⟩ hn hreq hgg ?_, fun k hk => kept_set2 k hk,
      near_set2 hij hil hjl (by rw [hsp, hat.2.1]; count_depots)⟩, ?_⟩
    · rcases hk with (hk | hk) | hk
      · exact hk.elim
      · exact .inl hk
      · exact .inr hk
    · intro a _
      rw [hins, hvr]
    · intro hco hfit hfresh
      rw [routesCost_set2 data ce h.clean.1.length hij hi hj]
      have hfr := hfresh i _ rfl
      have hrc := removed_client hco h hi hfit (.inl rfl) hi' hr1 hsp (data.client c).prize
      unfold different at hneg ⊢
      have hcost := delta_route false hco h hj hfit (.inr rfl) hj' hr2 hat.2.1
        (as := [[⟨.client, c'⟩]]) (All2.cons (Piece.client c') All2.nil) (h.after hj hat.2.1 rfl)
        (by simp) (used_of_mem (a := ⟨.client, c'⟩) (by simp) (by simp)) _ (.inr hneg)
      refine Eq.trans hcost ?_
      rw [hfr, hrc]
      omega

end RelocateAlternative
end PyVRP
