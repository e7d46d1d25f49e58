import Verif.Lemmas.FoundBase
/-!
# Improving moves of optional clients and groups are found
-/
namespace PyVRP
open Spec
open SSol (used ofActs_empty At RefOk)

variable {data : ProblemData} {plan : List (List Activity)} {s s' : SSol} {ce : CostEvaluator}

theorem Spec.Unvisited.not_visited {a : Activity} (h : Unvisited plan a) : ¬ Visited plan a := by
  rintro ⟨i, hi⟩
  by_cases hl : i < plan.length
  · exact h _ (getD_mem _ i [] hl) hi
  · rw [List.getD_eq_getElem?_getD, List.getElem?_eq_none (by omega)] at hi
    simp at hi

theorem Spec.Unvisited.place (h : SearchOk data plan s) {a : Activity} (ha : a.type ≠ .depot)
    (hu : Unvisited plan a) : s.place a = none :=
  (h.not_placed ha).2 hu.not_visited

namespace InsertOptionalClient

theorem found {j : Nat} {vs ws : List Activity} {u : Activity} {v : NodeRef}
    (h : SearchOk data plan s) (h' : SearchOk data (plan.set j (vs ++ [u] ++ ws)) s')
    (hco : CostOk data ce) (hfit : FitsAll data (plan.set j (vs ++ [u] ++ ws)))
    (hlt : planCost data ce (plan.set j (vs ++ [u] ++ ws)) < planCost data ce plan)
    (hj : j < data.numVehicles) (hV : plan.getD j [] = vs ++ ws) (hu : u.type = .client)
    (hun : Unvisited plan u) (hv : EndsAt j v vs)
    (hg : ∀ g, (data.client u.idx).group = some g → (data.group g).required = false
      ∧ ∀ c ∈ (data.group g).clients, Unvisited plan ⟨.client, c⟩) :
    (evaluate data ce s u v).apply = true := by
  obtain ⟨ty, c⟩ := u
  dsimp only at hu
  subst hu
  have hjl := h.clean.1.lt_length hj
  have hpv := h.clean.1.find (hv.at hj hV)
  have hnew' : (plan.set j (vs ++ [⟨.client, c⟩] ++ ws)).getD j [] = vs ++ [⟨.client, c⟩] ++ ws :=
    getD_set_self hjl _
  have hro := h'.routes j hj
  rw [hnew'] at hro
  have hc : c < data.numClients := hro.inRange ⟨.client, c⟩ (by simp)
  have hb : blocked data s c = false := by
    unfold blocked
    cases hgc : (data.client c).group with
    | none => rfl
    | some g =>
      obtain ⟨h1, h2⟩ := hg g hgc
      simp only [Bool.or_eq_false_iff]
      refine ⟨h1, ?_⟩
      rw [List.any_eq_false]
      intro m hm
      rw [(h2 m hm).place h (by simp)]
      simp
  unfold evaluate
  rw [hun.place h (by simp), hpv]
  dsimp only
  rw [if_neg (by simp [Activity.isClient]), hb, if_neg (by simp), Verdict.of_apply]
  have hcost := delta_le false hco h h' hj hfit trivial hnew' hV (as := [[⟨.client, c⟩]])
    (All2.cons (Piece.client c) All2.nil) (h.after hj hV rfl) (by simp)
    (used_of_mem (a := ⟨.client, c⟩) (by simp) (by simp)) (-(data.client c).prize)
  have ht : TaskChange data (Visited plan) (Visited (plan.set j (vs ++ [⟨.client, c⟩] ++ ws)))
      (-(data.client c).prize) := by
    refine .addClient c hc hun.not_visited (fun g hgc m hm hvis => ?_) (fun a _ => ?_)
    · exact ((hg g hgc).2 m hm).not_visited hvis
    · rw [← visited_insert hjl hV]; simp
  have hneg := change_neg ht hlt
  rw [routesCost_set data ce h.clean.1.length hj] at hneg
  refine Int.lt_of_le_of_lt hcost ?_
  omega

end InsertOptionalClient

namespace RemoveOptionalClient

theorem found {i : Nat} {xs ys : List Activity} {u : Activity}
    (h : SearchOk data plan s) (h' : SearchOk data (plan.set i (xs ++ ys)) s')
    (hco : CostOk data ce) (hfit : FitsAll data (plan.set i (xs ++ ys)))
    (hlt : planCost data ce (plan.set i (xs ++ ys)) < planCost data ce plan)
    (hi : i < data.numVehicles) (hU : plan.getD i [] = xs ++ [u] ++ ys) (hu : u.type = .client)
    (hr : (data.client u.idx).required = false)
    (hg : ∀ g, (data.client u.idx).group = some g → (data.group g).required = false) :
    (evaluate data ce s u).apply = true := by
  obtain ⟨ty, c⟩ := u
  dsimp only at hu hr hg
  subst hu
  have hil := h.clean.1.lt_length hi
  have hsp : plan.getD i [] = xs ++ ⟨.client, c⟩ :: ys := by rw [hU]; simp
  have hpu : s.place ⟨.client, c⟩ = some (i, xs.length + 1) :=
    h.clean.1.place hi (by simp) hsp
  have hnew' : (plan.set i (xs ++ ys)).getD i [] = xs ++ ys := getD_set_self hil _
  have hro := h'.routes i hi
  rw [hnew'] at hro
  have hc : c < data.numClients := (h.routes i hi).inRange ⟨.client, c⟩ (by rw [hsp]; simp)
  have hgr : groupRequired data c = false := by
    unfold groupRequired
    cases hgc : (data.client c).group with
    | none => rfl
    | some g => exact hg g hgc
  have ht : TaskChange data (Visited plan) (Visited (plan.set i (xs ++ ys))) (data.client c).prize :=
    .removeClient c hc ⟨i, by rw [hsp]; simp⟩ hr hg (fun a _ => h.visited_remove hi (by simp) hsp a)
  have hneg := change_neg ht hlt
  rw [routesCost_set data ce h.clean.1.length hi] at hneg
  unfold evaluate
  rw [hpu]
  dsimp only
  rw [hr, hgr, if_neg (by simp [Activity.isClient])]
  split
  · rename_i hs
    have := removed_client hco h hi hfit trivial hnew' hro hsp (data.client c).prize
    unfold RelocateWithDepot.removeCost at this
    rw [if_pos hs.symm] at this
    rw [Verdict.of_apply, this]
    omega
  · rename_i hs
    rw [Verdict.of_apply]
    have hus : used (xs ++ ys) = true := by
      rw [used_iff_taskCount]
      intro h0
      apply hs
      have := (singleClient h hi hsp).2 (by
        rw [h.route hi, route_taskCount _ (h.closed hi) (h.once i), hsp, taskCount_append,
          ← List.singleton_append, taskCount_append]
        rw [taskCount_append] at h0
        have : taskCount [(⟨.client, c⟩ : Activity)] = 1 := rfl
        omega)
      exact this.symm
    have hcost := delta_le false hco h h' hi hfit trivial hnew' hsp (as := []) All2.nil
      (h.after hi (xs := xs ++ [⟨.client, c⟩]) (ys := ys) (a := xs.length + 1 + 1) hU (by simp))
      (by simp) hus (data.client c).prize
    refine Int.lt_of_le_of_lt hcost ?_
    omega

end RemoveOptionalClient

namespace ReplaceOptionalClient

theorem cost_neg {j : Nat} {vs ws : List Activity} {c c' : Nat}
    (h : SearchOk data plan s) (h' : SearchOk data (plan.set j (vs ++ [⟨.client, c'⟩] ++ ws)) s')
    (hco : CostOk data ce) (hfit : FitsAll data (plan.set j (vs ++ [⟨.client, c'⟩] ++ ws)))
    (hlt : planCost data ce (plan.set j (vs ++ [⟨.client, c'⟩] ++ ws)) < planCost data ce plan)
    (hj : j < data.numVehicles) (hV : plan.getD j [] = vs ++ [⟨.client, c⟩] ++ ws)
    (hun : ¬ Visited plan ⟨.client, c'⟩) (hr : (data.client c).required = false)
    (hg : (data.client c).group = (data.client c').group) :
    cost data ce (s.route j) (vs.length + 1) c c' < 0 := by
  have hjl := h.clean.1.lt_length hj
  have hsp : plan.getD j [] = vs ++ ⟨.client, c⟩ :: ws := by rw [hV]; simp
  have hnew' : (plan.set j (vs ++ [⟨.client, c'⟩] ++ ws)).getD j [] = vs ++ [⟨.client, c'⟩] ++ ws :=
    getD_set_self hjl _
  have hro := h'.routes j hj
  rw [hnew'] at hro
  have hc : c < data.numClients := (h.routes j hj).inRange ⟨.client, c⟩ (by rw [hsp]; simp)
  have hc' : c' < data.numClients := hro.inRange ⟨.client, c'⟩ (by simp)
  have ht : TaskChange data (Visited plan) (Visited (plan.set j (vs ++ [⟨.client, c'⟩] ++ ws)))
      ((data.client c).prize - (data.client c').prize) := by
    refine .replaceClient c c' hc hc' ⟨j, by rw [hsp]; simp⟩ hun hr hg (fun a _ => ?_)
    have := visited_insert (plan := plan.set j (vs ++ ws)) (by simpa using hjl) (getD_set_self hjl _)
      ⟨.client, c'⟩ a
    rw [List.set_set, h.visited_remove hj (by simp) hsp] at this
    rw [← this]; simp
  have hneg := change_neg ht hlt
  rw [routesCost_set data ce h.clean.1.length hj] at hneg
  have hcost := delta_le false hco h h' hj hfit trivial hnew' hsp (as := [[⟨.client, c'⟩]])
    (All2.cons (Piece.client c') All2.nil)
    (h.after hj (xs := vs ++ [⟨.client, c⟩]) (ys := ws) (a := vs.length + 1 + 1) hV (by simp))
    (by simp) (used_of_mem (a := ⟨.client, c'⟩) (by simp) (by simp))
    ((data.client c).prize - (data.client c').prize)
  refine Int.lt_of_le_of_lt hcost ?_
  omega

theorem found {j : Nat} {vs ws : List Activity} {u b : Activity}
    (h : SearchOk data plan s) (h' : SearchOk data (plan.set j (vs ++ [u] ++ ws)) s')
    (hco : CostOk data ce) (hfit : FitsAll data (plan.set j (vs ++ [u] ++ ws)))
    (hlt : planCost data ce (plan.set j (vs ++ [u] ++ ws)) < planCost data ce plan)
    (hj : j < data.numVehicles) (hV : plan.getD j [] = vs ++ [b] ++ ws) (hu : u.type = .client)
    (hun : Unvisited plan u) (hb : b.type = .client) (hr : (data.client b.idx).required = false)
    (hg : (data.client u.idx).group = none) (hg' : (data.client b.idx).group = none) :
    (evaluate data ce s u (.task b)).apply = true := by
  obtain ⟨ty, c'⟩ := u
  obtain ⟨ty', c⟩ := b
  dsimp only at hu hb hg hg' hr
  subst hu hb
  have hsp : plan.getD j [] = vs ++ ⟨.client, c⟩ :: ws := by rw [hV]; simp
  have hpv : s.find (.task ⟨.client, c⟩) = some (j, vs.length + 1) :=
    h.clean.1.place hj (by simp) hsp
  have hact : ((s.route j).node (vs.length + 1)).activity = ⟨.client, c⟩ := by
    rw [h.route hj, hsp, SRoute.ofActs_inner]
  unfold evaluate
  rw [hun.place h (by simp), hpv]
  dsimp only
  rw [hact, hg, hg', hr, if_neg (by simp [Activity.isClient]), if_neg (by simp), Verdict.of_apply]
  exact cost_neg h h' hco hfit hlt hj hV hun.not_visited hr (by rw [hg, hg'])

end ReplaceOptionalClient

/-- What holds of the other clients in the group of a client. -/
theorem Spec.OtherMember.spec {c c' : Nat} (hd : Consistent data) (hc : c < data.numClients)
    (hs : OtherMember data c c') :
    ∃ g, (data.client c).group = some g ∧ c' ∈ (data.group g).clients ∧ c ∈ (data.group g).clients
      ∧ c' ≠ c ∧ data.group g ∈ data.groups ∧ c' < data.numClients
      ∧ (data.client c).required = false ∧ (data.client c').required = false
      ∧ (data.client c').group = (data.client c).group := by
  obtain ⟨g, hg, hm, hne⟩ := hs
  obtain ⟨hcm, hreq, hgm⟩ := mem_group hd hc hg
  obtain ⟨g', -, hcg, hc'⟩ := group_of_mem hd hgm hm
  obtain ⟨grp, h1, -, -⟩ := hd.clientGroup c _ g (client_getElem hc) hg
  obtain ⟨cl, h2, h3⟩ := (hd.groupClients g grp h1).2 c' (by rw [← group_getD h1]; exact hm)
  rw [client_getElem hc'] at h2
  cases h2
  exact ⟨g, hg, hm, hcm, hne, hgm, hc', hreq, (mem_group hd hc' h3).2.1, by rw [h3, hg]⟩

namespace ReplaceGroup

theorem found {j c : Nat} {vs ws : List Activity} {u : Activity} (hd : Consistent data)
    (hex : Exclusive data plan)
    (h : SearchOk data plan s) (h' : SearchOk data (plan.set j (vs ++ [u] ++ ws)) s')
    (hco : CostOk data ce) (hfit : FitsAll data (plan.set j (vs ++ [u] ++ ws)))
    (hlt : planCost data ce (plan.set j (vs ++ [u] ++ ws)) < planCost data ce plan)
    (hj : j < data.numVehicles) (hV : plan.getD j [] = vs ++ [⟨.client, c⟩] ++ ws)
    (hu : u.type = .client) (hun : Unvisited plan u) (hc : OtherMember data u.idx c) :
    (evaluate data ce s u).apply = true := by
  obtain ⟨ty, c'⟩ := u
  dsimp only at hu hc
  subst hu
  have hjl := h.clean.1.lt_length hj
  have hro := h'.routes j hj
  rw [getD_set_self hjl] at hro
  have hc' : c' < data.numClients := hro.inRange ⟨.client, c'⟩ (by simp)
  obtain ⟨g, hg, hm, hm', hne, hgm, hcl, -, hreq, hgg⟩ := hc.spec hd hc'
  have hsp : plan.getD j [] = vs ++ ⟨.client, c⟩ :: ws := by rw [hV]; simp
  have hvis : Visited plan ⟨.client, c⟩ := ⟨j, by rw [hsp]; simp⟩
  have hpc : s.place ⟨.client, c⟩ = some (j, vs.length + 1) := h.clean.1.place hj (by simp) hsp
  have hfind : (data.group g).clients.find? (fun client => (s.place ⟨.client, client⟩).isSome) = some c := by
    cases hf : (data.group g).clients.find? (fun client => (s.place ⟨.client, client⟩).isSome) with
    | none =>
      rw [List.find?_eq_none] at hf
      exact absurd (by rw [hpc]; rfl) (hf c hm)
    | some d =>
      have hdm := List.mem_of_find?_eq_some hf
      have hdp := List.find?_some hf
      have hvd : Visited plan ⟨.client, d⟩ := by
        refine Classical.byContradiction (fun hn => ?_)
        have := (h.not_placed (a := ⟨.client, d⟩) (by simp)).2 hn
        simp [this] at hdp
      rw [hex _ hgm d hdm c hm hvd hvis]
  unfold evaluate
  rw [if_neg (by rw [hun.place h (by simp)]; simp [Activity.isClient])]
  dsimp only
  rw [hg]
  dsimp only
  rw [hfind]
  dsimp only
  rw [hpc]
  dsimp only
  rw [Verdict.of_apply]
  exact ReplaceOptionalClient.cost_neg h h' hco hfit hlt hj hV hun.not_visited hreq hgg

end ReplaceGroup

namespace RelocateAlternative

theorem search_found {u : Nat} {cost : Nat → Int} {c : Nat} (hne : c ≠ u) (hneg : cost c < 0) :
    ∀ {members : List Nat}, c ∈ members → (search u cost members).apply = true
  | [], h => by cases h
  | d :: rest, h => by
    unfold search
    by_cases h1 : d = u
    · rw [if_pos h1]
      rcases List.mem_cons.1 h with rfl | h
      · exact absurd h1 hne
      · exact search_found hne hneg h
    · rw [if_neg h1]
      by_cases h2 : cost d < 0
      · rw [if_pos h2]
      · rw [if_neg h2]
        rcases List.mem_cons.1 h with rfl | h
        · exact absurd hneg h2
        · exact search_found hne hneg h

theorem found_different {i j c : Nat} {xs ys vs ws : List Activity} {u : Activity} {v : NodeRef}
    (hd : Consistent data) (hex : Exclusive data plan) (h : SearchOk data plan s)
    (h' : SearchOk data ((plan.set i (xs ++ ys)).set j (vs ++ [⟨.client, c⟩] ++ ws)) s')
    (hco : CostOk data ce)
    (hfit : FitsAll data ((plan.set i (xs ++ ys)).set j (vs ++ [⟨.client, c⟩] ++ ws)))
    (hlt : planCost data ce ((plan.set i (xs ++ ys)).set j (vs ++ [⟨.client, c⟩] ++ ws))
      < planCost data ce plan)
    (hi : i < data.numVehicles) (hj : j < data.numVehicles) (hij : i ≠ j)
    (hU : plan.getD i [] = xs ++ [u] ++ ys) (hV : plan.getD j [] = vs ++ ws)
    (hu : u.type = .client) (hv : EndsAt j v vs) (hc : OtherMember data u.idx c) (cache : Cache)
    (hfresh : ∀ i p, s.place u = some (i, p) →
        cache.lookup u.idx
            (RelocateWithDepot.removeCost data ce (s.route i) p (data.client u.idx).prize)
          = RelocateWithDepot.removeCost data ce (s.route i) p (data.client u.idx).prize) :
    (evaluate data ce s cache u v).1.apply = true := by
  obtain ⟨ty, d⟩ := u
  dsimp only at hu hc
  subst hu
  have hil := h.clean.1.lt_length hi
  have hjl := h.clean.1.lt_length hj
  have hsp : plan.getD i [] = xs ++ ⟨.client, d⟩ :: ys := by rw [hU]; simp
  have hdl : d < data.numClients := (h.routes i hi).inRange ⟨.client, d⟩ (by rw [hsp]; simp)
  obtain ⟨g, hg, hm, hm', hne, hgm, hcl, hreq, -, hgg⟩ := hc.spec hd hdl
  have hvis : Visited plan ⟨.client, d⟩ := ⟨i, by rw [hsp]; simp⟩
  have hn : ¬ Visited plan ⟨.client, c⟩ := fun hv => hne (hex _ hgm c hm d hm' hv hvis)
  have hpu : s.place ⟨.client, d⟩ = some (i, xs.length + 1) := h.clean.1.place hi (by simp) hsp
  have hpv := h.clean.1.find (hv.at hj hV)
  have hi' : ((plan.set i (xs ++ ys)).set j (vs ++ [⟨.client, c⟩] ++ ws)).getD i [] = xs ++ ys := by
    rw [getD_set_ne _ hij, getD_set_self hil]
  have hj' : ((plan.set i (xs ++ ys)).set j (vs ++ [⟨.client, c⟩] ++ ws)).getD j []
      = vs ++ [⟨.client, c⟩] ++ ws := by
    rw [getD_set_self (by simpa using hjl)]
  have hother : ∀ l k, plan.getD j [] = l ++ [(⟨.client, d⟩ : Activity)] ++ k → False := by
    intro l k he
    have := h.clean.1.place hj (xs := l) (ys := k) (a := ⟨.client, d⟩) (by simp) (by rw [he]; simp)
    rw [hpu] at this
    injection this with this
    injection this with this _
    exact hij this
  have hvu : (v == .task ⟨.client, d⟩) = false := by
    rw [beq_eq_false_iff_ne]
    rintro rfl
    rcases hv with ⟨h1, -⟩ | ⟨a, vs', -, h1, h2⟩
    · cases h1
    · cases h1
      exact hother vs' ws (by rw [hV, h2])
  have hnx : (((s.route j).node (vs.length + 1)).activity == ⟨.client, d⟩) = false := by
    rw [beq_eq_false_iff_ne]
    intro hn
    cases ws with
    | nil =>
      rw [h.route hj, hV, List.append_nil, SRoute.ofActs_end] at hn
      cases hn
    | cons w ws =>
      rw [h.route hj, hV, SRoute.ofActs_inner] at hn
      dsimp only at hn
      exact hother vs ws (by rw [hV, hn]; simp)
  have ht : TaskChange data (Visited plan)
      (Visited ((plan.set i (xs ++ ys)).set j (vs ++ [⟨.client, c⟩] ++ ws)))
      ((data.client d).prize - (data.client c).prize) := by
    refine .replaceClient d c hdl hcl hvis hn hreq hgg.symm (fun a _ => ?_)
    have := visited_insert (plan := plan.set i (xs ++ ys)) (j := j) (by simpa using hjl)
      (vs := vs) (ws := ws) (by rw [getD_set_ne _ (Ne.symm hij), hV]) ⟨.client, c⟩ a
    rw [h.visited_remove hi (by simp) hsp] at this
    rw [← this]; simp
  have hneg := change_neg ht hlt
  rw [routesCost_set2 data ce h.clean.1.length hij hi hj] at hneg
  unfold evaluate
  rw [hpu, hpv]
  dsimp only
  rw [hvu, hnx, if_neg (by simp [Activity.isClient]), hg]
  dsimp only
  rw [if_neg hij, hfresh _ _ hpu]
  dsimp only
  refine search_found hne ?_ hm
  unfold different
  have hri := h'.routes i hi
  rw [hi'] at hri
  have hrc := removed_client hco h hi hfit trivial hi' hri hsp (data.client d).prize
  have hcost := delta_le false hco h h' hj hfit trivial hj' hV
    (as := [[⟨.client, c⟩]]) (All2.cons (Piece.client c) All2.nil) (h.after hj hV rfl)
    (by simp) (used_of_mem (a := ⟨.client, c⟩) (by simp) (by simp))
    (RelocateWithDepot.removeCost data ce (s.route i) (xs.length + 1) (data.client d).prize
      - (data.client c).prize)
  refine Int.lt_of_le_of_lt hcost ?_
  rw [hrc]
  omega

/-- The parts of the argument that both directions within a route share. -/
theorem found_same {i c : Nat} {xs ys ps qs : List Activity} {d : Nat} {v : NodeRef} {vs ws : List Activity}
    (hd : Consistent data) (hex : Exclusive data plan) (h : SearchOk data plan s)
    (hlt : planCost data ce (plan.set i (ps ++ [⟨.client, c⟩] ++ qs)) < planCost data ce plan)
    (hi : i < data.numVehicles) (hsp : plan.getD i [] = xs ++ ⟨.client, d⟩ :: ys)
    (hpq : xs ++ ys = ps ++ qs) (hV : plan.getD i [] = vs ++ ws) (hv : EndsAt i v vs)
    (htrip : depotVisits (xs ++ [(⟨.client, d⟩ : Activity)]) = depotVisits vs)
    (hl1 : vs.length ≠ xs.length) (hl2 : vs.length ≠ xs.length + 1)
    (hc : OtherMember data d c) (cache : Cache)
    (hcost : same data ce (s.route i) d (xs.length + 1) vs.length c
      ≤ (data.client d).prize - (data.client c).prize
        + routeCost data ce (vehTypeAt data i) (ps ++ [⟨.client, c⟩] ++ qs)
        - routeCost data ce (vehTypeAt data i) (plan.getD i [])) :
    (evaluate data ce s cache ⟨.client, d⟩ v).1.apply = true := by
  have hil := h.clean.1.lt_length hi
  have hdl : d < data.numClients := (h.routes i hi).inRange ⟨.client, d⟩ (by rw [hsp]; simp)
  obtain ⟨g, hg, hm, hm', hne, hgm, hcl, hreq, -, hgg⟩ := hc.spec hd hdl
  have hvis : Visited plan ⟨.client, d⟩ := ⟨i, by rw [hsp]; simp⟩
  have hn : ¬ Visited plan ⟨.client, c⟩ := fun hv => hne (hex _ hgm c hm d hm' hv hvis)
  have hpu : s.place ⟨.client, d⟩ = some (i, xs.length + 1) := h.clean.1.place hi (by simp) hsp
  have hpv := h.clean.1.find (hv.at hi hV)
  have hother : ∀ l k, plan.getD i [] = l ++ [(⟨.client, d⟩ : Activity)] ++ k → l.length = xs.length := by
    intro l k he
    have := h.clean.1.place hi (xs := l) (ys := k) (a := ⟨.client, d⟩) (by simp) (by rw [he]; simp)
    rw [hpu] at this
    injection this with this
    injection this with _ this
    omega
  have hvu : (v == .task ⟨.client, d⟩) = false := by
    rw [beq_eq_false_iff_ne]
    rintro rfl
    rcases hv with ⟨h1, -⟩ | ⟨a, vs', -, h1, h2⟩
    · cases h1
    · cases h1
      have := hother vs' ws (by rw [hV, h2])
      rw [h2] at hl2
      simp at hl2
      exact hl2 this
  have hnx : (((s.route i).node (vs.length + 1)).activity == ⟨.client, d⟩) = false := by
    rw [beq_eq_false_iff_ne]
    intro hn
    cases ws with
    | nil =>
      rw [h.route hi, hV, List.append_nil, SRoute.ofActs_end] at hn
      cases hn
    | cons w ws =>
      rw [h.route hi, hV, SRoute.ofActs_inner] at hn
      dsimp only at hn
      exact hl1 (hother vs ws (by rw [hV, hn]; simp))
  have ht : TaskChange data (Visited plan) (Visited (plan.set i (ps ++ [⟨.client, c⟩] ++ qs)))
      ((data.client d).prize - (data.client c).prize) := by
    refine .replaceClient d c hdl hcl hvis hn hreq hgg.symm (fun a _ => ?_)
    have := visited_insert (plan := plan.set i (xs ++ ys)) (j := i) (by simpa using hil)
      (vs := ps) (ws := qs) (by rw [getD_set_self hil, hpq]) ⟨.client, c⟩ a
    rw [List.set_set, h.visited_remove hi (by simp) hsp] at this
    rw [← this]; simp
  have hneg := change_neg ht hlt
  rw [routesCost_set data ce h.clean.1.length hi] at hneg
  have h1 : ((s.route i).node (xs.length + 1)).trip = depotVisits (xs ++ [(⟨.client, d⟩ : Activity)]) := by
    rw [h.route hi, hsp, SRoute.ofActs_inner]
  have h2 : ((s.route i).node vs.length).trip = depotVisits vs := by
    rw [h.route hi, hV, SRoute.ofActs_trip]
  unfold evaluate
  rw [hpu, hpv]
  dsimp only
  rw [hvu, hnx, if_neg (by simp [Activity.isClient]), hg]
  dsimp only
  rw [if_pos rfl, if_neg (by rw [h1, h2, htrip]; simp)]
  dsimp only
  refine search_found hne ?_ hm
  refine Int.lt_of_le_of_lt hcost ?_
  omega

theorem found_later {i c : Nat} {xs ms ws : List Activity} {u : Activity} {v : NodeRef}
    (hd : Consistent data) (hex : Exclusive data plan) (h : SearchOk data plan s)
    (h' : SearchOk data (plan.set i (xs ++ ms ++ [⟨.client, c⟩] ++ ws)) s')
    (hco : CostOk data ce) (hfit : FitsAll data (plan.set i (xs ++ ms ++ [⟨.client, c⟩] ++ ws)))
    (hlt : planCost data ce (plan.set i (xs ++ ms ++ [⟨.client, c⟩] ++ ws)) < planCost data ce plan)
    (hi : i < data.numVehicles) (hU : plan.getD i [] = xs ++ [u] ++ ms ++ ws)
    (hu : u.type = .client) (hv : EndsAt i v (xs ++ [u] ++ ms)) (hne : ms ≠ []) (hms : OneTrip ms)
    (hc : OtherMember data u.idx c) (cache : Cache) :
    (evaluate data ce s cache u v).1.apply = true := by
  obtain ⟨ty, d⟩ := u
  dsimp only at hu hc
  subst hu
  have hmpos := List.length_pos_of_ne_nil hne
  have hlen : (xs ++ [(⟨.client, d⟩ : Activity)] ++ ms).length = xs.length + 1 + ms.length := by simp; omega
  refine found_same hd hex h hlt hi (xs := xs) (ys := ms ++ ws) (by rw [hU]; simp) (by simp) hU hv ?_
    (by rw [hlen]; omega) (by rw [hlen]; omega) hc cache ?_
  · rw [depotVisits_append _ ms, (noDepot_iff _).1 hms, Nat.add_zero]
  · unfold same
    rw [if_pos (by rw [hlen]; omega)]
    have hb := h.between hi hU hne hms (a := xs.length + 1 + 1)
      (b := (xs ++ [(⟨.client, d⟩ : Activity)] ++ ms).length) (by simp) (by simp; omega)
    exact delta_le false hco h h' hi hfit trivial (getD_set_self (h.clean.1.lt_length hi) _)
      (xs := xs) (rest := ⟨.client, d⟩ :: (ms ++ ws)) (by rw [hU]; simp)
      (as := [ms, [⟨.client, c⟩]]) (All2.cons hb (All2.cons (Piece.client c) All2.nil))
      (h.after hi hU rfl) (by simp) (used_of_mem (a := ⟨.client, c⟩) (by simp) (by simp)) _

theorem found_earlier {i c : Nat} {vs ms ys : List Activity} {u : Activity} {v : NodeRef}
    (hd : Consistent data) (hex : Exclusive data plan) (h : SearchOk data plan s)
    (h' : SearchOk data (plan.set i (vs ++ [⟨.client, c⟩] ++ ms ++ ys)) s')
    (hco : CostOk data ce) (hfit : FitsAll data (plan.set i (vs ++ [⟨.client, c⟩] ++ ms ++ ys)))
    (hlt : planCost data ce (plan.set i (vs ++ [⟨.client, c⟩] ++ ms ++ ys)) < planCost data ce plan)
    (hi : i < data.numVehicles) (hU : plan.getD i [] = vs ++ ms ++ [u] ++ ys)
    (hu : u.type = .client) (hv : EndsAt i v vs) (hne : ms ≠ []) (hms : OneTrip ms)
    (hc : OtherMember data u.idx c) (cache : Cache) :
    (evaluate data ce s cache u v).1.apply = true := by
  obtain ⟨ty, d⟩ := u
  dsimp only at hu hc
  subst hu
  have hmpos := List.length_pos_of_ne_nil hne
  have hlen : (vs ++ ms).length = vs.length + ms.length := by simp
  have e : vs ++ [(⟨.client, c⟩ : Activity)] ++ ms ++ ys = vs ++ [⟨.client, c⟩] ++ (ms ++ ys) := by simp
  rw [e] at h' hfit hlt
  have hV : plan.getD i [] = vs ++ (ms ++ [⟨.client, d⟩] ++ ys) := by rw [hU]; simp
  refine found_same hd hex h hlt hi (xs := vs ++ ms) (ys := ys) (by rw [hU]; simp) (by simp) hV hv ?_
    (by rw [hlen]; omega) (by rw [hlen]; omega) hc cache ?_
  · rw [depotVisits_append, depotVisits_append, (noDepot_iff _).1 hms]; rfl
  · unfold same
    rw [if_neg (by rw [hlen]; omega)]
    have hb := h.between hi (xs := vs) (m := ms) (ys := [⟨.client, d⟩] ++ ys) (by rw [hU]; simp) hne hms
      (a := vs.length + 1) (b := (vs ++ ms).length + 1 - 1) rfl (by simp)
    exact delta_le false hco h h' hi hfit trivial (getD_set_self (h.clean.1.lt_length hi) _)
      hV (as := [[⟨.client, c⟩], ms]) (All2.cons (Piece.client c) (All2.cons hb All2.nil))
      (h.after hi (xs := vs ++ ms ++ [⟨.client, d⟩]) (ys := ys) hU (a := (vs ++ ms).length + 1 + 1)
        (by simp; omega)) (by simp) (used_of_mem (a := ⟨.client, c⟩) (by simp) (by simp)) _

end RelocateAlternative
end PyVRP
