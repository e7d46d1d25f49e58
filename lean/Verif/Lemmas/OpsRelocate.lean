import Verif.Lemmas.OpsSegment
/-!
# `Relocate`
-/
namespace PyVRP
open Spec
open SSol (used ofActs_empty At RefOk CleanBut)
open PerturbationManager (routes_set)

variable {data : ProblemData} {plan : List (List Activity)} {s : SSol}

theorem Verdict.of_apply {cost : Int} {m : Move} : (Verdict.of cost m).apply = true ↔ cost < 0 := by
  simp [Verdict.of]

/-- The last node of a segment. -/
theorem node_last {i : Nat} (h : SearchOk data plan s) (hi : i < data.numVehicles)
    {xs seg ys : List Activity} (he : plan.getD i [] = xs ++ seg ++ ys) (l : List Activity) (m : Activity)
    (hl : seg = l ++ [m]) {p : Nat} (hp : p = xs.length + seg.length) :
    ((s.route i).node p).activity = m := by
  rw [h.route hi, he, hl, hp, hl]
  have e : xs ++ (l ++ [m]) ++ ys = (xs ++ l) ++ m :: ys := by simp
  have e2 : xs.length + (l ++ [m]).length = (xs ++ l).length + 1 := by simp; omega
  rw [e, e2, SRoute.ofActs_inner]

namespace Relocate

/-- `Relocate<N>` between different routes. -/
theorem moved_different (ce : CostEvaluator) (h : SearchOk data plan s) {n : Nat} (hn : 1 ≤ n)
    {i j : Nat} (hij : i ≠ j) {xs seg ys : List Activity} (hi : i < data.numVehicles)
    (hseg : Segment (plan.getD i []) xs seg ys n) {a : Activity} (ha : ∀ l m, seg = l ++ [m] → a = m)
    {v : NodeRef} {vs ws : List Activity} (hv : At data plan v j vs ws) (cost : Int)
    (hneg : (different n data ce (s.route i) (xs.length + 1) (s.route j) vs.length cost).cost < 0) :
    Outcome data ce plan (fun k => k = i ∨ k = j)
      (different n data ce (s.route i) (xs.length + 1) (s.route j) vs.length cost).cost
      (cost = removeCost n data ce (s.route i) (xs.length + 1))
      (applyLoop data v n a s) := by
  have hj := hv.1
  have hil := h.clean.1.lt_length hi
  have hjl := h.clean.1.lt_length hj
  obtain ⟨ap1, ap2, ap3⟩ := h.apart hseg.split
  have hap : Apart seg (vs ++ ws) := by
    have := h.apart_routes hij
    rw [hv.2.1] at this
    exact this.sub hseg.sub.2.1 (fun _ h => h)
  have hri := hseg.without (h.routes i hi) ap2
  have hrj : RouteOk data (data.vehicleType (vehTypeAt data j)) (vs ++ seg ++ ws) := by
    have := h.routes j hj
    rw [hv.2.1] at this
    exact this.insert_segment hseg.inside hseg.noDepot
      (fun b hb => (h.routes i hi).inRange b (hseg.sub.2.1 b hb)) hap
  obtain ⟨s', h1, h2⟩ := SSol.applyLoop_diff (data := data) hij hi (v := v) (xs := xs) (ys := ys)
    (vs := vs) (ws := ws) seg (done := []) (h.clean.but (fun _ => False)) hseg.split hv hseg.noDepot
    (by have := (h.routes j hj).trips; rw [hv.2.1] at this; exact this) ha
  rw [hseg.length] at h1
  rw [List.nil_append] at h2
  have hi' : ((plan.set i (xs ++ ys)).set j (vs ++ seg ++ ws)).getD i [] = xs ++ ys := by
    rw [getD_set_ne _ hij, getD_set_self hil]
  have hj' : ((plan.set i (xs ++ ys)).set j (vs ++ seg ++ ws)).getD j [] = vs ++ seg ++ ws := by
    rw [getD_set_self (by simpa using hjl)]
  have hne : seg ≠ [] := by
    intro h0
    have := hseg.length
    rw [h0] at this
    simp at this
    omega
  refine ⟨_, 0, s', h1, ⟨h2.weaken (fun k _ hk => ?_), routes_set2 h.routes hri hrj, ?_,
    fun k hk => kept_set2 k hk, near_set2 hij hil hjl (by rw [hseg.split, hv.2.1]; count_depots)⟩, ?_⟩
  · rcases hk with hk | hk
    · exact hk.elim
    · exact hk
  · apply same_tasks2 hij hil hjl
    intro b _
    rw [hseg.split, hv.2.1]
    simp only [List.mem_append]
    grind
  · intro hco hfit hfresh
    have hu : used (vs ++ seg ++ ws) = true := by
      rw [used_iff_taskCount, taskCount_append, taskCount_append, taskCount_noDepot hseg.noDepot]
      have := List.length_pos_of_ne_nil hne
      omega
    have hb := h.between hi hseg.split hne hseg.noDepot (a := xs.length + 1)
      (b := xs.length + 1 + n - 1) rfl (by rw [hseg.length]; omega)
    have hl := h.after hj hv.2.1 rfl
    have hcost := delta_route false hco h hj hfit (.inr rfl) hj' hrj hv.2.1
      (ms := [(s.route i).between data (xs.length + 1) (xs.length + 1 + n - 1)]) (as := [seg])
      (All2.cons hb All2.nil) hl (by simp) hu cost (.inr hneg)
    have hrem := removed_cost hco h hi hfit (.inl rfl) hi' hri hseg.split hseg.noDepot 0
    have e1 : removeCost n data ce (s.route i) (xs.length + 1)
        = 0 + routeCost data ce (vehTypeAt data i) (xs ++ ys)
          - routeCost data ce (vehTypeAt data i) (plan.getD i []) := by
      rw [← hrem]
      unfold removeCost
      rw [hseg.length]
      have e2 : xs.length + 1 + n = xs.length + n + 1 := by omega
      rw [e2, Nat.add_sub_cancel]
    rw [routesCost_set2 data ce h.clean.1.length hij hi hj]
    unfold different Verdict.of
    dsimp only
    refine Eq.trans hcost ?_
    rw [hfresh, e1]
    omega

/-- `Relocate<N>` to a later place in the same route. -/
theorem moved_later (ce : CostEvaluator) (h : SearchOk data plan s) {n : Nat} (hn : 1 ≤ n)
    {i : Nat} {xs seg ms ws : List Activity} {v : Activity} (hi : i < data.numVehicles)
    (hseg : Segment (plan.getD i []) xs seg ((ms ++ [v]) ++ ws) n) {a : Activity}
    (ha : ∀ l m, seg = l ++ [m] → a = m) (hvt : v.type ≠ .depot) (hms : Phase.NoDepot ms)
    (hneg : (ce.deltaCost false data 0 ⟨s.route i, (s.route i).before (xs.length + 1 - 1),
      [(s.route i).between data (xs.length + 1 + n) (xs.length + n + ms.length + 1),
        (s.route i).between data (xs.length + 1) (xs.length + 1 + n - 1),
        (s.route i).after (xs.length + n + ms.length + 1 + 1)]⟩).1 < 0) :
    Outcome data ce plan (fun k => k = i)
      (ce.deltaCost false data 0 ⟨s.route i, (s.route i).before (xs.length + 1 - 1),
      [(s.route i).between data (xs.length + 1 + n) (xs.length + n + ms.length + 1),
        (s.route i).between data (xs.length + 1) (xs.length + 1 + n - 1),
        (s.route i).after (xs.length + n + ms.length + 1 + 1)]⟩).1
      True (applyLoop data (.task v) n a s) := by
  have hil := h.clean.1.lt_length hi
  obtain ⟨ap1, ap2, ap3⟩ := h.apart hseg.split
  have hri := hseg.without (h.routes i hi) ap2
  have hsp : plan.getD i [] = xs ++ seg ++ (ms ++ [v]) ++ [] ++ ws := by rw [hseg.split]; simp
  obtain ⟨s', h1, h2⟩ := SSol.applyLoop_later (data := data) hi hvt (xs := xs) (ms := ms) (ws := ws) seg
    (done := []) (h.clean.but (fun _ => False)) hsp hseg.noDepot (h.routes i hi).trips ha
  rw [hseg.length] at h1
  rw [List.append_nil] at h2
  have hrn : RouteOk data (data.vehicleType (vehTypeAt data i)) (xs ++ (ms ++ [v]) ++ seg ++ ws) := by
    apply RouteOk.insert_segment (by rw [List.append_assoc]; exact hri) hseg.inside hseg.noDepot
      (fun b hb => (h.routes i hi).inRange b (hseg.sub.2.1 b hb))
    rw [List.append_assoc, Apart.append_right]
    exact ⟨ap1.symm, ap3⟩
  have hne : seg ≠ [] := by
    intro h0
    have := hseg.length
    rw [h0] at this
    simp at this
    omega
  have hi' : (plan.set i (xs ++ (ms ++ [v]) ++ seg ++ ws)).getD i [] = xs ++ (ms ++ [v]) ++ seg ++ ws :=
    getD_set_self hil _
  refine ⟨_, 0, s', h1, ⟨h2.weaken (fun k _ hk => ?_), routes_set h.routes hrn, ?_,
    fun k hk => kept_set k hk, near_set hil (by rw [hsp]; count_depots)⟩, ?_⟩
  · rcases hk with hk | hk
    · exact hk.elim
    · exact hk
  · apply same_tasks hil
    intro b _
    rw [hseg.split]
    simp only [List.mem_append, List.mem_singleton]
    grind
  · intro hco hfit _
    have hu : used (xs ++ (ms ++ [v]) ++ seg ++ ws) = true := used_of_mem (a := v) (by simp) hvt
    have hb1 := h.between hi hseg.split hne hseg.noDepot (a := xs.length + 1)
      (b := xs.length + 1 + n - 1) rfl (by rw [hseg.length]; omega)
    have hb2 := h.between hi (xs := xs ++ seg) (m := ms ++ [v]) (ys := ws) (by rw [hseg.split]; simp)
      (by simp) (by
        intro b hb
        rcases List.mem_append.1 hb with hb | hb
        · exact hms b hb
        · rw [List.mem_singleton.1 hb]; exact hvt)
      (a := xs.length + 1 + n) (b := xs.length + n + ms.length + 1)
      (by rw [List.length_append, hseg.length]; omega)
      (by rw [List.length_append, List.length_append, hseg.length]; simp; omega)
    have hl := h.after hi (xs := xs ++ seg ++ (ms ++ [v])) (ys := ws) (by rw [hseg.split]; simp)
      (a := xs.length + n + ms.length + 1 + 1) (by
        rw [List.length_append, List.length_append, List.length_append, hseg.length]; simp; omega)
    have hcost := delta_route false hco h hi hfit rfl hi' hrn (xs := xs)
      (rest := seg ++ ((ms ++ [v]) ++ ws)) (by rw [hseg.split]; simp)
      (as := [ms ++ [v], seg]) (All2.cons hb2 (All2.cons hb1 All2.nil)) hl (by simp) hu 0 (.inr hneg)
    rw [routesCost_set data ce h.clean.1.length hi]
    refine Eq.trans hcost ?_
    omega

/-- `Relocate<N>` to an earlier place in the same route. -/
theorem moved_earlier (ce : CostEvaluator) (h : SearchOk data plan s) {n : Nat} (hn : 1 ≤ n)
    {i : Nat} {vs ms seg ys : List Activity} {v : NodeRef} (hi : i < data.numVehicles)
    (hv : At data plan v i vs (ms ++ seg ++ ys))
    (hseg : Segment (plan.getD i []) (vs ++ ms) seg ys n) {a : Activity}
    (ha : ∀ l m, seg = l ++ [m] → a = m) (hms : Phase.NoDepot ms) (hne : ms ≠ [])
    (hneg : (ce.deltaCost false data 0 ⟨s.route i, (s.route i).before vs.length,
      [(s.route i).between data (vs.length + ms.length + 1) (vs.length + ms.length + 1 + n - 1),
        (s.route i).between data (vs.length + 1) (vs.length + ms.length + 1 - 1),
        (s.route i).after (vs.length + ms.length + 1 + n)]⟩).1 < 0) :
    Outcome data ce plan (fun k => k = i)
      (ce.deltaCost false data 0 ⟨s.route i, (s.route i).before vs.length,
      [(s.route i).between data (vs.length + ms.length + 1) (vs.length + ms.length + 1 + n - 1),
        (s.route i).between data (vs.length + 1) (vs.length + ms.length + 1 - 1),
        (s.route i).after (vs.length + ms.length + 1 + n)]⟩).1
      True (applyLoop data v n a s) := by
  have hil := h.clean.1.lt_length hi
  obtain ⟨ap1, ap2, ap3⟩ := h.apart hseg.split
  have hri := hseg.without (h.routes i hi) ap2
  obtain ⟨s', h1, h2⟩ := SSol.applyLoop_earlier (data := data) hi (v := v) (vs := vs) (ms := ms)
    (ys := ys) seg (done := []) (h.clean.but (fun _ => False)) hv hseg.noDepot (h.routes i hi).trips ha
  rw [hseg.length] at h1
  rw [List.append_nil] at h2
  have hrn : RouteOk data (data.vehicleType (vehTypeAt data i)) (vs ++ seg ++ (ms ++ ys)) := by
    apply RouteOk.insert_segment (by rw [← List.append_assoc]; exact hri) hseg.inside hseg.noDepot
      (fun b hb => (h.routes i hi).inRange b (hseg.sub.2.1 b hb))
    rw [← List.append_assoc, Apart.append_right]
    exact ⟨ap1.symm, ap3⟩
  rw [← List.append_assoc] at hrn
  have hne' : seg ≠ [] := by
    intro h0
    have := hseg.length
    rw [h0] at this
    simp at this
    omega
  have hi' : (plan.set i (vs ++ seg ++ ms ++ ys)).getD i [] = vs ++ seg ++ ms ++ ys :=
    getD_set_self hil _
  refine ⟨_, 0, s', h1, ⟨h2.weaken (fun k _ hk => ?_), routes_set h.routes hrn, ?_,
    fun k hk => kept_set k hk, near_set hil (by rw [hv.2.1]; count_depots)⟩, ?_⟩
  · rcases hk with hk | hk
    · exact hk.elim
    · exact hk
  · apply same_tasks hil
    intro b _
    rw [hseg.split]
    simp only [List.mem_append]
    grind
  · intro hco hfit _
    have hu : used (vs ++ seg ++ ms ++ ys) = true := by
      rw [used_iff_taskCount, taskCount_append, taskCount_append, taskCount_append,
        taskCount_noDepot hseg.noDepot]
      have := List.length_pos_of_ne_nil hne'
      omega
    have hb1 := h.between hi hseg.split hne' hseg.noDepot (a := vs.length + ms.length + 1)
      (b := vs.length + ms.length + 1 + n - 1) (by simp) (by rw [hseg.length]; simp; try omega)
    have hb2 := h.between hi (xs := vs) (m := ms) (ys := seg ++ ys) (by rw [hseg.split]; simp)
      hne hms (a := vs.length + 1) (b := vs.length + ms.length + 1 - 1) rfl (by omega)
    have hl := h.after hi (xs := vs ++ ms ++ seg) (ys := ys) hseg.split
      (a := vs.length + ms.length + 1 + n) (by
        rw [List.length_append, List.length_append, hseg.length]; omega)
    have hcost := delta_route false hco h hi hfit rfl hi' hrn (xs := vs)
      (rest := ms ++ seg ++ ys) (by rw [hseg.split]; simp)
      (as := [seg, ms]) (All2.cons hb1 (All2.cons hb2 All2.nil)) hl (by simp) hu 0 (.inr hneg)
    rw [routesCost_set data ce h.clean.1.length hi]
    refine Eq.trans hcost ?_
    omega

theorem outcome (ce : CostEvaluator) (h : SearchOk data plan s) {n : Nat} (hn : 1 ≤ n)
    {u : Activity} {v : NodeRef} (hv : RefOk data v) (cache : Cache)
    (hap : (evaluate n data ce s cache u v).1.apply = true) :
    Outcome data ce plan (Touched s u v) (evaluate n data ce s cache u v).1.cost
      (∀ i p, s.place u = some (i, p) → cache.lookup (cacheIdx data u) (removeCost n data ce (s.route i) p)
        = removeCost n data ce (s.route i) p)
      (apply n data s u v) := by
  unfold evaluate at hap ⊢
  unfold apply
  cases hpu : s.place u with
  | none => rw [hpu] at hap; cases hap
  | some ip =>
  cases hpv : s.find v with
  | none => rw [hpu, hpv] at hap; obtain ⟨i, p⟩ := ip; cases hap
  | some jq =>
  obtain ⟨i, p⟩ := ip
  obtain ⟨j, q⟩ := jq
  rw [hpu, hpv] at hap
  dsimp only at hap ⊢
  split at hap
  · cases hap
  rename_i hf1
  rw [if_neg hf1]
  split at hap
  · cases hap
  rename_i hf2
  rw [if_neg hf2]
  obtain ⟨hi, hut, xs, ys, hsp, rfl⟩ := h.clean.1.place_some hpu
  obtain ⟨vs, ws, hat, rfl⟩ := h.clean.1.find_some hv hpv
  simp only [Bool.or_eq_true, not_or, Bool.not_eq_true] at hf1
  have hc := h.closed hi
  have ho := h.once i
  rw [h.route hi, hsp] at hf1
  rw [hsp] at hc ho
  obtain ⟨rest, zs, hseg⟩ := segment_of_flags _ hut hc ho hn hf1.1 hf1.2
  rw [← hsp] at hseg
  have hlast : ∀ l m, (u :: rest) = l ++ [m] →
      ((s.route i).node (xs.length + 1 + n - 1)).activity = m := by
    intro l m hl
    exact node_last h hi hseg.split l m hl (by rw [hseg.length]; omega)
  by_cases hij : i = j
  · subst hij
    have hne : ¬ (i ≠ i) := fun h => h rfl
    rw [if_neg hne] at hap ⊢
    simp only [decide_true, Bool.true_and, Bool.or_eq_true, not_or, bne_iff_ne, ne_eq, Decidable.not_not,
      Bool.not_eq_true, beq_iff_eq] at hf2
    obtain ⟨⟨ht, hov⟩, hnx⟩ := hf2
    unfold overlap at hov
    simp only [Bool.and_eq_false_iff, decide_eq_false_iff_not] at hov
    have htu : ((s.route i).node (xs.length + 1)).trip = depotVisits (xs ++ [u]) := by
      rw [h.route hi, hsp, SRoute.ofActs_inner]
    have htv : ((s.route i).node vs.length).trip = depotVisits vs := by
      rw [h.route hi, hat.2.1, SRoute.ofActs_trip]
    rw [htu, htv, depotVisits_append, depotVisits_cons] at ht
    simp only [hut, if_false] at ht
    have h0 : depotVisits ([] : List Activity) = 0 := rfl
    unfold same at hap ⊢
    by_cases hlt : xs.length + 1 < vs.length
    · rw [if_pos hlt] at hap ⊢
      have hge : xs.length + n < vs.length := by omega
      have hee := hseg.split.symm.trans hat.2.1
      obtain ⟨m, hm1, hm2⟩ := split_le hee (by
        rw [List.length_append, hseg.length]; omega)
      rcases hat.2.2 with ⟨-, hvn⟩ | ⟨a, vs', hat', rfl, hvs⟩
      · rw [hvn] at hge; simp at hge
      rcases List.eq_nil_or_concat m with rfl | ⟨ms, b, rfl⟩
      · rw [hm1, List.append_nil, List.length_append, hseg.length] at hge; omega
      rw [List.concat_eq_append] at hm1 hm2
      have hb : b = a := by
        rw [hvs, ← List.append_assoc] at hm1
        have := List.append_inj_right' hm1 rfl
        simpa using this.symm
      subst hb
      have hlen : vs.length = xs.length + n + ms.length + 1 := by
        rw [hm1, List.length_append, List.length_append, hseg.length]; simp; omega
      rw [hm2] at hseg
      have hnd : Phase.NoDepot ms := by
        rw [noDepot_iff]
        rw [hm1, depotVisits_append, depotVisits_append, depotVisits_append, depotVisits_cons] at ht
        omega
      rw [hlen] at hap ⊢
      exact ((moved_later ce h hn hi hseg hlast hat' hnd (Verdict.of_apply.1 hap)).congr
        (fun k => by rw [← touched_iff hpu hpv]; simp)).fresh (fun _ => trivial)
    · rw [if_neg hlt] at hap ⊢
      have hle : vs.length ≤ xs.length := by omega
      have hee := hat.2.1.symm.trans hseg.split
      rw [List.append_assoc] at hee
      obtain ⟨ms, hm1, hm2⟩ := split_le hee hle
      have hms : ms ≠ [] := by
        rintro rfl
        apply hnx
        rw [List.append_nil] at hm1
        rw [← hm1, h.route hi, hsp, SRoute.ofActs_inner]
      have hnd : Phase.NoDepot ms := by
        rw [noDepot_iff]
        rw [hm1, depotVisits_append] at ht
        omega
      have hlen : xs.length = vs.length + ms.length := by rw [hm1, List.length_append]
      rw [hlen] at hap hlast ⊢
      rw [hm1] at hseg
      rw [hm2, ← List.append_assoc] at hat
      exact ((moved_earlier ce h hn hi hat hseg hlast hnd hms (Verdict.of_apply.1 hap)).congr
        (fun k => by rw [← touched_iff hpu hpv]; simp)).fresh (fun _ => trivial)
  · rw [if_pos hij] at hap ⊢
    exact ((moved_different ce h hn hij hi hseg hlast hat _ (Verdict.of_apply.1 hap)).congr
        (fun k => touched_iff hpu hpv k)).fresh (fun hf => hf _ _ rfl)

end Relocate
end PyVRP
