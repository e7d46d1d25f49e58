import Verif.Lemmas.OpsTails
/-!
# Operators for optional clients and groups
-/
namespace PyVRP
open Spec
open SSol (used ofActs_empty At RefOk CleanBut)
open PerturbationManager (routes_set)

variable {data : ProblemData} {plan : List (List Activity)} {s : SSol}

theorem SearchOk.not_placed (h : SearchOk data plan s) {a : Activity} (ha : a.type ≠ .depot) :
    s.place a = none ↔ ¬ Visited plan a := by
  constructor
  · rintro hn ⟨i, hi⟩
    obtain ⟨xs, ys, he⟩ := List.append_of_mem hi
    rw [h.clean.1.place (h.clean.1.lt_of_mem hi) ha he] at hn
    cases hn
  · intro hn
    exact h.clean.1.place_none (fun i hi => hn ⟨i, hi⟩)

theorem touched_none {u : Activity} {v : NodeRef} {j q : Nat} (hu : s.place u = none)
    (hv : s.find v = some (j, q)) (k : Nat) : (k = j) ↔ Touched s u v k := by
  unfold Touched
  rw [hu, hv]
  simp [eq_comm]

/-- A client or other activity that is not visited may be inserted. -/
theorem insertable {c : Nat} (hc : c < data.numClients)
    (hn : ¬ Visited plan ⟨.client, c⟩) :
    IsTask data ⟨.client, c⟩ ∧ ∀ j, (⟨.client, c⟩ : Activity) ∉ plan.getD j [] :=
  ⟨⟨by simp, hc⟩, fun j hj => hn ⟨j, hj⟩⟩

/-- What is visited after an insertion. -/
theorem visited_insert {j : Nat} (hj : j < plan.length) {vs ws : List Activity}
    (he : plan.getD j [] = vs ++ ws) (b a : Activity) :
    Visited (plan.set j (vs ++ b :: ws)) a ↔ Visited plan a ∨ a = b := by
  rw [visited_set hj, visited_split plan j, he]
  simp only [List.mem_append, List.mem_cons]
  grind

/-- What is visited after a removal. -/
theorem SearchOk.visited_remove (h : SearchOk data plan s) {i : Nat} (hi : i < data.numVehicles)
    {xs ys : List Activity} {b : Activity} (hb : b.type ≠ .depot) (he : plan.getD i [] = xs ++ b :: ys)
    (a : Activity) : Visited (plan.set i (xs ++ ys)) a ↔ Visited plan a ∧ a ≠ b := by
  have hx := h.clean.1.absent hi hb he
  constructor
  · rintro ⟨k, hk⟩
    refine ⟨?_, fun e => hx k (e ▸ hk)⟩
    by_cases hki : k = i
    · subst hki
      rw [getD_set_self (h.clean.1.lt_length hi)] at hk
      refine ⟨k, ?_⟩
      rw [he]
      simp only [List.mem_append, List.mem_cons] at hk ⊢
      tauto
    · rw [getD_set_ne _ hki] at hk
      exact ⟨k, hk⟩
  · rintro ⟨⟨k, hk⟩, hne⟩
    refine ⟨k, ?_⟩
    by_cases hki : k = i
    · subst hki
      rw [getD_set_self (h.clean.1.lt_length hi)]
      rw [he] at hk
      simp only [List.mem_append, List.mem_cons] at hk ⊢
      tauto
    · rw [getD_set_ne _ hki]; exact hk

namespace InsertOptionalClient

theorem outcome (ce : CostEvaluator) (h : SearchOk data plan s) {u : Activity} (hu : InRange data u)
    {v : NodeRef} (hv : RefOk data v) (hap : (evaluate data ce s u v).apply = true) :
    Outcome data ce plan (Touched s u v) (evaluate data ce s u v).cost True (apply data s u v) := by
  unfold evaluate at hap ⊢
  unfold apply
  cases hpu : s.place u with
  | some ip => rw [hpu] at hap; cases hap
  | none =>
  cases hpv : s.find v with
  | none => rw [hpu, hpv] at hap; cases hap
  | some jq =>
  obtain ⟨j, q⟩ := jq
  rw [hpu, hpv] at hap
  dsimp only at hap ⊢
  split at hap
  · cases hap
  rename_i hf1
  rw [if_neg hf1]
  split at hap
  · cases hap
  rename_i hf2
  rw [if_neg hf2]
  obtain ⟨ty, c⟩ := u
  have hty : ty = .client := by
    cases ty <;> simp [Activity.isClient] at hf1 ⊢
  subst hty
  have hc : c < data.numClients := hu
  obtain ⟨vs, ws, hat, rfl⟩ := h.clean.1.find_some hv hpv
  have hj := hat.1
  have hjl := h.clean.1.lt_length hj
  have hn := (h.not_placed (by simp)).1 hpu
  have hr : RouteOk data (data.vehicleType (vehTypeAt data j)) (vs ++ ⟨.client, c⟩ :: ws) := by
    have := h.routes j hj
    rw [hat.2.1] at this
    exact this.insert_client hc
  obtain ⟨s', h1, h2⟩ := (h.clean.but (fun _ => False)).insertAfter hat
    (.inr (insertable hc hn)) hr.trips
  refine Outcome.congr (D := fun k => k = j) ?_ (fun k => touched_none hpu hpv k)
  refine ⟨_, _, s', h1, ⟨h2.weaken (fun k _ hk => ?_), routes_set h.routes hr,
    .addClient c hc hn ?_ (fun a _ => visited_insert hjl hat.2.1 _ a), fun k hk => kept_set k hk,
    near_set hjl (by rw [hat.2.1]; count_depots)⟩, ?_⟩
  · rcases hk with hk | hk
    · exact hk.elim
    · exact hk
  · intro g hg m hm hvis
    unfold blocked at hf2
    dsimp only at hf2
    rw [hg] at hf2
    simp only [Bool.or_eq_true, not_or, List.any_eq_true, not_exists, not_and] at hf2
    have := hf2.2 m hm
    cases hp : s.place ⟨.client, m⟩ with
    | none => exact (h.not_placed (by simp)).1 hp hvis
    | some x => rw [hp] at this; exact this rfl
  · intro hco hfit _
    rw [routesCost_set data ce h.clean.1.length hj]
    have hcost := delta_route false hco h hj hfit rfl (getD_set_self hjl _) hr hat.2.1
      (as := [[⟨.client, c⟩]]) (All2.cons (Piece.client c) All2.nil) (h.after hj hat.2.1 rfl)
      (by simp) (used_of_mem (a := ⟨.client, c⟩) (by simp) (by simp)) _ (.inr (Verdict.of_apply.1 hap))
    refine Eq.trans hcost ?_
    dsimp only
    omega

end InsertOptionalClient

theorem singleClient (h : SearchOk data plan s) {i : Nat} (hi : i < data.numVehicles)
    {xs ys : List Activity} {c : Nat} (hsp : plan.getD i [] = xs ++ ⟨.client, c⟩ :: ys) :
    ((s.route i).numClients = 1 ∧ (s.route i).numShipments = 0)
      ↔ (s.route i).numClients + 2 * (s.route i).numShipments = 1 := by
  have : 1 ≤ (s.route i).numClients := by
    rw [h.route hi, (SRoute.ofActs_counts data _ _).1, hsp]
    apply List.countP_pos_iff.2
    exact ⟨⟨.client, c⟩, by simp, by simp⟩
  omega

/-- The cost to remove a client. -/
theorem removed_client {ce : CostEvaluator} (hco : CostOk data ce) (h : SearchOk data plan s)
    {i : Nat} (hi : i < data.numVehicles) {D : Nat → Prop} {plan' : List (List Activity)}
    (hfit : FitsOn data D plan') (hD : D i) {xs ys : List Activity} {c : Nat}
    (hnew' : plan'.getD i [] = xs ++ ys)
    (hro : RouteOk data (data.vehicleType (vehTypeAt data i)) (xs ++ ys))
    (hsplit : plan.getD i [] = xs ++ ⟨.client, c⟩ :: ys) (out : Int) :
    RelocateWithDepot.removeCost data ce (s.route i) (xs.length + 1) out
      = out + routeCost data ce (vehTypeAt data i) (xs ++ ys)
        - routeCost data ce (vehTypeAt data i) (plan.getD i []) := by
  have := removed_cost hco h hi hfit hD hnew' hro (seg := [⟨.client, c⟩]) (by rw [hsplit]; simp)
    (by intro b hb; simp at hb; subst hb; simp) out
  rw [← this, List.length_singleton]
  unfold RelocateWithDepot.removeCost
  have hs := singleClient h hi hsplit
  by_cases h1 : (s.route i).numClients = 1 ∧ (s.route i).numShipments = 0
  · rw [if_pos h1, if_pos (hs.1 h1)]
  · rw [if_neg h1, if_neg (fun e => h1 (hs.2 e))]
    rfl

namespace RemoveOptionalClient

theorem outcome (ce : CostEvaluator) (h : SearchOk data plan s) {u : Activity}
    (hap : (evaluate data ce s u).apply = true) :
    Outcome data ce plan (fun k => ∃ p, s.place u = some (k, p)) (evaluate data ce s u).cost True
      (.ok (apply s u)) := by
  unfold evaluate at hap ⊢
  unfold apply
  cases hpu : s.place u with
  | none => rw [hpu] at hap; cases hap
  | some ip =>
  obtain ⟨i, p⟩ := ip
  rw [hpu] at hap
  dsimp only at hap ⊢
  split at hap
  · cases hap
  rename_i hf1
  rw [if_neg hf1]
  obtain ⟨hi, hut, xs, ys, hsp, rfl⟩ := h.clean.1.place_some hpu
  obtain ⟨ty, c⟩ := u
  simp only [Bool.or_eq_true, not_or, Bool.not_eq_true] at hf1
  obtain ⟨⟨hf0, hf2⟩, hf3⟩ := hf1
  have hty : ty = .client := by
    cases ty <;> simp [Activity.isClient] at hf0 ⊢
  subst hty
  have hil := h.clean.1.lt_length hi
  have hr0 := h.routes i hi
  rw [hsp] at hr0
  have hr := hr0.remove_client
  have hc : c < data.numClients := hr0.inRange ⟨.client, c⟩ (by simp)
  have h2 := (h.clean.but (fun _ => False)).remove hi hsp
  rw [SSol.takeOut_eq h.clean.1 hi (by simp) hsp]
  refine Outcome.congr (D := fun k => k = i) ?_ (fun k => by simp [eq_comm])
  refine ⟨_, _, _, rfl, ⟨h2.weaken (fun k _ hk => ?_), routes_set h.routes hr,
    .removeClient c hc ⟨i, by rw [hsp]; simp⟩ hf2 ?_ (fun a _ => h.visited_remove hi (by simp) hsp a),
    fun k hk => kept_set k hk, near_set hil (by rw [hsp]; count_depots)⟩, ?_⟩
  · rcases hk with hk | hk
    · exact hk.elim
    · exact hk
  · intro g hg
    unfold groupRequired at hf3
    rw [hg] at hf3
    exact hf3
  · intro hco hfit _
    rw [routesCost_set data ce h.clean.1.length hi]
    have hnew' : (plan.set i (xs ++ ys)).getD i [] = xs ++ ys := getD_set_self hil _
    split
    · rename_i hs
      have := removed_client hco h hi hfit rfl hnew' hr hsp (data.client c).prize
      unfold RelocateWithDepot.removeCost at this
      rw [if_pos hs.symm] at this
      show (data.client c).prize - ce.penalisedCostSearch data (s.route i) = _
      rw [this]
      omega
    · rename_i hs
      rw [if_neg hs] at hap
      have hu : used (xs ++ ys) = true := by
        rw [used_iff_taskCount]
        intro h0
        apply hs
        have := (singleClient h hi hsp).2 (by
          rw [h.route hi, route_taskCount _ (h.closed hi) (h.once i), hsp, taskCount_append,
            ← List.singleton_append, taskCount_append]
          rw [taskCount_append] at h0
          have : taskCount [(⟨.client, c⟩ : Activity)] = 1 := rfl
          omega)
        exact this.symm
      have hcost := delta_route false hco h hi hfit rfl hnew' hr hsp
        (as := []) All2.nil (h.after hi (xs := xs ++ [⟨.client, c⟩]) (ys := ys)
          (a := xs.length + 1 + 1) (by rw [hsp]; simp) (by simp))
        (by simp) hu _ (.inr (Verdict.of_apply.1 hap))
      refine Eq.trans hcost ?_
      dsimp only
      omega

end RemoveOptionalClient

namespace ReplaceOptionalClient

/-- Putting a client that is not visited in the place of another one. -/
theorem replaced (ce : CostEvaluator) (h : SearchOk data plan s) {c c' : Nat} (hc : c < data.numClients)
    (hc' : c' < data.numClients) {j : Nat} (hj : j < data.numVehicles) {xs ys : List Activity}
    (hsp : plan.getD j [] = xs ++ ⟨.client, c⟩ :: ys) (hn : ¬ Visited plan ⟨.client, c'⟩)
    (hr : (data.client c).required = false) (hg : (data.client c).group = (data.client c').group)
    (hneg : cost data ce (s.route j) (xs.length + 1) c c' < 0) :
    Outcome data ce plan (fun k => k = j) (cost data ce (s.route j) (xs.length + 1) c c') True
      ((s.removeAt j (xs.length + 1)).insertAt data j (xs.length + 1) ⟨.client, c'⟩)
      ∧ ∀ s', (s.removeAt j (xs.length + 1)).insertAt data j (xs.length + 1) ⟨.client, c'⟩ = .ok s' →
        s'.owner ⟨.client, c'⟩ = some j := by
  have hjl := h.clean.1.lt_length hj
  have hr0 := h.routes j hj
  rw [hsp] at hr0
  have hr1 := hr0.remove_client
  have hr2 := hr1.insert_client hc'
  have h2 := (h.clean.but (fun _ => False)).remove hj hsp
  have hnew : (plan.set j (xs ++ ys)).getD j [] = xs ++ ys := getD_set_self hjl _
  have hvr := h.visited_remove hj (b := ⟨.client, c⟩) (by simp) hsp
  obtain ⟨s', h3, h4⟩ := h2.insert hj hnew (a := ⟨.client, c'⟩)
    (.inr ⟨⟨by simp, hc'⟩, fun k hk => hn ((hvr _).1 ⟨k, hk⟩).1⟩) hr2.trips
  rw [List.set_set] at h4
  have hnew' : (plan.set j (xs ++ ⟨.client, c'⟩ :: ys)).getD j [] = xs ++ ⟨.client, c'⟩ :: ys :=
    getD_set_self hjl _
  constructor
  · refine ⟨_, _, s', h3, ⟨h4.weaken (fun k _ hk => ?_), routes_set h.routes hr2,
      .replaceClient c c' hc hc' ⟨j, by rw [hsp]; simp⟩ hn hr hg ?_, fun k hk => kept_set k hk,
      near_set hjl (by rw [hsp]; count_depots)⟩, ?_⟩
    · rcases hk with (hk | hk) | hk
      · exact hk.elim
      · exact hk
      · exact hk
    · intro a _
      have := visited_insert (plan := plan.set j (xs ++ ys)) (by simpa using hjl) hnew ⟨.client, c'⟩ a
      rw [List.set_set] at this
      rw [this, hvr]
    · intro hco hfit _
      rw [routesCost_set data ce h.clean.1.length hj]
      have hcost := delta_route false hco h hj hfit rfl hnew' hr2 hsp
        (as := [[⟨.client, c'⟩]]) (All2.cons (Piece.client c') All2.nil)
        (h.after hj (xs := xs ++ [⟨.client, c⟩]) (ys := ys) (a := xs.length + 1 + 1) (by rw [hsp]; simp)
          (by simp))
        (by simp) (used_of_mem (a := ⟨.client, c'⟩) (by simp) (by simp)) _ (.inr hneg)
      refine Eq.trans hcost ?_
      omega
  · intro s'' he
    rw [h3] at he
    cases he
    exact (h4.1.owner _ (by simp) j).2 (by rw [hnew']; simp)

theorem outcome (ce : CostEvaluator) (h : SearchOk data plan s) {u : Activity} (hu : InRange data u)
    {v : NodeRef} (hv : RefOk data v) (hap : (evaluate data ce s u v).apply = true) :
    Outcome data ce plan (Touched s u v) (evaluate data ce s u v).cost True (apply data s u v) := by
  unfold evaluate at hap ⊢
  unfold apply
  cases hpu : s.place u with
  | some ip => rw [hpu] at hap; cases hap
  | none =>
  cases hpv : s.find v with
  | none => rw [hpu, hpv] at hap; cases hap
  | some jq =>
  obtain ⟨j, q⟩ := jq
  rw [hpu, hpv] at hap
  dsimp only at hap ⊢
  split at hap
  · cases hap
  rename_i hf1
  rw [if_neg hf1]
  split at hap
  · cases hap
  rename_i hf2
  rw [if_neg hf2]
  obtain ⟨vs, ws, hat, rfl⟩ := h.clean.1.find_some hv hpv
  have hj := hat.1
  rcases hat.2.2 with ⟨-, h0⟩ | ⟨⟨ty', c⟩, vs', hbt, -, h0⟩
  · subst h0
    have : ((s.route j).node ([] : List Activity).length).activity.isClient = false := by
      rw [h.route hj]; rfl
    rw [this] at hf1
    simp at hf1
  · subst h0
    have hsp : plan.getD j [] = vs' ++ ⟨ty', c⟩ :: ws := by rw [hat.2.1]; simp
    have hlen : (vs' ++ [(⟨ty', c⟩ : Activity)]).length = vs'.length + 1 := by simp
    rw [hlen] at hf1 hf2 hap ⊢
    have hact : ((s.route j).node (vs'.length + 1)).activity = ⟨ty', c⟩ := by
      rw [h.route hj, hsp, SRoute.ofActs_inner]
    rw [hact] at hf1 hf2 hap ⊢
    simp only [Bool.or_eq_true, not_or, Bool.not_eq_true] at hf1 hf2
    obtain ⟨ty, c'⟩ := u
    have hty : ty = .client := by
      have := hf1.1
      cases ty <;> simp [Activity.isClient] at this ⊢
    have hty' : ty' = .client := by
      have := hf1.2
      cases ty' <;> simp [Activity.isClient] at this ⊢
    subst hty hty'
    have hc : c < data.numClients := (h.routes j hj).inRange ⟨.client, c⟩ (by rw [hsp]; simp)
    have hg1 : (data.client c').group = none := by
      have := hf2.1.2
      cases hg : (data.client c').group with
      | none => rfl
      | some g => simp [hg] at this
    have hg2 : (data.client c).group = none := by
      have := hf2.2
      cases hg : (data.client c).group with
      | none => rfl
      | some g => simp [hg] at this
    exact ((replaced ce h hc hu hj hsp ((h.not_placed (by simp)).1 hpu) hf2.1.1 (by rw [hg1, hg2])
      (Verdict.of_apply.1 hap)).1).congr (fun k => touched_none hpu hpv k)

end ReplaceOptionalClient

namespace ReplaceGroup

theorem outcome (ce : CostEvaluator) (hd : Consistent data) (h : SearchOk data plan s) {u : Activity}
    (hu : InRange data u) (hap : (evaluate data ce s u).apply = true) :
    ∃ j, Outcome data ce plan (fun k => k = j) (evaluate data ce s u).cost True
      (apply data s u (evaluate data ce s u).move)
      ∧ s.place u = none
      ∧ ∀ s', apply data s u (evaluate data ce s u).move = .ok s' → s'.owner u = some j := by
  unfold evaluate at hap ⊢
  split at hap
  · cases hap
  rename_i hf1
  rw [if_neg hf1]
  obtain ⟨ty, c'⟩ := u
  simp only [Bool.or_eq_true, not_or, Bool.not_eq_true, Option.isSome_eq_false_iff,
    Option.isNone_iff_eq_none] at hf1
  have hty : ty = .client := by
    have := hf1.1
    cases ty <;> simp [Activity.isClient] at this ⊢
  subst hty
  split at hap
  · cases hap
  rename_i g hg
  split at hap
  · cases hap
  rename_i c hfind
  split at hap
  · cases hap
  rename_i j p hp
  dsimp only at hg hap ⊢
  obtain ⟨hj, -, xs, ys, hsp, rfl⟩ := h.clean.1.place_some hp
  have hc' : c' < data.numClients := hu
  obtain ⟨-, -, hgm⟩ := mem_group hd hc' hg
  obtain ⟨g', hg', hcg, hc⟩ := group_of_mem hd hgm (List.mem_of_find?_eq_some hfind)
  have hreq := (mem_group hd hc hcg).2.1
  have hsame : (data.client c).group = (data.client c').group := by
    -- the member's group is found by its own index
    obtain ⟨grp, h1, -, -⟩ := hd.clientGroup c' _ g (client_getElem hc') hg
    obtain ⟨cl, h2, h3⟩ := (hd.groupClients g grp h1).2 c (by
      rw [← group_getD h1]; exact List.mem_of_find?_eq_some hfind)
    rw [client_getElem hc] at h2
    cases h2
    rw [h3, hg]
  have := ReplaceOptionalClient.replaced ce h hc hc' hj hsp ((h.not_placed (by simp)).1 hf1.2) hreq hsame
    (Verdict.of_apply.1 hap)
  refine ⟨j, ?_⟩
  show Outcome data ce plan _ _ _ (ReplaceOptionalClient.apply data s ⟨.client, c'⟩ (.task ⟨.client, c⟩))
    ∧ _ ∧ ∀ s', ReplaceOptionalClient.apply data s ⟨.client, c'⟩ (.task ⟨.client, c⟩) = .ok s' → _
  have e : ReplaceOptionalClient.apply data s ⟨.client, c'⟩ (.task ⟨.client, c⟩)
      = (s.removeAt j (xs.length + 1)).insertAt data j (xs.length + 1) ⟨.client, c'⟩ := by
    unfold ReplaceOptionalClient.apply
    show (match s.place ⟨.client, c⟩ with
      | some (j, v) => _
      | none => _) = _
    rw [hp]
  rw [e]
  exact ⟨this.1, hf1.2, this.2⟩

end ReplaceGroup
end PyVRP
