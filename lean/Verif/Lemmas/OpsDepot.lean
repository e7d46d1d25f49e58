import Verif.Lemmas.OpsAlternative
/-!
# Operators that insert or remove reload depots
-/
namespace PyVRP
open Spec
open SSol (used ofActs_empty At RefOk CleanBut)
open PerturbationManager (routes_set)

variable {data : ProblemData} {plan : List (List Activity)} {s : SSol}

theorem vehicleType_mem {vt : Nat} (h : vt < data.numVehicleTypes) :
    data.vehicleType vt ∈ data.vehicleTypes := by
  unfold ProblemData.vehicleType
  exact getD_mem _ _ _ h

theorem Closed.remove_client {xs ys : List Activity} {c : Nat} (h : Closed (xs ++ ⟨.client, c⟩ :: ys)) :
    Closed (xs ++ ys) := by
  intro s
  have := h s
  rwa [Phase.run_append, Phase.run_cons, Phase.step_free (concerns_client s c) (.inr (by simp)),
    ← Phase.run_append] at this

theorem RouteOk.remove_depot {v : VehicleType} {xs ys : List Activity} {d : Nat}
    (h : RouteOk data v (xs ++ ⟨.depot, d⟩ :: ys)) : RouteOk data v (xs ++ ys) := by
  refine ⟨fun a ha => h.inRange a (by simp only [List.mem_append, List.mem_cons] at ha ⊢; tauto), ?_, ?_⟩
  · intro s
    have := h.ships s
    rw [Phase.run_append, Phase.run_cons] at this
    by_cases hq : Phase.run s .waiting xs = .aboard
    · rw [hq] at this
      have hb : Phase.step s .aboard ⟨.depot, d⟩ = .bad := rfl
      rw [hb, Phase.run_bad] at this
      exact absurd rfl this.ne_bad
    · rw [Phase.step_free (concerns_depot s d) (.inl hq), ← Phase.run_append] at this
      exact this
  · have := h.trips
    rw [depotVisits_append, depotVisits_cons] at this
    rw [depotVisits_append]
    omega

theorem RouteOk.insert_depot {v : VehicleType} {xs ys : List Activity} {d : Nat}
    (h : RouteOk data v (xs ++ ys)) (hx : Closed xs) (hd : d < data.depots.length)
    (ht : depotVisits (xs ++ ys) + 2 ≤ v.maxTrips) : RouteOk data v (xs ++ ⟨.depot, d⟩ :: ys) := by
  refine ⟨?_, ?_, ?_⟩
  · intro a ha
    simp only [List.mem_append, List.mem_cons] at ha
    rcases ha with ha | rfl | ha
    · exact h.inRange a (by simp [ha])
    · exact hd
    · exact h.inRange a (by simp [ha])
  · intro s
    have := h.ships s
    rw [Phase.run_append] at this
    rw [Phase.run_append, Phase.run_cons, Phase.step_free (concerns_depot s d) (.inl ?_)]
    · exact this
    · rcases hx s with h1 | h1 <;> rw [h1] <;> decide
  · rw [depotVisits_append] at ht
    rw [depotVisits_append, depotVisits_cons]
    simp
    omega

namespace RemoveAdjacentDepot

theorem outcome (ce : CostEvaluator) (h : SearchOk data plan s) {u : Activity}
    (hap : (evaluate data ce s u).apply = true) :
    ∃ plan' s', apply s u (evaluate data ce s u).move = s'
      ∧ Moved data plan plan' (fun k => ∃ p, s.place u = some (k, p)) 0 s'
      ∧ reloads plan' + 1 = reloads plan
      ∧ (CostOk data ce → FitsOn data (fun k => ∃ p, s.place u = some (k, p)) plan' →
        (evaluate data ce s u).cost = routesCost data ce plan' - routesCost data ce plan) := by
  unfold evaluate at hap ⊢
  cases hpu : s.place u with
  | none => rw [hpu] at hap; cases hap
  | some ip =>
  obtain ⟨i, p⟩ := ip
  rw [hpu] at hap
  dsimp only at hap ⊢
  have hD : (fun k => ∃ p', some (i, p) = some (k, p')) = (fun k => k = i) := by
    funext k
    simp [eq_comm]
  rw [hD]
  obtain ⟨hi, hut, xs, ys, hsp, rfl⟩ := h.clean.1.place_some hpu
  have hil := h.clean.1.lt_length hi
  -- removing a depot from somewhere
  have finish : ∀ {ps qs : List Activity} {d : Nat}, plan.getD i [] = ps ++ ⟨.depot, d⟩ :: qs →
      u ∈ ps ++ qs → ∀ {cost : Int},
      (CostOk data ce → FitsOn data (fun k => k = i) (plan.set i (ps ++ qs)) →
        RouteOk data (data.vehicleType (vehTypeAt data i)) (ps ++ qs) →
        (plan.set i (ps ++ qs)).getD i [] = ps ++ qs → used (ps ++ qs) = true →
        cost = routeCost data ce (vehTypeAt data i) (ps ++ qs)
          - routeCost data ce (vehTypeAt data i) (plan.getD i [])) →
      ∃ plan' s', s.removeAt i (ps.length + 1) = s'
        ∧ Moved data plan plan' (fun k => k = i) 0 s'
        ∧ reloads plan' + 1 = reloads plan
        ∧ (CostOk data ce → FitsOn data (fun k => k = i) plan' →
          cost = routesCost data ce plan' - routesCost data ce plan) := by
    intro ps qs d he hm cost hcost
    have hr0 := h.routes i hi
    rw [he] at hr0
    have hr := hr0.remove_depot
    have h2 := (h.clean.but (fun _ => False)).remove hi he
    refine ⟨_, _, rfl, ⟨h2.weaken (fun k _ hk => ?_), routes_set h.routes hr, ?_,
      fun k hk => kept_set k hk, near_set hil (by rw [he]; count_depots)⟩, ?_, ?_⟩
    · rcases hk with hk | hk
      · exact hk.elim
      · exact hk
    · apply same_tasks hil
      intro a ha
      rw [he]
      simp only [List.mem_append, List.mem_cons]
      constructor
      · tauto
      · rintro (h1 | rfl | h1)
        · exact .inl h1
        · exact absurd rfl ha
        · exact .inr h1
    · have := reloads_set hil (ps ++ qs)
      rw [he, depotVisits_append, depotVisits_append, depotVisits_cons] at this
      simp only [if_true] at this
      omega
    · intro hco hfit
      rw [routesCost_set data ce h.clean.1.length hi,
        hcost hco hfit hr (getD_set_self hil _) (used_of_mem hm hut)]
      omega
  have hmax : ¬ MAX ≤ 0 := by decide
  -- the depot before
  have prev : ∀ {move : Move} {cost : Int}, move = .removePrev →
      ((s.route i).node (xs.length + 1 - 1)).isReloadDepot = true →
      cost = (ce.deltaCost true data 0 ⟨s.route i, (s.route i).before (xs.length + 1 - 2),
        [(s.route i).after (xs.length + 1)]⟩).1 →
      ∃ plan' s', apply s u move = s'
        ∧ Moved data plan plan' (fun k => k = i) 0 s'
        ∧ reloads plan' + 1 = reloads plan
        ∧ (CostOk data ce → FitsOn data (fun k => k = i) plan' →
          cost = routesCost data ce plan' - routesCost data ce plan) := by
    intro move cost hm hre hcost
    subst hm
    rcases List.eq_nil_or_concat xs with rfl | ⟨xs', ⟨ty, d⟩, rfl⟩
    · rw [h.route hi] at hre
      cases hre
    · rw [List.concat_eq_append] at *
      have hsp' : plan.getD i [] = xs' ++ ⟨ty, d⟩ :: (u :: ys) := by rw [hsp]; simp
      have hl : (xs' ++ [(⟨ty, d⟩ : Activity)]).length + 1 - 1 = xs'.length + 1 := by simp
      rw [hl, h.route hi, hsp', SRoute.ofActs_inner] at hre
      have hty : ty = .depot := by
        cases ty <;> simp [SNode.isReloadDepot, SNode.isDepot, Activity.isDepot] at hre ⊢
      subst hty
      have e : apply s u .removePrev = s.removeAt i (xs'.length + 1) := by
        unfold apply
        rw [hpu]
        dsimp only
        rw [hl]
      rw [e]
      refine finish hsp' (by simp) ?_
      intro hco hfit hr hnew hu
      have hl2 : (xs' ++ [(⟨.depot, d⟩ : Activity)]).length + 1 - 2 = xs'.length := by simp
      rw [hl2] at hcost
      have := delta_route true hco h hi hfit rfl hnew hr hsp' (as := []) All2.nil
        (h.after hi (xs := xs' ++ [⟨.depot, d⟩]) hsp rfl) (by simp) hu 0 (.inl rfl)
      rw [hcost]
      refine Eq.trans this ?_
      omega
  have next : ∀ {move : Move} {cost : Int}, move = .removeNext →
      ((s.route i).node (xs.length + 1 + 1)).isReloadDepot = true →
      cost = (ce.deltaCost true data 0 ⟨s.route i, (s.route i).before (xs.length + 1),
        [(s.route i).after (xs.length + 1 + 2)]⟩).1 →
      ∃ plan' s', apply s u move = s'
        ∧ Moved data plan plan' (fun k => k = i) 0 s'
        ∧ reloads plan' + 1 = reloads plan
        ∧ (CostOk data ce → FitsOn data (fun k => k = i) plan' →
          cost = routesCost data ce plan' - routesCost data ce plan) := by
    intro move cost hm hre hcost
    subst hm
    have hl : xs.length + 1 + 1 = (xs ++ [u]).length + 1 := by simp
    rw [hl, h.route hi, hsp] at hre
    cases ys with
    | nil =>
      have : ((SRoute.ofActs data (vehTypeAt data i) (xs ++ [u])).node ((xs ++ [u]).length + 1)).isEndDepot
          = true := by
        have := SRoute.ofActs_isEnd data (vehTypeAt data i) (xs ++ [u]) []
        simpa using this
      unfold SNode.isReloadDepot at hre
      rw [this] at hre
      simp at hre
    | cons b ys =>
      obtain ⟨ty, d⟩ := b
      have hsp' : plan.getD i [] = (xs ++ [u]) ++ ⟨ty, d⟩ :: ys := by rw [hsp]; simp
      rw [← hsp, hsp', SRoute.ofActs_inner] at hre
      have hty : ty = .depot := by
        cases ty <;> simp [SNode.isReloadDepot, SNode.isDepot, Activity.isDepot] at hre ⊢
      subst hty
      have e : apply s u .removeNext = s.removeAt i ((xs ++ [u]).length + 1) := by
        unfold apply
        rw [hpu]
        dsimp only
        rw [hl]
      rw [e]
      refine finish hsp' (by simp) ?_
      intro hco hfit hr hnew hu
      have hl2 : xs.length + 1 = (xs ++ [u]).length := by simp
      rw [hl2] at hcost
      have := delta_route true hco h hi hfit rfl hnew hr hsp' (as := []) All2.nil
        (h.after hi (xs := (xs ++ [u]) ++ [⟨.depot, d⟩]) (ys := ys) (a := (xs ++ [u]).length + 2)
          (by rw [hsp']; simp) (by simp)) (by simp) hu 0 (.inl rfl)
      rw [hcost]
      refine Eq.trans this ?_
      omega
  have hap' := of_decide_eq_true hap
  clear hap
  obtain ⟨A, hA⟩ : ∃ A, A = (ce.deltaCost true data 0 ⟨s.route i, (s.route i).before (xs.length + 1 - 2),
        [(s.route i).after (xs.length + 1)]⟩).1 := ⟨_, rfl⟩
  obtain ⟨B, hB⟩ : ∃ B, B = (ce.deltaCost true data 0 ⟨s.route i, (s.route i).before (xs.length + 1),
        [(s.route i).after (xs.length + 1 + 2)]⟩).1 := ⟨_, rfl⟩
  rw [← hA, ← hB] at hap' ⊢
  unfold RelocateWithDepot.better at hap' ⊢
  by_cases h1 : ((s.route i).node (xs.length + 1 - 1)).isReloadDepot = true <;>
    by_cases h2 : ((s.route i).node (xs.length + 1 + 1)).isReloadDepot = true
  · rw [if_pos h2, if_pos h1] at hap' ⊢
    by_cases h3 : A < MAX
    · rw [if_pos h3] at hap' ⊢
      by_cases h4 : B < A
      · rw [if_pos h4]; exact next rfl h2 hB
      · rw [if_neg h4]; exact prev rfl h1 hA
    · rw [if_neg h3] at hap' ⊢
      by_cases h4 : B < MAX
      · rw [if_pos h4]; exact next rfl h2 hB
      · rw [if_neg h4] at hap'; exact absurd hap' hmax
  · rw [if_neg h2, if_pos h1] at hap' ⊢
    by_cases h3 : A < MAX
    · rw [if_pos h3]; exact prev rfl h1 hA
    · rw [if_neg h3] at hap'; exact absurd hap' hmax
  · rw [if_pos h2, if_neg h1] at hap' ⊢
    by_cases h4 : B < MAX
    · rw [if_pos h4]; exact next rfl h2 hB
    · rw [if_neg h4] at hap'; exact absurd hap' hmax
  · rw [if_neg h2, if_neg h1] at hap'
    exact absurd hap' hmax

end RemoveAdjacentDepot

theorem Closed.insert_client {xs ys : List Activity} {c : Nat} (h : Closed (xs ++ ys)) :
    Closed (xs ++ ⟨.client, c⟩ :: ys) := by
  intro s
  have := h s
  rwa [Phase.run_append, Phase.run_cons, Phase.step_free (concerns_client s c) (.inr (by simp)),
    ← Phase.run_append]

namespace RelocateWithDepot

theorem fold_better (depots : List Nat) (f : Nat → Int) (mk : Nat → Move) : ∀ (best : Int × Move),
    depots.foldl (fun best depot => better best (f depot) (mk depot)) best = best
      ∨ ∃ d ∈ depots, depots.foldl (fun best depot => better best (f depot) (mk depot)) best = (f d, mk d) := by
  induction depots with
  | nil => intro best; exact .inl rfl
  | cons d depots ih =>
    intro best
    rw [List.foldl_cons]
    rcases ih (better best (f d) (mk d)) with h | ⟨d', h1, h2⟩
    · rw [h]
      unfold better
      split
      · exact .inr ⟨d, by simp, rfl⟩
      · exact .inl rfl
    · exact .inr ⟨d', by simp [h1], h2⟩

theorem search_some {rV : SRoute} {v : Nat} {depots : List Nat} {f g : Nat → Int}
    (h : (search rV v depots f g).1 < 0) :
    ∃ d ∈ depots, search rV v depots f g = (f d, .depotU d) ∨ search rV v depots f g = (g d, .uDepot d) := by
  have hmax : ¬ MAX < 0 := by decide
  have key : ∀ best : Int × Move, (best = (MAX, .none) ∨ ∃ d ∈ depots, best = (f d, .depotU d)) →
      (depots.foldl (fun best depot => better best (g depot) (.uDepot depot)) best = (MAX, .none)
        ∨ ∃ d ∈ depots,
          depots.foldl (fun best depot => better best (g depot) (.uDepot depot)) best = (f d, .depotU d)
          ∨ depots.foldl (fun best depot => better best (g depot) (.uDepot depot)) best = (g d, .uDepot d)) := by
    intro best hb
    rcases fold_better depots g Move.uDepot best with h1 | ⟨d, h1, h2⟩
    · rw [h1]
      rcases hb with hb | ⟨d, h2, h3⟩
      · exact .inl hb
      · exact .inr ⟨d, h2, .inl h3⟩
    · exact .inr ⟨d, h1, .inr h2⟩
  have hfirst : ∀ b : Bool, (if b = true then
      depots.foldl (fun best depot => better best (f depot) (.depotU depot)) (MAX, .none)
      else (MAX, .none)) = (MAX, .none) ∨ ∃ d ∈ depots, (if b = true then
      depots.foldl (fun best depot => better best (f depot) (.depotU depot)) (MAX, .none)
      else (MAX, .none)) = (f d, .depotU d) := by
    intro b
    cases b
    · exact .inl rfl
    · exact fold_better depots f Move.depotU _
  unfold search at h ⊢
  dsimp only at h ⊢
  have h1 := hfirst (!(rV.node v).isReloadDepot)
  generalize (if (!(rV.node v).isReloadDepot) = true then
      depots.foldl (fun best depot => better best (f depot) (.depotU depot)) (MAX, Move.none)
      else (MAX, Move.none)) = best at h h1 ⊢
  split
  · rename_i h2
    rw [if_pos h2] at h
    rcases key best h1 with h3 | h3
    · rw [h3] at h; exact absurd h hmax
    · exact h3
  · rename_i h2
    rw [if_neg h2] at h
    rcases h1 with h3 | ⟨d, h3, h4⟩
    · rw [h3] at h; exact absurd h hmax
    · exact ⟨d, h3, .inl h4⟩

/-- What a move inserts. -/
def Inserts (move : Move) (u : Activity) (d : Nat) (seg : List Activity) : Prop :=
  move = .depotU d ∧ seg = [⟨.depot, d⟩, u] ∨ move = .uDepot d ∧ seg = [u, ⟨.depot, d⟩]

theorem Inserts.depotVisits {move : Move} {c d : Nat} {seg : List Activity}
    (h : Inserts move ⟨.client, c⟩ d seg) : depotVisits seg = 1 := by
  rcases h with ⟨-, rfl⟩ | ⟨-, rfl⟩ <;> rfl

theorem applied {u : Activity} {v : NodeRef} {move : Move} {D : Nat → Prop}
    {plan1 : List (List Activity)} (h : CleanBut data D plan1 (s.takeOut u)) {j : Nat}
    {ps qs : List Activity} (hat : At data plan1 v j ps qs) (hu : IsTask data u)
    (habs : ∀ k, u ∉ plan1.getD k [])
    (ht : depotVisits (ps ++ qs) + 2 ≤ (data.vehicleType (vehTypeAt data j)).maxTrips)
    {d : Nat} {seg : List Activity} (hseg : Inserts move u d seg) :
    ∃ s', apply data s u v move = .ok s'
      ∧ CleanBut data (fun k => D k ∨ k = j) (plan1.set j (ps ++ seg ++ qs)) s' := by
  unfold apply
  dsimp only
  rw [h.1.find hat]
  dsimp only
  have hjl := h.1.lt_length hat.1
  obtain ⟨s1, h1, h2⟩ := h.insert hat.1 hat.2.1 (a := u) (.inr ⟨hu, habs⟩) (by
    rw [depotVisits_append, depotVisits_cons]
    rw [depotVisits_append] at ht
    simp only [hu.1, if_false]
    omega)
  have hnew : (plan1.set j (ps ++ u :: qs)).getD j [] = ps ++ u :: qs := getD_set_self hjl _
  rcases hseg with ⟨rfl, rfl⟩ | ⟨rfl, rfl⟩
  · dsimp only
    rw [h1]
    dsimp only
    obtain ⟨s2, h3, h4⟩ := h2.insert hat.1 hnew (a := ⟨.depot, d⟩) (.inl rfl) (by
      rw [depotVisits_append, depotVisits_cons, depotVisits_cons]
      rw [depotVisits_append] at ht
      simp only [hu.1, if_false, if_true]
      omega)
    rw [List.set_set] at h4
    refine ⟨s2, h3, ?_⟩
    have e : ps ++ [⟨.depot, d⟩, u] ++ qs = ps ++ ⟨.depot, d⟩ :: u :: qs := by simp
    rw [e]
    exact h4.weaken (fun k _ hk => by tauto)
  · dsimp only
    rw [h1]
    dsimp only
    obtain ⟨s2, h3, h4⟩ := h2.insert hat.1 (xs := ps ++ [u]) (ys := qs) (by rw [hnew]; simp)
      (a := ⟨.depot, d⟩) (.inl rfl) (by
      rw [depotVisits_append, depotVisits_append, depotVisits_cons, depotVisits_cons]
      rw [depotVisits_append] at ht
      have h0 : depotVisits ([] : List Activity) = 0 := rfl
      simp only [hu.1, if_false, if_true]
      omega)
    rw [List.set_set] at h4
    have e : ps ++ [u, ⟨.depot, d⟩] ++ qs = (ps ++ [u]) ++ ⟨.depot, d⟩ :: qs := by simp
    rw [e]
    refine ⟨s2, ?_, h4.weaken (fun k _ hk => by tauto)⟩
    have e2 : ps.length + 2 = (ps ++ [u]).length + 1 := by simp
    rw [e2]
    exact h3

theorem routeOk {v : VehicleType} {move : Move} {ps qs seg : List Activity} {c d : Nat}
    (h : RouteOk data v (ps ++ qs)) (hp : Closed ps) (hc : c < data.numClients)
    (hd : d < data.depots.length) (ht : depotVisits (ps ++ qs) + 2 ≤ v.maxTrips)
    (hseg : Inserts move ⟨.client, c⟩ d seg) : RouteOk data v (ps ++ seg ++ qs) := by
  have ht' : depotVisits (ps ++ ⟨.client, c⟩ :: qs) + 2 ≤ v.maxTrips := by
    rw [depotVisits_append, depotVisits_cons]
    rw [depotVisits_append] at ht
    simp
    omega
  rcases hseg with ⟨-, rfl⟩ | ⟨-, rfl⟩
  · have := (h.insert_client hc).insert_depot hp hd ht'
    simpa using this
  · have hp' : Closed (ps ++ [⟨.client, c⟩]) := Closed.insert_client (by simpa using hp)
    have h1 : RouteOk data v ((ps ++ [⟨.client, c⟩]) ++ qs) := by
      have := h.insert_client hc
      simpa using this
    have := h1.insert_depot hp' hd (by simpa using ht')
    simpa using this

theorem mem_inserted {P Q X Y C : Prop} (h : P ∨ Q ↔ X ∨ Y) : (P ∨ C) ∨ Q ↔ X ∨ C ∨ Y := by tauto

theorem mem_inserted2 {X Y P Q C : Prop} : (X ∨ Y) ∨ (P ∨ C) ∨ Q ↔ (X ∨ C ∨ Y) ∨ P ∨ Q := by tauto

theorem or_false_self {P : Prop} : (False ∨ P) ∨ P → P := by tauto

theorem or_false_two {P Q : Prop} : (False ∨ P) ∨ Q → P ∨ Q := by tauto

theorem outcome (ce : CostEvaluator) (hd : Consistent data) (h : SearchOk data plan s)
    {u : Activity} {v : NodeRef} (hv : RefOk data v) (hvu : v ≠ .task u) (cache : Cache)
    (hap : (evaluate data ce s cache u v).1.apply = true) :
    Outcome data ce plan (Touched s u v) (evaluate data ce s cache u v).1.cost
      (∀ i p, s.place u = some (i, p) →
        cache.lookup u.idx (removeCost data ce (s.route i) p 0) = removeCost data ce (s.route i) p 0)
      (apply data s u v (evaluate data ce s cache u v).1.move) := by
  unfold evaluate at hap ⊢
  cases hpu : s.place u with
  | none => rw [hpu] at hap; cases hap
  | some ip =>
  cases hpv : s.find v with
  | none => rw [hpu, hpv] at hap; obtain ⟨i, p⟩ := ip; cases hap
  | some jq =>
  obtain ⟨i, p⟩ := ip
  obtain ⟨j, q⟩ := jq
  rw [hpu, hpv] at hap
  dsimp only at hap ⊢
  by_cases hf1 : (!u.isClient || ((s.route j).node (q + 1)).activity == u || (s.route j).empty) = true
  · rw [if_pos hf1] at hap; cases hap
  rw [if_neg hf1] at hap ⊢
  by_cases hf2 : (s.route j).numTrips = (data.vehicleType (s.route j).vehicleType).maxTrips
  · rw [if_pos hf2] at hap; cases hap
  rw [if_neg hf2] at hap ⊢
  by_cases hf3 : i = j ∧ ((s.route i).node p).trip ≠ ((s.route i).node q).trip
  · rw [if_pos hf3] at hap; cases hap
  rw [if_neg hf3] at hap ⊢
  by_cases hf4 : (s.route j).numPickupsAt q ≠ (s.route j).numDeliveriesAt q
  · rw [if_pos hf4] at hap; cases hap
  rw [if_neg hf4] at hap ⊢
  simp only [Bool.or_eq_true, not_or, Bool.not_eq_true, beq_eq_false_iff_ne] at hf1
  obtain ⟨⟨hf1, hnx⟩, hemp⟩ := hf1
  obtain ⟨ty, c⟩ := u
  have hty : ty = .client := by
    cases ty <;> simp [Activity.isClient] at hf1 ⊢
  subst hty
  obtain ⟨hi, hut, xs, ys, hsp, rfl⟩ := h.clean.1.place_some hpu
  obtain ⟨vs, ws, hat, rfl⟩ := h.clean.1.find_some hv hpv
  have hj := hat.1
  have hil := h.clean.1.lt_length hi
  have hjl := h.clean.1.lt_length hj
  have hr0 := h.routes i hi
  rw [hsp] at hr0
  have hc : c < data.numClients := hr0.inRange ⟨.client, c⟩ (by simp)
  have hr1 := hr0.remove_client
  have hvt : (s.route j).vehicleType = vehTypeAt data j := by
    rw [h.route hj, SRoute.ofActs_vehicleType]
  have hroom : depotVisits (plan.getD j []) + 2
      ≤ (data.vehicleType (vehTypeAt data j)).maxTrips := by
    have h1 := (h.routes j hj).trips
    rw [hvt, h.route hj, (SRoute.ofActs_counts data _ _).2.2.2.1] at hf2
    omega
  have hcl : Closed vs := by
    have h1 := h.closed hj
    have h2 := h.once j
    rw [hat.2.1] at h1 h2
    refine closed_of_counts h1 h2 ?_
    have h3 := Decidable.not_not.1 hf4
    rw [h.route hj, hat.2.1, SRoute.ofActs_numPickupsAt, SRoute.ofActs_numDeliveriesAt] at h3
    exact h3
  have hdep : ∀ d ∈ (data.vehicleType (s.route j).vehicleType).reloadDepots, d < data.depots.length := by
    intro d hm
    rw [hvt] at hm
    exact hd.reloadDepots _ (vehicleType_mem (vehTypeAt_lt data hj)) d hm
  have hrem := (h.clean.but (fun _ => False)).remove hi hsp
  have htake := SSol.takeOut_eq h.clean.1 hi hut hsp
  rw [← htake] at hrem
  have hvr := h.visited_remove hi hut hsp
  have habs : ∀ k, (⟨.client, c⟩ : Activity) ∉ (plan.set i (xs ++ ys)).getD k [] :=
    fun k hk => ((hvr _).1 ⟨k, hk⟩).2 rfl
  have htask : IsTask data ⟨.client, c⟩ := ⟨by simp, hc⟩
  have hnew : (plan.set i (xs ++ ys)).getD i [] = xs ++ ys := getD_set_self hil _
  have hsegm : ∀ {move : Move} {d : Nat} {seg : List Activity}, Inserts move ⟨.client, c⟩ d seg →
      ∀ a : Activity, a.type ≠ .depot → (a ∈ seg ↔ a = ⟨.client, c⟩) := by
    rintro move d seg (⟨-, rfl⟩ | ⟨-, rfl⟩) a ha <;> simp
    · rintro rfl; exact absurd rfl ha
    · rintro rfl; exact absurd rfl ha
  by_cases hij : i = j
  · subst hij
    rw [if_pos rfl] at hap ⊢
    have htr : ((s.route i).node (xs.length + 1)).trip = ((s.route i).node vs.length).trip :=
      Decidable.not_not.1 (fun e => hf3 ⟨rfl, e⟩)
    have htrip : depotVisits (xs ++ [(⟨.client, c⟩ : Activity)]) = depotVisits vs := by
      have h1 : ((s.route i).node (xs.length + 1)).trip = depotVisits (xs ++ [(⟨.client, c⟩ : Activity)]) := by
        rw [h.route hi, hsp, SRoute.ofActs_inner]
      have h2 : ((s.route i).node vs.length).trip = depotVisits vs := by
        rw [h.route hi, hat.2.1, SRoute.ofActs_trip]
      rw [← h1, ← h2]
      exact htr
    have hneg := of_decide_eq_true hap
    refine Outcome.congr (D := fun k => k = i) ?_ (fun k => by rw [← touched_iff hpu hpv]; simp)
    refine Outcome.fresh (fresh := True) ?_ (fun _ => trivial)
    -- the rest is the same for both directions
    have finish : ∀ {ps qs : List Activity}, xs ++ ys = ps ++ qs →
        At data (plan.set i (xs ++ ys)) v i ps qs → Closed ps →
        ∀ {cost : Int} {move : Move} {d : Nat} {seg : List Activity},
        Inserts move ⟨.client, c⟩ d seg → d < data.depots.length →
        (CostOk data ce → FitsOn data (fun k => k = i) (plan.set i (ps ++ seg ++ qs)) →
          RouteOk data (data.vehicleType (vehTypeAt data i)) (ps ++ seg ++ qs) →
          (plan.set i (ps ++ seg ++ qs)).getD i [] = ps ++ seg ++ qs →
          used (ps ++ seg ++ qs) = true →
          cost = 0 + routeCost data ce (vehTypeAt data i) (ps ++ seg ++ qs)
            - routeCost data ce (vehTypeAt data i) (plan.getD i [])) →
        Outcome data ce plan (fun k => k = i) cost True (apply data s ⟨.client, c⟩ v move) := by
      intro ps qs hpq hat' hps cost move d seg hseg hdl hcost
      have hmem := hsegm hseg
      have hvis : depotVisits (ps ++ qs) + 2 ≤ (data.vehicleType (vehTypeAt data i)).maxTrips := by
        rw [← hpq]
        rw [hsp, depotVisits_append, depotVisits_cons] at hroom
        rw [depotVisits_append]
        omega
      obtain ⟨s', h3, h4⟩ := applied hrem hat' htask habs hvis hseg
      rw [List.set_set] at h4
      have hr2 := routeOk (hpq ▸ hr1) hps hc hdl hvis hseg
      have hnew' : (plan.set i (ps ++ seg ++ qs)).getD i [] = ps ++ seg ++ qs := getD_set_self hil _
      refine ⟨_, 0, s', h3, ⟨h4.weaken (fun k _ hk => or_false_self hk), routes_set h.routes hr2, ?_,
        fun k hk => kept_set k hk, near_set hil ?near⟩, ?_⟩
      case near =>
        have e := congrArg depotVisits hpq
        have := hseg.depotVisits
        rw [depotVisits_append, depotVisits_append] at e
        rw [hsp]
        simp only [depotVisits_append, depotVisits_cons]
        omega
      · apply same_tasks hil
        intro a ha
        have : a ∈ ps ++ qs ↔ a ∈ xs ++ ys := by rw [hpq]
        rw [hsp]
        simp only [List.mem_append, List.mem_cons, hmem a ha] at this ⊢
        exact mem_inserted this
      · intro hco hfit _
        rw [routesCost_set data ce h.clean.1.length hi,
          hcost hco hfit hr2 hnew' (used_of_mem (a := ⟨.client, c⟩) (by
            simp only [List.mem_append, hmem ⟨.client, c⟩ (by simp)]; simp) (by simp))]
        omega
    obtain ⟨d, hdm, hs⟩ := search_some hneg
    have hdl := hdep d hdm
    rcases same_route_places hut hsp hat hvu htrip with ⟨hlt, ms, b, hbt, rfl, hnd, hvs, hys⟩ |
      ⟨hlt, ms, hnd, hxs, hws⟩
    · have hlen : vs.length = xs.length + 1 + (ms ++ [b]).length := by
        rw [hvs]; simp; omega
      have hsp' : plan.getD i [] = (xs ++ [⟨.client, c⟩]) ++ (ms ++ [b]) ++ ws := by
        rw [hsp, hys]; simp
      have hps : Closed (xs ++ (ms ++ [b])) := Closed.remove_client (hvs ▸ hcl)
      have hb := h.between hi hsp' (by simp) hnd (a := xs.length + 1 + 1) (b := vs.length)
        (by simp) (by rw [hlen]; simp)
      have hu1 := h.at hi hsp hut rfl
      have haf := h.after hi hsp' (a := vs.length + 1) (by rw [hlen]; simp; omega)
      have hat' : At data (plan.set i (xs ++ ys)) (.task b) i (xs ++ (ms ++ [b])) ws :=
        ⟨hi, by rw [hnew, hys]; simp, .inr ⟨b, xs ++ ms, hbt, rfl, by simp⟩⟩
      rcases hs with hs | hs
      · rw [hs] at hneg ⊢
        refine finish (by rw [hys]; simp) hat' hps (.inl ⟨rfl, rfl⟩) hdl ?_
        intro hco hfit hr2 hnew' hu
        dsimp only [Verdict.of] at hneg ⊢
        unfold sameDepotU at hneg ⊢
        rw [if_pos hlt] at hneg ⊢
        exact delta_route false hco h hi hfit rfl hnew' hr2 hsp
          (as := [ms ++ [b], [⟨.depot, d⟩], [⟨.client, c⟩]])
          (All2.cons hb (All2.cons (Piece.depot d) (All2.cons hu1 All2.nil))) haf
          (by simp) hu _ (.inr hneg)
      · rw [hs] at hneg ⊢
        refine finish (by rw [hys]; simp) hat' hps (.inr ⟨rfl, rfl⟩) hdl ?_
        intro hco hfit hr2 hnew' hu
        dsimp only [Verdict.of] at hneg ⊢
        unfold sameUDepot at hneg ⊢
        rw [if_pos hlt] at hneg ⊢
        exact delta_route false hco h hi hfit rfl hnew' hr2 hsp
          (as := [ms ++ [b], [⟨.client, c⟩], [⟨.depot, d⟩]])
          (All2.cons hb (All2.cons hu1 (All2.cons (Piece.depot d) All2.nil))) haf
          (by simp) hu _ (.inr hneg)
    · have hms : ms ≠ [] := by
        rintro rfl
        apply hnx
        rw [List.append_nil] at hxs
        rw [← hxs, h.route hi, hsp, SRoute.ofActs_inner]
      have hsp' : plan.getD i [] = vs ++ ms ++ (⟨.client, c⟩ :: ys) := by rw [hsp, hxs]
      have hsp2 : plan.getD i [] = (vs ++ ms ++ [⟨.client, c⟩]) ++ ys := by rw [hsp']; simp
      have hlen : xs.length = vs.length + ms.length := by rw [hxs]; simp
      have hb := h.between hi hsp' hms hnd (a := vs.length + 1) (b := xs.length + 1 - 1)
        (by simp) (by rw [hlen]; simp)
      have hu1 := h.at hi hsp hut rfl
      have haf := h.after hi hsp2 (a := xs.length + 1 + 1) (by rw [hlen]; simp; omega)
      have hat' : At data (plan.set i (xs ++ ys)) v i vs (ms ++ ys) :=
        hat.same (by rw [hnew, hxs]; simp)
      rcases hs with hs | hs
      · rw [hs] at hneg ⊢
        refine finish (by rw [hxs]; simp) hat' hcl (.inl ⟨rfl, rfl⟩) hdl ?_
        intro hco hfit hr2 hnew' hu
        dsimp only [Verdict.of] at hneg ⊢
        unfold sameDepotU at hneg ⊢
        rw [if_neg hlt] at hneg ⊢
        exact delta_route false hco h hi hfit rfl hnew' hr2 hat.2.1
          (as := [[⟨.depot, d⟩], [⟨.client, c⟩], ms])
          (All2.cons (Piece.depot d) (All2.cons hu1 (All2.cons hb All2.nil))) haf
          (by simp) hu _ (.inr hneg)
      · rw [hs] at hneg ⊢
        refine finish (by rw [hxs]; simp) hat' hcl (.inr ⟨rfl, rfl⟩) hdl ?_
        intro hco hfit hr2 hnew' hu
        dsimp only [Verdict.of] at hneg ⊢
        unfold sameUDepot at hneg ⊢
        rw [if_neg hlt] at hneg ⊢
        exact delta_route false hco h hi hfit rfl hnew' hr2 hat.2.1
          (as := [[⟨.client, c⟩], [⟨.depot, d⟩], ms])
          (All2.cons hu1 (All2.cons (Piece.depot d) (All2.cons hb All2.nil))) haf
          (by simp) hu _ (.inr hneg)
  · rw [if_neg hij] at hap ⊢
    dsimp only at hap ⊢
    have hneg := of_decide_eq_true hap
    refine Outcome.congr (D := fun k => k = i ∨ k = j) ?_ (fun k => touched_iff hpu hpv k)
    have hat' : At data (plan.set i (xs ++ ys)) v j vs ws :=
      hat.same (by rw [getD_set_ne _ (Ne.symm hij), hat.2.1])
    rw [hat.2.1] at hroom
    have finish : ∀ {cost : Int} {move : Move} {d : Nat} {seg : List Activity},
        Inserts move ⟨.client, c⟩ d seg → d < data.depots.length → ∀ {rc : Int},
        (CostOk data ce →
          FitsOn data (fun k => k = i ∨ k = j) ((plan.set i (xs ++ ys)).set j (vs ++ seg ++ ws)) →
          RouteOk data (data.vehicleType (vehTypeAt data j)) (vs ++ seg ++ ws) →
          ((plan.set i (xs ++ ys)).set j (vs ++ seg ++ ws)).getD j [] = vs ++ seg ++ ws →
          used (vs ++ seg ++ ws) = true →
          cost = rc + routeCost data ce (vehTypeAt data j) (vs ++ seg ++ ws)
            - routeCost data ce (vehTypeAt data j) (plan.getD j [])) →
        Outcome data ce plan (fun k => k = i ∨ k = j) cost
          (rc = removeCost data ce (s.route i) (xs.length + 1) 0)
          (apply data s ⟨.client, c⟩ v move) := by
      intro cost move d seg hseg hdl rc hcost
      have hmem := hsegm hseg
      obtain ⟨s', h3, h4⟩ := applied hrem hat' htask habs hroom hseg
      have hr2 := routeOk (hat.2.1 ▸ h.routes j hj) hcl hc hdl hroom hseg
      have hi' : ((plan.set i (xs ++ ys)).set j (vs ++ seg ++ ws)).getD i [] = xs ++ ys := by
        rw [getD_set_ne _ hij, getD_set_self hil]
      have hj' : ((plan.set i (xs ++ ys)).set j (vs ++ seg ++ ws)).getD j [] = vs ++ seg ++ ws := by
        rw [getD_set_self (by simpa using hjl)]
      refine ⟨_, 0, s', h3, ⟨h4.weaken (fun k _ hk => or_false_two hk), routes_set2 h.routes hr1 hr2, ?_,
        fun k hk => kept_set2 k hk, near_set2 hij hil hjl ?near⟩, ?_⟩
      case near =>
        have := hseg.depotVisits
        rw [hsp, hat.2.1]
        simp only [depotVisits_append, depotVisits_cons]
        omega
      · apply same_tasks2 hij hil hjl
        intro a ha
        rw [hsp, hat.2.1]
        simp only [List.mem_append, List.mem_cons, hmem a ha]
        exact mem_inserted2
      · intro hco hfit hfr
        have hrc := removed_client hco h hi hfit (.inl rfl) hi' hr1 hsp 0
        rw [routesCost_set2 data ce h.clean.1.length hij hi hj,
          hcost hco hfit hr2 hj' (used_of_mem (a := ⟨.client, c⟩) (by
            simp only [List.mem_append, hmem ⟨.client, c⟩ (by simp)]; simp) (by simp)), hfr, hrc]
        omega
    obtain ⟨d, hdm, hs⟩ := search_some hneg
    have hdl := hdep d hdm
    have hu1 := h.at hi hsp hut rfl
    have haf := h.after hj hat.2.1 rfl
    rcases hs with hs | hs
    · rw [hs] at hneg ⊢
      dsimp only [Verdict.of] at hneg ⊢
      refine Outcome.fresh (finish (.inl ⟨rfl, rfl⟩) hdl (rc := cache.lookup c
        (removeCost data ce (s.route i) (xs.length + 1) 0)) ?_) (fun hf => hf i _ rfl)
      intro hco hfit hr2 hnew' hu
      unfold differentDepotU at hneg ⊢
      exact delta_route false hco h hj hfit (.inr rfl) hnew' hr2 hat.2.1
        (as := [[⟨.depot, d⟩], [⟨.client, c⟩]])
        (All2.cons (Piece.depot d) (All2.cons hu1 All2.nil)) haf
        (by simp) hu _ (.inr hneg)
    · rw [hs] at hneg ⊢
      dsimp only [Verdict.of] at hneg ⊢
      refine Outcome.fresh (finish (.inr ⟨rfl, rfl⟩) hdl (rc := cache.lookup c
        (removeCost data ce (s.route i) (xs.length + 1) 0)) ?_) (fun hf => hf i _ rfl)
      intro hco hfit hr2 hnew' hu
      unfold differentUDepot at hneg ⊢
      exact delta_route false hco h hj hfit (.inr rfl) hnew' hr2 hat.2.1
        (as := [[⟨.client, c⟩], [⟨.depot, d⟩]])
        (All2.cons hu1 (All2.cons (Piece.depot d) All2.nil)) haf
        (by simp) hu _ (.inr hneg)

end RelocateWithDepot
end PyVRP
