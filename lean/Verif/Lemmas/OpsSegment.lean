import Verif.Lemmas.Moves
/-!
# Segments that operators may move
-/
namespace PyVRP
open Spec
open SSol (used ofActs_empty)
open PerturbationManager (routes_set)

variable {data : ProblemData} {plan : List (List Activity)} {s : SSol}

/-- A segment of a route that holds no depots and no part of a shipment. -/
structure Segment (acts xs seg ys : List Activity) (n : Nat) : Prop where
  split : acts = xs ++ seg ++ ys
  length : seg.length = n
  noDepot : Phase.NoDepot seg
  before : Closed xs
  inside : Closed seg
  after : Closed ys

/-- The checks that `Relocate` and `Swap` make. -/
theorem segment_of_flags (vt : Nat) {xs ys : List Activity} {a : Activity} (hat : a.type ≠ .depot)
    (hc : Closed (xs ++ a :: ys))
    (honce : ∀ b : Activity, b.type ≠ .depot → (xs ++ a :: ys).count b ≤ 1) {n : Nat} (hn : 1 ≤ n)
    (h1 : (SRoute.ofActs data vt (xs ++ a :: ys)).hasDepot (xs.length + 1) n = false)
    (h2 : (SRoute.ofActs data vt (xs ++ a :: ys)).splitsShipment (xs.length + 1) n = false) :
    ∃ rest zs, Segment (xs ++ a :: ys) xs (a :: rest) zs n := by
  unfold SRoute.hasDepot at h1
  unfold SRoute.splitsShipment at h2
  simp only [Bool.or_eq_false_iff, decide_eq_false_iff_not, bne_eq_false_iff_eq] at h1 h2
  obtain ⟨⟨-, h3⟩, h4⟩ := h1
  obtain ⟨⟨h5, h6⟩, h7⟩ := h2
  rw [SRoute.ofActs_size] at h3
  have hlen : n - 1 ≤ ys.length := by simp at h3; omega
  have e : xs ++ a :: ys = xs ++ (a :: ys.take (n - 1)) ++ ys.drop (n - 1) := by simp
  have hsl : (a :: ys.take (n - 1)).length = n := by simp [Nat.min_eq_left hlen]; omega
  have hidx : xs.length + 1 + n - 1 = (xs ++ (a :: ys.take (n - 1))).length := by
    rw [List.length_append, hsl]; omega
  have hidx1 : xs.length + 1 = (xs ++ [a]).length := by simp
  -- trips
  have ht1 := SRoute.ofActs_trip data vt (xs ++ [a]) ys
  have ht2 := SRoute.ofActs_trip data vt (xs ++ (a :: ys.take (n - 1))) (ys.drop (n - 1))
  rw [← e] at ht2
  rw [List.append_assoc, List.singleton_append] at ht1
  rw [← hidx1] at ht1
  rw [← hidx] at ht2
  rw [ht1, ht2, depotVisits_append, depotVisits_append, depotVisits_cons, depotVisits_cons] at h4
  simp only [hat, if_false] at h4
  have hnd : depotVisits (ys.take (n - 1)) = 0 := by
    have : depotVisits ([] : List Activity) = 0 := rfl
    omega
  -- pickups and deliveries
  have hp1 := SRoute.ofActs_numPickupsAt data vt (xs ++ [a]) ys
  have hd1 := SRoute.ofActs_numDeliveriesAt data vt (xs ++ [a]) ys
  have hp2 := SRoute.ofActs_numPickupsAt data vt (xs ++ (a :: ys.take (n - 1))) (ys.drop (n - 1))
  have hd2 := SRoute.ofActs_numDeliveriesAt data vt (xs ++ (a :: ys.take (n - 1))) (ys.drop (n - 1))
  rw [List.append_assoc, List.singleton_append, ← hidx1] at hp1 hd1
  rw [← e, ← hidx] at hp2 hd2
  rw [hp1, hd1, SRoute.ofActs_inner] at h6
  rw [hp2, hd2] at h7
  rw [SRoute.ofActs_inner] at h5
  have hxs : Closed xs := by
    apply closed_of_counts (m := a :: ys) hc honce
    simp only [List.countP_append, List.countP_cons, List.countP_nil] at h6
    simp only [SNode.isDelivery, Activity.isDelivery, SNode.isPickup, Activity.isPickup] at h5 h6
    cases ht : a.type <;> simp [ht, SRoute.one] at h5 h6 <;> first | exact absurd ht hat | omega
  have hxseg : Closed (xs ++ (a :: ys.take (n - 1))) := by
    apply closed_of_counts (m := ys.drop (n - 1)) (by rw [← e]; exact hc) (by rw [← e]; exact honce)
    exact h7
  refine ⟨ys.take (n - 1), ys.drop (n - 1), e, hsl, ?_, hxs, hxs.right hxseg, ?_⟩
  · rw [noDepot_iff, depotVisits_cons, hnd]; simp [hat]
  · exact hxseg.right (by rw [← e]; exact hc)

/-- Complete parts form a complete whole. -/
theorem closed_flatten : ∀ {ls : List (List Activity)}, (∀ l ∈ ls, Closed l) →
    (∀ a : Activity, a.type ≠ .depot → ls.flatten.count a ≤ 1) → Closed ls.flatten
  | [], _, _ => Closed.nil
  | l :: ls, h, ho => by
    rw [List.flatten_cons] at ho ⊢
    refine (h l (by simp)).append (closed_flatten (fun m hm => h m (by simp [hm])) (fun a ha => ?_)) ?_
    · have := ho a ha
      rw [List.count_append] at this
      omega
    · intro a ha h1 h2
      have h3 := ho a ha
      rw [List.count_append] at h3
      have h4 := List.count_pos_iff.2 h1
      have h5 := List.count_pos_iff.2 h2
      omega

/-- Rearranging complete parts. -/
theorem RouteOk.rearrange {v : VehicleType} {acts acts' : List Activity} (hr : RouteOk data v acts)
    (hp : acts'.Perm acts) (hc : Closed acts') : RouteOk data v acts' :=
  ⟨fun a ha => hr.inRange a (hp.subset ha), hc, by
    have : depotVisits acts' = depotVisits acts := by unfold depotVisits; exact hp.countP_eq _
    rw [this]; exact hr.trips⟩

namespace Segment

variable {acts xs seg ys : List Activity} {n : Nat}

theorem sub (h : Segment acts xs seg ys n) :
    (∀ a ∈ xs, a ∈ acts) ∧ (∀ a ∈ seg, a ∈ acts) ∧ ∀ a ∈ ys, a ∈ acts := by
  rw [h.split]
  exact ⟨fun a ha => by simp [ha], fun a ha => by simp [ha], fun a ha => by simp [ha]⟩

/-- The route without the segment. -/
theorem without {v : VehicleType} (h : Segment acts xs seg ys n) (hr : RouteOk data v acts)
    (ha : Apart xs ys) : RouteOk data v (xs ++ ys) := by
  refine ⟨?_, h.before.append h.after ha, ?_⟩
  · intro a hm
    rcases List.mem_append.1 hm with hm | hm
    · exact hr.inRange a (h.sub.1 a hm)
    · exact hr.inRange a (h.sub.2.2 a hm)
  · have := hr.trips
    rw [h.split, depotVisits_append, depotVisits_append] at this
    rw [depotVisits_append]
    omega

end Segment

/-- Inserting a segment. -/
theorem RouteOk.insert_segment {v : VehicleType} {vs seg ws : List Activity}
    (hr : RouteOk data v (vs ++ ws)) (hc : Closed seg) (hd : Phase.NoDepot seg)
    (hin : ∀ a ∈ seg, InRange data a) (ha : Apart seg (vs ++ ws)) : RouteOk data v (vs ++ seg ++ ws) := by
  refine ⟨?_, Closed.insert hr.ships hc hd ha, ?_⟩
  · intro a hm
    simp only [List.mem_append] at hm
    rcases hm with (hm | hm) | hm
    · exact hr.inRange a (by simp [hm])
    · exact hin a hm
    · exact hr.inRange a (by simp [hm])
  · have := hr.trips
    rw [depotVisits_append] at this
    rw [depotVisits_append, depotVisits_append, (noDepot_iff seg).1 hd]
    omega

/-- Routes of a plan in which two routes changed. -/
theorem routes_set2 {i j : Nat} {x y : List Activity}
    (h : ∀ k, k < data.numVehicles → RouteOk data (data.vehicleType (vehTypeAt data k)) (plan.getD k []))
    (hx : RouteOk data (data.vehicleType (vehTypeAt data i)) x)
    (hy : RouteOk data (data.vehicleType (vehTypeAt data j)) y) (k : Nat) (hk : k < data.numVehicles) :
    RouteOk data (data.vehicleType (vehTypeAt data k)) (((plan.set i x).set j y).getD k []) :=
  routes_set (routes_set h hx) hy k hk

theorem kept_set2 {i j : Nat} {x y : List Activity} (k : Nat) (h : ¬ (k = i ∨ k = j)) :
    ((plan.set i x).set j y).getD k [] = plan.getD k [] := by
  rw [getD_set_ne _ (fun e => h (.inr e)), getD_set_ne _ (fun e => h (.inl e))]

theorem kept_set {i : Nat} {x : List Activity} (k : Nat) (h : ¬ k = i) :
    (plan.set i x).getD k [] = plan.getD k [] := getD_set_ne _ h _

/-- The same activities in one route. -/
theorem same_tasks {i : Nat} (hi : i < plan.length) {x : List Activity}
    (h : ∀ a : Activity, a.type ≠ .depot → (a ∈ x ↔ a ∈ plan.getD i [])) :
    TaskChange data (Visited plan) (Visited (plan.set i x)) 0 :=
  .same (fun a ha => by rw [visited_set hi, visited_split plan i, h a ha])

/-- The same activities in two routes. -/
theorem same_tasks2 {i j : Nat} (hij : i ≠ j) (hi : i < plan.length) (hj : j < plan.length)
    {x y : List Activity}
    (h : ∀ a : Activity, a.type ≠ .depot → (a ∈ x ∨ a ∈ y ↔ a ∈ plan.getD i [] ∨ a ∈ plan.getD j [])) :
    TaskChange data (Visited plan) (Visited ((plan.set i x).set j y)) 0 :=
  .same (fun a ha => by
    rw [visited_set2 hij hi hj, visited_split2 plan i j, ← or_assoc, h a ha, or_assoc])

/-! ## Costs of changing one or two routes -/

theorem SearchOk.between (h : SearchOk data plan s) {i : Nat} (hi : i < data.numVehicles)
    {xs m ys : List Activity} (he : plan.getD i [] = xs ++ m ++ ys) (hm : m ≠ [])
    (hd : Phase.NoDepot m) {a b : Nat} (ha : a = xs.length + 1) (hb : b = xs.length + m.length) :
    Piece data ((s.route i).between data a b) m := by
  rw [h.route hi, he, ha, hb]
  exact piece_between (by rw [← he]; exact (h.routes i hi).trips) hm hd

theorem SearchOk.at (h : SearchOk data plan s) {i : Nat} (hi : i < data.numVehicles)
    {xs ys : List Activity} {b : Activity} (he : plan.getD i [] = xs ++ b :: ys)
    (hd : b.type ≠ .depot) {a : Nat} (ha : a = xs.length + 1) :
    Piece data ((s.route i).at data a) [b] := by
  rw [h.route hi, he, ha]
  exact piece_at (by rw [← he]; exact (h.routes i hi).trips) hd

theorem SearchOk.after (h : SearchOk data plan s) {i : Nat} (hi : i < data.numVehicles)
    {xs ys : List Activity} (he : plan.getD i [] = xs ++ ys) {a : Nat} (ha : a = xs.length + 1) :
    LastPiece data (vehTypeAt data i) ((s.route i).after a) ys := by
  rw [h.route hi, he, ha]
  exact last_after (by rw [← he]; exact (h.routes i hi).trips)

/-- What evaluating and applying a move leads to. Where the move's cost is computed with a cached cost,
`fresh` says that this is what computing it again would give. -/
def Outcome (data : ProblemData) (ce : CostEvaluator) (plan : List (List Activity)) (D : Nat → Prop)
    (cost : Int) (fresh : Prop) (result : Except Error SSol) : Prop :=
  ∃ plan' δ s', result = .ok s' ∧ Moved data plan plan' D δ s'
    ∧ (CostOk data ce → FitsOn data D plan' → fresh →
      cost = δ + routesCost data ce plan' - routesCost data ce plan)

theorem Outcome.congr {ce : CostEvaluator} {D D' : Nat → Prop} {cost : Int} {fresh : Prop}
    {result : Except Error SSol} (h : Outcome data ce plan D cost fresh result)
    (hD : ∀ k, D k ↔ D' k) : Outcome data ce plan D' cost fresh result := by
  have : D = D' := funext (fun k => propext (hD k))
  rw [← this]; exact h

theorem Outcome.fresh {ce : CostEvaluator} {D : Nat → Prop} {cost : Int} {fresh fresh' : Prop}
    {result : Except Error SSol} (h : Outcome data ce plan D cost fresh result)
    (hf : fresh' → fresh) : Outcome data ce plan D cost fresh' result := by
  obtain ⟨plan', δ, s', h1, h2, h3⟩ := h
  exact ⟨plan', δ, s', h1, h2, fun a b c => h3 a b (hf c)⟩

/-- The routes of two nodes. -/
def Touched (s : SSol) (u : Activity) (v : NodeRef) (k : Nat) : Prop :=
  (∃ p, s.place u = some (k, p)) ∨ ∃ p, s.find v = some (k, p)

theorem touched_iff {u : Activity} {v : NodeRef} {i p j q : Nat} (hu : s.place u = some (i, p))
    (hv : s.find v = some (j, q)) (k : Nat) : (k = i ∨ k = j) ↔ Touched s u v k := by
  unfold Touched
  rw [hu, hv]
  simp only [Option.some.injEq, Prod.mk.injEq, exists_and_left, exists_eq', and_true]
  constructor <;> rintro (h | h) <;> simp [h]

theorem split_le {l1 l2 m1 m2 : List Activity} (h : l1 ++ l2 = m1 ++ m2)
    (hl : l1.length ≤ m1.length) : ∃ k, m1 = l1 ++ k ∧ l2 = k ++ m2 := by
  rcases List.append_eq_append_iff.1 h with ⟨k, h1, h2⟩ | ⟨k, h1, h2⟩
  · exact ⟨k, h1, h2⟩
  · have : k = [] := by
      rw [h1] at hl
      rw [List.length_append] at hl
      exact List.eq_nil_of_length_eq_zero (by omega)
    subst this
    exact ⟨[], by simpa using h1.symm, by simpa using h2.symm⟩

/-- What a proposal for a route of the solution costs. -/
theorem delta_route {ce : CostEvaluator} (exact : Bool) (hco : CostOk data ce) (h : SearchOk data plan s)
    {j : Nat} (hj : j < data.numVehicles) {D : Nat → Prop} {plan' : List (List Activity)}
    (hfit : FitsOn data D plan') (hD : D j) {new : List Activity} (hnew' : plan'.getD j [] = new)
    (hro : RouteOk data (data.vehicleType (vehTypeAt data j)) new)
    {xs rest tail : List Activity} (hsplit : plan.getD j [] = xs ++ rest) {ms : List Seg}
    {as : List (List Activity)} {last : Seg}
    (mids : All2 (Piece data) ms as) (hlast : LastPiece data (vehTypeAt data j) last tail)
    (hnew : new = xs ++ as.flatten ++ tail) (hu : used new = true) (out : Int)
    (hneg : exact = true ∨ (ce.deltaCost exact data out ⟨s.route j, (s.route j).before xs.length,
      ms ++ [last]⟩).1 < 0) :
    (ce.deltaCost exact data out ⟨s.route j, (s.route j).before xs.length, ms ++ [last]⟩).1
      = out + routeCost data ce (vehTypeAt data j) new
        - routeCost data ce (vehTypeAt data j) (plan.getD j []) := by
  rw [h.route hj] at hneg ⊢
  have hf := hfit j hj hD (by rw [hnew']; exact hu)
  rw [hnew'] at hf
  refine delta_exact exact hco.good hco.valid hco.length (vehTypeAt_lt data hj) (h.routes j hj).trips
    (by rw [hsplit]; simp) mids hlast ?_ hro.wellFormed hf hu out hneg
  rw [hnew, hsplit, List.take_left' rfl]

/-- The same for two routes. -/
theorem delta_route2 {ce : CostEvaluator} (hco : CostOk data ce) (h : SearchOk data plan s)
    {i j : Nat} (hi : i < data.numVehicles) (hj : j < data.numVehicles) {D : Nat → Prop}
    {plan' : List (List Activity)} (hfit : FitsOn data D plan') (hDi : D i) (hDj : D j)
    {new new' : List Activity} (hni : plan'.getD i [] = new) (hnj : plan'.getD j [] = new')
    (hroi : RouteOk data (data.vehicleType (vehTypeAt data i)) new)
    (hroj : RouteOk data (data.vehicleType (vehTypeAt data j)) new')
    {xs rest tail : List Activity} (hsplit : plan.getD i [] = xs ++ rest)
    {vs rest' tail' : List Activity} (hsplit' : plan.getD j [] = vs ++ rest')
    {ms ms' : List Seg} {as as' : List (List Activity)} {last last' : Seg}
    (mids : All2 (Piece data) ms as) (hlast : LastPiece data (vehTypeAt data i) last tail)
    (mids' : All2 (Piece data) ms' as') (hlast' : LastPiece data (vehTypeAt data j) last' tail')
    (hnew : new = xs ++ as.flatten ++ tail) (hu : used new = true)
    (hnew' : new' = vs ++ as'.flatten ++ tail') (hu' : used new' = true) (out : Int)
    (hneg : (ce.deltaCost2 false data out ⟨s.route i, (s.route i).before xs.length, ms ++ [last]⟩
      ⟨s.route j, (s.route j).before vs.length, ms' ++ [last']⟩).1 < 0) :
    (ce.deltaCost2 false data out ⟨s.route i, (s.route i).before xs.length, ms ++ [last]⟩
      ⟨s.route j, (s.route j).before vs.length, ms' ++ [last']⟩).1
      = out + routeCost data ce (vehTypeAt data i) new + routeCost data ce (vehTypeAt data j) new'
        - routeCost data ce (vehTypeAt data i) (plan.getD i [])
        - routeCost data ce (vehTypeAt data j) (plan.getD j []) := by
  rw [h.route hi, h.route hj] at hneg ⊢
  have hf := hfit i hi hDi (by rw [hni]; exact hu)
  rw [hni] at hf
  have hf' := hfit j hj hDj (by rw [hnj]; exact hu')
  rw [hnj] at hf'
  refine delta2_exact hco.good hco.valid hco.length (vehTypeAt_lt data hi) (vehTypeAt_lt data hj)
    (h.routes i hi).trips (by rw [hsplit]; simp) mids hlast ?_ hroi.wellFormed hf hu
    (h.routes j hj).trips (by rw [hsplit']; simp) mids' hlast' ?_ hroj.wellFormed hf' hu' out hneg
  · rw [hnew, hsplit, List.take_left' rfl]
  · rw [hnew', hsplit', List.take_left' rfl]

/-- The cost of a route without some of its nodes, which are not visited elsewhere. -/
theorem removed_cost {ce : CostEvaluator} (hco : CostOk data ce) (h : SearchOk data plan s)
    {i : Nat} (hi : i < data.numVehicles) {D : Nat → Prop} {plan' : List (List Activity)}
    (hfit : FitsOn data D plan') (hD : D i) {xs seg ys : List Activity}
    (hnew' : plan'.getD i [] = xs ++ ys)
    (hro : RouteOk data (data.vehicleType (vehTypeAt data i)) (xs ++ ys))
    (hsplit : plan.getD i [] = xs ++ seg ++ ys) (hd : Phase.NoDepot seg) (out : Int) :
    (if (s.route i).numClients + 2 * (s.route i).numShipments = seg.length
      then out - ce.penalisedCostSearch data (s.route i)
      else (ce.deltaCost true data out ⟨s.route i, (s.route i).before xs.length,
        [(s.route i).after (xs.length + seg.length + 1)]⟩).1)
      = out + routeCost data ce (vehTypeAt data i) (xs ++ ys)
        - routeCost data ce (vehTypeAt data i) (plan.getD i []) := by
  have hcount : (s.route i).numClients + 2 * (s.route i).numShipments
      = seg.length + taskCount (xs ++ ys) := by
    rw [h.route hi, route_taskCount _ (h.closed hi) (h.once i), hsplit]
    simp only [taskCount_append, taskCount_noDepot hd]
    omega
  split
  · rename_i hn
    have hu : used (xs ++ ys) = false := by rw [used_eq_false_iff]; omega
    rw [routeCost_unused ce _ hro.wellFormed hu, h.route hi]
    show _ = out + 0 - routeCost _ _ _ _
    unfold routeCost
    omega
  · rename_i hn
    have hu : used (xs ++ ys) = true := by rw [used_iff_taskCount]; omega
    have hl := last_after (data := data) (vt := vehTypeAt data i) (xs := xs ++ seg) (ys := ys)
      (by rw [← hsplit]; exact (h.routes i hi).trips)
    rw [← hsplit, ← h.route hi] at hl
    rw [List.length_append] at hl
    exact delta_route true hco h hi hfit hD hnew' hro (rest := seg ++ ys) (by rw [hsplit]; simp)
      (ms := []) (as := []) All2.nil hl (by simp) hu out (.inl rfl)

end PyVRP
