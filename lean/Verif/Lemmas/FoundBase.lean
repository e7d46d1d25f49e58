import Verif.Spec.Moves
import Verif.Lemmas.OpsAll
/-!
# Improving moves are found: preparations

The computed cost of a move is at most the change in cost that it makes. It is less only when computing
it stops early, and then it is not negative.
-/
namespace PyVRP
open Spec
open SSol (used ofActs_empty At RefOk)

variable {data : ProblemData} {plan plan' : List (List Activity)} {s s' : SSol}

/-- The computed cost is not too high. -/
theorem delta_le {ce : CostEvaluator} (exact : Bool) (hco : CostOk data ce) (h : SearchOk data plan s)
    (h' : SearchOk data plan' s') {j : Nat} (hj : j < data.numVehicles) {D : Nat → Prop}
    (hfit : FitsOn data D plan') (hD : D j) {new : List Activity} (hnew' : plan'.getD j [] = new)
    {xs rest tail : List Activity} (hsplit : plan.getD j [] = xs ++ rest) {ms : List Seg}
    {as : List (List Activity)} {last : Seg}
    (mids : All2 (Piece data) ms as) (hlast : LastPiece data (vehTypeAt data j) last tail)
    (hnew : new = xs ++ as.flatten ++ tail) (hu : used new = true) (out : Int) :
    (ce.deltaCost exact data out ⟨s.route j, (s.route j).before xs.length, ms ++ [last]⟩).1
      ≤ out + routeCost data ce (vehTypeAt data j) new
        - routeCost data ce (vehTypeAt data j) (plan.getD j []) := by
  have hro := h'.routes j hj
  rw [hnew'] at hro
  rw [h.route hj]
  have hf := hfit j hj hD (by rw [hnew']; exact hu)
  rw [hnew'] at hf
  have hv := hco.good.vehicle (vehTypeAt_lt data hj)
  have hev := evaluates_fits hco.good (vehTypeAt_lt data hj) (h.routes j hj).trips
    (k := xs.length) (by rw [hsplit]; simp) mids hlast
    (by rw [hnew, hsplit, List.take_left' rfl]) hro.wellFormed.inRange hf
  have hne : (SRoute.ofActs data (vehTypeAt data j) new).empty = false := by
    rw [ofActs_empty hro.wellFormed, hu]; rfl
  rcases deltaCost_spec exact hev ce hco.valid hv.dims hco.length hne out with h | ⟨h1, x, h2, h3, h4⟩
  · rw [h]; exact Int.le_refl _
  · rw [h2]; exact h4

/-- The same for two routes. -/
theorem delta2_le {ce : CostEvaluator} (hco : CostOk data ce) (h : SearchOk data plan s)
    (h' : SearchOk data plan' s') {i j : Nat} (hi : i < data.numVehicles) (hj : j < data.numVehicles)
    {D : Nat → Prop} (hfit : FitsOn data D plan') (hDi : D i) (hDj : D j)
    {new new' : List Activity} (hni : plan'.getD i [] = new) (hnj : plan'.getD j [] = new')
    {xs rest tail : List Activity} (hsplit : plan.getD i [] = xs ++ rest)
    {vs rest' tail' : List Activity} (hsplit' : plan.getD j [] = vs ++ rest')
    {ms ms' : List Seg} {as as' : List (List Activity)} {last last' : Seg}
    (mids : All2 (Piece data) ms as) (hlast : LastPiece data (vehTypeAt data i) last tail)
    (mids' : All2 (Piece data) ms' as') (hlast' : LastPiece data (vehTypeAt data j) last' tail')
    (hnew : new = xs ++ as.flatten ++ tail) (hu : used new = true)
    (hnew' : new' = vs ++ as'.flatten ++ tail') (hu' : used new' = true) (out : Int) :
    (ce.deltaCost2 false data out ⟨s.route i, (s.route i).before xs.length, ms ++ [last]⟩
      ⟨s.route j, (s.route j).before vs.length, ms' ++ [last']⟩).1
      ≤ out + routeCost data ce (vehTypeAt data i) new + routeCost data ce (vehTypeAt data j) new'
        - routeCost data ce (vehTypeAt data i) (plan.getD i [])
        - routeCost data ce (vehTypeAt data j) (plan.getD j []) := by
  have hro := h'.routes i hi
  have hro' := h'.routes j hj
  rw [hni] at hro
  rw [hnj] at hro'
  rw [h.route hi, h.route hj]
  have hf := hfit i hi hDi (by rw [hni]; exact hu)
  rw [hni] at hf
  have hf' := hfit j hj hDj (by rw [hnj]; exact hu')
  rw [hnj] at hf'
  have hv := hco.good.vehicle (vehTypeAt_lt data hi)
  have hv' := hco.good.vehicle (vehTypeAt_lt data hj)
  have hev := evaluates_fits hco.good (vehTypeAt_lt data hi) (h.routes i hi).trips
    (k := xs.length) (by rw [hsplit]; simp) mids hlast
    (by rw [hnew, hsplit, List.take_left' rfl]) hro.wellFormed.inRange hf
  have hev' := evaluates_fits hco.good (vehTypeAt_lt data hj) (h.routes j hj).trips
    (k := vs.length) (by rw [hsplit']; simp) mids' hlast'
    (by rw [hnew', hsplit', List.take_left' rfl]) hro'.wellFormed.inRange hf'
  have hne : (SRoute.ofActs data (vehTypeAt data i) new).empty = false := by
    rw [ofActs_empty hro.wellFormed, hu]; rfl
  have hne' : (SRoute.ofActs data (vehTypeAt data j) new').empty = false := by
    rw [ofActs_empty hro'.wellFormed, hu']; rfl
  rcases deltaCost2_spec false hev hev' ce hco.valid hv.dims hv'.dims hco.length hne hne' out with
    h | ⟨h1, x, h2, h3, h4⟩
  · rw [h]; exact Int.le_refl _
  · rw [h2]; exact h4

/-! ## Checks -/

/-- As many pickups as deliveries. -/
theorem counts_of_whole {l : List Activity} (h : Whole l)
    (honce : ∀ a : Activity, a.type ≠ .depot → l.count a ≤ 1) :
    l.countP (fun a => a.type = .pickup) = l.countP (fun a => a.type = .delivery) := by
  have hmap : ∀ (ty : ActivityType), (l.filter (fun a => a.type = ty)).length
      = l.countP (fun a => a.type = ty) := fun ty => by rw [List.countP_eq_length_filter]
  have hnd : ∀ (ty : ActivityType), ty ≠ .depot →
      ((l.filter (fun a => a.type = ty)).map (·.idx)).Nodup := by
    intro ty hty
    have h1 : (l.filter (fun a => a.type = ty)).Nodup := by
      rw [List.nodup_iff_count]
      intro a
      by_cases ha : a.type = ty
      · rw [List.count_filter (by simp [ha])]
        exact honce a (by rw [ha]; exact hty)
      · rw [List.count_eq_zero.2]
        · omega
        · intro hm; simp at hm; exact ha hm.2
    exact nodup_idx ty h1 (fun a ha => by simpa using (List.mem_filter.1 ha).2)
  have hmem : ∀ (ty : ActivityType) (k : Nat),
      k ∈ (l.filter (fun a => a.type = ty)).map (·.idx) ↔ (⟨ty, k⟩ : Activity) ∈ l := by
    intro ty k
    simp only [List.mem_map, List.mem_filter, decide_eq_true_eq]
    constructor
    · rintro ⟨⟨t, i⟩, ⟨h1, h2⟩, h3⟩
      simp only at h2 h3
      subst h2; subst h3; exact h1
    · intro hk; exact ⟨_, ⟨hk, rfl⟩, rfl⟩
  have h1 := length_le_of_nodup (hnd .delivery (by decide))
    (m := (l.filter (fun a => a.type = .pickup)).map (·.idx)) (by
      intro k hk
      rw [hmem] at hk ⊢
      exact (h k).2 hk)
  have h2 := length_le_of_nodup (hnd .pickup (by decide))
    (m := (l.filter (fun a => a.type = .delivery)).map (·.idx)) (by
      intro k hk
      rw [hmem] at hk ⊢
      exact (h k).1 hk)
  rw [List.length_map, List.length_map, hmap, hmap] at h1 h2
  omega

theorem Spec.Whole.append {l m : List Activity} (h : Whole l) (h' : Whole m) : Whole (l ++ m) := by
  intro k
  rw [List.mem_append, List.mem_append, h k, h' k]

theorem count_left {l m : List Activity} {n : Nat} {a : Activity} (h : (l ++ m).count a ≤ n) :
    l.count a ≤ n := by
  rw [List.count_append] at h
  omega

/-- The vehicle carries nothing after these activities. -/
theorem SearchOk.balanced (h : SearchOk data plan s) {i : Nat} (hi : i < data.numVehicles)
    {xs ys : List Activity} (he : plan.getD i [] = xs ++ ys) (hw : Whole xs) :
    (s.route i).numPickupsAt xs.length = (s.route i).numDeliveriesAt xs.length := by
  rw [h.route hi, he, SRoute.ofActs_numPickupsAt, SRoute.ofActs_numDeliveriesAt]
  exact counts_of_whole hw (fun a ha => count_left (by rw [← he]; exact h.once i a ha))

/-- A segment that may be moved passes the checks. -/
theorem SearchOk.flags (h : SearchOk data plan s) {i : Nat} (hi : i < data.numVehicles)
    {xs rest ys : List Activity} {u : Activity} (he : plan.getD i [] = xs ++ (u :: rest) ++ ys)
    (hm : Movable xs (u :: rest)) {n : Nat} (hn : n = rest.length + 1) :
    (s.route i).hasDepot (xs.length + 1) n = false
      ∧ (s.route i).splitsShipment (xs.length + 1) n = false := by
  subst hn
  have hut : u.type ≠ .depot := hm.oneTrip u (by simp)
  have e1 : plan.getD i [] = (xs ++ [u]) ++ (rest ++ ys) := by rw [he]; simp
  have hl1 : xs.length + 1 = (xs ++ [u]).length := by simp
  have hl2 : xs.length + 1 + (rest.length + 1) - 1 = (xs ++ (u :: rest)).length := by
    simp; omega
  have hnode : (s.route i).node (xs.length + 1) = ⟨u, .inner, xs.length + 1, depotVisits (xs ++ [u])⟩ := by
    rw [h.route hi, he]
    have : xs ++ (u :: rest) ++ ys = xs ++ u :: (rest ++ ys) := by simp
    rw [this, SRoute.ofActs_inner]
  constructor
  · unfold SRoute.hasDepot
    simp only [Bool.or_eq_false_iff, decide_eq_false_iff_not, bne_eq_false_iff_eq, beq_eq_false_iff_ne]
    refine ⟨⟨by omega, ?_⟩, ?_⟩
    · rw [h.route hi, SRoute.ofActs_size, he]
      simp
      omega
    · rw [hnode, hl2, h.route hi, he, SRoute.ofActs_trip]
      have h1 := (noDepot_iff (u :: rest)).1 hm.oneTrip
      rw [depotVisits_append, depotVisits_append, h1]
      have : depotVisits [u] = 0 := by
        rw [depotVisits_cons, if_neg hut]; rfl
      rw [this]
  · unfold SRoute.splitsShipment
    have hb := h.balanced hi he (hm.before.append hm.inside)
    dsimp only
    rw [hl2, hb, hnode]
    have hx := h.balanced hi (xs := xs) (ys := (u :: rest) ++ ys) (by rw [he]; simp) hm.before
    have ho : ∀ a : Activity, a.type ≠ .depot → (xs ++ (u :: rest) ++ ys).count a ≤ 1 :=
      fun a ha => by rw [← he]; exact h.once i a ha
    have hnd : u.type ≠ .delivery := by
      intro hd
      -- the pickup of a delivery at the start of the segment would come after it
      have hc := h.closed hi
      rw [he] at hc
      have hxs := closed_of_counts (l := xs) (m := (u :: rest) ++ ys) (by simpa using hc) (by simpa using ho)
        (counts_of_whole hm.before (fun a ha => count_left (count_left (ho a ha))))
      have hxr := hxs.right (by simpa using hc)
      have := hxr u.idx
      obtain ⟨ty, k⟩ := u
      simp only at hd
      subst hd
      rw [Phase.run_cons] at this
      have hb : Phase.step k .waiting ⟨.delivery, k⟩ = .bad := by
        simp [Phase.step]
      rw [hb, Phase.run_bad] at this
      rcases this with h1 | h1 <;> cases h1
    simp only [Bool.or_eq_false_iff, bne_eq_false_iff_eq, and_true]
    refine ⟨?_, ?_⟩
    · simp [SNode.isDelivery, Activity.isDelivery, hnd]
    · rw [hl1, h.route hi, e1, SRoute.ofActs_numPickupsAt, SRoute.ofActs_numDeliveriesAt]
      have hcx := counts_of_whole hm.before (fun a ha => count_left (count_left (ho a ha)))
      simp only [List.countP_append, List.countP_cons, List.countP_nil, hcx, SNode.isPickup,
        Activity.isPickup]
      cases ht : u.type <;> simp [SRoute.one] <;> first | exact absurd ht hut | exact absurd ht hnd

/-! ## Costs and places -/

/-- A move to a cheaper plan. -/
theorem change_neg {ce : CostEvaluator} {δ : Int} (ht : TaskChange data (Visited plan) (Visited plan') δ)
    (hlt : planCost data ce plan' < planCost data ce plan) :
    δ + routesCost data ce plan' - routesCost data ce plan < 0 := by
  have := ht.prizes
  unfold planCost at hlt
  omega

theorem Spec.EndsAt.at {j : Nat} {v : NodeRef} {vs ws : List Activity} (h : EndsAt j v vs)
    (hj : j < data.numVehicles) (hV : plan.getD j [] = vs ++ ws) : At data plan v j vs ws :=
  ⟨hj, hV, h⟩

/-- All routes that are used can be evaluated exactly. -/
abbrev FitsAll (data : ProblemData) (plan : List (List Activity)) : Prop := FitsOn data (fun _ => True) plan

theorem SearchOk.trip_at (h : SearchOk data plan s) {i : Nat} (hi : i < data.numVehicles)
    {xs ys : List Activity} (he : plan.getD i [] = xs ++ ys) {p : Nat} (hp : p = xs.length) :
    ((s.route i).node p).trip = depotVisits xs := by
  rw [hp, h.route hi, he, SRoute.ofActs_trip]

theorem SearchOk.node_at (h : SearchOk data plan s) {i : Nat} (hi : i < data.numVehicles)
    {xs ys : List Activity} {a : Activity} (he : plan.getD i [] = xs ++ a :: ys) {p : Nat}
    (hp : p = xs.length + 1) : ((s.route i).node p).activity = a := by
  rw [hp, h.route hi, he, SRoute.ofActs_inner]

theorem Spec.OneTrip.visits {l : List Activity} (h : OneTrip l) : depotVisits l = 0 :=
  (noDepot_iff l).1 h

theorem depotVisits_single {a : Activity} (h : a.type ≠ .depot) : depotVisits [a] = 0 := by
  rw [depotVisits_cons, if_neg h]; rfl

end PyVRP
