import Verif.Lemmas.SearchEdit
/-!
# Lemmas about inserting clients and shipments
-/
namespace PyVRP
open Spec

/-! ## Routes stay well formed -/

theorem depotVisits_cons (a : Activity) (l : List Activity) :
    depotVisits (a :: l) = depotVisits l + if a.type = .depot then 1 else 0 := by
  unfold depotVisits
  rw [List.countP_cons]
  by_cases h : a.type = .depot <;> simp [h]

theorem depotVisits_mid (xs ys : List Activity) {a : Activity} (ha : a.type ≠ .depot) :
    depotVisits (xs ++ a :: ys) = depotVisits (xs ++ ys) := by
  simp [depotVisits_append, depotVisits_cons, ha]

theorem concerns_client (s i : Nat) : ¬ Concerns s ⟨.client, i⟩ := by
  simp [Concerns, pickupOf, deliveryOf]

theorem concerns_depot (s i : Nat) : ¬ Concerns s ⟨.depot, i⟩ := by
  simp [Concerns, pickupOf, deliveryOf]

namespace RouteOk

variable {data : ProblemData} {v : VehicleType}

theorem nil (hv : 1 ≤ v.maxTrips) : RouteOk data v [] :=
  ⟨fun a ha => (by cases ha), fun s => .inl rfl, hv⟩

theorem insert_client {xs ys : List Activity} (h : RouteOk data v (xs ++ ys)) {c : Nat}
    (hc : c < data.numClients) : RouteOk data v (xs ++ ⟨.client, c⟩ :: ys) := by
  refine ⟨?_, ?_, ?_⟩
  · intro a ha
    simp only [List.mem_append, List.mem_cons] at ha
    rcases ha with ha | rfl | ha
    · exact h.inRange a (by simp [ha])
    · exact hc
    · exact h.inRange a (by simp [ha])
  · intro s
    have := h.ships s
    rw [Phase.run_append] at this ⊢
    rw [Phase.run_cons, Phase.step_free (concerns_client s c) (.inr (by simp))]
    exact this
  · rw [depotVisits_mid _ _ (by simp)]; exact h.trips

theorem remove_client {xs ys : List Activity} {c : Nat}
    (h : RouteOk data v (xs ++ ⟨.client, c⟩ :: ys)) : RouteOk data v (xs ++ ys) := by
  refine ⟨?_, ?_, ?_⟩
  · intro a ha
    exact h.inRange a (by simp only [List.mem_append, List.mem_cons] at ha ⊢; tauto)
  · intro s
    have := h.ships s
    rw [Phase.run_append, Phase.run_cons,
      Phase.step_free (concerns_client s c) (.inr (by simp))] at this
    rw [Phase.run_append]
    exact this
  · have := h.trips; rwa [depotVisits_mid _ _ (by simp)] at this

/-- Inserting a shipment that is not on the route, without depots in between. -/
theorem insert_shipment {xs ms ys : List Activity} (h : RouteOk data v (xs ++ ms ++ ys)) {k : Nat}
    (hk : k < data.numShipments) (hfree : Phase.Free k (xs ++ ms ++ ys)) (hm : Phase.NoDepot ms) :
    RouteOk data v (xs ++ pickupOf k :: (ms ++ deliveryOf k :: ys)) := by
  have hf1 : Phase.Free k xs := fun a ha => hfree a (by simp [ha])
  have hf2 : Phase.Free k ms := fun a ha => hfree a (by simp [ha])
  have hf3 : Phase.Free k ys := fun a ha => hfree a (by simp [ha])
  refine ⟨?_, ?_, ?_⟩
  · intro a ha
    simp only [List.mem_append, List.mem_cons] at ha
    rcases ha with ha | rfl | ha | rfl | ha
    · exact h.inRange a (by simp [ha])
    · exact hk
    · exact h.inRange a (by simp [ha])
    · exact hk
    · exact h.inRange a (by simp [ha])
  · intro s
    by_cases hs : s = k
    · subst hs
      simp only [Phase.run_append, Phase.run_cons]
      rw [Phase.run_free hf1 (.inl (by decide)), Phase.step_pickup, Phase.run_free hf2 (.inr hm),
        Phase.step_delivery, Phase.run_free hf3 (.inl (by decide))]
      exact .inr rfl
    · have := h.ships s
      have hp : ¬ Concerns s (pickupOf k) := by
        simp only [Concerns, pickupOf, deliveryOf]; simp; omega
      have hd : ¬ Concerns s (deliveryOf k) := by
        simp only [Concerns, pickupOf, deliveryOf]; simp; omega
      simp only [Phase.run_append, Phase.run_cons] at this ⊢
      rw [Phase.step_free hp (.inr (by simp [pickupOf])),
        Phase.step_free hd (.inr (by simp [deliveryOf]))]
      exact this
  · rw [depotVisits_mid _ _ (by simp [pickupOf]), ← List.append_assoc,
      depotVisits_mid _ _ (by simp [deliveryOf])]
    exact h.trips

/-- A shipment on a route. -/
theorem shipment_split {acts : List Activity} (h : RouteOk data v acts) {k : Nat}
    (hm : pickupOf k ∈ acts ∨ deliveryOf k ∈ acts) :
    ∃ xs ms ys, acts = xs ++ pickupOf k :: (ms ++ deliveryOf k :: ys) ∧ Phase.NoDepot ms
      ∧ Phase.Free k (xs ++ ms ++ ys) := by
  rcases (Phase.ok_iff k acts).1 (h.ships k) with hn | ⟨xs, ms, ys, rfl, h1, h2⟩
  · rcases hm with hm | hm
    · exact absurd (.inl rfl) (hn _ hm)
    · exact absurd (.inr rfl) (hn _ hm)
  · exact ⟨xs, ms, ys, by simp, h1, h2⟩

/-- Removing a shipment. -/
theorem remove_shipment {xs ms ys : List Activity} {k : Nat}
    (h : RouteOk data v (xs ++ pickupOf k :: (ms ++ deliveryOf k :: ys)))
    (hfree : Phase.Free k (xs ++ ms ++ ys)) : RouteOk data v (xs ++ ms ++ ys) := by
  refine ⟨?_, ?_, ?_⟩
  · intro a ha
    exact h.inRange a (by simp only [List.mem_append, List.mem_cons] at ha ⊢; tauto)
  · intro s
    by_cases hs : s = k
    · subst hs
      rw [Phase.run_free hfree (.inl (by decide))]
      exact .inl rfl
    · have := h.ships s
      have hp : ¬ Concerns s (pickupOf k) := by
        simp only [Concerns, pickupOf, deliveryOf]; simp; omega
      have hd : ¬ Concerns s (deliveryOf k) := by
        simp only [Concerns, pickupOf, deliveryOf]; simp; omega
      simp only [Phase.run_append, Phase.run_cons] at this ⊢
      rw [Phase.step_free hp (.inr (by simp [pickupOf])),
        Phase.step_free hd (.inr (by simp [deliveryOf]))] at this
      exact this
  · have := h.trips
    rw [depotVisits_mid _ _ (by simp [pickupOf]), ← List.append_assoc,
      depotVisits_mid _ _ (by simp [deliveryOf])] at this
    exact this

end RouteOk

/-! ## Choosing a place -/

theorem mem_allTasks_client {data : ProblemData} {c : Nat} (h : c < data.numClients) :
    (⟨.client, c⟩ : Activity) ∈ allTasks data := by
  simp only [allTasks, List.mem_append, List.mem_map, List.mem_range]
  exact .inl ⟨c, h, rfl⟩

theorem mem_allTasks_pickup {data : ProblemData} {k : Nat} (h : k < data.numShipments) :
    (⟨.pickup, k⟩ : Activity) ∈ allTasks data := by
  simp only [allTasks, List.mem_append, List.mem_map, List.mem_range]
  exact .inr ⟨k, h, rfl⟩

/-- What the search space must provide: neighbourhoods of all clients and shipments, and for each
vehicle type the index of its first vehicle. -/
structure SpaceOk (data : ProblemData) (space : SearchSpace) : Prop where
  size : data.numClients + data.numShipments ≤ space.promising.size
  order : space.activityOrder.Perm (allTasks data)
  types : ∀ p ∈ space.vehTypeOrder, p.1 < data.numVehicleTypes ∧ p.2 = vehiclesBefore data p.1
  neighbours : ∀ a ∈ allTasks data, ∃ ns, space.neighboursOf a = .ok ns ∧ ∀ b ∈ ns, IsTask data b

namespace SSol

variable {data : ProblemData}

/-- After which node something may be inserted. -/
def AfterOk (data : ProblemData) (plan : List (List Activity)) (node : Nat × Nat) : Prop :=
  node.1 < data.numVehicles ∧ node.2 ≤ (plan.getD node.1 []).length

theorem place_afterOk {plan : List (List Activity)} {s : SSol} (h : Holds data plan s) {a : Activity}
    {node : Nat × Nat} (hp : s.place a = some node) : AfterOk data plan node := by
  obtain ⟨i, p⟩ := node
  obtain ⟨hi, -, xs, ys, he, hpos⟩ := h.place_some hp
  refine ⟨hi, ?_⟩
  show p ≤ (plan.getD i []).length
  rw [he, hpos]; simp

theorem clientNeighbours_ok {plan : List (List Activity)} {s : SSol} (h : Holds data plan s)
    (ce : CostEvaluator) (c : Nat) (ns : List Activity) (best : ClientSpot)
    (hb : AfterOk data plan best.node) :
    AfterOk data plan (s.clientNeighbours data ce c ns best).node := by
  induction ns generalizing best with
  | nil => exact hb
  | cons v rest ih =>
    unfold clientNeighbours
    split
    · exact ih best hb
    · rename_i node hp
      apply ih
      split
      · exact place_afterOk h hp
      · exact hb

theorem firstEmpty_lt {s : SSol} {t off i : Nat} (ht : t < data.numVehicleTypes)
    (ho : off = vehiclesBefore data t) (h : s.firstEmpty data t off = some i) :
    i < data.numVehicles ∧ (s.route i).empty = true ∧ vehTypeAt data i = t := by
  unfold firstEmpty at h
  have hm := List.mem_of_find?_eq_some h
  have he := List.find?_some h
  rw [List.mem_range'_1] at hm
  have := vehTypeAt_block data (t := t) (k := i - off) ht (by omega)
  rw [← ho, show off + (i - off) = i by omega] at this
  exact ⟨this.2, he, this.1⟩

theorem clientEmpty_ok {plan : List (List Activity)} {s : SSol} (ce : CostEvaluator) (c : Nat)
    (order : List (Nat × Nat))
    (ho : ∀ p ∈ order, p.1 < data.numVehicleTypes ∧ p.2 = vehiclesBefore data p.1)
    (best : ClientSpot) (hb : AfterOk data plan best.node) :
    AfterOk data plan (s.clientEmpty data ce c order best).node := by
  induction order generalizing best with
  | nil => exact hb
  | cons p rest ih =>
    obtain ⟨t, off⟩ := p
    unfold clientEmpty
    have hp := ho (t, off) (by simp)
    have hr := fun q hq => ho q (List.mem_cons_of_mem _ hq)
    split
    · exact ih hr best hb
    · rename_i i hi
      dsimp only
      split
      · exact ⟨(firstEmpty_lt hp.1 hp.2 hi).1, Nat.zero_le _⟩
      · exact ih hr best hb

/-- `insert` of a client that is not in a route: into some route, or not at all. -/
theorem insertClient_spec {plan : List (List Activity)} {s : SSol} {D : Nat → Prop}
    (h : CleanBut data D plan s)
    (hr : ∀ i, i < data.numVehicles → RouteOk data (data.vehicleType (vehTypeAt data i)) (plan.getD i []))
    (hnv : 0 < data.numVehicles) {space : SearchSpace} (hspace : SpaceOk data space)
    (ce : CostEvaluator) {c : Nat} (hc : c < data.numClients)
    (hn : ∀ j, (⟨.client, c⟩ : Activity) ∉ plan.getD j []) (required : Bool) :
    (required = false ∧ s.insertClient data ce space c required = .ok (s, false))
    ∨ ∃ i xs ys s', i < data.numVehicles ∧ plan.getD i [] = xs ++ ys
      ∧ s.insertClient data ce space c required = .ok (s', true)
      ∧ CleanBut data (fun j => D j ∨ j = i) (plan.set i (xs ++ ⟨.client, c⟩ :: ys)) s' := by
  obtain ⟨ns, hns, -⟩ := hspace.neighbours ⟨.client, c⟩ (mem_allTasks_client hc)
  unfold insertClient
  rw [hns]
  dsimp only
  generalize hbest : s.clientEmpty data ce c space.vehTypeOrder
    (s.clientNeighbours data ce c ns ⟨(0, 0), s.insertCost data ce c (0, 0)⟩) = best
  have hb : AfterOk data plan best.node := by
    rw [← hbest]
    exact clientEmpty_ok ce c _ hspace.types _
      (clientNeighbours_ok h.1 ce c _ _ ⟨hnv, Nat.zero_le _⟩)
  by_cases hcond : (required || decide (best.cost < 0)) = true
  · right
    rw [if_pos hcond]
    obtain ⟨h1, h2⟩ := hb
    have he : plan.getD best.node.1 []
        = (plan.getD best.node.1 []).take best.node.2 ++ (plan.getD best.node.1 []).drop best.node.2 :=
      (List.take_append_drop _ _).symm
    have hlen : ((plan.getD best.node.1 []).take best.node.2).length = best.node.2 := by
      rw [List.length_take]; omega
    have hro := hr best.node.1 h1
    rw [he] at hro
    obtain ⟨s', k1, k2⟩ := h.insert h1 he (a := ⟨.client, c⟩)
      (.inr ⟨⟨by simp, hc⟩, hn⟩) (hro.insert_client hc).trips
    rw [hlen] at k1
    exact ⟨_, _, _, s', h1, he, by rw [k1], k2⟩
  · left
    rw [if_neg hcond]
    simp only [Bool.or_eq_true, not_or] at hcond
    exact ⟨by simpa using hcond.1, rfl⟩

/-! ## Shipments -/

/-- Where a shipment may be inserted. -/
def ShipOk (data : ProblemData) (plan : List (List Activity)) (spot : ShipmentSpot) : Prop :=
  spot.route < data.numVehicles ∧ ∃ xs ms ys, plan.getD spot.route [] = xs ++ ms ++ ys
    ∧ Phase.NoDepot ms ∧ spot.pickupAfter = xs.length ∧ spot.deliveryPos = xs.length + ms.length + 1

theorem better_ok {plan : List (List Activity)} {a b : ShipmentSpot} (ha : ShipOk data plan a)
    (hb : ShipOk data plan b) : ShipOk data plan (a.better b) := by
  unfold ShipmentSpot.better
  split <;> assumption

theorem direct_ok {plan : List (List Activity)} {i pos : Nat} (hi : i < data.numVehicles)
    (hp : pos ≤ (plan.getD i []).length) (s : SSol) (ce : CostEvaluator) (k : Nat) :
    ShipOk data plan (s.shipmentDirect data ce k i pos) := by
  have hlen : ((plan.getD i []).take pos).length = pos := by rw [List.length_take]; omega
  refine ⟨hi, (plan.getD i []).take pos, [], (plan.getD i []).drop pos, ?_, fun a ha => (by cases ha),
    hlen.symm, ?_⟩
  · simp [shipmentDirect]
  · simp only [shipmentDirect, List.length_nil, hlen]

theorem later_ok {plan : List (List Activity)} {s : SSol} {i : Nat} (hi : i < data.numVehicles)
    (ce : CostEvaluator) (k : Nat) {xs : List Activity} (last : SNode)
    (hlast : last.isDepot = true) : ∀ (ys ms : List Activity) (between : IncBetween)
    (best : ShipmentSpot) (pos' : Nat), plan.getD i [] = xs ++ ms ++ ys → Phase.NoDepot ms →
    ShipOk data plan best → pos' = xs.length + ms.length + 1 → ∀ trip,
    ShipOk data plan (s.shipmentLater data ce k i xs.length (innerNodes pos' trip ys ++ [last])
      pos' between best) := by
  intro ys
  induction ys with
  | nil =>
    intro ms between best pos' _ _ hb _ trip
    simp only [innerNodes, List.nil_append, shipmentLater, hlast, if_true]
    exact hb
  | cons y ys ih =>
    intro ms between best pos' he hm hb hpos trip
    simp only [innerNodes, List.cons_append, shipmentLater]
    generalize (if y.type = .depot then trip + 1 else trip) = t
    by_cases hy : y.type = .depot
    · have : SNode.isDepot { activity := y, pos := pos', trip := t } = true := by
        simp [SNode.isDepot, Activity.isDepot, hy]
      rw [if_pos this]
      exact hb
    · have : ¬ SNode.isDepot { activity := y, pos := pos', trip := t } = true := by
        simp [SNode.isDepot, Activity.isDepot, hy]
      rw [if_neg this]
      have hm' : Phase.NoDepot (ms ++ [y]) := by
        intro a ha
        rcases List.mem_append.1 ha with ha | ha
        · exact hm a ha
        · rw [List.mem_singleton.1 ha]; exact hy
      apply ih (ms ++ [y]) _ _ (pos' + 1) (by simp only [he]; simp) hm' _ (by simp; omega)
      apply better_ok _ hb
      exact ⟨hi, xs, ms ++ [y], ys, by simp only [he]; simp, hm', rfl, by simp; omega⟩

theorem after_ok {plan : List (List Activity)} {s : SSol} (h : Holds data plan s) {i pos : Nat}
    (hi : i < data.numVehicles) (hp : pos ≤ (plan.getD i []).length) (ce : CostEvaluator) (k : Nat)
    {best : ShipmentSpot} (hb : ShipOk data plan best) :
    ShipOk data plan (s.shipmentAfter data ce k i pos best) := by
  unfold shipmentAfter
  dsimp only
  have hv := h.visits i hi
  unfold SRoute.Visits at hv
  have hlen : ((plan.getD i []).take pos).length = pos := by rw [List.length_take]; omega
  have hdrop := canon_drop (data.vehicleType (s.route i).vehicleType) ((plan.getD i []).take pos)
      ((plan.getD i []).drop pos)
  rw [List.take_append_drop, hlen, ← hv] at hdrop
  rw [hdrop]
  have := later_ok (plan := plan) (s := s) hi ce k (xs := (plan.getD i []).take pos)
    (endNode (data.vehicleType (s.route i).vehicleType) (pos + ((plan.getD i []).drop pos).length + 1)
      (depotVisits ((plan.getD i []).take pos) + depotVisits ((plan.getD i []).drop pos) + 1)) rfl ((plan.getD i []).drop pos) []
    (IncBetween.new data (s.route i) (pos + 1))
    ((s.shipmentDirect data ce k i pos).better best) (pos + 1) (by simp)
    (fun a ha => (by cases ha)) (better_ok (direct_ok hi hp s ce k) hb) (by rw [hlen]; rfl)
    (depotVisits ((plan.getD i []).take pos))
  rw [hlen] at this
  exact this

theorem shipmentNeighbours_ok {plan : List (List Activity)} {s : SSol} (h : Holds data plan s)
    (ce : CostEvaluator) (k : Nat) (ns : List Activity) (best : ShipmentSpot)
    (hb : ShipOk data plan best) :
    ShipOk data plan (s.shipmentNeighbours data ce k ns best) := by
  induction ns generalizing best with
  | nil => exact hb
  | cons v rest ih =>
    unfold shipmentNeighbours
    split
    · exact ih best hb
    · rename_i i p hp
      have ha := place_afterOk h hp
      dsimp only
      apply ih
      exact after_ok h ha.1 ha.2 ce k (after_ok h ha.1 (Nat.le_trans (Nat.sub_le _ _) ha.2) ce k hb)

theorem shipmentEmpty_ok {plan : List (List Activity)} {s : SSol} (ce : CostEvaluator) (k : Nat)
    (order : List (Nat × Nat))
    (ho : ∀ p ∈ order, p.1 < data.numVehicleTypes ∧ p.2 = vehiclesBefore data p.1)
    (best : ShipmentSpot) (hb : ShipOk data plan best) :
    ShipOk data plan (s.shipmentEmpty data ce k order best) := by
  induction order generalizing best with
  | nil => exact hb
  | cons p rest ih =>
    obtain ⟨t, off⟩ := p
    unfold shipmentEmpty
    have hp := ho (t, off) (by simp)
    have hr := fun q hq => ho q (List.mem_cons_of_mem _ hq)
    split
    · exact ih hr best hb
    · rename_i i hi
      dsimp only
      split
      · exact direct_ok (firstEmpty_lt hp.1 hp.2 hi).1 (Nat.zero_le _) s ce k
      · exact ih hr best hb

/-- `insert` of a shipment that is not in a route: into some route, or not at all. -/
theorem insertShipment_spec {plan : List (List Activity)} {s : SSol} {D : Nat → Prop}
    (h : CleanBut data D plan s)
    (hr : ∀ i, i < data.numVehicles → RouteOk data (data.vehicleType (vehTypeAt data i)) (plan.getD i []))
    (hnv : 0 < data.numVehicles) {space : SearchSpace} (hspace : SpaceOk data space)
    (ce : CostEvaluator) {k : Nat} (hk : k < data.numShipments)
    (hn : ∀ j, Phase.Free k (plan.getD j [])) (required : Bool) :
    (required = false ∧ s.insertShipment data ce space k required = .ok (s, false))
    ∨ ∃ i xs ms ys s', i < data.numVehicles ∧ plan.getD i [] = xs ++ ms ++ ys ∧ Phase.NoDepot ms
      ∧ s.insertShipment data ce space k required = .ok (s', true)
      ∧ CleanBut data (fun j => D j ∨ j = i)
          (plan.set i (xs ++ pickupOf k :: (ms ++ deliveryOf k :: ys))) s' := by
  obtain ⟨ns, hns, -⟩ := hspace.neighbours ⟨.pickup, k⟩ (mem_allTasks_pickup hk)
  unfold insertShipment
  rw [hns]
  dsimp only
  generalize hbest : s.shipmentEmpty data ce k space.vehTypeOrder
    (s.shipmentNeighbours data ce k ns ⟨0, 0, 1, MAX⟩) = best
  have hb : ShipOk data plan best := by
    rw [← hbest]
    refine shipmentEmpty_ok ce k _ hspace.types _ (shipmentNeighbours_ok h.1 ce k _ _ ?_)
    exact ⟨hnv, [], [], plan.getD 0 [], rfl, fun a ha => (by cases ha), rfl, rfl⟩
  by_cases hcond : (required || decide (best.cost < 0)) = true
  · right
    rw [if_pos hcond]
    obtain ⟨h1, xs, ms, ys, he, hm, hp, hd⟩ := hb
    have hro := hr best.route h1
    have hfree := hn best.route
    rw [he] at hro hfree
    have hil : best.route < plan.length := by rw [h.1.length]; exact h1
    have hnd : ∀ j, deliveryOf k ∉ plan.getD j [] := fun j hj => hn j _ hj (.inr rfl)
    have hnp : ∀ j, pickupOf k ∉ plan.getD j [] := fun j hj => hn j _ hj (.inl rfl)
    have htr := (hro.insert_shipment hk hfree hm).trips
    obtain ⟨s1, k1, k2⟩ := h.insert h1 he (a := deliveryOf k)
      (.inr ⟨⟨by simp [deliveryOf], hk⟩, hnd⟩) (by
        rw [depotVisits_mid _ _ (by simp [pickupOf])] at htr
        simpa using htr)
    have he2 : (plan.set best.route (xs ++ ms ++ deliveryOf k :: ys)).getD best.route []
        = xs ++ (ms ++ deliveryOf k :: ys) := by
      rw [getD_set_self hil]; simp
    obtain ⟨s2, m1, m2⟩ := k2.insert h1 he2 (a := pickupOf k)
      (.inr ⟨⟨by simp [pickupOf], hk⟩, fun j => by
        rw [getD_set]
        split
        · have := hnp best.route
          rw [he] at this
          simp only [List.mem_append, List.mem_cons, not_or] at this ⊢
          exact ⟨this.1, by simp [pickupOf, deliveryOf], this.2⟩
        · exact hnp j⟩) htr
    have e1 : best.deliveryPos = (xs ++ ms).length + 1 := by rw [hd]; simp
    refine ⟨best.route, xs, ms, ys, s2, h1, he, hm, ?_, ?_⟩
    · rw [e1, hp]
      show (match s.insertAt data best.route ((xs ++ ms).length + 1) (deliveryOf k) with
        | .error e => _ | .ok s => _) = _
      rw [k1]
      show (match s1.insertAt data best.route (xs.length + 1) (pickupOf k) with
        | .error e => _ | .ok s => _) = _
      rw [m1]
    · rw [List.set_set] at m2
      refine m2.weaken ?_
      rintro j - ((hj | hj) | hj)
      · exact .inl hj
      · exact .inr hj
      · exact .inr hj
  · left
    rw [if_neg hcond]
    simp only [Bool.or_eq_true, not_or] at hcond
    exact ⟨by simpa using hcond.1, rfl⟩

end SSol
end PyVRP
