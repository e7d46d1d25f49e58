import Verif.Lemmas.FoundShipment
/-!
# Where clients and shipments are inserted
-/
namespace PyVRP
open Spec
open SSol (used)

/-! ## Prizes -/

section
variable {data : ProblemData} {plan plan' : List (List Activity)} {s : SSol} {ce : CostEvaluator}

/-- Visiting one more client. -/
theorem missedPrizes_client {c : Nat} (hc : c < data.numClients) (hn : ¬ Visited plan ⟨.client, c⟩)
    (h : ∀ a : Activity, Visited plan' a ↔ Visited plan a ∨ a = ⟨.client, c⟩) :
    missedPrizes data plan' = missedPrizes data plan - (data.client c).prize := by
  have same : ((List.range data.numShipments).map (fun i =>
        if visits plan' ⟨.pickup, i⟩ then 0 else (data.shipment i).prize)).sum
      = ((List.range data.numShipments).map (fun i =>
        if visits plan ⟨.pickup, i⟩ then 0 else (data.shipment i).prize)).sum := by
    apply sum_range_same
    intro i hi
    rw [visits_congr (plan := plan) (plan' := plan') (a := ⟨.pickup, i⟩) (by rw [h]; simp)]
  unfold missedPrizes
  rw [same,
    sum_range_change _ (fun i => if visits plan ⟨.client, i⟩ then 0 else (data.client i).prize) _ c hc]
  · rw [visits_true ((h ⟨.client, c⟩).2 (.inr rfl)), visits_false hn]
    simp only [if_true, Bool.false_eq_true, if_false]
    omega
  · intro i hi
    rw [visits_congr (plan := plan) (plan' := plan') (a := ⟨.client, i⟩) (by rw [h]; simp [hi])]

/-- Doing one more shipment. -/
theorem missedPrizes_shipment {k : Nat} (hk : k < data.numShipments) (hn : ¬ Visited plan ⟨.pickup, k⟩)
    (h : ∀ a : Activity, Visited plan' a ↔ Visited plan a ∨ a = ⟨.pickup, k⟩ ∨ a = ⟨.delivery, k⟩) :
    missedPrizes data plan' = missedPrizes data plan - (data.shipment k).prize := by
  have := (TaskChange.addShipment (data := data) k hk hn (fun a _ => h a)).prizes
  omega

/-! ## The cost of inserting a client -/

/-- The cost to insert a client is the change in cost. -/
theorem insertCost_eq (hco : CostOk data ce) (h : SearchOk data plan s) {i : Nat} (hi : i < data.numVehicles)
    {xs ys : List Activity} (hsp : plan.getD i [] = xs ++ ys) {c : Nat} (hc : c < data.numClients)
    (hn : ¬ Visited plan ⟨.client, c⟩) (hfit : FitsAll data (plan.set i (xs ++ ⟨.client, c⟩ :: ys))) :
    s.insertCost data ce c (i, xs.length)
      = planCost data ce (plan.set i (xs ++ ⟨.client, c⟩ :: ys)) - planCost data ce plan := by
  have hil := h.clean.1.lt_length hi
  have hr : RouteOk data (data.vehicleType (vehTypeAt data i)) (xs ++ ⟨.client, c⟩ :: ys) := by
    have := h.routes i hi
    rw [hsp] at this
    exact this.insert_client hc
  have hcost := delta_route true hco h hi hfit trivial (getD_set_self hil _) hr hsp
    (as := [[⟨.client, c⟩]]) (All2.cons (Piece.client c) All2.nil) (h.after hi hsp rfl)
    (by simp) (used_of_mem (a := ⟨.client, c⟩) (by simp) (by simp)) (-(data.client c).prize) (.inl rfl)
  unfold planCost
  rw [routesCost_set data ce h.clean.1.length hi,
    missedPrizes_client hc hn (fun a => visited_insert hil hsp ⟨.client, c⟩ a)]
  refine Eq.trans hcost ?_
  omega

end

namespace SSol

variable {data : ProblemData} {ce : CostEvaluator} {s : SSol}

/-! ## The loops over places for a client -/

theorem clientNeighbours_best (c : Nat) (ns : List Activity) (best : ClientSpot) :
    (s.clientNeighbours data ce c ns best).cost ≤ best.cost
    ∧ (∀ v ∈ ns, ∀ node, s.place v = some node →
      (s.clientNeighbours data ce c ns best).cost ≤ s.insertCost data ce c node)
    ∧ (s.clientNeighbours data ce c ns best = best
      ∨ ∃ v ∈ ns, ∃ node, s.place v = some node
        ∧ s.clientNeighbours data ce c ns best = ⟨node, s.insertCost data ce c node⟩) := by
  induction ns generalizing best with
  | nil => exact ⟨Int.le_refl _, fun v hv => (by cases hv), .inl rfl⟩
  | cons w rest ih =>
    unfold clientNeighbours
    cases hp : s.place w with
    | none =>
      dsimp only
      obtain ⟨h1, h2, h3⟩ := ih best
      refine ⟨h1, fun v hv node hv' => ?_, ?_⟩
      · rcases List.mem_cons.1 hv with rfl | hv
        · rw [hp] at hv'; cases hv'
        · exact h2 v hv node hv'
      · rcases h3 with h3 | ⟨v, hv, h3⟩
        · exact .inl h3
        · exact .inr ⟨v, List.mem_cons_of_mem _ hv, h3⟩
    | some node =>
      dsimp only
      obtain ⟨h1, h2, h3⟩ := ih (if s.insertCost data ce c node < best.cost
        then ⟨node, s.insertCost data ce c node⟩ else best)
      have hle : (if s.insertCost data ce c node < best.cost
          then (⟨node, s.insertCost data ce c node⟩ : ClientSpot) else best).cost ≤ best.cost
          ∧ (if s.insertCost data ce c node < best.cost
          then (⟨node, s.insertCost data ce c node⟩ : ClientSpot) else best).cost
            ≤ s.insertCost data ce c node := by
        split
        · dsimp only; omega
        · omega
      refine ⟨by omega, fun v hv node' hv' => ?_, ?_⟩
      · rcases List.mem_cons.1 hv with rfl | hv
        · rw [hp] at hv'; injection hv' with hv'; subst hv'; omega
        · exact h2 v hv node' hv'
      · rcases h3 with h3 | ⟨v, hv, h3⟩
        · rw [h3]
          split
          · exact .inr ⟨w, by simp, node, hp, rfl⟩
          · exact .inl rfl
        · exact .inr ⟨v, List.mem_cons_of_mem _ hv, h3⟩

theorem clientEmpty_best (c : Nat) (order : List (Nat × Nat)) (best : ClientSpot) :
    (s.clientEmpty data ce c order best = best ∧ ∀ p ∈ order, ∀ i, s.firstEmpty data p.1 p.2 = some i →
      best.cost ≤ s.insertCost data ce c (i, 0))
    ∨ ∃ p ∈ order, ∃ i, s.firstEmpty data p.1 p.2 = some i
      ∧ s.clientEmpty data ce c order best = ⟨(i, 0), s.insertCost data ce c (i, 0)⟩
      ∧ s.insertCost data ce c (i, 0) < best.cost := by
  induction order with
  | nil => exact .inl ⟨rfl, fun p hp => (by cases hp)⟩
  | cons p rest ih =>
    obtain ⟨t, off⟩ := p
    unfold clientEmpty
    cases he : s.firstEmpty data t off with
    | none =>
      dsimp only
      rcases ih with ⟨h1, h2⟩ | ⟨p, hp, h⟩
      · refine .inl ⟨h1, fun p hp i hi => ?_⟩
        rcases List.mem_cons.1 hp with rfl | hp
        · rw [he] at hi; cases hi
        · exact h2 p hp i hi
      · exact .inr ⟨p, List.mem_cons_of_mem _ hp, h⟩
    | some i =>
      dsimp only
      split
      · rename_i hlt
        exact .inr ⟨(t, off), by simp, i, he, rfl, hlt⟩
      · rename_i hge
        rcases ih with ⟨h1, h2⟩ | ⟨p, hp, h⟩
        · refine .inl ⟨h1, fun p hp j hj => ?_⟩
          rcases List.mem_cons.1 hp with rfl | hp
          · rw [he] at hj; injection hj with hj; subst hj; omega
          · exact h2 p hp j hj
        · exact .inr ⟨p, List.mem_cons_of_mem _ hp, h⟩

end SSol

/-! ## Segments that grow -/

namespace SRoute

theorem betweenDuration_succ (data : ProblemData) (profile : Nat) (r : SRoute) (n : Nat) :
    ∀ (step : Nat) (ds : DurSeg), betweenDuration data profile r step (n + 1) ds
      = DurSeg.merge (data.dur profile (r.locations.getD (step + n) 0)
          (r.locations.getD (step + n + 1) 0))
        (betweenDuration data profile r step n ds) (r.durAt.getD (step + n + 1) {}) := by
  induction n with
  | zero => intro step ds; rfl
  | succ n ih =>
    intro step ds
    rw [betweenDuration, ih, show step + 1 + n = step + (n + 1) by omega]
    rfl

theorem betweenLoad_succ (loads : List LoadSeg) (n : Nat) :
    ∀ (step : Nat) (ls : LoadSeg), betweenLoad loads step (n + 1) ls
      = LoadSeg.merge (betweenLoad loads step n ls) (loads.getD (step + n + 1) {}) := by
  induction n with
  | zero => intro step ls; rfl
  | succ n ih =>
    intro step ls
    rw [betweenLoad, ih, show step + 1 + n = step + (n + 1) by omega]
    rfl

end SRoute

namespace IncBetween

variable {data : ProblemData} {r : SRoute}

/-- The segment from `a` to `b`, as it should be. -/
def exactly (data : ProblemData) (r : SRoute) (a b : Nat) : IncBetween :=
  { start := a
    finish := b
    duration := (r.between data a b).duration (data.vehicleType r.vehicleType).profile
    loads := (List.range data.numLoadDimensions).map (r.between data a b).load }

theorem new_eq (a : Nat) : IncBetween.new data r a = exactly data r a a := rfl

theorem next_eq {a b : Nat} (hab : a ≤ b) (ha : (r.node a).isReloadDepot = false) :
    (exactly data r a b).next data r = exactly data r a (b + 1) := by
  unfold next exactly
  dsimp only
  congr 1
  · simp only [SRoute.between, SRoute.at, ha, Bool.false_eq_true, and_false, if_false, Nat.sub_self]
    rw [show b + 1 - a = (b - a) + 1 by omega, SRoute.betweenDuration_succ,
      show a + (b - a) = b by omega]
    simp [SRoute.betweenDuration]
  · simp only [List.length_map, List.length_range]
    apply List.map_congr_left
    intro dim hdim
    have hdim := List.mem_range.1 hdim
    rw [SRoute.getD_range_map _ _ _ hdim]
    simp only [SRoute.between, SRoute.at, Nat.sub_self]
    rw [show b + 1 - a = (b - a) + 1 by omega, SRoute.betweenLoad_succ,
      show a + (b - a) + 1 = b + 1 by omega]
    rfl

end IncBetween

/-- Only the durations of the route's profile and the loads of the load dimensions matter. -/
theorem deltaCost_congr {data : ProblemData} (ce : CostEvaluator) (exact : Bool) (out : Int) (r : SRoute)
    (a b d e : Seg) {m m' : Seg}
    (h : m' = { m with duration := m'.duration, load := m'.load })
    (hd : m'.duration (data.vehicleType r.vehicleType).profile
      = m.duration (data.vehicleType r.vehicleType).profile)
    (hl : ∀ dim < (data.vehicleType r.vehicleType).capacity.length, m'.load dim = m.load dim) :
    ce.deltaCost exact data out ⟨r, a, [b, m', d, e]⟩ = ce.deltaCost exact data out ⟨r, a, [b, m, d, e]⟩ := by
  have h1 : m'.frontLoc = m.frontLoc := by rw [h]
  have h2 : m'.backLoc = m.backLoc := by rw [h]
  have h3 : m'.backActivity = m.backActivity := by rw [h]
  have h4 : m'.size = m.size := by rw [h]
  have h5 : m'.startsAtReloadDepot = m.startsAtReloadDepot := by rw [h]
  have h6 : m'.endsAtReloadDepot = m.endsAtReloadDepot := by rw [h]
  have h7 : m'.distance = m.distance := by rw [h]
  have hdist : Proposal.distance data ⟨r, a, [b, m', d, e]⟩ = Proposal.distance data ⟨r, a, [b, m, d, e]⟩ := by
    simp only [Proposal.distance, Proposal.distanceLoop, h1, h2, h7]
  have hdur : Proposal.duration data ⟨r, a, [b, m', d, e]⟩ = Proposal.duration data ⟨r, a, [b, m, d, e]⟩ := by
    have : Proposal.durationSeg data ⟨r, a, [b, m', d, e]⟩ = Proposal.durationSeg data ⟨r, a, [b, m, d, e]⟩ := by
      simp only [Proposal.durationSeg, List.reverse_cons, List.reverse_nil, List.nil_append,
        List.cons_append, Proposal.durationLoop, ne_eq, List.cons_ne_nil, not_false_eq_true, not_true_eq_false,
        h1, h2, h3, h4, h5, h6, hd]
    unfold Proposal.duration
    rw [this]
  have hload : ∀ dims, (∀ dim ∈ dims, dim < (data.vehicleType r.vehicleType).capacity.length) → ∀ out,
      CostEvaluator.deltaLoad exact ce data ⟨r, a, [b, m', d, e]⟩ dims out
        = CostEvaluator.deltaLoad exact ce data ⟨r, a, [b, m, d, e]⟩ dims out := by
    intro dims
    induction dims with
    | nil => intro _ out; rfl
    | cons dim rest ih =>
      intro hdims out
      have he : Proposal.excessLoad data ⟨r, a, [b, m', d, e]⟩ dim
          = Proposal.excessLoad data ⟨r, a, [b, m, d, e]⟩ dim := by
        simp only [Proposal.excessLoad, Proposal.loadLoop, ne_eq, List.cons_ne_nil, not_false_eq_true, not_true_eq_false, h4, h5, h6, hl dim (hdims dim (by simp))]
      unfold CostEvaluator.deltaLoad
      rw [he, ih (fun x hx => hdims x (by simp [hx]))]
  unfold CostEvaluator.deltaCost CostEvaluator.deltaDistance CostEvaluator.deltaDuration
    CostEvaluator.dims Proposal.fixedVehicleCost
  dsimp only
  rw [hdist, hdur, hload _ (fun dim hdim => List.mem_range.1 hdim)]

/-! ## The cost of inserting a shipment -/

namespace SSol

variable {data : ProblemData} {ce : CostEvaluator} {s : SSol} {plan : List (List Activity)}

/-- The cost of inserting a pickup after position `pos` of a route, and the delivery after the next `n`
visits. -/
def shipmentCost (data : ProblemData) (ce : CostEvaluator) (s : SSol) (k i pos n : Nat) : Int :=
  let r := s.route i
  if n = 0 then (s.shipmentDirect data ce k i pos).cost
  else (ce.deltaCost true data (-(data.shipment k).prize)
    ⟨r, r.before pos, [Seg.pickup data k, r.between data (pos + 1) (pos + n), Seg.delivery data k,
      r.after (pos + n + 1)]⟩).1

theorem shipmentCost_eq (hco : CostOk data ce) (h : SearchOk data plan s) {i : Nat} (hi : i < data.numVehicles)
    {xs ms ys : List Activity} (hsp : plan.getD i [] = xs ++ ms ++ ys) (hm : Phase.NoDepot ms) {k : Nat}
    (hk : k < data.numShipments) (hn : ¬ Visited plan ⟨.pickup, k⟩)
    (hfit : FitsAll data (plan.set i (xs ++ ⟨.pickup, k⟩ :: (ms ++ ⟨.delivery, k⟩ :: ys)))) :
    s.shipmentCost data ce k i xs.length ms.length
      = planCost data ce (plan.set i (xs ++ ⟨.pickup, k⟩ :: (ms ++ ⟨.delivery, k⟩ :: ys)))
        - planCost data ce plan := by
  have hil := h.clean.1.lt_length hi
  have hn' : ¬ Visited plan ⟨.delivery, k⟩ := fun e => hn (h.visited_delivery.1 e)
  have hfree := free_of_unvisited hn hn' i
  have hr0 := h.routes i hi
  rw [hsp] at hfree hr0
  have hr : RouteOk data (data.vehicleType (vehTypeAt data i))
      (xs ++ ⟨.pickup, k⟩ :: (ms ++ ⟨.delivery, k⟩ :: ys)) := RouteOk.insert_shipment hr0 hk hfree hm
  have hsp' : plan.getD i [] = xs ++ (ms ++ ys) := by rw [hsp]; simp
  have hu : used (xs ++ (⟨.pickup, k⟩ : Activity) :: (ms ++ ⟨.delivery, k⟩ :: ys)) = true :=
    used_of_mem (a := ⟨.pickup, k⟩) (by simp) (by simp)
  have hcost : s.shipmentCost data ce k i xs.length ms.length
      = -(data.shipment k).prize + routeCost data ce (vehTypeAt data i)
          (xs ++ ⟨.pickup, k⟩ :: (ms ++ ⟨.delivery, k⟩ :: ys))
        - routeCost data ce (vehTypeAt data i) (plan.getD i []) := by
    unfold shipmentCost
    dsimp only
    by_cases h0 : ms = []
    · subst h0
      rw [if_pos List.length_nil]
      exact delta_route true hco h hi hfit trivial (getD_set_self hil _) hr hsp'
        (as := [[⟨.pickup, k⟩], [⟨.delivery, k⟩]])
        (All2.cons (Piece.pickup k) (All2.cons (Piece.delivery k) All2.nil)) (h.after hi hsp' rfl)
        (by simp) hu _ (.inl rfl)
    · have hlen : ms.length ≠ 0 := by simp [h0]
      rw [if_neg hlen]
      have hb := h.between hi hsp h0 hm (a := xs.length + 1) (b := xs.length + ms.length) rfl rfl
      exact delta_route true hco h hi hfit trivial (getD_set_self hil _) hr hsp'
        (as := [[⟨.pickup, k⟩], ms, [⟨.delivery, k⟩]])
        (All2.cons (Piece.pickup k) (All2.cons hb (All2.cons (Piece.delivery k) All2.nil)))
        (h.after hi hsp (by rw [List.length_append])) (by simp) hu _ (.inl rfl)
  unfold planCost
  rw [routesCost_set data ce h.clean.1.length hi,
    missedPrizes_shipment hk hn (fun a => by
      rw [visited_two hil, visited_split plan i, hsp, visited_set hil]), hcost]
  omega

/-! ## The loops over places for a shipment -/

theorem ShipmentSpot.better_le (a b : ShipmentSpot) : (a.better b).cost ≤ a.cost ∧ (a.better b).cost ≤ b.cost := by
  unfold ShipmentSpot.better
  split <;> omega

theorem ShipmentSpot.better_or (a b : ShipmentSpot) : a.better b = a ∨ a.better b = b := by
  unfold ShipmentSpot.better
  split
  · exact .inl rfl
  · exact .inr rfl

/-- The loop over later deliveries. -/
theorem later_best {i : Nat}
    (hdims : (data.vehicleType (s.route i).vehicleType).capacity.length = data.numLoadDimensions)
    (k pos : Nat) (last : SNode) (hlast : last.isDepot = true) :
    ∀ (ys : List Activity) (n : Nat) (best : ShipmentSpot) (trip : Nat),
    (∀ y ∈ ys.head?, y.type ≠ .depot → ((s.route i).node (pos + 1)).isReloadDepot = false) →
    ∃ R, s.shipmentLater data ce k i pos (innerNodes (pos + n + 1) trip ys ++ [last]) (pos + n + 1)
        (IncBetween.exactly data (s.route i) (pos + 1) (pos + n + 1)) best = R
      ∧ R.cost ≤ best.cost
      ∧ (∀ ms ws, ys = ms ++ ws → ms ≠ [] → Phase.NoDepot ms →
        R.cost ≤ s.shipmentCost data ce k i pos (n + ms.length))
      ∧ (R = best ∨ ∃ ms ws, ys = ms ++ ws ∧ ms ≠ [] ∧ Phase.NoDepot ms
        ∧ R = ⟨i, pos, pos + (n + ms.length) + 1, s.shipmentCost data ce k i pos (n + ms.length)⟩) := by
  intro ys
  induction ys with
  | nil =>
    intro n best trip _
    refine ⟨_, rfl, ?_⟩
    simp only [innerNodes, List.nil_append, shipmentLater, hlast, if_true]
    refine ⟨Int.le_refl _, fun ms ws e h0 => ?_, .inl trivial⟩
    exact absurd (List.append_eq_nil_iff.1 e.symm).1 h0
  | cons y ys ih =>
    intro n best trip hy0
    simp only [innerNodes, List.cons_append, shipmentLater]
    generalize (if y.type = .depot then trip + 1 else trip) = t
    by_cases hy : y.type = .depot
    · have : SNode.isDepot { activity := y, pos := pos + n + 1, trip := t } = true := by
        simp [SNode.isDepot, Activity.isDepot, hy]
      rw [if_pos this]
      refine ⟨_, rfl, Int.le_refl _, fun ms ws e h0 hm => ?_, .inl rfl⟩
      cases ms with
      | nil => exact absurd rfl h0
      | cons z ms =>
        injection e with e1 e2
        subst e1
        exact absurd hy (hm y (by simp))
    · have : ¬ SNode.isDepot { activity := y, pos := pos + n + 1, trip := t } = true := by
        simp [SNode.isDepot, Activity.isDepot, hy]
      rw [if_neg this]
      have hr0 := hy0 y (by simp) hy
      rw [IncBetween.next_eq (by omega) hr0]
      have hcost : (ce.deltaCost true data (-(data.shipment k).prize)
          ⟨s.route i, (s.route i).before pos, [Seg.pickup data k,
            (IncBetween.exactly data (s.route i) (pos + 1) (pos + n + 1)).seg data (s.route i),
            Seg.delivery data k, (s.route i).after (pos + n + 1 + 1)]⟩).1
          = s.shipmentCost data ce k i pos (n + 1) := by
        unfold shipmentCost
        dsimp only
        rw [if_neg (by omega), deltaCost_congr (m := (s.route i).between data (pos + 1) (pos + (n + 1)))]
        · rfl
        · rfl
        · rfl
        · intro dim hdim
          rw [hdims] at hdim
          exact SRoute.getD_range_map _ _ _ hdim _
      rw [hcost]
      obtain ⟨R, h0, h1, h2, h3⟩ := ih (n + 1)
        (ShipmentSpot.better ⟨i, pos, pos + n + 1 + 1, s.shipmentCost data ce k i pos (n + 1)⟩ best) t
        (fun _ _ _ => hr0)
      refine ⟨R, h0, ?_, ?_, ?_⟩
      · exact Int.le_trans h1 (ShipmentSpot.better_le _ _).2
      · intro ms ws e h0 hm
        cases ms with
        | nil => exact absurd rfl h0
        | cons z ms =>
          injection e with e1 e2
          subst e1
          by_cases hms : ms = []
          · subst hms
            exact Int.le_trans h1 (ShipmentSpot.better_le _ _).1
          · have := h2 ms ws e2 hms (fun a ha => hm a (by simp [ha]))
            rw [show n + 1 + ms.length = n + (y :: ms).length by simp; omega] at this
            exact this
      · rcases h3 with h3 | ⟨ms, ws, e, hms, hm, h3⟩
        · rcases ShipmentSpot.better_or ⟨i, pos, pos + n + 1 + 1, s.shipmentCost data ce k i pos (n + 1)⟩
            best with hb | hb
          · refine .inr ⟨[y], ys, rfl, by simp, ?_, ?_⟩
            · intro a ha; simp at ha; subst ha; exact hy
            · rw [h3, hb]; rfl
          · exact .inl (by rw [h3, hb])
        · refine .inr ⟨y :: ms, ws, by rw [e]; rfl, by simp, ?_, ?_⟩
          · intro a ha
            rcases List.mem_cons.1 ha with rfl | ha
            · exact hy
            · exact hm a ha
          · rw [h3, show n + 1 + ms.length = n + (y :: ms).length by simp; omega]

/-- What inserting a shipment with the pickup after `xs` finds. -/
theorem shipmentAfter_best (hco : CostOk data ce) (h : SearchOk data plan s) {i : Nat}
    (hi : i < data.numVehicles) {xs ys : List Activity} (hsp : plan.getD i [] = xs ++ ys) (k : Nat)
    (best : ShipmentSpot) :
    (s.shipmentAfter data ce k i xs.length best).cost ≤ best.cost
    ∧ (∀ ms ws, ys = ms ++ ws → Phase.NoDepot ms →
      (s.shipmentAfter data ce k i xs.length best).cost ≤ s.shipmentCost data ce k i xs.length ms.length)
    ∧ (s.shipmentAfter data ce k i xs.length best = best ∨ ∃ ms ws, ys = ms ++ ws ∧ Phase.NoDepot ms
      ∧ s.shipmentAfter data ce k i xs.length best
        = ⟨i, xs.length, xs.length + ms.length + 1, s.shipmentCost data ce k i xs.length ms.length⟩) := by
  have hdims : (data.vehicleType (s.route i).vehicleType).capacity.length = data.numLoadDimensions := by
    rw [h.clean.1.types i hi]
    exact (C37_derived data ((C37_accepts_exactly_consistent data data).1 hco.good.made).2).2.2 _
      (vehicleType_mem data (vehTypeAt_lt data hi))
  have hdrop : (s.route i).nodes.drop (xs.length + 1) = innerNodes (xs.length + 1) (depotVisits xs) ys
      ++ [endNode (data.vehicleType (vehTypeAt data i)) (xs.length + ys.length + 1)
        (depotVisits xs + depotVisits ys + 1)] := by
    rw [h.route hi, hsp, SRoute.ofActs_drop]
  unfold shipmentAfter
  dsimp only
  rw [hdrop]
  obtain ⟨R, h0, h1, h2, h3⟩ := later_best (ce := ce) hdims k xs.length
    (endNode (data.vehicleType (vehTypeAt data i)) (xs.length + ys.length + 1)
        (depotVisits xs + depotVisits ys + 1)) rfl ys 0
    ((s.shipmentDirect data ce k i xs.length).better best) (depotVisits xs) (by
      intro y hy hty
      obtain ⟨ys', rfl⟩ : ∃ ys', ys = y :: ys' := by
        cases ys with
        | nil => cases hy
        | cons z ys => simp at hy; subst hy; exact ⟨ys, rfl⟩
      rw [h.route hi, hsp, SRoute.ofActs_inner]
      simp [SNode.isReloadDepot, SNode.isDepot, Activity.isDepot, hty])
  rw [Nat.add_zero, ← IncBetween.new_eq] at h0
  rw [h0]
  refine ⟨Int.le_trans h1 (ShipmentSpot.better_le _ _).2, ?_, ?_⟩
  · intro ms ws e hm
    by_cases hms : ms = []
    · subst hms
      exact Int.le_trans h1 (ShipmentSpot.better_le _ _).1
    · have := h2 ms ws e hms hm
      rwa [Nat.zero_add] at this
  · rcases h3 with h3 | ⟨ms, ws, e, hms, hm, h3⟩
    · rcases ShipmentSpot.better_or (s.shipmentDirect data ce k i xs.length) best with hb | hb
      · exact .inr ⟨[], ys, rfl, fun a ha => (by cases ha), by rw [h3, hb]; rfl⟩
      · exact .inl (by rw [h3, hb])
    · exact .inr ⟨ms, ws, e, hm, by rw [h3, Nat.zero_add]⟩

/-- What the loop over neighbours finds. -/
theorem shipmentNeighbours_best (hco : CostOk data ce) (h : SearchOk data plan s) (k : Nat) :
    ∀ (ns : List Activity), (∀ v ∈ ns, v.type ≠ .depot) → ∀ best : ShipmentSpot,
    (s.shipmentNeighbours data ce k ns best).cost ≤ best.cost
    ∧ (∀ v ∈ ns, ∀ i xs ms ys, i < data.numVehicles → plan.getD i [] = xs ++ ms ++ ys → Phase.NoDepot ms →
      (xs.getLast? = some v ∨ (ms ++ ys).head? = some v) →
      (s.shipmentNeighbours data ce k ns best).cost ≤ s.shipmentCost data ce k i xs.length ms.length)
    ∧ (s.shipmentNeighbours data ce k ns best = best ∨ ∃ v ∈ ns, ∃ i xs ms ys, i < data.numVehicles
      ∧ plan.getD i [] = xs ++ ms ++ ys ∧ Phase.NoDepot ms
      ∧ (xs.getLast? = some v ∨ (ms ++ ys).head? = some v)
      ∧ s.shipmentNeighbours data ce k ns best
        = ⟨i, xs.length, xs.length + ms.length + 1, s.shipmentCost data ce k i xs.length ms.length⟩) := by
  intro ns
  induction ns with
  | nil => exact fun _ best => ⟨Int.le_refl _, fun v hv => (by cases hv), .inl rfl⟩
  | cons w rest ih =>
    intro hns best
    have hw := hns w (by simp)
    have ih := ih (fun v hv => hns v (by simp [hv]))
    unfold shipmentNeighbours
    -- where `w` is
    have hplace : ∀ i xs ys, i < data.numVehicles → plan.getD i [] = xs ++ w :: ys →
        s.place w = some (i, xs.length + 1) := fun i xs ys hi e => h.clean.1.place hi hw e
    cases hp : s.place w with
    | none =>
      dsimp only
      obtain ⟨h1, h2, h3⟩ := ih best
      refine ⟨h1, fun v hv i xs ms ys hi he hm hv' => ?_, ?_⟩
      · rcases List.mem_cons.1 hv with rfl | hv
        · exfalso
          rcases hv' with hv' | hv'
          · obtain ⟨zs, rfl⟩ := List.getLast?_eq_some_iff.1 hv'
            rw [hplace i zs (ms ++ ys) hi (by rw [he]; simp)] at hp
            cases hp
          · obtain ⟨zs, hz⟩ := List.head?_eq_some_iff.1 hv'
            rw [hplace i xs zs hi (by rw [he, List.append_assoc, hz])] at hp
            cases hp
        · exact h2 v hv i xs ms ys hi he hm hv'
      · rcases h3 with h3 | ⟨v, hv, h3⟩
        · exact .inl h3
        · exact .inr ⟨v, List.mem_cons_of_mem _ hv, h3⟩
    | some ip =>
      obtain ⟨i, p⟩ := ip
      dsimp only
      obtain ⟨hi, -, ws, zs, he, hpos⟩ := h.clean.1.place_some hp
      obtain ⟨a1, a2, a3⟩ := shipmentAfter_best hco h hi he k best
      have he' : plan.getD i [] = (ws ++ [w]) ++ zs := by rw [he]; simp
      obtain ⟨b1, b2, b3⟩ := shipmentAfter_best hco h hi he' k (s.shipmentAfter data ce k i ws.length best)
      have hp1 : p - 1 = ws.length := by omega
      have hp2 : p = (ws ++ [w]).length := by rw [hpos]; simp
      rw [hp1, hp2]
      obtain ⟨h1, h2, h3⟩ := ih (s.shipmentAfter data ce k i (ws ++ [w]).length
        (s.shipmentAfter data ce k i ws.length best))
      refine ⟨by omega, fun v hv j xs ms ys hj hsp hm hv' => ?_, ?_⟩
      · rcases List.mem_cons.1 hv with rfl | hv
        · rcases hv' with hv' | hv'
          · obtain ⟨us, rfl⟩ := List.getLast?_eq_some_iff.1 hv'
            have := hplace j us (ms ++ ys) hj (by rw [hsp]; simp)
            rw [hp] at this
            injection this with this
            injection this with e1 e2
            subst e1
            have hlen : us.length = ws.length := by omega
            rw [he'] at hsp
            have hsp : (ws ++ [v]) ++ zs = (us ++ [v]) ++ (ms ++ ys) := by rw [hsp]; simp
            obtain ⟨e3, e4⟩ := List.append_inj hsp (by simp [hlen])
            have := b2 ms ys e4 hm
            rw [← e3]
            omega
          · obtain ⟨us, hz⟩ := List.head?_eq_some_iff.1 hv'
            have := hplace j xs us hj (by rw [hsp, List.append_assoc, hz])
            rw [hp] at this
            injection this with this
            injection this with e1 e2
            subst e1
            have hlen : xs.length = ws.length := by omega
            rw [he, List.append_assoc] at hsp
            obtain ⟨e3, e4⟩ := List.append_inj hsp (by omega)
            have := a2 ms ys e4 hm
            rw [← e3]
            omega
        · exact h2 v hv j xs ms ys hj hsp hm hv'
      · rcases h3 with h3 | ⟨v, hv, h3⟩
        · rcases b3 with b3 | ⟨ms, ys, e, hm, b3⟩
          · rcases a3 with a3 | ⟨ms, ys, e, hm, a3⟩
            · exact .inl (by rw [h3, b3, a3])
            · exact .inr ⟨w, by simp, i, ws, ms, ys, hi, by rw [he, e]; simp, hm,
                .inr (by rw [← e]; rfl), by rw [h3, b3, a3]⟩
          · exact .inr ⟨w, by simp, i, ws ++ [w], ms, ys, hi, by rw [he', e]; simp, hm,
              .inl (by simp), by rw [h3, b3]⟩
        · exact .inr ⟨v, List.mem_cons_of_mem _ hv, h3⟩

theorem shipmentEmpty_best (k : Nat) (order : List (Nat × Nat)) (best : ShipmentSpot) :
    (s.shipmentEmpty data ce k order best = best ∧ ∀ p ∈ order, ∀ i, s.firstEmpty data p.1 p.2 = some i →
      best.cost ≤ s.shipmentCost data ce k i 0 0)
    ∨ ∃ p ∈ order, ∃ i, s.firstEmpty data p.1 p.2 = some i
      ∧ s.shipmentEmpty data ce k order best = ⟨i, 0, 1, s.shipmentCost data ce k i 0 0⟩
      ∧ s.shipmentCost data ce k i 0 0 < best.cost := by
  induction order with
  | nil => exact .inl ⟨rfl, fun p hp => (by cases hp)⟩
  | cons p rest ih =>
    obtain ⟨t, off⟩ := p
    unfold shipmentEmpty
    cases he : s.firstEmpty data t off with
    | none =>
      dsimp only
      rcases ih with ⟨h1, h2⟩ | ⟨p, hp, h⟩
      · refine .inl ⟨h1, fun p hp i hi => ?_⟩
        rcases List.mem_cons.1 hp with rfl | hp
        · rw [he] at hi; cases hi
        · exact h2 p hp i hi
      · exact .inr ⟨p, List.mem_cons_of_mem _ hp, h⟩
    | some i =>
      dsimp only
      have hc : (s.shipmentDirect data ce k i 0).cost = s.shipmentCost data ce k i 0 0 := rfl
      rw [hc]
      split
      · rename_i hlt
        exact .inr ⟨(t, off), by simp, i, he, rfl, hlt⟩
      · rename_i hge
        rcases ih with ⟨h1, h2⟩ | ⟨p, hp, h⟩
        · refine .inl ⟨h1, fun p hp j hj => ?_⟩
          rcases List.mem_cons.1 hp with rfl | hp
          · rw [he] at hj; injection hj with hj; subst hj; omega
          · exact h2 p hp j hj
        · exact .inr ⟨p, List.mem_cons_of_mem _ hp, h⟩

/-! ## Inserting -/

/-- Inserting a client, and updating the route. -/
theorem insertAt_client (h : SearchOk data plan s) {i : Nat} (hi : i < data.numVehicles)
    {xs ys : List Activity} (hsp : plan.getD i [] = xs ++ ys) {c : Nat} (hc : c < data.numClients)
    (hn : ¬ Visited plan ⟨.client, c⟩) :
    ∃ s', s.insertAt data i (xs.length + 1) ⟨.client, c⟩ = .ok s'
      ∧ SearchOk data (plan.set i (xs ++ ⟨.client, c⟩ :: ys)) (s'.updateRoute data i) := by
  have hr : RouteOk data (data.vehicleType (vehTypeAt data i)) (xs ++ ⟨.client, c⟩ :: ys) := by
    have := h.routes i hi
    rw [hsp] at this
    exact this.insert_client hc
  obtain ⟨s', h1, h2⟩ := (h.clean.but (fun _ => False)).insert hi hsp (a := ⟨.client, c⟩)
    (.inr ⟨⟨by simp, hc⟩, fun j hj => hn ⟨j, hj⟩⟩) hr.trips
  refine ⟨s', h1, ?_, PerturbationManager.routes_set h.routes hr⟩
  exact (h2.update hi).clean (fun j _ hj => by tauto)

/-- Inserting a shipment, and updating the route. -/
theorem insertAt_shipment (h : SearchOk data plan s) {i : Nat} (hi : i < data.numVehicles)
    {xs ms ys : List Activity} (hsp : plan.getD i [] = xs ++ ms ++ ys) (hm : Phase.NoDepot ms) {k : Nat}
    (hk : k < data.numShipments) (hn : ¬ Visited plan ⟨.pickup, k⟩) :
    ∃ s1 s', s.insertAt data i (xs.length + ms.length + 1) ⟨.delivery, k⟩ = .ok s1
      ∧ s1.insertAt data i (xs.length + 1) ⟨.pickup, k⟩ = .ok s'
      ∧ SearchOk data (plan.set i (xs ++ ⟨.pickup, k⟩ :: (ms ++ ⟨.delivery, k⟩ :: ys)))
        (s'.updateRoute data i) := by
  have hil := h.clean.1.lt_length hi
  have hn' : ¬ Visited plan ⟨.delivery, k⟩ := fun e => hn (h.visited_delivery.1 e)
  have hfree := free_of_unvisited hn hn' i
  have hr0 := h.routes i hi
  rw [hsp] at hfree hr0
  have hr : RouteOk data (data.vehicleType (vehTypeAt data i))
      (xs ++ ⟨.pickup, k⟩ :: (ms ++ ⟨.delivery, k⟩ :: ys)) := RouteOk.insert_shipment hr0 hk hfree hm
  have htr := hr.trips
  obtain ⟨s1, k1, k2⟩ := (h.clean.but (fun _ => False)).insert hi hsp (a := ⟨.delivery, k⟩)
    (.inr ⟨⟨by simp, hk⟩, fun j hj => hn' ⟨j, hj⟩⟩) (by
      rw [depotVisits_mid _ _ (by simp)] at htr
      simpa using htr)
  have he2 : (plan.set i (xs ++ ms ++ ⟨.delivery, k⟩ :: ys)).getD i []
      = xs ++ (ms ++ ⟨.delivery, k⟩ :: ys) := by
    rw [getD_set_self hil]; simp
  obtain ⟨s2, m1, m2⟩ := k2.insert hi he2 (a := ⟨.pickup, k⟩)
    (.inr ⟨⟨by simp, hk⟩, fun j hj => by
      by_cases hji : j = i
      · subst hji
        rw [he2] at hj
        refine hn ⟨j, ?_⟩
        rw [hsp]
        simp only [List.mem_append, List.mem_cons] at hj ⊢
        rcases hj with hj | hj | hj | hj
        · exact .inl (.inl hj)
        · exact .inl (.inr hj)
        · cases hj
        · exact .inr hj
      · rw [getD_set_ne _ hji] at hj
        exact hn ⟨j, hj⟩⟩) htr
  rw [List.set_set] at m2
  rw [List.length_append] at k1
  refine ⟨s1, s2, k1, m1, ?_, PerturbationManager.routes_set h.routes hr⟩
  exact (m2.update hi).clean (fun j _ hj => by tauto)

end SSol
end PyVRP
