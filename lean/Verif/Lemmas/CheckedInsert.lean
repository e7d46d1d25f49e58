import Verif.Model.CheckedRun
import Verif.Lemmas.CheckedLoop
/-!
# No assertion fails when clients and shipments are inserted
-/
namespace PyVRP.Checked
open Spec
open SSol (Holds CleanBut AfterOk ClientSpot ShipmentSpot)

variable {data : ProblemData} {ce : CostEvaluator} {plan : List (List Activity)} {s : SSol} {r : SRoute}

theorem consistent (hco : CostOk data ce) : Consistent data :=
  ((C37_accepts_exactly_consistent data data).1 hco.good.made).2

/-! ## `IncrementalSegmentBetween` -/

/-- What is known about the segment between positions of a route. -/
structure IncOk (data : ProblemData) (r : SRoute) (b : IncBetween) : Prop where
  order : b.start ≤ b.finish
  size : b.finish < r.size
  loads : b.loads.length = data.numLoadDimensions
  trip : (r.node b.finish).trip ≤ (r.node b.start).trip + SRoute.one (r.node b.finish).isDepot

theorem IncBetween.new_eq (h : Sound data r) {pos : Nat} (hp : pos < r.size) :
    IncBetween.new data r pos = some (PyVRP.IncBetween.new data r pos)
    ∧ IncOk data r (PyVRP.IncBetween.new data r pos) := by
  have hb := at_eq h hp
  unfold «at» at hb
  have hg := good_between h r (Nat.le_refl pos) hp
  refine ⟨?_, Nat.le_refl _, hp, by simp [PyVRP.IncBetween.new], Nat.le_add_right _ _⟩
  unfold IncBetween.new
  rw [hb, Option.bind_eq_bind, Option.bind_some, ensure_true hg.duration, ensure_true]
  · rfl
  · exact List.all_eq_true.2 (fun dim hdim => hg.load dim (List.mem_range.1 hdim))

theorem IncBetween.next_eq (hco : CostOk data ce) (h : Sound data r) {b : IncBetween}
    (hb : IncOk data r b) (hn : (r.node b.finish).isDepot = false) :
    IncBetween.next data r b = some (b.next data r) ∧ IncOk data r (b.next data r) := by
  have hsz := h.size
  have hlt : b.finish + 1 < r.size := by
    have h1 := hb.size
    by_cases he : b.finish = r.size - 1
    · rw [he, h.last.1] at hn; cases hn
    · omega
  have ht := h.trip b.finish hlt
  have h1 := hb.trip
  rw [hn] at h1
  have h1' : (r.node b.finish).trip ≤ (r.node b.start).trip + 0 := h1
  have hm := (h.mono (a := b.start) (b := b.finish + 1) (by have := hb.order; omega) hlt).2.2.2.1
  have hg := good_between h r (Nat.le_refl (b.finish + 1)) hlt
  have hprof : profile data r < data.dists.length ∧ profile data r < data.durs.length :=
    (consistent hco).profile _ (SSol.vehicleType_mem data h.type)
  have hin := of_decide_eq_true hg.inside
  constructor
  · unfold IncBetween.next
    simp only [Option.bind_eq_bind]
    rw [minus_eq (by omega), Option.bind_some, ensure_true (by omega), Option.bind_some,
      h.node_eq hlt, Option.bind_some, h.node_eq (by have := hb.order; omega), Option.bind_some,
      minus_eq hm, Option.bind_some, ensure_true (by omega), Option.bind_some, at_eq h hlt,
      Option.bind_some, ensure_true, Option.bind_some, ensure_true hprof.2, Option.bind_some,
      ensure_true ⟨by rw [h.lengths.1]; exact hb.size, h.location hb.size, hin.1⟩, Option.bind_some,
      ensure_true hg.duration]
    · rfl
    · rw [hb.loads]
      exact List.all_eq_true.2 (fun dim hdim => hg.load dim (List.mem_range.1 hdim))
  · refine ⟨by have := hb.order; show b.start ≤ b.finish + 1; omega, hlt, ?_, ?_⟩
    · show ((List.range b.loads.length).map _).length = _
      rw [List.length_map, List.length_range, hb.loads]
    · show (r.node (b.finish + 1)).trip
        ≤ (r.node b.start).trip + SRoute.one (r.node (b.finish + 1)).isDepot
      omega

theorem IncBetween.seg_good (h : Sound data r) {b : IncBetween} (hb : IncOk data r b) :
    (IncBetween.seg data r b).Good data r ∧ (IncBetween.seg data r b).seg = b.seg data r := by
  have hg := good_between h r hb.order hb.size
  refine ⟨⟨hg.inside, hg.distance, by simp [IncBetween.seg], ?_, hg.reload⟩, rfl⟩
  intro dim hd
  exact decide_eq_true (by rw [hb.loads]; exact hd)

/-! ## Clients -/

section
variable (hco : CostOk data ce) (hdist : DistancesOk data) (h : SearchOk data plan s)

theorem spot_size (h : SearchOk data plan s) {node : Nat × Nat} (hn : AfterOk data plan node) :
    node.2 + 1 < (s.route node.1).size := by
  rw [holds_size h.clean.1 hn.1]
  have := hn.2
  omega

include hco hdist h

theorem insertCost_eq {c : Nat} (hc : c < data.numClients) {node : Nat × Nat}
    (hn : AfterOk data plan node) :
    insertCost data ce s c node = some (s.insertCost data ce c node) := by
  have hs := sound_route hco hdist h hn.1
  have hz := spot_size h hn
  obtain ⟨cs, e1, e2, e3, e4⟩ := clientSeg_eq (consistent hco) hc
  unfold insertCost SSol.insertCost
  simp only [Option.bind_eq_bind]
  rw [route_eq h hn.1, Option.bind_some, client_eq hc, Option.bind_some, before_eq hs (by omega),
    Option.bind_some, e1, Option.bind_some, after_eq hs hz, Option.bind_some]
  have := cost_eq hco hs true (-(data.client c).prize) (e := node.2) (by omega) [cs]
    (by intro x hx; rw [List.mem_singleton.1 hx]; exact e4 _) (ends_after hs hz)
    (c := cs) (by simp) e3
  rw [List.singleton_append] at this
  rw [this]
  simp only [List.map_cons, List.map_nil, e2]
  rfl

theorem clientNeighbours_eq {c : Nat} (hc : c < data.numClients) : ∀ (ns : List Activity),
    (∀ v ∈ ns, IsTask data v) → ∀ best : ClientSpot,
    clientNeighbours data ce s c ns best = some (s.clientNeighbours data ce c ns best)
  | [], _, _ => rfl
  | v :: rest, hv, best => by
    unfold clientNeighbours SSol.clientNeighbours
    simp only [Option.bind_eq_bind]
    rw [known_of (hv v (by simp)), Option.bind_some]
    have ih := clientNeighbours_eq hc rest (fun w hw => hv w (by simp [hw]))
    cases hp : s.place v with
    | none => exact ih best
    | some node =>
      dsimp only
      rw [insertCost_eq hco hdist h hc (SSol.place_afterOk h.clean.1 hp), Option.bind_some]
      exact ih _

theorem clientEmpty_eq {c : Nat} (hc : c < data.numClients) : ∀ (order : List (Nat × Nat)),
    (∀ p ∈ order, p.1 < data.numVehicleTypes ∧ p.2 = vehiclesBefore data p.1) → ∀ best : ClientSpot,
    clientEmpty data ce s c order best = some (s.clientEmpty data ce c order best)
  | [], _, _ => rfl
  | (t, off) :: rest, ho, best => by
    have hp := ho (t, off) (by simp)
    have ih := clientEmpty_eq hc rest (fun q hq => ho q (by simp [hq]))
    unfold clientEmpty SSol.clientEmpty
    simp only [Option.bind_eq_bind]
    rw [firstEmpty_eq hco hdist h hp.1 hp.2, Option.bind_some]
    cases hf : s.firstEmpty data t off with
    | none => exact ih best
    | some i =>
      have ha : AfterOk data plan (i, 0) := ⟨(SSol.firstEmpty_lt hp.1 hp.2 hf).1, Nat.zero_le _⟩
      dsimp only
      rw [insertCost_eq hco hdist h hc ha, Option.bind_some]
      split
      · rfl
      · exact ih best

theorem insertClient_eq (hnv : 0 < data.numVehicles) {space : SearchSpace} (hspace : SpaceOk data space)
    {c : Nat} (hc : c < data.numClients) (required : Bool) :
    insertClient data ce space s c required = some (s.insertClient data ce space c required) := by
  obtain ⟨ns, hns, hnt⟩ := hspace.neighbours ⟨.client, c⟩ (mem_allTasks_client hc)
  have h0 : AfterOk data plan (0, 0) := ⟨hnv, Nat.zero_le _⟩
  unfold insertClient SSol.insertClient
  simp only [Option.bind_eq_bind]
  rw [known_of (a := ⟨.client, c⟩) ⟨by simp, hc⟩, Option.bind_some, route_eq h hnv, Option.bind_some,
    (sound_route hco hdist h hnv).node_eq (by have := (sound_route hco hdist h hnv).size; omega),
    Option.bind_some, insertCost_eq hco hdist h hc h0, Option.bind_some, hns]
  dsimp only
  rw [clientNeighbours_eq hco hdist h hc _ hnt, Option.bind_some,
    clientEmpty_eq hco hdist h hc _ hspace.types, Option.bind_some]
  generalize hbest : s.clientEmpty data ce c space.vehTypeOrder
    (s.clientNeighbours data ce c ns ⟨(0, 0), s.insertCost data ce c (0, 0)⟩) = best
  have hb : AfterOk data plan best.node := by
    rw [← hbest]
    exact SSol.clientEmpty_ok ce c _ hspace.types _ (SSol.clientNeighbours_ok h.clean.1 ce c _ _ h0)
  split
  · rw [insertAt_eq h.clean.1 hb.1 (p := best.node.2 + 1) (by omega) (by have := hb.2; omega),
      Option.bind_some]
    generalize s.insertAt data best.node.1 (best.node.2 + 1) ⟨.client, c⟩ = x
    cases x <;> rfl
  · rfl

/-! ## Shipments -/

theorem shipmentDirect_eq {k : Nat} (hk : k < data.numShipments) {i pos : Nat}
    (hn : AfterOk data plan (i, pos)) :
    shipmentDirect data ce s k i pos = some (s.shipmentDirect data ce k i pos) := by
  have hs := sound_route hco hdist h (i := i) hn.1
  have hz : pos + 1 < (s.route i).size := spot_size h hn
  obtain ⟨cp, e1, e2, e3, e4⟩ := pickupSeg_eq (consistent hco) hk
  obtain ⟨cd, f1, f2, f3⟩ := deliverySeg_eq (consistent hco) hk
  unfold shipmentDirect SSol.shipmentDirect
  simp only [Option.bind_eq_bind]
  rw [route_eq h hn.1, Option.bind_some, shipment_eq hk, Option.bind_some, before_eq hs (by omega),
    Option.bind_some, e1, Option.bind_some, f1, Option.bind_some, after_eq hs hz, Option.bind_some,
    ← Option.bind_assoc]
  have := cost_eq hco hs true (-(data.shipment k).prize) (e := pos) (by omega) [cp, cd]
    (by
      intro x hx
      simp only [List.mem_cons, List.not_mem_nil, or_false] at hx
      rcases hx with rfl | rfl
      · exact e4 _
      · exact f3 _) (ends_after hs hz) (c := cp) (by simp) e3
  rw [List.cons_append, List.singleton_append] at this
  rw [this]
  simp only [List.map_cons, List.map_nil, e2, f2]
  rfl

theorem shipmentLater_eq {k : Nat} (hk : k < data.numShipments) {i pos : Nat}
    (hn : AfterOk data plan (i, pos)) : ∀ (nodes : List SNode) (next : Nat) (b : IncBetween)
    (best : ShipmentSpot), nodes = (s.route i).nodes.drop next → IncOk data (s.route i) b →
    b.finish = next →
    shipmentLater data ce s k i pos nodes next b best
      = some (s.shipmentLater data ce k i pos nodes next b best)
  | [], next, b, best, he, hb, hf => by
    have h1 := congrArg List.length he
    rw [List.length_nil, List.length_drop] at h1
    have h2 : b.finish < (s.route i).nodes.length := hb.size
    omega
  | n :: nodes, next, b, best, he, hb, hf => by
    have hs := sound_route hco hdist h (i := i) hn.1
    have hz : pos + 1 < (s.route i).size := spot_size h hn
    have hlt : next < (s.route i).nodes.length := by rw [← hf]; exact hb.size
    have hd := List.drop_eq_getElem_cons hlt
    rw [← he] at hd
    injection hd with hd1 hd2
    have hnode : (s.route i).node next = n := by
      unfold SRoute.node
      rw [List.getD_eq_getElem?_getD, List.getElem?_eq_getElem hlt, ← hd1]; rfl
    unfold shipmentLater SSol.shipmentLater
    by_cases hc : n.isDepot = true
    · rw [if_pos hc, if_pos hc]; rfl
    · rw [if_neg hc, if_neg hc]
      have hnd : ((s.route i).node b.finish).isDepot = false := by
        rw [hf, hnode]; simpa using hc
      obtain ⟨g1, g2⟩ := IncBetween.next_eq hco hs hb hnd
      have hl : next + 1 < (s.route i).size := by rw [← hf]; exact g2.size
      obtain ⟨cp, e1, e2, e3, e4⟩ := pickupSeg_eq (consistent hco) hk
      obtain ⟨cd, f1, f2, f3⟩ := deliverySeg_eq (consistent hco) hk
      obtain ⟨k1, k2⟩ := IncBetween.seg_good hs hb
      simp only [Option.bind_eq_bind]
      rw [route_eq h hn.1, Option.bind_some, shipment_eq hk, Option.bind_some,
        before_eq hs (by omega), Option.bind_some, e1, Option.bind_some, f1, Option.bind_some,
        after_eq hs hl, Option.bind_some, ← Option.bind_assoc]
      have := cost_eq hco hs true (-(data.shipment k).prize) (e := pos) (by omega)
        [cp, IncBetween.seg data (s.route i) b, cd]
        (by
          intro x hx
          simp only [List.mem_cons, List.not_mem_nil, or_false] at hx
          rcases hx with rfl | rfl | rfl
          · exact e4 _
          · exact k1
          · exact f3 _) (ends_after hs hl) (c := cp) (by simp) e3
      simp only [List.cons_append, List.nil_append] at this
      rw [this, Option.bind_some, g1, Option.bind_some]
      simp only [List.map_cons, List.map_nil, e2, f2, k2]
      exact shipmentLater_eq hk hn nodes (next + 1) _ _ hd2 g2 (by show b.finish + 1 = _; rw [hf])

theorem shipmentAfter_eq {k : Nat} (hk : k < data.numShipments) {i pos : Nat}
    (hn : AfterOk data plan (i, pos)) (best : ShipmentSpot) :
    shipmentAfter data ce s k i pos best = some (s.shipmentAfter data ce k i pos best) := by
  have hs := sound_route hco hdist h (i := i) hn.1
  have hz : pos + 1 < (s.route i).size := spot_size h hn
  obtain ⟨g1, g2⟩ := IncBetween.new_eq hs hz
  unfold shipmentAfter SSol.shipmentAfter
  simp only [Option.bind_eq_bind]
  rw [route_eq h hn.1, Option.bind_some, hs.node_eq (by omega), Option.bind_some,
    shipmentDirect_eq hco hdist h hk hn, Option.bind_some, g1, Option.bind_some]
  exact shipmentLater_eq hco hdist h hk hn _ _ _ _ rfl g2 rfl

theorem shipmentNeighbours_eq {k : Nat} (hk : k < data.numShipments) : ∀ (ns : List Activity),
    (∀ v ∈ ns, IsTask data v) → ∀ best : ShipmentSpot,
    shipmentNeighbours data ce s k ns best = some (s.shipmentNeighbours data ce k ns best)
  | [], _, _ => rfl
  | v :: rest, hv, best => by
    unfold shipmentNeighbours SSol.shipmentNeighbours
    simp only [Option.bind_eq_bind]
    rw [known_of (hv v (by simp)), Option.bind_some]
    have ih := shipmentNeighbours_eq hk rest (fun w hw => hv w (by simp [hw]))
    cases hp : s.place v with
    | none => exact ih best
    | some node =>
      obtain ⟨i, p⟩ := node
      have ha := SSol.place_afterOk h.clean.1 hp
      have h1 := (placed h hp).pos
      dsimp only
      rw [minus_eq (show 1 ≤ p from h1), Option.bind_some,
        shipmentAfter_eq hco hdist h hk (i := i) (pos := p - 1)
          ⟨ha.1, Nat.le_trans (Nat.sub_le _ _) ha.2⟩, Option.bind_some,
        shipmentAfter_eq hco hdist h hk ha, Option.bind_some]
      exact ih _

theorem shipmentEmpty_eq {k : Nat} (hk : k < data.numShipments) : ∀ (order : List (Nat × Nat)),
    (∀ p ∈ order, p.1 < data.numVehicleTypes ∧ p.2 = vehiclesBefore data p.1) → ∀ best : ShipmentSpot,
    shipmentEmpty data ce s k order best = some (s.shipmentEmpty data ce k order best)
  | [], _, _ => rfl
  | (t, off) :: rest, ho, best => by
    have hp := ho (t, off) (by simp)
    have ih := shipmentEmpty_eq hk rest (fun q hq => ho q (by simp [hq]))
    unfold shipmentEmpty SSol.shipmentEmpty
    simp only [Option.bind_eq_bind]
    rw [firstEmpty_eq hco hdist h hp.1 hp.2, Option.bind_some]
    cases hf : s.firstEmpty data t off with
    | none => exact ih best
    | some i =>
      have ha : AfterOk data plan (i, 0) := ⟨(SSol.firstEmpty_lt hp.1 hp.2 hf).1, Nat.zero_le _⟩
      dsimp only
      rw [shipmentDirect_eq hco hdist h hk ha, Option.bind_some]
      split
      · rfl
      · exact ih best

theorem insertShipment_eq (hnv : 0 < data.numVehicles) {space : SearchSpace}
    (hspace : SpaceOk data space) {k : Nat} (hk : k < data.numShipments)
    (hn : ∀ j, Phase.Free k (plan.getD j [])) (required : Bool) :
    insertShipment data ce space s k required = some (s.insertShipment data ce space k required) := by
  obtain ⟨ns, hns, hnt⟩ := hspace.neighbours ⟨.pickup, k⟩ (mem_allTasks_pickup hk)
  have hp1 : s.place ⟨.pickup, k⟩ = none :=
    h.clean.1.place_none (fun j hj => hn j _ hj (.inl rfl))
  have hp2 : s.place ⟨.delivery, k⟩ = none :=
    h.clean.1.place_none (fun j hj => hn j _ hj (.inr rfl))
  unfold insertShipment SSol.insertShipment
  simp only [Option.bind_eq_bind]
  rw [known_of (a := ⟨.pickup, k⟩) ⟨by simp, hk⟩, Option.bind_some, ensure_true ⟨hp1, hp2⟩, Option.bind_some,
    shipment_eq hk, Option.bind_some, route_eq h hnv, Option.bind_some,
    (sound_route hco hdist h hnv).node_eq (by have := (sound_route hco hdist h hnv).size; omega),
    Option.bind_some, hns]
  dsimp only
  rw [shipmentNeighbours_eq hco hdist h hk _ hnt, Option.bind_some,
    shipmentEmpty_eq hco hdist h hk _ hspace.types, Option.bind_some]
  generalize hbest : s.shipmentEmpty data ce k space.vehTypeOrder
    (s.shipmentNeighbours data ce k ns ⟨0, 0, 1, MAX⟩) = best
  have hb : SSol.ShipOk data plan best := by
    rw [← hbest]
    refine SSol.shipmentEmpty_ok ce k _ hspace.types _ (SSol.shipmentNeighbours_ok h.clean.1 ce k _ _ ?_)
    exact ⟨hnv, [], [], plan.getD 0 [], rfl, fun a ha => (by cases ha), rfl, rfl⟩
  split
  · obtain ⟨h1, xs, ms, ys, he, hm, hp, hd⟩ := hb
    have hl : (plan.getD best.route []).length = xs.length + ms.length + ys.length := by
      rw [he]; simp; omega
    have hro := h.routes best.route h1
    have hfree := hn best.route
    rw [he] at hro hfree
    have htr := (hro.insert_shipment hk hfree hm).trips
    obtain ⟨s1, k1, k2⟩ := (h.clean.but (fun _ => False)).insert h1 he (a := deliveryOf k)
      (.inr ⟨⟨by simp [deliveryOf], hk⟩, fun j hj => hn j _ hj (.inr rfl)⟩) (by
        rw [depotVisits_mid _ _ (by simp [pickupOf])] at htr
        simpa using htr)
    have hdp : best.deliveryPos = (xs ++ ms).length + 1 := by rw [hd]; simp
    rw [ensure_true (by omega), Option.bind_some,
      insertAt_eq h.clean.1 h1 (by omega) (by omega), Option.bind_some]
    rw [show (⟨.delivery, k⟩ : Activity) = deliveryOf k from rfl, hdp, k1]
    dsimp only
    rw [insertAt_eq k2.1 h1 (p := best.pickupAfter + 1) (by omega), Option.bind_some]
    · show _ = some (match s1.insertAt data best.route (best.pickupAfter + 1) ⟨.pickup, k⟩ with
        | .error e => Except.error e
        | .ok s => Except.ok (s, true))
      generalize s1.insertAt data best.route (best.pickupAfter + 1) ⟨.pickup, k⟩ = x
      cases x <;> rfl
    · rw [getD_set_self (by rw [h.clean.1.length]; exact h1)]
      simp
      omega
  · rfl

end
end PyVRP.Checked
