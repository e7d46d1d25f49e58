import Verif.Model.Solve
import Verif.Lemmas.LocalResult
import Verif.Lemmas.FoundDepot
/-!
# Operators that do not support an instance
-/
namespace PyVRP
open Spec
open SSol (At RefOk)

variable {data : ProblemData} {ce : CostEvaluator} {plan : List (List Activity)} {s : SSol}

/-! ## What lacking support means -/

theorem of_any_false {α : Type} {p : α → Bool} {l : List α} (h : l.any p = false) {a : α} (ha : a ∈ l) :
    p a = false := by
  cases hp : p a with
  | false => rfl
  | true =>
    have : l.any p = true := List.any_eq_true.2 ⟨a, ha, hp⟩
    rw [h] at this
    cases this

theorem client_mem {c : Nat} (hc : c < data.numClients) : data.client c ∈ data.clients := by
  have hc' : c < data.clients.length := hc
  show data.clients.getD c _ ∈ data.clients
  rw [List.getD_eq_getElem?_getD, List.getElem?_eq_getElem hc']
  exact List.getElem_mem hc'

theorem shipment_mem {k : Nat} (hk : k < data.numShipments) : data.shipment k ∈ data.shipments := by
  have hk' : k < data.shipments.length := hk
  show data.shipments.getD k _ ∈ data.shipments
  rw [List.getD_eq_getElem?_getD, List.getElem?_eq_getElem hk']
  exact List.getElem_mem hk'

theorem shipment_required (h : data.hasOptionalShipment = false) {k : Nat} (hk : k < data.numShipments) :
    (data.shipment k).required = true := by
  have := of_any_false h (shipment_mem hk)
  simpa using this

/-- A client that no operator on optional clients applies to. -/
theorem client_required (hd : Consistent data) (h : data.hasOptionalClient = false) {c : Nat}
    (hc : c < data.numClients) :
    (data.client c).required = true ∨ ∃ g, (data.client c).group = some g ∧ (data.group g).required = true := by
  unfold ProblemData.hasOptionalClient at h
  rw [Bool.or_eq_false_iff] at h
  cases hg : (data.client c).group with
  | none =>
    have := of_any_false h.2 (client_mem hc)
    rw [hg] at this
    left
    simpa using this
  | some g =>
    right
    refine ⟨g, rfl, ?_⟩
    have := of_any_false h.1 (mem_group hd hc hg).2.2
    simpa using this

/-- Without reloading, no route visits a reload depot. -/
theorem noReload (h : data.mayReload = false) {v : VehicleType} (hv : v ∈ data.vehicleTypes) :
    v.maxTrips = 1 ∨ v.reloadDepots = [] := by
  have := of_any_false h hv
  simp only [Bool.and_eq_false_iff, Bool.not_eq_false', List.isEmpty_iff, bne_eq_false_iff_eq] at this
  rcases this with h | h
  · exact .inr h
  · left
    unfold VehicleType.maxTrips
    rw [h]
    split <;> rfl

theorem maxTrips_one (h : data.mayReload = false) {v : VehicleType} (hv : v ∈ data.vehicleTypes) :
    v.maxTrips = 1 := by
  rcases noReload h hv with h | h
  · exact h
  · unfold VehicleType.maxTrips; rw [if_pos h]

theorem vehicle_mem (data : ProblemData) {k : Nat} (hk : k < data.numVehicles) :
    data.vehicleType (vehTypeAt data k) ∈ data.vehicleTypes := by
  have h := vehTypeAt_lt data hk
  have h' : vehTypeAt data k < data.vehicleTypes.length := h
  show data.vehicleTypes.getD _ _ ∈ data.vehicleTypes
  rw [List.getD_eq_getElem?_getD, List.getElem?_eq_getElem h']
  exact List.getElem_mem h'

theorem SearchOk.noDepots (h : SearchOk data plan s) (hr : data.mayReload = false) {k : Nat}
    (hk : k < data.numVehicles) : depotVisits (plan.getD k []) = 0 := by
  have h1 := (h.routes k hk).trips
  rw [maxTrips_one hr (vehicle_mem data hk)] at h1
  omega

/-- A segment of complete shipments has an even number of nodes. -/
theorem Segment.even {acts xs seg ys : List Activity} {n : Nat} (h : Segment acts xs seg ys n)
    (honce : ∀ a : Activity, a.type ≠ .depot → acts.count a ≤ 1)
    (hno : ∀ a ∈ acts, a.type ≠ .client) : n % 2 = 0 := by
  have h1 := counts_of_closed h.inside (fun a ha => by
    have := honce a ha
    rw [h.split] at this
    simp only [List.count_append] at this
    omega)
  have h2 : seg.length = seg.countP (fun a => a.type = .pickup) + seg.countP (fun a => a.type = .delivery) := by
    have hnd := h.noDepot
    have hnc : ∀ a ∈ seg, a.type ≠ .client := fun a ha => hno a (h.sub.2.1 a ha)
    unfold Phase.NoDepot at hnd
    clear h1 h
    induction seg with
    | nil => rfl
    | cons a seg ih =>
      have i := ih (fun b hb => hnd b (by simp [hb])) (fun b hb => hnc b (by simp [hb]))
      have a1 := hnd a (by simp)
      have a2 := hnc a (by simp)
      rw [List.length_cons, List.countP_cons, List.countP_cons, i]
      cases ht : a.type <;> simp_all <;> omega
  rw [← h.length]
  omega

theorem SearchOk.noClients (h : SearchOk data plan s) (hn : data.numClients = 0) {k : Nat}
    (hk : k < data.numVehicles) : ∀ a ∈ plan.getD k [], a.type ≠ .client := by
  intro a ha ht
  have := (h.routes k hk).inRange a ha
  obtain ⟨ty, c⟩ := a
  cases ht
  have : c < data.numClients := this
  omega

/-! ## The operators -/

theorem place_visited (h : SearchOk data plan s) {a : Activity} (hp : s.place a = none)
    (ht : a.type ≠ .depot) : ¬ Visited plan a :=
  (LState.place_isNone h.clean.1 ht).1 (by rw [hp]; rfl)

/-- A part that ends with a pickup is not complete. -/
theorem not_closed_pickup {xs : List Activity} {u : Activity} (hu : u.type = .pickup) :
    ¬ Closed (xs ++ [u]) := by
  intro hc
  obtain ⟨ty, k⟩ := u
  cases hu
  have := hc k
  rw [Phase.run_append] at this
  generalize Phase.run k .waiting xs = ph at this
  cases ph <;> simp [Phase.run, Phase.step, Phase.Ok] at this

/-- The node that `find` gives. -/
theorem node_inRange (h : SearchOk data plan s) {v : NodeRef} (hv : RefOk data v) {j q : Nat}
    (hf : s.find v = some (j, q)) :
    ((s.route j).node q).activity.type = .depot ∨ Spec.InRange data ((s.route j).node q).activity := by
  obtain ⟨vs, ws, ⟨hj, he, hat⟩, rfl⟩ := h.clean.1.find_some hv hf
  rcases hat with ⟨-, rfl⟩ | ⟨a, vs', h1, -, rfl⟩
  · left; rw [h.route hj]; rfl
  · right
    have he' : plan.getD j [] = vs' ++ a :: ws := by rw [he]; simp
    rw [show (vs' ++ [a]).length = vs'.length + 1 by simp, h.route hj, he', SRoute.ofActs_inner]
    exact (h.routes j hj).inRange a (by rw [he']; simp)

theorem node_client_lt (h : SearchOk data plan s) {v : NodeRef} (hv : RefOk data v) {j q : Nat}
    (hf : s.find v = some (j, q)) (hc : ((s.route j).node q).activity.isClient = true) :
    ((s.route j).node q).activity.idx < data.numClients := by
  have := node_inRange h hv hf
  generalize ((s.route j).node q).activity = a at this hc ⊢
  obtain ⟨ty, k⟩ := a
  cases ty with
  | client =>
    rcases this with h | h
    · cases h
    · exact h
  | depot => cases hc
  | pickup => cases hc
  | delivery => cases hc

theorem node_shipment_lt (h : SearchOk data plan s) {v : NodeRef} (hv : RefOk data v) {j q : Nat}
    (hf : s.find v = some (j, q)) (hc : ((s.route j).node q).activity.isShipment = true) :
    ((s.route j).node q).activity.idx < data.numShipments := by
  have := node_inRange h hv hf
  generalize ((s.route j).node q).activity = a at this hc ⊢
  obtain ⟨ty, k⟩ := a
  cases ty with
  | client => cases hc
  | depot => cases hc
  | pickup =>
    rcases this with h | h
    · cases h
    · exact h
  | delivery =>
    rcases this with h | h
    · cases h
    · exact h

namespace UnaryOp

/-- **Unary operators.** -/
theorem unsupported (op : UnaryOp) (hd : Consistent data) (h : SearchOk data plan s)
    (hs : op.supports data = false) {u : Activity} (hu : u ∈ allTasks data) :
    (op.evaluate data ce s u).apply = false := by
  cases op with
  | removeAdjacentDepot =>
    show (RemoveAdjacentDepot.evaluate data ce s u).apply = false
    unfold RemoveAdjacentDepot.evaluate
    cases hpu : s.place u with
    | none => rfl
    | some ip =>
      obtain ⟨i, p⟩ := ip
      obtain ⟨hi, hut, xs, ys, he, rfl⟩ := h.clean.1.place_some hpu
      have hnd := h.noDepots hs hi
      have hnone : ∀ a ∈ plan.getD i [], a.type ≠ .depot := (noDepot_iff _).2 hnd
      have hprev : ((s.route i).node (xs.length + 1 - 1)).isReloadDepot = false := by
        rcases List.eq_nil_or_concat xs with rfl | ⟨xs', b, rfl⟩
        · rw [h.route hi]; rfl
        · rw [List.concat_eq_append] at *
          have hb := hnone b (by rw [he]; simp)
          rw [show (xs' ++ [b]).length + 1 - 1 = xs'.length + 1 by simp, h.route hi,
            show plan.getD i [] = xs' ++ b :: (u :: ys) by rw [he]; simp, SRoute.ofActs_inner]
          simp [SNode.isReloadDepot, SNode.isDepot, Activity.isDepot, hb]
      have hnext : ((s.route i).node (xs.length + 1 + 1)).isReloadDepot = false := by
        have he' : plan.getD i [] = (xs ++ [u]) ++ ys := by rw [he]; simp
        have := h.next_not_reload hi he' (fun a ha => hnone a (by
          rw [he']
          cases ys with
          | nil => cases ha
          | cons b ys => cases ha; simp))
        simpa using this
      dsimp only
      rw [hprev, hnext, if_neg (by simp), if_neg (by simp)]
      decide
  | removeOptionalClient =>
    show (RemoveOptionalClient.evaluate data ce s u).apply = false
    unfold RemoveOptionalClient.evaluate
    cases hpu : s.place u with
    | none => rfl
    | some ip =>
      dsimp only
      by_cases hc : u.isClient = true
      · have hlt : u.idx < data.numClients := by
          rcases BinaryOp.mem_allTasks hu with ⟨-, h⟩ | ⟨h, -⟩
          · exact h
          · unfold Activity.isClient at hc; rw [h] at hc; cases hc
        rw [if_pos]
        · rfl
        · rcases client_required hd hs hlt with h | ⟨g, h1, h2⟩
          · simp [h]
          · have : RemoveOptionalClient.groupRequired data u.idx = true := by
              unfold RemoveOptionalClient.groupRequired
              rw [h1]; exact h2
            simp [this]
      · rw [if_pos (by simp [hc])]; rfl
  | replaceGroup =>
    show (ReplaceGroup.evaluate data ce s u).apply = false
    unfold ReplaceGroup.evaluate
    by_cases hc : u.isClient = true
    · have hlt : u.idx < data.numClients := by
        rcases BinaryOp.mem_allTasks hu with ⟨-, h⟩ | ⟨h, -⟩
        · exact h
        · unfold Activity.isClient at hc; rw [h] at hc; cases hc
      split
      · rfl
      · split
        · rfl
        · rename_i g hg
          have := of_any_false hs (mem_group hd hlt hg).2.2
          cases this
    · rw [if_pos (by simp [hc])]; rfl
  | removeOptionalShipment =>
    show (RemoveOptionalShipment.evaluate data ce s u).apply = false
    unfold RemoveOptionalShipment.evaluate
    split
    · by_cases hc : u.isPickup = true
      · have hlt : u.idx < data.numShipments := by
          rcases BinaryOp.mem_allTasks hu with ⟨h, -⟩ | ⟨-, h⟩
          · unfold Activity.isPickup at hc; rw [h] at hc; cases hc
          · exact h
        rw [if_pos (by simp [shipment_required hs hlt])]; rfl
      · rw [if_pos (by simp [hc])]; rfl
    · rfl
  | relocatePickup =>
    show (RelocatePickup.evaluate data ce s u).apply = false
    unfold RelocatePickup.evaluate
    split
    · rw [if_pos]
      · rfl
      · rcases BinaryOp.mem_allTasks hu with ⟨h, -⟩ | ⟨-, h⟩
        · unfold Activity.isPickup; rw [h]; rfl
        · have : ¬ data.numShipments > 0 := of_decide_eq_false hs
          omega
    · rfl
  | relocateDelivery =>
    show (RelocateDelivery.evaluate data ce s u).apply = false
    unfold RelocateDelivery.evaluate
    split
    · rw [if_pos]
      · rfl
      · rcases BinaryOp.mem_allTasks hu with ⟨h, -⟩ | ⟨-, h⟩
        · unfold Activity.isPickup; rw [h]; rfl
        · have : ¬ data.numShipments > 0 := of_decide_eq_false hs
          omega
    · rfl

end UnaryOp

namespace BinaryOp

/-- The checks of `Relocate` and `Swap` on a segment of an odd number of nodes. -/
theorem odd_segment (h : SearchOk data plan s) (hn : data.numClients = 0) {i : Nat}
    (hi : i < data.numVehicles) {xs ys : List Activity} {a : Activity} (hat : a.type ≠ .depot)
    (he : plan.getD i [] = xs ++ a :: ys) {n : Nat} (h1 : n % 2 = 1) :
    ((s.route i).hasDepot (xs.length + 1) n || (s.route i).splitsShipment (xs.length + 1) n) = true := by
  cases hf : ((s.route i).hasDepot (xs.length + 1) n || (s.route i).splitsShipment (xs.length + 1) n) with
  | true => rfl
  | false =>
    rw [Bool.or_eq_false_iff, h.route hi, he] at hf
    have hc := h.closed hi
    have ho := h.once i
    rw [he] at hc ho
    obtain ⟨rest, zs, hseg⟩ := segment_of_flags (data := data) _ hat hc ho (by omega) hf.1 hf.2
    have hno := h.noClients hn hi
    rw [he] at hno
    have := hseg.even ho hno
    omega

/-- **Binary operators.** -/
theorem unsupported (op : BinaryOp) (hd : Consistent data) (h : SearchOk data plan s)
    (hcomp : CompletePlan data plan) (hs : op.supports data = false) {u : Activity}
    (hu : u ∈ allTasks data) {v : NodeRef} (hv : RefOk data v) (cache : Cache) :
    (op.evaluate data ce s cache u v).1.apply = false := by
  have client_lt : u.isClient = true → u.idx < data.numClients := by
    intro hc
    rcases BinaryOp.mem_allTasks hu with ⟨-, h⟩ | ⟨h, -⟩
    · exact h
    · unfold Activity.isClient at hc; rw [h] at hc; cases hc
  have pickup_lt : u.isPickup = true → u.idx < data.numShipments := by
    intro hc
    rcases BinaryOp.mem_allTasks hu with ⟨h, -⟩ | ⟨-, h⟩
    · unfold Activity.isPickup at hc; rw [h] at hc; cases hc
    · exact h
  cases op with
  | relocate n =>
    show (Relocate.evaluate n data ce s cache u v).1.apply = false
    simp only [supports, Bool.not_eq_false', Bool.and_eq_true, beq_iff_eq, decide_eq_true_eq] at hs
    obtain ⟨⟨hnc, -⟩, hodd⟩ := hs
    unfold Relocate.evaluate
    split
    · rename_i i p j q hpu hpv
      obtain ⟨hi, hut, xs, ys, he, rfl⟩ := h.clean.1.place_some hpu
      dsimp only
      rw [if_pos (odd_segment h hnc hi hut he hodd)]
      rfl
    · rfl
  | swap n m =>
    show (Swap.evaluate n m data ce s u v).apply = false
    simp only [supports, Bool.not_eq_false', Bool.and_eq_true, beq_iff_eq, decide_eq_true_eq,
      Bool.or_eq_true] at hs
    obtain ⟨⟨hnc, -⟩, hodd⟩ := hs
    unfold Swap.evaluate
    split
    · rename_i i p j q hpu hpv
      obtain ⟨hi, hut, xs, ys, he, rfl⟩ := h.clean.1.place_some hpu
      dsimp only
      rw [if_pos]
      · rfl
      · rcases hodd with hodd | hodd
        · rw [odd_segment h hnc hi hut he hodd]; simp
        · cases v with
          | start k =>
            cases hpv
            simp [SRoute.hasDepot]
          | task b =>
            obtain ⟨hj, hbt, vs, ws, he', rfl⟩ := h.clean.1.place_some (a := b) hpv
            have := odd_segment h hnc hj hbt he' hodd
            rw [Bool.or_assoc, this, Bool.or_true]
    · rfl
  | swapTails =>
    show (SwapTails.evaluate data ce s u v).apply = false
    simp only [supports, Bool.and_eq_false_iff, decide_eq_false_iff_not] at hs
    unfold SwapTails.evaluate
    split
    · rename_i i p j q hpu hpv
      obtain ⟨hi, hut, xs, ys, he, rfl⟩ := h.clean.1.place_some hpu
      have hj := (LState.find_le h.clean.1 hv hpv).1
      rcases hs with hs | hs
      · rw [if_pos (by omega)]; rfl
      · have hup : u.type = .pickup := by
          rcases BinaryOp.mem_allTasks hu with ⟨-, h⟩ | ⟨h, -⟩
          · omega
          · exact h
        have hsplit : SwapTails.splitsShipment (s.route i) (xs.length + 1) = true := by
          cases hf : SwapTails.splitsShipment (s.route i) (xs.length + 1) with
          | true => rfl
          | false =>
            have he' : plan.getD i [] = (xs ++ [u]) ++ ys := by rw [he]; simp
            unfold SwapTails.splitsShipment at hf
            have hc := h.closed hi
            have ho := h.once i
            rw [h.route hi, he', show xs.length + 1 = (xs ++ [u]).length by simp,
              SRoute.ofActs_numPickupsAt, SRoute.ofActs_numDeliveriesAt, bne_eq_false_iff_eq] at hf
            rw [he'] at hc ho
            have hx := closed_of_counts hc ho hf
            exact absurd hx (not_closed_pickup hup)
        split
        · rfl
        dsimp only
        split
        · rfl
        split
        · rfl
        rw [if_pos (by rw [hsplit]; rfl)]
        rfl
    · rfl
  | relocateWithDepot =>
    show (RelocateWithDepot.evaluate data ce s cache u v).1.apply = false
    unfold RelocateWithDepot.evaluate
    split
    · rename_i i p j q hpu hpv
      have hj := (LState.find_le h.clean.1 hv hpv).1
      dsimp only
      split
      · rfl
      rw [if_pos]
      · rfl
      · have hvt : (s.route j).vehicleType = vehTypeAt data j := by rw [h.route hj]; rfl
        rw [hvt, maxTrips_one hs (vehicle_mem data hj), h.route hj,
          (SRoute.ofActs_counts data _ _).2.2.2.1, h.noDepots hs hj]
    · rfl
  | relocateAlternative =>
    show (RelocateAlternative.evaluate data ce s cache u v).1.apply = false
    unfold RelocateAlternative.evaluate
    split
    · dsimp only
      split
      · rfl
      · rename_i hf
        split
        · rfl
        · rename_i g hg
          have hc : u.isClient = true := by
            simp only [Bool.or_eq_true, not_or, Bool.not_eq_true, Bool.not_eq_false'] at hf
            exact hf.1.1
          have := of_any_false hs (mem_group hd (client_lt hc) hg).2.2
          cases this
    · rfl
  | insertOptionalClient =>
    show (InsertOptionalClient.evaluate data ce s u v).apply = false
    unfold InsertOptionalClient.evaluate
    split
    · rename_i j q hpu hpv
      split
      · rfl
      · rename_i hc
        have hc : u.isClient = true := by simpa using hc
        have hlt := client_lt hc
        have hut : u.type ≠ .depot := by intro h; unfold Activity.isClient at hc; rw [h] at hc; cases hc
        rcases client_required hd hs hlt with h1 | ⟨g, h1, h2⟩
        · exfalso
          refine place_visited h hpu hut ?_
          have := hcomp.clients _ hlt h1
          obtain ⟨ty, c⟩ := u
          cases ty <;> first | exact this | cases hc
        · rw [if_pos]
          · rfl
          · unfold InsertOptionalClient.blocked
            rw [h1]
            simp [h2]
    · rfl
  | replaceOptionalClient =>
    show (ReplaceOptionalClient.evaluate data ce s u v).apply = false
    unfold ReplaceOptionalClient.evaluate
    split
    · rename_i j q hpu hpv
      dsimp only
      split
      · rfl
      · rename_i hf
        rw [if_pos]
        · rfl
        · have hvc : ((s.route j).node q).activity.isClient = true := by
            simp only [Bool.or_eq_true, not_or, Bool.not_eq_true, Bool.not_eq_false'] at hf
            exact hf.2
          have hlt := node_client_lt h hv hpv hvc
          have := of_any_false hs (client_mem hlt)
          simp only [Bool.and_eq_false_iff, Bool.not_eq_false'] at this
          rcases this with h | h
          · simp [h]
          · cases hg : (data.client ((s.route j).node q).activity.idx).group with
            | none => rw [hg] at h; cases h
            | some g => simp
    · rfl
  | insertOptionalShipment =>
    show (InsertOptionalShipment.evaluate data ce s u v).apply = false
    unfold InsertOptionalShipment.evaluate
    split
    · rename_i j q hpu hpv
      split
      · rfl
      · rename_i hc
        exfalso
        have hc : u.isPickup = true := by simpa using hc
        have hlt := pickup_lt hc
        have hut : u.type ≠ .depot := by intro h; unfold Activity.isPickup at hc; rw [h] at hc; cases hc
        refine place_visited h hpu hut ?_
        have := hcomp.shipments _ hlt (shipment_required hs hlt)
        obtain ⟨ty, c⟩ := u
        cases ty <;> first | exact this | cases hc
    · rfl
  | replaceOptionalShipment =>
    show (ReplaceOptionalShipment.evaluate data ce s u v).apply = false
    unfold ReplaceOptionalShipment.evaluate
    split
    · rename_i j q hpu hpv
      dsimp only
      split
      · rfl
      · rename_i hf
        rw [if_pos]
        · rfl
        · have hvc : ((s.route j).node q).activity.isShipment = true := by
            simp only [Bool.or_eq_true, not_or, Bool.not_eq_true, Bool.not_eq_false'] at hf
            exact hf.2
          exact shipment_required hs (node_shipment_lt h hv hpv hvc)
    · rfl
  | relocateShipment =>
    show (RelocateShipment.evaluate data ce s cache u v).1.apply = false
    simp only [supports, Bool.and_eq_false_iff, decide_eq_false_iff_not] at hs
    unfold RelocateShipment.evaluate
    split
    · rename_i i p j' d j q hpu hpd hpv
      have hi := (LState.place_le h.clean.1 hpu).1
      have hj := (LState.find_le h.clean.1 hv hpv).1
      rw [if_pos]
      · rfl
      · rcases hs with hs | hs
        · have : u.isPickup = false := by
            cases hc : u.isPickup with
            | false => rfl
            | true => have := pickup_lt hc; omega
          simp [this]
        · have : i = j := by omega
          simp [this]
    · rfl

end BinaryOp
