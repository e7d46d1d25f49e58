import Verif.Lemmas.InsertBest
import Verif.Props.C49
/-!
# C50: clients and shipments are inserted where that is cheapest
-/
namespace PyVRP
open Spec

/-! ## Specification -/

namespace Spec

/-- Client `c` is inserted after one of `ns`, or at the start of the first vehicle's route. -/
inductive ClientNear (ns : List Activity) (plan : List (List Activity)) (c : Nat) :
    List (List Activity) → Prop
  | neighbour {v : Activity} {i : Nat} {xs ys : List Activity} (hv : v ∈ ns)
      (h : plan.getD i [] = xs ++ v :: ys) :
      ClientNear ns plan c (plan.set i (xs ++ v :: ⟨.client, c⟩ :: ys))
  | first : ClientNear ns plan c (plan.set 0 (⟨.client, c⟩ :: plan.getD 0 []))

/-- Client `c` is inserted into the first unused vehicle of some type. -/
inductive ClientUnused (data : ProblemData) (plan : List (List Activity)) (c : Nat) :
    List (List Activity) → Prop
  | mk {t j : Nat} (ht : t < data.numVehicleTypes) (h : FirstUnused data plan t j) :
      ClientUnused data plan c (plan.set j (⟨.client, c⟩ :: plan.getD j []))

/-- Shipment `k` is inserted with its pickup directly after or before one of `ns`, and its delivery
anywhere later on the same trip. -/
inductive ShipmentNear (ns : List Activity) (plan : List (List Activity)) (k : Nat) :
    List (List Activity) → Prop
  | mk {v : Activity} {i : Nat} {xs ms ys : List Activity} (hv : v ∈ ns)
      (h : plan.getD i [] = xs ++ ms ++ ys) (hm : ∀ a ∈ ms, a.type ≠ .depot)
      (hnear : xs.getLast? = some v ∨ (ms ++ ys).head? = some v) :
      ShipmentNear ns plan k (plan.set i (xs ++ ⟨.pickup, k⟩ :: (ms ++ ⟨.delivery, k⟩ :: ys)))

/-- Shipment `k` is inserted at the start of a vehicle's route. -/
def shipmentFirst (plan : List (List Activity)) (k j : Nat) : List (List Activity) :=
  plan.set j (⟨.pickup, k⟩ :: ⟨.delivery, k⟩ :: plan.getD j [])

/-- Shipment `k` is inserted into the first unused vehicle of some type. -/
inductive ShipmentUnused (data : ProblemData) (plan : List (List Activity)) (k : Nat) :
    List (List Activity) → Prop
  | mk {t j : Nat} (ht : t < data.numVehicleTypes) (h : FirstUnused data plan t j) :
      ShipmentUnused data plan k (shipmentFirst plan k j)

/-- All plans that an insertion may lead to cost at least `bound`. -/
def AllCost (data : ProblemData) (ce : CostEvaluator) (insertion : List (List Activity) → Prop) (bound : Int) :
    Prop :=
  ∀ plan' s', insertion plan' → SearchState data plan' s' → bound ≤ ce.penalisedCostSSol data s'

end Spec

/-! ## Lemmas -/

section
variable {data : ProblemData} {ce : CostEvaluator} {plan : List (List Activity)} {s : SSol}

theorem SearchOk.unused_of (h : SearchOk data plan s) {t j : Nat} (ht : t < data.numVehicleTypes)
    (hf : s.firstEmpty data t (vehiclesBefore data t) = some j) :
    FirstUnused data plan t j ∧ j < data.numVehicles := by
  have hj := SSol.firstEmpty_lt ht rfl hf
  unfold SSol.firstEmpty at hf
  rw [List.find?_range'_eq_some] at hf
  obtain ⟨h1, h2, h3⟩ := hf
  rw [List.mem_range'_1] at h2
  refine ⟨⟨h2.1, h2.2, (h.empty_iff hj.1).1 h1, fun k hk1 hk2 => ?_⟩, hj.1⟩
  have h4 := h3 k hk1 hk2
  have hk : k < data.numVehicles := by omega
  by_contra hno
  have : (s.route k).empty = true := (h.empty_iff hk).2 (fun a ha => by
    by_contra hty
    exact hno ⟨a, ha, hty⟩)
  rw [this] at h4
  cases h4

end

/-! ## Theorems -/

/-- **C50, partial.** Inserting a client that is not visited never fails. It may go after one of its
neighbours that are visited, at the start of the first vehicle's route, or into a vehicle that is not used.

- If it is not inserted then nothing changes, it was not required, and no insertion of the first two kinds
  lowers the cost. None of the third kind does either, unless there is one of those that does not but is
  cheaper than all of the first two kinds.
- If it is inserted then it is in one of these places, nothing else changes, and the cost is lower if it
  was not required. No insertion of the first two kinds is cheaper. None of the third kind is either,
  unless a vehicle that was not used is now.

Partial: only some of the unused vehicles may be tried, see `C50_negation`. The places are those above,
and routes must be evaluated exactly, see `Moderate`. -/
theorem C50_client_partial (data : ProblemData) (ce : CostEvaluator) (hc : CostOk data ce) (B : Nat)
    (hB : Moderate data B) (hrel : ∀ v ∈ data.vehicleTypes, v.maxReloads ≤ SIZE_MAX)
    (plan : List (List Activity)) (s : SSol) (hs : SearchState data plan s)
    (space : SearchSpace) (marks : Activity → Prop) (neighbours : Neighbours)
    (hspace : SpaceHistory data space marks neighbours) (hns : CompleteNeighbours data neighbours)
    (c : Nat) (hcl : c < data.numClients) (hn : ∀ acts ∈ plan, ⟨.client, c⟩ ∉ acts)
    (ns : List Activity) (hnb : space.neighboursOf ⟨.client, c⟩ = .ok ns) (required : Bool) :
    ∃ s' inserted, s.insertClient data ce space c required = .ok (s', inserted)
      ∧ (inserted = false → s' = s ∧ required = false
        ∧ AllCost data ce (ClientNear ns plan c) (ce.penalisedCostSSol data s)
        ∧ (AllCost data ce (ClientUnused data plan c) (ce.penalisedCostSSol data s)
          ∨ ∃ plan1 s1, ClientUnused data plan c plan1 ∧ SearchState data plan1 s1
            ∧ ce.penalisedCostSSol data s ≤ ce.penalisedCostSSol data s1
            ∧ AllCost data ce (ClientNear ns plan c) (ce.penalisedCostSSol data s1 + 1)))
      ∧ (inserted = true → ∃ plan' i, SearchState data plan' (s'.updateRoute data i)
        ∧ (required = false →
          ce.penalisedCostSSol data (s'.updateRoute data i) < ce.penalisedCostSSol data s)
        ∧ ((ClientNear ns plan c plan'
            ∧ AllCost data ce (ClientNear ns plan c) (ce.penalisedCostSSol data (s'.updateRoute data i))
            ∧ AllCost data ce (ClientUnused data plan c)
              (ce.penalisedCostSSol data (s'.updateRoute data i)))
          ∨ (ClientUnused data plan c plan'
            ∧ AllCost data ce (ClientNear ns plan c)
              (ce.penalisedCostSSol data (s'.updateRoute data i) + 1)))) := by
  have he := hB.exact hc
  have h := hs.ok
  have hso := hspace.ok hns
  have hnv := hc.good.hasVehicle
  have hty : ∀ v ∈ ns, v.type ≠ .depot := by
    obtain ⟨ns', h1, h2⟩ := hso.neighbours ⟨.client, c⟩ (mem_allTasks_client hcl)
    rw [hnb] at h1
    injection h1 with h1
    subst h1
    exact fun v hv => (h2 v hv).1
  have horder := (C43_orders data space marks neighbours hspace).2
  have hn' : ¬ Visited plan ⟨.client, c⟩ := by
    rintro ⟨i, hi⟩
    have hil : i < plan.length := h.clean.1.lt_length (h.clean.1.lt_of_mem hi)
    exact hn _ (getD_mem _ _ _ hil) hi
  -- the costs
  have hcost : ∀ {i xs ys}, i < data.numVehicles → plan.getD i [] = xs ++ ys → ∀ {s2},
      SearchState data (plan.set i (xs ++ ⟨.client, c⟩ :: ys)) s2 →
      s.insertCost data ce c (i, xs.length) = ce.penalisedCostSSol data s2 - ce.penalisedCostSSol data s := by
    intro i xs ys hi hsp s2 h2
    rw [planCost_eq h.clean, planCost_eq h2.clean]
    exact insertCost_eq hc h hi hsp hcl hn' (he.fitsAll (plan := _) trivial (Nat.le_succ _) h2.ok)
  have hins : ∀ {i xs ys}, i < data.numVehicles → plan.getD i [] = xs ++ ys →
      ∃ s', s.insertAt data i (xs.length + 1) ⟨.client, c⟩ = .ok s'
        ∧ SearchState data (plan.set i (xs ++ ⟨.client, c⟩ :: ys)) (s'.updateRoute data i) := by
    intro i xs ys hi hsp
    obtain ⟨s', h1, h2⟩ := SSol.insertAt_client h hi hsp hcl hn'
    exact ⟨s', h1, h2.state hrel⟩
  -- neighbours
  obtain ⟨n1, n2, n3⟩ := SSol.clientNeighbours_best (data := data) (ce := ce) (s := s) c ns
    ⟨(0, 0), s.insertCost data ce c (0, 0)⟩
  generalize hnear : s.clientNeighbours data ce c ns ⟨(0, 0), s.insertCost data ce c (0, 0)⟩ = near
    at n1 n2 n3
  have nearAll : AllCost data ce (ClientNear ns plan c) (near.cost + ce.penalisedCostSSol data s) := by
    intro plan2 s2 h1 h2
    cases h1 with
    | @neighbour v i xs ys hv hsp =>
      have hi := h.clean.1.lt_of_mem (i := i) (a := v) (by rw [hsp]; simp)
      have hpl := h.clean.1.place hi (hty v hv) hsp
      have := n2 v hv _ hpl
      have h3 := hcost hi (xs := xs ++ [v]) (ys := ys) (by rw [hsp]; simp) (s2 := s2) (by simpa using h2)
      rw [List.length_append, List.length_singleton] at h3
      omega
    | first =>
      have h3 := hcost hnv (xs := []) (ys := plan.getD 0 []) rfl h2
      dsimp only [List.length_nil] at h3
      dsimp only at n1
      omega
  have nearIs : ∃ i xs ys, i < data.numVehicles ∧ plan.getD i [] = xs ++ ys
      ∧ ClientNear ns plan c (plan.set i (xs ++ ⟨.client, c⟩ :: ys))
      ∧ near.node = (i, xs.length) ∧ near.cost = s.insertCost data ce c (i, xs.length) := by
    rcases n3 with rfl | ⟨v, hv, node, hp, rfl⟩
    · exact ⟨0, [], plan.getD 0 [], hnv, rfl, .first, rfl, rfl⟩
    · obtain ⟨i, p⟩ := node
      obtain ⟨hi, -, xs, ys, hsp, rfl⟩ := h.clean.1.place_some hp
      refine ⟨i, xs ++ [v], ys, hi, by rw [hsp]; simp, ?_, by simp, by simp⟩
      have := ClientNear.neighbour (c := c) hv hsp
      simpa using this
  -- unused vehicles
  unfold SSol.insertClient
  rw [hnb]
  dsimp only
  rw [hnear]
  rcases SSol.clientEmpty_best (data := data) (ce := ce) (s := s) c space.vehTypeOrder near with
    ⟨e1, e2⟩ | ⟨p, hp, i, e1, e2, e3⟩
  · rw [e1]
    have unusedAll : AllCost data ce (ClientUnused data plan c) (near.cost + ce.penalisedCostSSol data s) := by
      intro plan2 s2 h1 h2
      cases h1 with
      | @mk t j ht hj =>
        have hf := h.firstEmpty ht hj
        have := e2 (t, vehiclesBefore data t)
          (by rw [horder.mem_iff, List.mem_map]; exact ⟨t, List.mem_range.2 ht, rfl⟩) j hf
        have h3 := hcost (h.unused_of ht hf).2 (xs := []) (ys := plan.getD j []) rfl h2
        dsimp only [List.length_nil] at h3
        omega
    by_cases hcond : (required || decide (near.cost < 0)) = true
    · rw [if_pos hcond]
      obtain ⟨i, xs, ys, hi, hsp, hn1, hn2, hn3⟩ := nearIs
      obtain ⟨s', h1, h2⟩ := hins hi hsp
      rw [hn2]
      dsimp only
      rw [h1]
      have h3 := hcost hi hsp h2
      refine ⟨s', true, rfl, (by intro h; cases h), fun _ => ⟨_, i, h2, ?_, .inl ⟨hn1, ?_, ?_⟩⟩⟩
      · rintro rfl
        simp at hcond
        omega
      · intro plan2 s2 h4 h5
        have := nearAll plan2 s2 h4 h5
        omega
      · intro plan2 s2 h4 h5
        have := unusedAll plan2 s2 h4 h5
        omega
    · rw [if_neg hcond]
      simp only [Bool.or_eq_true, not_or, decide_eq_true_eq] at hcond
      refine ⟨s, false, rfl, fun _ => ⟨rfl, by simpa using hcond.1, ?_, .inl ?_⟩, (by intro h; cases h)⟩
      · intro plan2 s2 h4 h5
        have := nearAll plan2 s2 h4 h5
        omega
      · intro plan2 s2 h4 h5
        have := unusedAll plan2 s2 h4 h5
        omega
  · rw [e2]
    obtain ⟨t, off⟩ := p
    obtain ⟨ht, hoff⟩ := hso.types _ hp
    dsimp only at ht hoff e1
    subst hoff
    obtain ⟨hun, hi⟩ := h.unused_of ht e1
    obtain ⟨s', h1, h2⟩ := hins hi (xs := []) (ys := plan.getD i []) rfl
    have h3 := hcost hi (xs := []) (ys := plan.getD i []) rfl h2
    dsimp only [List.length_nil, List.nil_append, Nat.zero_add] at h1 h2 h3 ⊢
    by_cases hcond : (required || decide (s.insertCost data ce c (i, 0) < 0)) = true
    · rw [if_pos hcond, Nat.zero_add, h1]
      refine ⟨s', true, rfl, (by intro h; cases h), fun _ => ⟨_, i, h2, ?_, .inr ⟨⟨ht, hun⟩, ?_⟩⟩⟩
      · rintro rfl
        simp at hcond
        omega
      · intro plan2 s2 h4 h5
        have := nearAll plan2 s2 h4 h5
        omega
    · rw [if_neg hcond]
      simp only [Bool.or_eq_true, not_or, decide_eq_true_eq] at hcond
      refine ⟨s, false, rfl, fun _ => ⟨rfl, by simpa using hcond.1, ?_, .inr ⟨_, _, ⟨ht, hun⟩, h2, ?_, ?_⟩⟩,
        (by intro h; cases h)⟩
      · intro plan2 s2 h4 h5
        have := nearAll plan2 s2 h4 h5
        omega
      · omega
      · intro plan2 s2 h4 h5
        have := nearAll plan2 s2 h4 h5
        omega

/-- **C50, partial.** The same for a shipment. Its pickup may go directly before or after one of its
neighbours that are visited, and its delivery anywhere later on the same trip; or both go into a vehicle
that is not used. A required shipment is inserted at the start of the first vehicle's route if all of
these would add at least the largest number to the cost, in particular if there are none. Partial as
above. -/
theorem C50_shipment_partial (data : ProblemData) (ce : CostEvaluator) (hc : CostOk data ce) (B : Nat)
    (hB : Moderate data B) (hrel : ∀ v ∈ data.vehicleTypes, v.maxReloads ≤ SIZE_MAX)
    (plan : List (List Activity)) (s : SSol) (hs : SearchState data plan s)
    (space : SearchSpace) (marks : Activity → Prop) (neighbours : Neighbours)
    (hspace : SpaceHistory data space marks neighbours) (hns : CompleteNeighbours data neighbours)
    (k : Nat) (hk : k < data.numShipments) (hn : ∀ acts ∈ plan, ⟨.pickup, k⟩ ∉ acts)
    (ns : List Activity) (hnb : space.neighboursOf ⟨.pickup, k⟩ = .ok ns) (required : Bool) :
    ∃ s' inserted, s.insertShipment data ce space k required = .ok (s', inserted)
      ∧ (inserted = false → s' = s ∧ required = false
        ∧ AllCost data ce (ShipmentNear ns plan k) (ce.penalisedCostSSol data s)
        ∧ (AllCost data ce (ShipmentUnused data plan k) (ce.penalisedCostSSol data s)
          ∨ ∃ plan1 s1, ShipmentUnused data plan k plan1 ∧ SearchState data plan1 s1
            ∧ ce.penalisedCostSSol data s ≤ ce.penalisedCostSSol data s1
            ∧ AllCost data ce (ShipmentNear ns plan k) (ce.penalisedCostSSol data s1 + 1)))
      ∧ (inserted = true → ∃ plan' i, SearchState data plan' (s'.updateRoute data i)
        ∧ (required = false →
          ce.penalisedCostSSol data (s'.updateRoute data i) < ce.penalisedCostSSol data s)
        ∧ ((ShipmentNear ns plan k plan'
            ∧ AllCost data ce (ShipmentNear ns plan k) (ce.penalisedCostSSol data (s'.updateRoute data i))
            ∧ AllCost data ce (ShipmentUnused data plan k)
              (ce.penalisedCostSSol data (s'.updateRoute data i)))
          ∨ (ShipmentUnused data plan k plan'
            ∧ AllCost data ce (ShipmentNear ns plan k)
              (ce.penalisedCostSSol data (s'.updateRoute data i) + 1))
          ∨ (plan' = shipmentFirst plan k 0
            ∧ AllCost data ce (ShipmentNear ns plan k) (ce.penalisedCostSSol data s + MAX)
            ∧ AllCost data ce (ShipmentUnused data plan k) (ce.penalisedCostSSol data s + MAX)))) := by
  have he := hB.exact hc
  have h := hs.ok
  have hso := hspace.ok hns
  have hnv := hc.good.hasVehicle
  have hMAX : (0 : Int) ≤ MAX := by decide
  have hty : ∀ v ∈ ns, v.type ≠ .depot := by
    obtain ⟨ns', h1, h2⟩ := hso.neighbours ⟨.pickup, k⟩ (mem_allTasks_pickup hk)
    rw [hnb] at h1
    injection h1 with h1
    subst h1
    exact fun v hv => (h2 v hv).1
  have horder := (C43_orders data space marks neighbours hspace).2
  have hn' : ¬ Visited plan ⟨.pickup, k⟩ := by
    rintro ⟨i, hi⟩
    have hil : i < plan.length := h.clean.1.lt_length (h.clean.1.lt_of_mem hi)
    exact hn _ (getD_mem _ _ _ hil) hi
  -- the costs
  have hcost : ∀ {i xs ms ys}, i < data.numVehicles → plan.getD i [] = xs ++ ms ++ ys → Phase.NoDepot ms →
      ∀ {s2}, SearchState data (plan.set i (xs ++ ⟨.pickup, k⟩ :: (ms ++ ⟨.delivery, k⟩ :: ys))) s2 →
      s.shipmentCost data ce k i xs.length ms.length
        = ce.penalisedCostSSol data s2 - ce.penalisedCostSSol data s := by
    intro i xs ms ys hi hsp hm s2 h2
    rw [planCost_eq h.clean, planCost_eq h2.clean]
    exact SSol.shipmentCost_eq hc h hi hsp hm hk hn' (he.fitsAll (plan := _) trivial (Nat.le_succ _) h2.ok)
  have hins : ∀ {i xs ms ys}, i < data.numVehicles → plan.getD i [] = xs ++ ms ++ ys → Phase.NoDepot ms →
      ∃ s1 s', s.insertAt data i (xs.length + ms.length + 1) ⟨.delivery, k⟩ = .ok s1
        ∧ s1.insertAt data i (xs.length + 1) ⟨.pickup, k⟩ = .ok s'
        ∧ SearchState data (plan.set i (xs ++ ⟨.pickup, k⟩ :: (ms ++ ⟨.delivery, k⟩ :: ys)))
          (s'.updateRoute data i) := by
    intro i xs ms ys hi hsp hm
    obtain ⟨s1, s', h1, h2, h3⟩ := SSol.insertAt_shipment h hi hsp hm hk hn'
    exact ⟨s1, s', h1, h2, h3.state hrel⟩
  -- neighbours
  obtain ⟨n1, n2, n3⟩ := SSol.shipmentNeighbours_best hc h k ns hty ⟨0, 0, 1, MAX⟩
  generalize hnear : s.shipmentNeighbours data ce k ns ⟨0, 0, 1, MAX⟩ = near at n1 n2 n3
  have nearAll : AllCost data ce (ShipmentNear ns plan k) (near.cost + ce.penalisedCostSSol data s) := by
    intro plan2 s2 h1 h2
    cases h1 with
    | @mk v i xs ms ys hv hsp hm hvn =>
      have hi := h.clean.1.lt_of_mem (i := i) (a := v) (by
        rw [hsp, List.append_assoc, List.mem_append]
        rcases hvn with hvn | hvn
        · exact .inl (List.mem_of_getLast? hvn)
        · exact .inr (List.mem_of_head? hvn))
      have := n2 v hv i xs ms ys hi hsp hm hvn
      have h3 := hcost hi hsp hm h2
      omega
  have nearIs : near = ⟨0, 0, 1, MAX⟩ ∨ ∃ i xs ms ys, i < data.numVehicles ∧ plan.getD i [] = xs ++ ms ++ ys
      ∧ Phase.NoDepot ms
      ∧ ShipmentNear ns plan k (plan.set i (xs ++ ⟨.pickup, k⟩ :: (ms ++ ⟨.delivery, k⟩ :: ys)))
      ∧ near = ⟨i, xs.length, xs.length + ms.length + 1,
        s.shipmentCost data ce k i xs.length ms.length⟩ := by
    rcases n3 with n3 | ⟨v, hv, i, xs, ms, ys, hi, hsp, hm, hvn, n3⟩
    · exact .inl n3
    · exact .inr ⟨i, xs, ms, ys, hi, hsp, hm, .mk hv hsp hm hvn, n3⟩
  have hnil : Phase.NoDepot [] := fun a ha => (by cases ha)
  -- unused vehicles
  unfold SSol.insertShipment
  rw [hnb]
  dsimp only
  rw [hnear]
  rcases SSol.shipmentEmpty_best (data := data) (ce := ce) (s := s) k space.vehTypeOrder near with
    ⟨e1, e2⟩ | ⟨p, hp, i, e1, e2, e3⟩
  · rw [e1]
    have unusedAll : AllCost data ce (ShipmentUnused data plan k) (near.cost + ce.penalisedCostSSol data s) := by
      intro plan2 s2 h1 h2
      cases h1 with
      | @mk t j ht hj =>
        have hf := h.firstEmpty ht hj
        have := e2 (t, vehiclesBefore data t)
          (by rw [horder.mem_iff, List.mem_map]; exact ⟨t, List.mem_range.2 ht, rfl⟩) j hf
        have h3 := hcost (h.unused_of ht hf).2 (xs := []) (ms := []) (ys := plan.getD j []) rfl hnil h2
        dsimp only [List.length_nil] at h3
        omega
    by_cases hcond : (required || decide (near.cost < 0)) = true
    · rw [if_pos hcond]
      rcases nearIs with hfall | ⟨i, xs, ms, ys, hi, hsp, hm, hn1, hn2⟩
      · obtain ⟨s1, s', h0, h1, h2⟩ := hins hnv (xs := []) (ms := []) (ys := plan.getD 0 []) rfl hnil
        rw [hfall]
        dsimp only [List.length_nil, Nat.zero_add] at h0 h1 ⊢
        rw [h0]
        dsimp only
        rw [h1]
        rw [hfall] at nearAll unusedAll
        dsimp only at nearAll unusedAll
        refine ⟨s', true, rfl, (by intro h; cases h), fun _ => ⟨_, 0, h2, ?_, .inr (.inr ⟨rfl, ?_, ?_⟩)⟩⟩
        · rintro rfl
          rw [hfall] at hcond
          simp at hcond
          omega
        · rw [Int.add_comm]; exact nearAll
        · rw [Int.add_comm]; exact unusedAll
      · obtain ⟨s1, s', h0, h1, h2⟩ := hins hi hsp hm
        have h3 := hcost hi hsp hm h2
        rw [hn2] at nearAll unusedAll hcond ⊢
        dsimp only at nearAll unusedAll hcond ⊢
        rw [h0]
        dsimp only
        rw [h1]
        refine ⟨s', true, rfl, (by intro h; cases h), fun _ => ⟨_, i, h2, ?_, .inl ⟨hn1, ?_, ?_⟩⟩⟩
        · rintro rfl
          simp at hcond
          omega
        · intro plan2 s2 h4 h5
          have := nearAll plan2 s2 h4 h5
          omega
        · intro plan2 s2 h4 h5
          have := unusedAll plan2 s2 h4 h5
          omega
    · rw [if_neg hcond]
      simp only [Bool.or_eq_true, not_or, decide_eq_true_eq] at hcond
      refine ⟨s, false, rfl, fun _ => ⟨rfl, by simpa using hcond.1, ?_, .inl ?_⟩, (by intro h; cases h)⟩
      · intro plan2 s2 h4 h5
        have := nearAll plan2 s2 h4 h5
        omega
      · intro plan2 s2 h4 h5
        have := unusedAll plan2 s2 h4 h5
        omega
  · rw [e2]
    obtain ⟨t, off⟩ := p
    obtain ⟨ht, hoff⟩ := hso.types _ hp
    dsimp only at ht hoff e1
    subst hoff
    obtain ⟨hun, hi⟩ := h.unused_of ht e1
    obtain ⟨s1, s', h0, h1, h2⟩ := hins hi (xs := []) (ms := []) (ys := plan.getD i []) rfl hnil
    have h3 := hcost hi (xs := []) (ms := []) (ys := plan.getD i []) rfl hnil h2
    dsimp only [List.length_nil, Nat.zero_add] at h0 h1 h3 ⊢
    by_cases hcond : (required || decide (s.shipmentCost data ce k i 0 0 < 0)) = true
    · rw [if_pos hcond, h0]
      dsimp only
      rw [h1]
      refine ⟨s', true, rfl, (by intro h; cases h), fun _ => ⟨_, i, h2, ?_, .inr (.inl ⟨⟨ht, hun⟩, ?_⟩)⟩⟩
      · rintro rfl
        simp at hcond
        omega
      · intro plan2 s2 h4 h5
        have := nearAll plan2 s2 h4 h5
        omega
    · rw [if_neg hcond]
      simp only [Bool.or_eq_true, not_or, decide_eq_true_eq] at hcond
      refine ⟨s, false, rfl, fun _ => ⟨rfl, by simpa using hcond.1, ?_, .inr ⟨_, _, ⟨ht, hun⟩, h2, ?_, ?_⟩⟩,
        (by intro h; cases h)⟩
      · intro plan2 s2 h4 h5
        have := nearAll plan2 s2 h4 h5
        omega
      · omega
      · intro plan2 s2 h4 h5
        have := nearAll plan2 s2 h4 h5
        omega

/-! ## Counterexample -/

namespace Demo

/-- A vehicle of the example below. -/
def fleetVehicle (fixedCost : Int) : VehicleType :=
  { numAvailable := 1, startDepot := 0, endDepot := 0, capacity := [], twEarly := 0
    twLate := 100, shiftDuration := MAX, maxDistance := MAX, fixedCost := fixedCost
    unitDistanceCost := 1, unitDurationCost := 0, profile := 0, startLate := 100
    initialLoad := [], reloadDepots := [], maxReloads := 0, maxOvertime := 0
    unitOvertimeCost := 0, maxDuration := MAX, name := "" }

/-- Three vehicles that differ in their fixed costs, an optional client and an optional shipment. -/
def fleetData : ProblemData :=
  { locations := [⟨0, 0, ""⟩, ⟨1, 0, ""⟩]
    clients := [
      -- location, delivery, pickup, service, early, late, release, prize, required, group, name
      ⟨0, [], [], 0, 0, 100, 0, 10, false, none, ""⟩]
    depots := [⟨0, 0, 100, 0, ""⟩]
    vehicleTypes := [fleetVehicle 20, fleetVehicle 15, fleetVehicle 7]
    dists := [⟨2, 2, [0, 1, 1, 0]⟩]
    durs := [⟨2, 2, [0, 1, 1, 0]⟩]
    groups := []
    shipments := [⟨⟨0, 0, 100, 0⟩, ⟨1, 0, 100, 0⟩, [], 10, false, ""⟩] }

def fleetEvaluator : CostEvaluator := ⟨[], ratPenalty 6 1, ratPenalty 6 1⟩

theorem fleetGood : GoodData fleetData where
  made := by decide
  vehicles := by
    intro v hv
    have h : ∀ v ∈ fleetData.vehicleTypes, VehicleType.replace v {} = .ok v := by decide
    exact ⟨_, h v hv⟩
  times := by constructor <;> decide

theorem fleetCost : CostOk fleetData fleetEvaluator :=
  ⟨fleetGood, ⟨(by intro f hf; cases hf), ratPenalty_isPenalty 6 1 (by decide) (by decide),
    ratPenalty_isPenalty 6 1 (by decide) (by decide)⟩, rfl⟩

theorem fleetModerate : Moderate fleetData 100 where
  pos := by decide
  times := by
    intro a ha
    have h : ∀ a ∈ allActivities fleetData, earliest fleetData a ≤ (100 : Nat)
      ∧ released fleetData a ≤ (100 : Nat) ∧ serviceTime fleetData a ≤ (100 : Nat) := by decide
    exact h a (mem_allActivities ha)
  vehicles := by decide
  durations := by decide
  distances := by decide
  total := by decide
  releases := .inl (by decide)

/-- The search space in which each task has all others as neighbours. -/
def fleetSpace : SearchSpace :=
  { neighbours := everyOther fleetData, activityOrder := allTasks fleetData
    vehTypeOrder := [(0, 0), (1, 1), (2, 2)], promising := Bitset.new 2 }

theorem fleetHistory : SpaceHistory fleetData fleetSpace (fun _ => False) (everyOther fleetData) := .new rfl

theorem fleetNeighbours : CompleteNeighbours fleetData (everyOther fleetData) := by
  refine ⟨by decide, by decide, ?_⟩
  intro entry he b hb
  obtain ⟨a, -, rfl⟩ := List.mem_map.1 he
  exact allTasks_task (List.mem_filter.1 hb).1

/-- The vehicles with these routes. -/
def fleetState (routes : List Route) : SSol := loadRoutes fleetData routes

theorem fleetEmpty : SearchState fleetData [[], [], []] (fleetState []) :=
  loadRoutes_ok (plan := []) fleetGood.times (by decide) (by refine ⟨?_, ?_, ?_, ?_⟩ <;> decide) rfl

theorem fleetThird :
    SearchState fleetData [[], [], [client 0]] (fleetState [Route.build fleetData [client 0] 2]) :=
  loadRoutes_ok (plan := [(2, [client 0])]) fleetGood.times (by decide)
    (by refine ⟨?_, ?_, ?_, ?_⟩ <;> decide) rfl

end Demo

/-- **C50, negation.** An optional client may not be inserted although there is an unused vehicle with
which that lowers the cost, and a required one may be inserted into another vehicle than the cheapest one.
Once it has found an unused vehicle that is better than the places before, the search looks no
further. Here the client's prize is 10, and the three vehicles cost 20, 15 and 7. The search stops at
the second one. -/
theorem C50_negation :
    CostOk Demo.fleetData Demo.fleetEvaluator ∧ Moderate Demo.fleetData 100
    ∧ SpaceHistory Demo.fleetData Demo.fleetSpace (fun _ => False) (Demo.everyOther Demo.fleetData)
    ∧ CompleteNeighbours Demo.fleetData (Demo.everyOther Demo.fleetData)
    ∧ SearchState Demo.fleetData [[], [], []] (Demo.fleetState [])
    ∧ Demo.fleetEvaluator.penalisedCostSSol Demo.fleetData (Demo.fleetState []) = 20
    ∧ (Demo.fleetState []).insertClient Demo.fleetData Demo.fleetEvaluator Demo.fleetSpace 0 false
      = .ok (Demo.fleetState [], false)
    ∧ (∃ s', (Demo.fleetState []).insertClient Demo.fleetData Demo.fleetEvaluator Demo.fleetSpace 0 true
        = .ok (s', true)
      ∧ Demo.fleetEvaluator.penalisedCostSSol Demo.fleetData (s'.updateRoute Demo.fleetData 1) = 25)
    ∧ ∃ plan' s', ClientUnused Demo.fleetData [[], [], []] 0 plan' ∧ SearchState Demo.fleetData plan' s'
      ∧ Demo.fleetEvaluator.penalisedCostSSol Demo.fleetData s' = 17 := by
  refine ⟨Demo.fleetCost, Demo.fleetModerate, Demo.fleetHistory, Demo.fleetNeighbours, Demo.fleetEmpty,
    by decide +kernel, ?_, ?_, _, _, ?_, Demo.fleetThird, by decide +kernel⟩
  · have h : (match (Demo.fleetState []).insertClient Demo.fleetData Demo.fleetEvaluator Demo.fleetSpace 0 false with
      | .ok (_, b) => b
      | .error _ => true) = false := by decide +kernel
    obtain ⟨s', b, e, h1, -⟩ := C50_client_partial Demo.fleetData Demo.fleetEvaluator Demo.fleetCost 100
      Demo.fleetModerate (by decide) _ _ Demo.fleetEmpty _ _ _ Demo.fleetHistory Demo.fleetNeighbours 0
      (by decide) (by decide) _ rfl false
    rw [e] at h
    have hb : b = false := h
    rw [e, (h1 hb).1, hb]
  · have h : (match (Demo.fleetState []).insertClient Demo.fleetData Demo.fleetEvaluator Demo.fleetSpace 0 true with
      | .ok (s', b) => b && decide (Demo.fleetEvaluator.penalisedCostSSol Demo.fleetData
        (s'.updateRoute Demo.fleetData 1) = 25)
      | .error _ => false) = true := by decide +kernel
    cases e : (Demo.fleetState []).insertClient Demo.fleetData Demo.fleetEvaluator Demo.fleetSpace 0 true with
    | error err => rw [e] at h; cases h
    | ok p =>
      obtain ⟨s', b⟩ := p
      rw [e] at h
      simp only [Bool.and_eq_true, decide_eq_true_eq] at h
      exact ⟨s', by rw [h.1], h.2⟩
  · exact .mk (t := 2) (j := 2) (by decide)
      ⟨by decide, by decide, by decide, by intro k h1 h2; exact absurd (Nat.lt_of_le_of_lt h1 h2) (by decide)⟩

/-! ## Non-vacuity -/

namespace Demo

/-- The hypotheses of `C50_client_partial` hold for this instance; the client is inserted next to the
shipment's pickup. -/
example : ∃ s', (fleetState [Route.build fleetData [pickup 0, delivery 0] 0]).insertClient fleetData
      fleetEvaluator fleetSpace 0 false = .ok (s', true)
    ∧ ∃ plan' i, SearchState fleetData plan' (s'.updateRoute fleetData i)
      ∧ fleetEvaluator.penalisedCostSSol fleetData (s'.updateRoute fleetData i)
        < fleetEvaluator.penalisedCostSSol fleetData (fleetState [Route.build fleetData [pickup 0, delivery 0] 0])
    := by
  have h : (match (fleetState [Route.build fleetData [pickup 0, delivery 0] 0]).insertClient fleetData
      fleetEvaluator fleetSpace 0 false with
    | .ok (_, b) => b
    | .error _ => false) = true := by decide +kernel
  have hs : SearchState fleetData [[pickup 0, delivery 0], [], []]
      (fleetState [Route.build fleetData [pickup 0, delivery 0] 0]) :=
    loadRoutes_ok (plan := [(0, [pickup 0, delivery 0])]) fleetGood.times (by decide)
      (by refine ⟨?_, ?_, ?_, ?_⟩ <;> decide) rfl
  obtain ⟨s', b, e, -, h2⟩ := C50_client_partial fleetData fleetEvaluator fleetCost 100
      fleetModerate (by decide) _ _ hs _ _ _ fleetHistory fleetNeighbours 0 (by decide) (by decide) _ rfl false
  rw [e] at h
  have hb : b = true := h
  obtain ⟨plan', i, h3, h4, -⟩ := h2 hb
  exact ⟨s', by rw [e, hb], plan', i, h3, h4 rfl⟩

/-- The hypotheses of `C50_shipment_partial` hold for this instance; the shipment is inserted next to
the client. -/
example : ∃ s', (fleetState [Route.build fleetData [client 0] 2]).insertShipment fleetData
      fleetEvaluator fleetSpace 0 false = .ok (s', true)
    ∧ ∃ plan' i, SearchState fleetData plan' (s'.updateRoute fleetData i)
      ∧ fleetEvaluator.penalisedCostSSol fleetData (s'.updateRoute fleetData i)
        < fleetEvaluator.penalisedCostSSol fleetData (fleetState [Route.build fleetData [client 0] 2]) := by
  have h : (match (fleetState [Route.build fleetData [client 0] 2]).insertShipment fleetData
      fleetEvaluator fleetSpace 0 false with
    | .ok (_, b) => b
    | .error _ => false) = true := by decide +kernel
  obtain ⟨s', b, e, -, h2⟩ := C50_shipment_partial fleetData fleetEvaluator fleetCost 100
      fleetModerate (by decide) _ _ fleetThird _ _ _ fleetHistory fleetNeighbours 0 (by decide) (by decide)
      _ rfl false
  rw [e] at h
  have hb : b = true := h
  obtain ⟨plan', i, h3, h4, -⟩ := h2 hb
  exact ⟨s', by rw [e, hb], plan', i, h3, h4 rfl⟩

/-- There are three places for the shipment next to the client. -/
example : ShipmentNear [client 0] [[], [], [client 0]] 0 [[], [], [pickup 0, delivery 0, client 0]]
    ∧ ShipmentNear [client 0] [[], [], [client 0]] 0 [[], [], [pickup 0, client 0, delivery 0]]
    ∧ ShipmentNear [client 0] [[], [], [client 0]] 0 [[], [], [client 0, pickup 0, delivery 0]] :=
  ⟨.mk (i := 2) (xs := []) (ms := []) (ys := [client 0]) (v := client 0) (by simp) rfl (by simp) (.inr rfl),
    .mk (i := 2) (xs := []) (ms := [client 0]) (ys := []) (v := client 0) (by simp) rfl (by decide) (.inr rfl),
    .mk (i := 2) (xs := [client 0]) (ms := []) (ys := []) (v := client 0) (by simp) rfl (by simp) (.inl rfl)⟩

end Demo
end PyVRP
