import Verif.Model.Neighbourhood
import Verif.Props.C43
import Verif.Props.C37
/-!
# C40: neighbourhoods
-/
namespace PyVRP
open Neighbourhood

/-! ## Specification -/

namespace Spec

/-- Where and when an activity takes place. -/
def spotOf (data : ProblemData) (a : Activity) : Spot :=
  match a.type with
  | .depot => default
  | .client => clientSpot (data.client a.idx)
  | .pickup => stepSpot (data.shipment a.idx).pickup
  | .delivery => stepSpot (data.shipment a.idx).delivery

/-- What stands for an activity with a neighbourhood: the client, or both steps of the shipment. -/
def spotsFor (data : ProblemData) (a : Activity) : List Spot :=
  match a.type with
  | .client => [spotOf data a]
  | .pickup => [spotOf data a, spotOf data ⟨.delivery, a.idx⟩]
  | _ => []

/-- The costs of all arcs that connect `a` to `b`: for each vehicle type, from each of `a`'s spots,
and also back when proximity is symmetric. -/
def arcCosts (fl : Rat → Rat) (data : ProblemData) (params : NeighbourhoodParams) (a b : Activity) :
    List Rat :=
  data.vehicleTypes.flatMap fun v => (spotsFor data a).flatMap fun s =>
    arcCost fl data params v s (spotOf data b) ::
      (if params.symmetricProximity then [arcCost fl data params v (spotOf data b) s] else [])

/-- Both clients are in the same group. -/
def SameGroup (data : ProblemData) (a b : Activity) : Prop :=
  a.type = .client ∧ b.type = .client ∧ ∃ g ∈ data.groups, a.idx ∈ g.clients ∧ b.idx ∈ g.clients

/-- `p` is how close `b` is to `a`: the cost of the cheapest arc. There is no useful arc between
members of a group. -/
def Closeness (fl : Rat → Rat) (data : ProblemData) (params : NeighbourhoodParams) (a b : Activity)
    (p : Rat) : Prop :=
  (SameGroup data a b ∧ p = doubleMax)
  ∨ (¬ SameGroup data a b ∧ p ≤ doubleMax ∧ (∀ c ∈ arcCosts fl data params a b, p ≤ c)
      ∧ (p = doubleMax ∨ p ∈ arcCosts fl data params a b))

/-- `b` may be a neighbour of `a`: a client, pickup or delivery other than `a`, and not the delivery
of the same shipment. -/
def MayNeighbour (data : ProblemData) (a b : Activity) : Prop :=
  IsTask data b ∧ b ≠ a ∧ ¬ (a.type = .pickup ∧ b = ⟨.delivery, a.idx⟩)

/-- Cost of an arc with exact arithmetic: distance and duration (travel, and waiting that cannot be
avoided), plus weighted waiting. Too late for sure: no such arc. -/
def exactArcCost (data : ProblemData) (params : NeighbourhoodParams) (v : VehicleType)
    (frm dest : Spot) : Option Rat :=
  let travel := data.dur v.profile frm.location dest.location
  let wait := max (dest.twEarly - (frm.twLate + frm.serviceDuration + travel)) 0
  if frm.twEarly + frm.serviceDuration + travel > dest.twLate then none
  else some ((v.unitDistanceCost * data.dist v.profile frm.location dest.location
    + v.unitDurationCost * (travel + wait) : Int) + params.weightWaitTime * (wait : Int))

end Spec
open Spec

/-! ## Proofs -/

namespace Neighbourhood

theorem Entry.lt_irrefl (a : Entry) : a.lt a = false := by
  cases a <;> simp [Entry.lt]

theorem Entry.le_trans {a b c : Entry} (h1 : b.lt a = false) (h2 : c.lt b = false) :
    c.lt a = false := by
  cases a <;> cases b <;> cases c <;> simp_all [Entry.lt]
  grind

theorem Entry.le_total (a b : Entry) : b.lt a = false ∨ a.lt b = false := by
  cases a <;> cases b <;> simp [Entry.lt]
  grind

theorem insertBy_perm {α : Type} (lt : α → α → Bool) (x : α) (l : List α) :
    (insertBy lt x l).Perm (x :: l) := by
  induction l with
  | nil => exact List.Perm.refl _
  | cons y ys ih =>
    unfold insertBy
    split
    · exact (ih.cons y).trans (List.Perm.swap x y ys)
    · exact List.Perm.refl _

theorem stableSort_perm {α : Type} (lt : α → α → Bool) (l : List α) :
    (stableSort lt l).Perm l := by
  induction l with
  | nil => exact List.Perm.refl _
  | cons x xs ih => exact (insertBy_perm lt x _).trans (ih.cons x)

theorem insertBy_sorted {α : Type} (f : α → Entry) (x : α) (l : List α)
    (h : l.Pairwise fun a b => (f b).lt (f a) = false) :
    (insertBy (fun a b => (f a).lt (f b)) x l).Pairwise fun a b => (f b).lt (f a) = false := by
  induction l with
  | nil => simp [insertBy]
  | cons y ys ih =>
    rw [List.pairwise_cons] at h
    unfold insertBy
    split
    · rename_i hlt
      rw [List.pairwise_cons]
      refine ⟨fun a ha => ?_, ih h.2⟩
      rcases List.mem_cons.1 ((insertBy_perm _ _ _).mem_iff.1 ha) with rfl | ha
      · rcases Entry.le_total (f y) (f a) with h' | h'
        · exact h'
        · rw [h'] at hlt; simp at hlt
      · exact h.1 a ha
    · rename_i hlt
      rw [List.pairwise_cons, List.pairwise_cons]
      have hxy : (f y).lt (f x) = false := by simpa using hlt
      refine ⟨fun a ha => ?_, h⟩
      rcases List.mem_cons.1 ha with rfl | ha
      · exact hxy
      · exact Entry.le_trans hxy (h.1 a ha)

theorem stableSort_sorted {α : Type} (f : α → Entry) (l : List α) :
    (stableSort (fun a b => (f a).lt (f b)) l).Pairwise fun a b => (f b).lt (f a) = false := by
  induction l with
  | nil => exact List.Pairwise.nil
  | cons x xs ih => exact insertBy_sorted f x _ ih

theorem indices_perm (fl : Rat → Rat) (data : ProblemData) (params : NeighbourhoodParams)
    (row : Nat) :
    (indices fl data params row).Perm
      (List.range (data.numClients + 2 * data.numShipments)) :=
  stableSort_perm _ _

theorem indices_sorted (fl : Rat → Rat) (data : ProblemData) (params : NeighbourhoodParams)
    (row : Nat) :
    (indices fl data params row).Pairwise fun a b =>
      (entry fl data params row b).lt (entry fl data params row a) = false :=
  stableSort_sorted _ _

/-- In a sorted list, infinite entries come last. -/
theorem take_finite {α : Type} (f : α → Entry) (l : List α)
    (hs : l.Pairwise fun a b => (f b).lt (f a) = false) (n : Nat)
    (hn : n ≤ l.countP fun a => decide (f a ≠ .inf)) :
    ∀ a ∈ l.take n, f a ≠ .inf := by
  induction l generalizing n with
  | nil => simp
  | cons x xs ih =>
    cases n with
    | zero => simp
    | succ n =>
      rw [List.pairwise_cons] at hs
      rw [List.countP_cons] at hn
      have hx : f x ≠ .inf := by
        intro hx
        have : xs.countP (fun a => decide (f a ≠ .inf)) = 0 := by
          rw [List.countP_eq_zero]
          intro a ha
          have := hs.1 a ha
          rw [hx] at this
          cases hfa : f a with
          | inf => simp
          | fin y => rw [hfa] at this; simp [Entry.lt] at this
        rw [this] at hn
        simp [hx] at hn
      intro a ha
      rw [List.take_succ_cons, List.mem_cons] at ha
      rcases ha with rfl | ha
      · exact hx
      · refine ih hs.2 n ?_ a ha
        simp [hx] at hn
        simpa using hn

theorem entry_eq_inf (fl : Rat → Rat) (data : ProblemData) (params : NeighbourhoodParams)
    (row col : Nat) :
    entry fl data params row col = .inf
      ↔ col = row ∨ (data.numClients ≤ row ∧ col = row + data.numShipments) := by
  unfold entry
  split
  · rename_i h; simp [h]
  · split
    · rename_i h; simp [h]
    · rename_i h1 h2
      have : ¬ (col = row ∨ (data.numClients ≤ row ∧ col = row + data.numShipments)) := by
        rintro (h | h)
        · exact h2 h
        · exact h1 h
      split <;> simp [this]

theorem count_range_le (n x : Nat) : (List.range n).countP (fun c => decide (c = x)) ≤ 1 := by
  have := List.nodup_iff_count.1 (List.nodup_range (n := n)) x
  unfold List.count at this
  have h : (List.range n).countP (fun c => decide (c = x)) = (List.range n).countP (· == x) := by
    congr 1
  omega

theorem countP_or_le {α : Type} (p q : α → Bool) (l : List α) :
    l.countP (fun a => p a || q a) ≤ l.countP p + l.countP q := by
  induction l with
  | nil => simp
  | cons a l ih =>
    simp only [List.countP_cons]
    cases p a <;> cases q a <;> simp <;> omega

/-- Enough finite entries in each row. -/
theorem finite_entries (fl : Rat → Rat) (data : ProblemData) (params : NeighbourhoodParams)
    (row : Nat) (hrow : row < data.numClients + data.numShipments) :
    numNeighbours data params
      ≤ (indices fl data params row).countP fun c =>
          decide (entry fl data params row c ≠ .inf) := by
  rw [(indices_perm fl data params row).countP_eq]
  have hl := List.length_eq_countP_add_countP
    (fun c => decide (entry fl data params row c ≠ .inf))
    (l := List.range (data.numClients + 2 * data.numShipments))
  rw [List.length_range] at hl
  have hle : (List.range (data.numClients + 2 * data.numShipments)).countP
      (fun c => decide (¬ decide (entry fl data params row c ≠ .inf) = true))
      ≤ if row < data.numClients then 1 else 2 := by
    split
    · rename_i h
      refine Nat.le_trans (Nat.le_of_eq ?_) (count_range_le
        (data.numClients + 2 * data.numShipments) row)
      congr 1
      funext c
      simp only [decide_eq_true_eq, decide_eq_decide, ne_eq, Classical.not_not, entry_eq_inf]
      omega
    · rename_i h
      refine Nat.le_trans (Nat.le_trans (Nat.le_of_eq ?_) (countP_or_le (fun c => decide (c = row))
        (fun c => decide (c = row + data.numShipments)) _)) (Nat.add_le_add
          (count_range_le (data.numClients + 2 * data.numShipments) row)
          (count_range_le (data.numClients + 2 * data.numShipments) (row + data.numShipments)))
      congr 1
      funext c
      rw [← Bool.decide_or]
      simp only [decide_eq_true_eq, decide_eq_decide, ne_eq, Classical.not_not, entry_eq_inf]
      omega
  unfold numNeighbours
  split at hle <;> omega

/-! ### Columns and activities -/

theorem columnActivity_inj (data : ProblemData) {i j : Nat}
    (h : columnActivity data i = columnActivity data j) : i = j := by
  unfold columnActivity at h
  split at h <;> split at h <;> (try split at h) <;> (try split at h) <;>
    simp only [Activity.mk.injEq, reduceCtorEq, false_and, true_and] at h <;> omega

theorem columnActivity_isTask (data : ProblemData) {i : Nat}
    (h : i < data.numClients + 2 * data.numShipments) : IsTask data (columnActivity data i) := by
  have hc : data.numClients = data.clients.length := rfl
  have hs : data.numShipments = data.shipments.length := rfl
  unfold columnActivity IsTask InRange
  split
  · simp; omega
  · split <;> simp <;> omega

/-- The column of an activity. -/
def columnOf (data : ProblemData) (a : Activity) : Nat :=
  match a.type with
  | .pickup => data.numClients + a.idx
  | .delivery => data.numClients + data.numShipments + a.idx
  | _ => a.idx

theorem columnOf_lt {data : ProblemData} {a : Activity} (h : IsTask data a) :
    columnOf data a < data.numClients + 2 * data.numShipments := by
  have hc : data.numClients = data.clients.length := rfl
  have hs : data.numShipments = data.shipments.length := rfl
  obtain ⟨h1, h2⟩ := h
  unfold columnOf
  unfold InRange at h2
  obtain ⟨ty, i⟩ := a
  cases ty <;> simp at * <;> omega

theorem columnActivity_columnOf {data : ProblemData} {a : Activity} (h : IsTask data a) :
    columnActivity data (columnOf data a) = a := by
  have hc : data.numClients = data.clients.length := rfl
  have hs : data.numShipments = data.shipments.length := rfl
  obtain ⟨h1, h2⟩ := h
  unfold columnOf
  unfold InRange at h2
  obtain ⟨ty, i⟩ := a
  unfold columnActivity
  cases ty <;> simp at *
  · intro h; omega
  · simp [hs, h2]
  · have e1 : ¬ data.numClients + data.numShipments + i < data.numClients := by omega
    have e2 : ¬ data.numClients + data.numShipments + i < data.numClients + data.numShipments := by
      omega
    rw [if_neg e1, if_neg e2]
    simp; omega

theorem columnSpot_columnOf {data : ProblemData} {a : Activity} (h : IsTask data a) :
    columnSpot data (columnOf data a) = spotOf data a := by
  have hc : data.numClients = data.clients.length := rfl
  have hs : data.numShipments = data.shipments.length := rfl
  obtain ⟨h1, h2⟩ := h
  unfold columnOf spotOf
  unfold InRange at h2
  obtain ⟨ty, i⟩ := a
  unfold columnSpot
  cases ty <;> simp at *
  · intro h; omega
  · rw [if_neg (by omega), if_pos (by omega)]
  · have e1 : ¬ data.numClients + data.numShipments + i < data.numClients := by omega
    have e2 : ¬ data.numClients + data.numShipments + i < data.numClients + data.numShipments := by
      omega
    have e3 : data.numClients + data.numShipments + i - data.numClients - data.numShipments = i := by
      omega
    rw [if_neg e1, if_neg e2, e3]

/-- The row of a task with a neighbourhood is its column. -/
theorem mem_computeNeighbours {fl : Rat → Rat} {data : ProblemData} {params : NeighbourhoodParams}
    {u : Activity} {l : List Activity} (h : (u, l) ∈ computeNeighbours fl data params) :
    (u.type = .client ∨ u.type = .pickup) ∧ IsTask data u
    ∧ columnOf data u < data.numClients + data.numShipments
    ∧ (data.numClients ≤ columnOf data u ↔ u.type = .pickup)
    ∧ l = neighbourhood fl data params (columnOf data u) := by
  have hc : data.numClients = data.clients.length := rfl
  have hs : data.numShipments = data.shipments.length := rfl
  unfold computeNeighbours at h
  rw [List.mem_append, List.mem_map, List.mem_map] at h
  rcases h with ⟨i, hi, he⟩ | ⟨i, hi, he⟩
  · rw [List.mem_range] at hi
    simp only [Prod.mk.injEq] at he
    obtain ⟨rfl, rfl⟩ := he
    refine ⟨.inl rfl, ⟨by simp, hi⟩, ?_, ?_, rfl⟩ <;> simp only [columnOf]
    · omega
    · simp; omega
  · rw [List.mem_range] at hi
    simp only [Prod.mk.injEq] at he
    obtain ⟨rfl, rfl⟩ := he
    refine ⟨.inr rfl, ⟨by simp, hi⟩, ?_, ?_, rfl⟩ <;> simp only [columnOf]
    · omega
    · simp

theorem mem_neighbourhood {fl : Rat → Rat} {data : ProblemData} {params : NeighbourhoodParams}
    {row : Nat} {v : Activity} (h : v ∈ neighbourhood fl data params row) :
    IsTask data v ∧ columnOf data v ∈ (indices fl data params row).take (numNeighbours data params) := by
  unfold neighbourhood at h
  obtain ⟨c, hc, rfl⟩ := List.mem_map.1 h
  have hlt : c < data.numClients + 2 * data.numShipments := by
    have := (indices_perm fl data params row).mem_iff.1 (List.mem_of_mem_take hc)
    exact List.mem_range.1 this
  have ht := columnActivity_isTask data hlt
  refine ⟨ht, ?_⟩
  have := columnActivity_inj data (columnActivity_columnOf ht)
  rwa [this]

/-! ### Proximity -/

theorem stdMin_le (a b : Rat) : stdMin a b ≤ a ∧ stdMin a b ≤ b := by
  unfold stdMin; split <;> constructor <;> grind

theorem stdMin_eq (a b : Rat) : stdMin a b = a ∨ stdMin a b = b := by
  unfold stdMin; split <;> simp

/-- The arcs of one vehicle type. -/
def arcsOf (fl : Rat → Rat) (data : ProblemData) (params : NeighbourhoodParams) (a b : Activity)
    (v : VehicleType) : List Rat :=
  (spotsFor data a).flatMap fun s =>
    arcCost fl data params v s (spotOf data b) ::
      (if params.symmetricProximity then [arcCost fl data params v (spotOf data b) s] else [])

theorem cost_spec (fl : Rat → Rat) (data : ProblemData) (params : NeighbourhoodParams)
    (v : VehicleType) (s t : Spot) :
    cost fl data params v s t ∈ arcCost fl data params v s t ::
      (if params.symmetricProximity then [arcCost fl data params v t s] else [])
    ∧ ∀ c ∈ arcCost fl data params v s t ::
      (if params.symmetricProximity then [arcCost fl data params v t s] else []),
      cost fl data params v s t ≤ c := by
  unfold cost
  split
  · have h1 := stdMin_le (arcCost fl data params v s t) (arcCost fl data params v t s)
    have h2 := stdMin_eq (arcCost fl data params v s t) (arcCost fl data params v t s)
    refine ⟨by simpa using h2, by simpa using h1⟩
  · simp

theorem update_spec (fl : Rat → Rat) (data : ProblemData) (params : NeighbourhoodParams)
    {a b : Activity} (ha : a.type = .client ∨ a.type = .pickup) (ha' : IsTask data a)
    (hb : IsTask data b) (v : VehicleType) (x : Rat) :
    let y := update fl data params v (columnOf data a) (columnOf data b) x
    y ≤ x ∧ (∀ c ∈ arcsOf fl data params a b v, y ≤ c)
      ∧ (y = x ∨ y ∈ arcsOf fl data params a b v) := by
  intro y
  have hy : y = update fl data params v (columnOf data a) (columnOf data b) x := rfl
  unfold update at hy
  simp only [columnSpot_columnOf hb] at hy
  obtain ⟨ty, i⟩ := a
  rcases ha with h | h <;> simp only at h <;> subst h
  · have hi : i < data.numClients := ha'.2
    simp only [columnOf, hi, if_true] at hy
    obtain ⟨hc1, hc2⟩ := cost_spec fl data params v (clientSpot (data.client i)) (spotOf data b)
    have h1 := stdMin_le (cost fl data params v (clientSpot (data.client i)) (spotOf data b)) x
    have h2 := stdMin_eq (cost fl data params v (clientSpot (data.client i)) (spotOf data b)) x
    rw [← hy] at h1 h2
    have harcs : arcsOf fl data params ⟨.client, i⟩ b v
        = arcCost fl data params v (clientSpot (data.client i)) (spotOf data b) ::
          (if params.symmetricProximity then
            [arcCost fl data params v (spotOf data b) (clientSpot (data.client i))] else []) := by
      simp [arcsOf, spotsFor, spotOf]
    rw [harcs]
    refine ⟨h1.2, fun c hc => Rat.le_trans h1.1 (hc2 c hc), ?_⟩
    rcases h2 with h2 | h2
    · right; rw [h2]; exact hc1
    · exact .inl h2
  · have hn : ¬ data.numClients + i < data.numClients := by omega
    have hi : data.numClients + i - data.numClients = i := by omega
    simp only [columnOf, hn, if_false, hi] at hy
    obtain ⟨hp1, hp2⟩ := cost_spec fl data params v (stepSpot (data.shipment i).pickup)
      (spotOf data b)
    obtain ⟨hd1, hd2⟩ := cost_spec fl data params v (stepSpot (data.shipment i).delivery)
      (spotOf data b)
    have h1 := stdMin_le (stdMin (cost fl data params v (stepSpot (data.shipment i).pickup)
      (spotOf data b)) (cost fl data params v (stepSpot (data.shipment i).delivery)
      (spotOf data b))) x
    have h2 := stdMin_eq (stdMin (cost fl data params v (stepSpot (data.shipment i).pickup)
      (spotOf data b)) (cost fl data params v (stepSpot (data.shipment i).delivery)
      (spotOf data b))) x
    have h3 := stdMin_le (cost fl data params v (stepSpot (data.shipment i).pickup)
      (spotOf data b)) (cost fl data params v (stepSpot (data.shipment i).delivery)
      (spotOf data b))
    have h4 := stdMin_eq (cost fl data params v (stepSpot (data.shipment i).pickup)
      (spotOf data b)) (cost fl data params v (stepSpot (data.shipment i).delivery)
      (spotOf data b))
    rw [← hy] at h1 h2
    have harcs : arcsOf fl data params ⟨.pickup, i⟩ b v
        = (arcCost fl data params v (stepSpot (data.shipment i).pickup) (spotOf data b) ::
          (if params.symmetricProximity then
            [arcCost fl data params v (spotOf data b) (stepSpot (data.shipment i).pickup)] else []))
          ++ (arcCost fl data params v (stepSpot (data.shipment i).delivery) (spotOf data b) ::
          (if params.symmetricProximity then
            [arcCost fl data params v (spotOf data b) (stepSpot (data.shipment i).delivery)]
            else [])) := by
      simp [arcsOf, spotsFor, spotOf]
    rw [harcs]
    refine ⟨h1.2, ?_, ?_⟩
    · intro c hc
      rcases List.mem_append.1 hc with hc | hc
      · exact Rat.le_trans h1.1 (Rat.le_trans h3.1 (hp2 c hc))
      · exact Rat.le_trans h1.1 (Rat.le_trans h3.2 (hd2 c hc))
    · rcases h2 with h2 | h2
      · right
        rw [h2, List.mem_append]
        rcases h4 with h4 | h4
        · left; rw [h4]; exact hp1
        · right; rw [h4]; exact hd1
      · exact .inl h2

theorem arcCost_key (fl : Rat → Rat) (data : ProblemData) (params : NeighbourhoodParams)
    {v w : VehicleType} (h : key v = key w) (s t : Spot) :
    arcCost fl data params v s t = arcCost fl data params w s t := by
  simp only [key, Prod.mk.injEq] at h
  unfold arcCost
  rw [h.1, h.2.1, h.2.2]

theorem arcsOf_key (fl : Rat → Rat) (data : ProblemData) (params : NeighbourhoodParams)
    (a b : Activity) {v w : VehicleType} (h : key v = key w) :
    arcsOf fl data params a b v = arcsOf fl data params a b w := by
  unfold arcsOf
  simp only [arcCost_key fl data params h]

theorem proximityFrom_spec (fl : Rat → Rat) (data : ProblemData) (params : NeighbourhoodParams)
    {a b : Activity} (ha : a.type = .client ∨ a.type = .pickup) (ha' : IsTask data a)
    (hb : IsTask data b) (vs : List VehicleType) :
    ∀ (done : List VehicleType) (x : Rat),
    (∀ v ∈ done, ∀ c ∈ arcsOf fl data params a b v, x ≤ c) →
    let y := proximityFrom fl data params (columnOf data a) (columnOf data b) vs (done.map key) x
    y ≤ x ∧ (∀ v ∈ vs, ∀ c ∈ arcsOf fl data params a b v, y ≤ c)
      ∧ (y = x ∨ ∃ v ∈ vs, y ∈ arcsOf fl data params a b v) := by
  induction vs with
  | nil => intro done x _; exact ⟨Rat.le_refl, by simp, .inl rfl⟩
  | cons v vs ih =>
    intro done x hx
    unfold proximityFrom
    by_cases hk : key v ∈ done.map key
    · rw [if_pos hk]
      obtain ⟨h1, h2, h3⟩ := ih done x hx
      obtain ⟨w, hw, he⟩ := List.mem_map.1 hk
      refine ⟨h1, ?_, ?_⟩
      · intro u hu c hc
        rcases List.mem_cons.1 hu with rfl | hu
        · rw [← arcsOf_key fl data params a b he] at hc
          exact Rat.le_trans h1 (hx w hw c hc)
        · exact h2 u hu c hc
      · rcases h3 with h3 | ⟨u, hu, h3⟩
        · exact .inl h3
        · exact .inr ⟨u, by simp [hu], h3⟩
    · rw [if_neg hk]
      obtain ⟨g1, g2, g3⟩ := update_spec fl data params ha ha' hb v x
      obtain ⟨h1, h2, h3⟩ := ih (v :: done)
        (update fl data params v (columnOf data a) (columnOf data b) x) (by
          intro u hu c hc
          rcases List.mem_cons.1 hu with rfl | hu
          · exact g2 c hc
          · exact Rat.le_trans g1 (hx u hu c hc))
      refine ⟨Rat.le_trans h1 g1, ?_, ?_⟩
      · intro u hu c hc
        rcases List.mem_cons.1 hu with rfl | hu
        · exact Rat.le_trans h1 (g2 c hc)
        · exact h2 u hu c hc
      · rcases h3 with h3 | ⟨u, hu, h3⟩
        · rcases g3 with g3 | g3
          · exact .inl (h3.trans g3)
          · exact .inr ⟨v, by simp, by rw [← h3] at g3; exact g3⟩
        · exact .inr ⟨u, by simp [hu], h3⟩

theorem sameGroup_iff {data : ProblemData} (hd : Consistent data) {a b : Activity}
    (ha : a.type = .client ∨ a.type = .pickup) (hb : IsTask data b) :
    data.groups.any (fun g => g.clients.any (· == columnOf data a)
      && g.clients.any (· == columnOf data b)) = true ↔ SameGroup data a b := by
  have hlt : ∀ g ∈ data.groups, ∀ i ∈ g.clients, i < data.numClients := by
    intro g hg i hi
    obtain ⟨k, hk⟩ := List.getElem?_of_mem hg
    obtain ⟨c, hc, -⟩ := (hd.groupClients k g hk).2 i hi
    exact (List.getElem?_eq_some_iff.1 hc).1
  simp only [List.any_eq_true, Bool.and_eq_true, beq_iff_eq, exists_eq_right]
  constructor
  · rintro ⟨g, hg, h1, h2⟩
    have k1 := hlt g hg _ h1
    have k2 := hlt g hg _ h2
    obtain ⟨ta, i⟩ := a
    obtain ⟨tb, j⟩ := b
    have e1 : ta = .client := by
      rcases ha with h | h <;> simp only at h <;> subst h
      · rfl
      · simp only [columnOf] at k1; omega
    have e2 : tb = .client := by
      have := hb.1
      cases tb with
      | depot => exact absurd rfl this
      | client => rfl
      | pickup => simp only [columnOf] at k2; omega
      | delivery => simp only [columnOf] at k2; omega
    subst e1 e2
    exact ⟨rfl, rfl, g, hg, h1, h2⟩
  · rintro ⟨h1, h2, g, hg, h3, h4⟩
    refine ⟨g, hg, ?_, ?_⟩
    · simpa [columnOf, h1] using h3
    · simpa [columnOf, h2] using h4

theorem entry_spec (fl : Rat → Rat) {data : ProblemData} (hd : Consistent data)
    (params : NeighbourhoodParams) {a b : Activity} (ha : a.type = .client ∨ a.type = .pickup)
    (ha' : IsTask data a) (hb : MayNeighbour data a b) :
    ∃ p, entry fl data params (columnOf data a) (columnOf data b) = .fin p
      ∧ Closeness fl data params a b p := by
  have hb' := hb.1
  have hne : ¬ columnOf data b = columnOf data a := fun h => hb.2.1 (by
    rw [← columnActivity_columnOf hb', h, columnActivity_columnOf ha'])
  have hown : ¬ (columnOf data a ≥ data.numClients
      ∧ columnOf data b = columnOf data a + data.numShipments) := by
    rintro ⟨h1, h2⟩
    obtain ⟨ta, i⟩ := a
    have e1 : ta = .pickup := by
      rcases ha with h | h <;> simp only at h <;> subst h
      · have : i < data.numClients := ha'.2
        simp only [columnOf] at h1; omega
      · rfl
    subst e1
    refine hb.2.2 ⟨rfl, ?_⟩
    have hdel : IsTask data ⟨.delivery, i⟩ := ⟨by simp, ha'.2⟩
    rw [← columnActivity_columnOf hb', ← columnActivity_columnOf hdel, h2]
    congr 1
    simp only [columnOf]; omega
  unfold entry
  rw [if_neg hown, if_neg hne]
  by_cases hg : SameGroup data a b
  · rw [if_pos ((sameGroup_iff hd ha hb').2 hg)]
    exact ⟨_, rfl, .inl ⟨hg, rfl⟩⟩
  · rw [if_neg (fun h => hg ((sameGroup_iff hd ha hb').1 h))]
    refine ⟨_, rfl, .inr ⟨hg, ?_⟩⟩
    obtain ⟨h1, h2, h3⟩ := proximityFrom_spec fl data params ha ha' hb' data.vehicleTypes []
      doubleMax (by simp)
    refine ⟨h1, ?_, ?_⟩
    · intro c hc
      obtain ⟨v, hv, hc⟩ := List.mem_flatMap.1 hc
      exact h2 v hv c hc
    · rcases h3 with h3 | ⟨v, hv, h3⟩
      · exact .inl h3
      · exact .inr (List.mem_flatMap.2 ⟨v, hv, h3⟩)

theorem closeness_unique {fl : Rat → Rat} {data : ProblemData} {params : NeighbourhoodParams}
    {a b : Activity} {p q : Rat} (hp : Closeness fl data params a b p)
    (hq : Closeness fl data params a b q) : p = q := by
  rcases hp with ⟨h1, rfl⟩ | ⟨h1, h2, h3, h4⟩ <;> rcases hq with ⟨k1, rfl⟩ | ⟨k1, k2, k3, k4⟩
  · rfl
  · exact absurd h1 k1
  · exact absurd k1 h1
  · apply Rat.le_antisymm
    · rcases k4 with rfl | k4
      · exact h2
      · exact h3 _ k4
    · rcases h4 with rfl | h4
      · exact k2
      · exact k3 _ h4

theorem neighbourhood_length (fl : Rat → Rat) (data : ProblemData) (params : NeighbourhoodParams)
    (row : Nat) :
    (neighbourhood fl data params row).length = numNeighbours data params := by
  unfold neighbourhood
  have := (indices_perm fl data params row).length_eq
  rw [List.length_range] at this
  rw [List.length_map, List.length_take, this]
  unfold numNeighbours
  omega

theorem mayNeighbour_of_mem {fl : Rat → Rat} {data : ProblemData} {params : NeighbourhoodParams}
    {u : Activity} {l : List Activity} (h : (u, l) ∈ computeNeighbours fl data params)
    {v : Activity} (hv : v ∈ l) : MayNeighbour data u v := by
  obtain ⟨h1, h2, h3, h4, rfl⟩ := mem_computeNeighbours h
  obtain ⟨k1, k2⟩ := mem_neighbourhood hv
  have hfin := take_finite (entry fl data params (columnOf data u)) _
    (indices_sorted fl data params _) _ (finite_entries fl data params _ h3) _ k2
  rw [ne_eq, entry_eq_inf, not_or] at hfin
  refine ⟨k1, fun he => hfin.1 (by rw [he]), ?_⟩
  rintro ⟨hp, he⟩
  refine hfin.2 ⟨h4.2 hp, ?_⟩
  rw [he]
  simp only [columnOf, hp]
  omega

end Neighbourhood

/-- **C40, shape (partial).** Exactly the clients and pickups have a neighbourhood. Each is free of
duplicates, has the requested length unless that is more than the number of other clients plus twice
the number of other shipments, and consists of clients, pickups and deliveries other than the
activity itself and, for a pickup, its delivery.
Missing: "all possible neighbours if fewer" is false of the code (`C40_negation`). -/
theorem C40_shape_partial (fl : Rat → Rat) (data : ProblemData) (params : NeighbourhoodParams) :
    (computeNeighbours fl data params).map (·.1) = allTasks data
    ∧ ∀ u l, (u, l) ∈ computeNeighbours fl data params →
      l.length = min params.numNeighbours
        ((data.clients.length - 1) + 2 * (data.shipments.length - 1))
      ∧ l.Nodup ∧ ∀ v ∈ l, MayNeighbour data u v := by
  refine ⟨?_, fun u l h => ⟨?_, ?_, fun v hv => mayNeighbour_of_mem h hv⟩⟩
  · simp [computeNeighbours, allTasks, Function.comp_def, ProblemData.numClients,
      ProblemData.numShipments]
  · obtain ⟨-, -, -, -, rfl⟩ := mem_computeNeighbours h
    rw [neighbourhood_length]
    have hc : data.numClients = data.clients.length := rfl
    have hs : data.numShipments = data.shipments.length := rfl
    unfold numNeighbours
    omega
  · obtain ⟨-, -, -, -, rfl⟩ := mem_computeNeighbours h
    unfold neighbourhood
    have hnd : ((indices fl data params (columnOf data u)).take (numNeighbours data params)).Nodup :=
      List.Nodup.sublist (List.take_sublist _ _)
        ((indices_perm fl data params _).nodup_iff.2 List.nodup_range)
    unfold List.Nodup at hnd ⊢
    rw [List.pairwise_map]
    exact hnd.imp fun hne he => hne (columnActivity_inj data he)

/-- **C40, closest first.** Each possible neighbour has a unique closeness; every listed neighbour is
at least as close as every possible neighbour that is not listed, and the list is ordered by
closeness. -/
theorem C40_closest (fl : Rat → Rat) (data : ProblemData) (hd : Consistent data)
    (params : NeighbourhoodParams) (u : Activity) (l : List Activity)
    (h : (u, l) ∈ computeNeighbours fl data params) :
    (∀ v, MayNeighbour data u v → ∃ p, Closeness fl data params u v p
      ∧ ∀ q, Closeness fl data params u v q → q = p)
    ∧ (∀ v w p q, v ∈ l → MayNeighbour data u w → w ∉ l → Closeness fl data params u v p →
        Closeness fl data params u w q → p ≤ q)
    ∧ l.Pairwise (fun v w => ∀ p q, Closeness fl data params u v p →
        Closeness fl data params u w q → p ≤ q) := by
  have hm := h
  obtain ⟨h1, h2, h3, h4, rfl⟩ := mem_computeNeighbours h
  have key : ∀ v w p q, MayNeighbour data u v → MayNeighbour data u w →
      (entry fl data params (columnOf data u) (columnOf data w)).lt
        (entry fl data params (columnOf data u) (columnOf data v)) = false →
      Closeness fl data params u v p → Closeness fl data params u w q → p ≤ q := by
    intro v w p q hv hw hlt hp hq
    obtain ⟨p', e1, e2⟩ := entry_spec fl hd params h1 h2 hv
    obtain ⟨q', e3, e4⟩ := entry_spec fl hd params h1 h2 hw
    rw [closeness_unique hp e2, closeness_unique hq e4]
    rw [e1, e3] at hlt
    simp only [Entry.lt, decide_eq_false_iff_not] at hlt
    grind
  have hsorted := indices_sorted fl data params (columnOf data u)
  refine ⟨?_, ?_, ?_⟩
  · intro v hv
    obtain ⟨p, -, hp⟩ := entry_spec fl hd params h1 h2 hv
    exact ⟨p, hp, fun q hq => closeness_unique hq hp⟩
  · intro v w p q hv hw hwn hp hq
    refine key v w p q (mayNeighbour_of_mem hm hv) hw ?_ hp hq
    obtain ⟨-, hvi⟩ := mem_neighbourhood hv
    have hwi : columnOf data w ∈ (indices fl data params (columnOf data u)).drop
        (numNeighbours data params) := by
      have hall : columnOf data w ∈ indices fl data params (columnOf data u) :=
        (indices_perm fl data params _).mem_iff.2 (List.mem_range.2 (columnOf_lt hw.1))
      rw [← List.take_append_drop (numNeighbours data params) (indices fl data params _),
        List.mem_append] at hall
      rcases hall with hall | hall
      · exact absurd (List.mem_map.2 ⟨_, hall, columnActivity_columnOf hw.1⟩) hwn
      · exact hall
    rw [← List.take_append_drop (numNeighbours data params) (indices fl data params _),
      List.pairwise_append] at hsorted
    exact hsorted.2.2 _ hvi _ hwi
  · unfold neighbourhood
    rw [List.pairwise_map]
    have hs' := List.Pairwise.sublist (List.take_sublist (numNeighbours data params) _) hsorted
    refine List.Pairwise.imp_of_mem ?_ hs'
    intro c d hc hd' hlt p q hp hq
    have hcol : ∀ x ∈ (indices fl data params (columnOf data u)).take (numNeighbours data params),
        columnOf data (columnActivity data x) = x := by
      intro x hx
      have hxl : x < data.numClients + 2 * data.numShipments := by
        have := (indices_perm fl data params _).mem_iff.1 (List.mem_of_mem_take hx)
        exact List.mem_range.1 this
      exact columnActivity_inj data (columnActivity_columnOf (columnActivity_isTask data hxl))
    refine key _ _ p q (mayNeighbour_of_mem hm (List.mem_map_of_mem hc))
      (mayNeighbour_of_mem hm (List.mem_map_of_mem hd')) ?_ hp hq
    rw [hcol c hc, hcol d hd']
    exact hlt

/-- **C40, accepted by the search.** A search space accepts the computed neighbourhoods. -/
theorem C40_accepted (fl : Rat → Rat) (data : ProblemData) (params : NeighbourhoodParams) :
    ∃ s, SearchSpace.make data (computeNeighbours fl data params) = .ok s := by
  rw [C43_accepts]
  refine ⟨?_, ?_⟩
  · simp [computeNeighbours, ProblemData.numClients, ProblemData.numShipments]
  · rintro ⟨u, l⟩ h
    exact ⟨(mem_computeNeighbours h).1, fun hu => (mayNeighbour_of_mem h hu).2.1 rfl⟩

/-- **C40, arcs.** Without rounding, the cost of an arc is the exact one, and the largest double if
the arc cannot be used in time. -/
theorem C40_arc_cost (data : ProblemData) (params : NeighbourhoodParams) (v : VehicleType)
    (frm dest : Spot) :
    arcCost id data params v frm dest = (exactArcCost data params v frm dest).getD doubleMax := by
  unfold arcCost exactArcCost
  simp only [id_eq]
  have e1 : ((frm.twEarly : Rat) + frm.serviceDuration
      + (data.dur v.profile frm.location dest.location : Int) > (dest.twLate : Rat))
      ↔ frm.twEarly + frm.serviceDuration + data.dur v.profile frm.location dest.location > dest.twLate := by
    rw [gt_iff_lt, gt_iff_lt, ← Rat.intCast_add, ← Rat.intCast_add, Rat.intCast_lt_intCast]
  have e2 : max ((dest.twEarly : Rat) - (data.dur v.profile frm.location dest.location : Int)
      - frm.serviceDuration - frm.twLate) 0
      = ((max (dest.twEarly - (frm.twLate + frm.serviceDuration
          + data.dur v.profile frm.location dest.location)) 0 : Int) : Rat) := by
    rw [← Rat.intCast_sub, ← Rat.intCast_sub, ← Rat.intCast_sub]
    rw [show dest.twEarly - data.dur v.profile frm.location dest.location - frm.serviceDuration
      - frm.twLate = dest.twEarly - (frm.twLate + frm.serviceDuration
          + data.dur v.profile frm.location dest.location) by omega]
    generalize dest.twEarly - (frm.twLate + frm.serviceDuration
          + data.dur v.profile frm.location dest.location) = z
    by_cases h : z ≤ 0
    · have h' : (z : Rat) ≤ 0 := by exact_mod_cast h
      rw [Int.max_eq_right h, Rat.max_def, if_pos h']; rfl
    · have h' : ¬ (z : Rat) ≤ 0 := by exact_mod_cast h
      rw [Int.max_eq_left (by omega), Rat.max_def, if_neg h']
  rw [e2]
  by_cases h : frm.twEarly + frm.serviceDuration + data.dur v.profile frm.location dest.location
      > dest.twLate
  · rw [if_pos (e1.2 h), if_pos h]; rfl
  · rw [if_neg (fun h' => h (e1.1 h')), if_neg h]
    simp only [Option.getD_some, Rat.intCast_add, Rat.intCast_mul]

/-- **C40, parameters.** Only a neighbourhood size of zero is rejected. -/
theorem C40_params (p : NeighbourhoodParams) :
    (p.numNeighbours ≠ 0 → p.make = .ok p)
    ∧ (p.numNeighbours = 0 → ∃ msg, p.make = .error (.invalidArgument msg)) := by
  unfold NeighbourhoodParams.make
  constructor
  · intro h; simp [throwIf, h, checked]
  · intro h; exact ⟨"num_neighbours == 0 not understood.", by simp [throwIf, h, checked]⟩

/-! ## Non-vacuity and negation -/

/-- **C40, negation.** A neighbourhood may be shorter than requested although there are more possible
neighbours: with one client and one shipment it is always empty, although the client could neighbour
the pickup and the delivery. -/
theorem C40_negation : ∃ (data : ProblemData) (params : NeighbourhoodParams), Consistent data
    ∧ ∀ fl, ((⟨.client, 0⟩ : Activity), []) ∈ computeNeighbours fl data params
    ∧ params.numNeighbours = 50
    ∧ MayNeighbour data ⟨.client, 0⟩ ⟨.pickup, 0⟩ ∧ MayNeighbour data ⟨.client, 0⟩ ⟨.delivery, 0⟩ := by
  refine ⟨{ Demo.data with clients := Demo.data.clients.take 1, groups := [] }, {}, ?_, ?_⟩
  · have h : ProblemData.make { Demo.data with clients := Demo.data.clients.take 1, groups := [] }
        = .ok { Demo.data with clients := Demo.data.clients.take 1, groups := [] } := by decide
    exact ((C37_accepts_exactly_consistent _ _).1 h).2
  · intro fl
    refine ⟨?_, rfl, ?_, ?_⟩
    · unfold computeNeighbours neighbourhood
      rw [List.mem_append]
      left
      exact List.mem_map.2 ⟨0, by decide, rfl⟩
    · simp [MayNeighbour, IsTask, InRange, Demo.data]
    · simp [MayNeighbour, IsTask, InRange, Demo.data]

/-- Neighbours of clients and pickups; clients 3 and 4 are in a group. -/
example : computeNeighbours id Demo.data { numNeighbours := 3 }
    = [(Demo.client 0, [Demo.client 3, Demo.pickup 0, Demo.client 1]),
       (Demo.client 1, [Demo.client 2, Demo.client 4, Demo.delivery 0]),
       (Demo.client 2, [Demo.client 1, Demo.client 4, Demo.delivery 0]),
       (Demo.client 3, [Demo.client 0, Demo.pickup 0, Demo.client 1]),
       (Demo.client 4, [Demo.client 1, Demo.client 2, Demo.delivery 0]),
       (Demo.pickup 0, [Demo.client 0, Demo.client 1, Demo.client 2])] := by
  decide +kernel

example : ¬ ∃ p, NeighbourhoodParams.make { numNeighbours := 0 } = .ok p := by
  rintro ⟨p, hp⟩
  obtain ⟨m, hm⟩ := (C40_params { numNeighbours := 0 }).2 rfl
  rw [hm] at hp; cases hp

end PyVRP
