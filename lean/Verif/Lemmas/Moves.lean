import Verif.Lemmas.MoveCost
import Verif.Lemmas.MoveSwap
import Verif.Props.C27
/-!
# Moves of the local search: what they visit and what they cost
-/
namespace PyVRP
open Spec
open SSol (used ofActs_empty)

/-! ## Costs of plans -/

namespace Spec

/-- Whether an activity is in one of the routes. -/
def visits (plan : List (List Activity)) (a : Activity) : Bool := plan.any (fun acts => acts.contains a)

/-- The prizes of the clients and shipments that are not visited. -/
def missedPrizes (data : ProblemData) (plan : List (List Activity)) : Int :=
  ((List.range data.numClients).map (fun i =>
      if visits plan ⟨.client, i⟩ then 0 else (data.client i).prize)).sum
    + ((List.range data.numShipments).map (fun i =>
      if visits plan ⟨.pickup, i⟩ then 0 else (data.shipment i).prize)).sum

/-- At most one client of each group is visited. -/
def Exclusive (data : ProblemData) (plan : List (List Activity)) : Prop :=
  ∀ g ∈ data.groups, ∀ i ∈ g.clients, ∀ j ∈ g.clients,
    Visited plan ⟨.client, i⟩ → Visited plan ⟨.client, j⟩ → i = j

/-- All required clients and shipments are visited, and a client of each required group. -/
structure CompletePlan (data : ProblemData) (plan : List (List Activity)) : Prop where
  clients : ∀ i, i < data.numClients → (data.client i).required = true → Visited plan ⟨.client, i⟩
  shipments : ∀ i, i < data.numShipments → (data.shipment i).required = true →
    Visited plan ⟨.pickup, i⟩
  groups : ∀ g ∈ data.groups, g.required = true → ∃ i ∈ g.clients, Visited plan ⟨.client, i⟩

end Spec

theorem visits_iff (plan : List (List Activity)) (a : Activity) :
    visits plan a = true ↔ Visited plan a := by
  unfold visits Visited
  rw [List.any_eq_true]
  constructor
  · rintro ⟨l, hl, ha⟩
    obtain ⟨i, hi, rfl⟩ := List.mem_iff_getElem.1 hl
    exact ⟨i, by simpa [List.getD_eq_getElem?_getD, hi] using ha⟩
  · rintro ⟨i, hi⟩
    by_cases h : i < plan.length
    · refine ⟨plan[i], List.getElem_mem h, ?_⟩
      simpa [List.getD_eq_getElem?_getD, h] using hi
    · rw [List.getD_eq_getElem?_getD, List.getElem?_eq_none (by omega)] at hi
      simp at hi

/-- The sum of the costs of all routes. -/
def routesCost (data : ProblemData) (ce : CostEvaluator) (plan : List (List Activity)) : Int :=
  ((List.range data.numVehicles).map (fun k =>
    routeCost data ce (vehTypeAt data k) (plan.getD k []))).sum

/-- The penalised cost of a plan. -/
def planCost (data : ProblemData) (ce : CostEvaluator) (plan : List (List Activity)) : Int :=
  missedPrizes data plan + routesCost data ce plan

/-- Two sums over a range that differ in one place. -/
theorem sum_range_change (f g : Nat → Int) (n k : Nat) (hk : k < n) (h : ∀ i, i ≠ k → f i = g i) :
    ((List.range n).map f).sum = ((List.range n).map g).sum + (f k - g k) := by
  induction n with
  | zero => omega
  | succ n ih =>
    rw [List.range_succ, List.map_append, List.map_append, List.sum_append, List.sum_append]
    simp only [List.map_cons, List.map_nil, List.sum_cons, List.sum_nil]
    by_cases hn : k = n
    · subst hn
      have : (List.range k).map f = (List.range k).map g := by
        apply List.map_congr_left
        intro i hi
        rw [List.mem_range] at hi
        exact h i (by omega)
      rw [this]
      omega
    · rw [ih (by omega), h n (fun h => hn h.symm)]
      omega

theorem sum_range_same (f g : Nat → Int) (n : Nat) (h : ∀ i, i < n → f i = g i) :
    ((List.range n).map f).sum = ((List.range n).map g).sum := by
  congr 1
  apply List.map_congr_left
  intro i hi
  exact h i (List.mem_range.1 hi)

theorem routesCost_set (data : ProblemData) (ce : CostEvaluator) {plan : List (List Activity)}
    (hl : plan.length = data.numVehicles) {i : Nat} (hi : i < data.numVehicles)
    (new : List Activity) :
    routesCost data ce (plan.set i new)
      = routesCost data ce plan + routeCost data ce (vehTypeAt data i) new
        - routeCost data ce (vehTypeAt data i) (plan.getD i []) := by
  unfold routesCost
  rw [sum_range_change _ (fun k => routeCost data ce (vehTypeAt data k) (plan.getD k [])) _ i hi]
  · rw [getD_set_self (by omega)]; omega
  · intro k hk; rw [getD_set_ne _ hk]

theorem routesCost_set2 (data : ProblemData) (ce : CostEvaluator) {plan : List (List Activity)}
    (hl : plan.length = data.numVehicles) {i j : Nat} (hij : i ≠ j) (hi : i < data.numVehicles)
    (hj : j < data.numVehicles) (new new' : List Activity) :
    routesCost data ce ((plan.set i new).set j new')
      = routesCost data ce plan + routeCost data ce (vehTypeAt data i) new
        + routeCost data ce (vehTypeAt data j) new'
        - routeCost data ce (vehTypeAt data i) (plan.getD i [])
        - routeCost data ce (vehTypeAt data j) (plan.getD j []) := by
  rw [routesCost_set data ce (by simpa using hl) hj, routesCost_set data ce hl hi,
    getD_set_ne _ hij.symm]
  omega

/-! ## Which activities are visited -/

theorem visited_set {plan : List (List Activity)} {i : Nat} (hi : i < plan.length)
    (new : List Activity) (a : Activity) :
    Visited (plan.set i new) a ↔ a ∈ new ∨ ∃ k, k ≠ i ∧ a ∈ plan.getD k [] := by
  constructor
  · rintro ⟨k, hk⟩
    by_cases h : k = i
    · subst h; rw [getD_set_self hi] at hk; exact .inl hk
    · rw [getD_set_ne _ h] at hk; exact .inr ⟨k, h, hk⟩
  · rintro (h | ⟨k, h, hk⟩)
    · exact ⟨i, by rw [getD_set_self hi]; exact h⟩
    · exact ⟨k, by rw [getD_set_ne _ h]; exact hk⟩

theorem visited_split (plan : List (List Activity)) (i : Nat) (a : Activity) :
    Visited plan a ↔ a ∈ plan.getD i [] ∨ ∃ k, k ≠ i ∧ a ∈ plan.getD k [] := by
  constructor
  · rintro ⟨k, hk⟩
    by_cases h : k = i
    · subst h; exact .inl hk
    · exact .inr ⟨k, h, hk⟩
  · rintro (h | ⟨k, -, hk⟩)
    · exact ⟨i, h⟩
    · exact ⟨k, hk⟩

theorem visited_set2 {plan : List (List Activity)} {i j : Nat} (hij : i ≠ j) (hi : i < plan.length)
    (hj : j < plan.length) (new new' : List Activity) (a : Activity) :
    Visited ((plan.set i new).set j new') a
      ↔ a ∈ new ∨ a ∈ new' ∨ ∃ k, k ≠ i ∧ k ≠ j ∧ a ∈ plan.getD k [] := by
  rw [visited_set (by simpa using hj)]
  constructor
  · rintro (h | ⟨k, h, hk⟩)
    · exact .inr (.inl h)
    · by_cases hki : k = i
      · subst hki; rw [getD_set_self hi] at hk; exact .inl hk
      · rw [getD_set_ne _ hki] at hk; exact .inr (.inr ⟨k, hki, h, hk⟩)
  · rintro (h | h | ⟨k, h, h', hk⟩)
    · exact .inr ⟨i, hij, by rw [getD_set_self hi]; exact h⟩
    · exact .inl h
    · exact .inr ⟨k, h', by rw [getD_set_ne _ h]; exact hk⟩

theorem visited_split2 (plan : List (List Activity)) (i j : Nat) (a : Activity) :
    Visited plan a ↔ a ∈ plan.getD i [] ∨ a ∈ plan.getD j []
      ∨ ∃ k, k ≠ i ∧ k ≠ j ∧ a ∈ plan.getD k [] := by
  constructor
  · rintro ⟨k, hk⟩
    by_cases h : k = i
    · subst h; exact .inl hk
    · by_cases h' : k = j
      · subst h'; exact .inr (.inl hk)
      · exact .inr (.inr ⟨k, h, h', hk⟩)
  · rintro (h | h | ⟨k, -, -, hk⟩)
    · exact ⟨i, h⟩
    · exact ⟨j, h⟩
    · exact ⟨k, hk⟩

/-- How a move may change what is visited, and the change in missed prizes. -/
inductive TaskChange (data : ProblemData) (P Q : Activity → Prop) : Int → Prop where
  | same (h : ∀ a, a.type ≠ .depot → (Q a ↔ P a)) : TaskChange data P Q 0
  | addClient (c : Nat) (hc : c < data.numClients) (hn : ¬ P ⟨.client, c⟩)
      (hg : ∀ g, (data.client c).group = some g →
        ∀ m ∈ (data.group g).clients, ¬ P ⟨.client, m⟩)
      (h : ∀ a, a.type ≠ .depot → (Q a ↔ P a ∨ a = ⟨.client, c⟩)) :
      TaskChange data P Q (-(data.client c).prize)
  | removeClient (c : Nat) (hc : c < data.numClients) (hp : P ⟨.client, c⟩)
      (hr : (data.client c).required = false)
      (hg : ∀ g, (data.client c).group = some g → (data.group g).required = false)
      (h : ∀ a, a.type ≠ .depot → (Q a ↔ P a ∧ a ≠ ⟨.client, c⟩)) :
      TaskChange data P Q (data.client c).prize
  | replaceClient (c c' : Nat) (hc : c < data.numClients) (hc' : c' < data.numClients)
      (hp : P ⟨.client, c⟩) (hn : ¬ P ⟨.client, c'⟩)
      (hr : (data.client c).required = false)
      (hg : (data.client c).group = (data.client c').group)
      (h : ∀ a, a.type ≠ .depot → (Q a ↔ (P a ∧ a ≠ ⟨.client, c⟩) ∨ a = ⟨.client, c'⟩)) :
      TaskChange data P Q ((data.client c).prize - (data.client c').prize)
  | addShipment (k : Nat) (hk : k < data.numShipments) (hn : ¬ P ⟨.pickup, k⟩)
      (h : ∀ a, a.type ≠ .depot → (Q a ↔ P a ∨ a = ⟨.pickup, k⟩ ∨ a = ⟨.delivery, k⟩)) :
      TaskChange data P Q (-(data.shipment k).prize)
  | removeShipment (k : Nat) (hk : k < data.numShipments) (hp : P ⟨.pickup, k⟩)
      (hr : (data.shipment k).required = false)
      (h : ∀ a, a.type ≠ .depot → (Q a ↔ P a ∧ a ≠ ⟨.pickup, k⟩ ∧ a ≠ ⟨.delivery, k⟩)) :
      TaskChange data P Q (data.shipment k).prize
  | replaceShipment (k k' : Nat) (hk : k < data.numShipments) (hk' : k' < data.numShipments)
      (hp : P ⟨.pickup, k⟩) (hn : ¬ P ⟨.pickup, k'⟩) (hr : (data.shipment k).required = false)
      (h : ∀ a, a.type ≠ .depot → (Q a ↔ (P a ∧ a ≠ ⟨.pickup, k⟩ ∧ a ≠ ⟨.delivery, k⟩)
        ∨ a = ⟨.pickup, k'⟩ ∨ a = ⟨.delivery, k'⟩)) :
      TaskChange data P Q ((data.shipment k).prize - (data.shipment k').prize)

theorem visits_true {plan : List (List Activity)} {a : Activity} (h : Visited plan a) :
    visits plan a = true := (visits_iff plan a).2 h

theorem visits_false {plan : List (List Activity)} {a : Activity} (h : ¬ Visited plan a) :
    visits plan a = false := by
  cases hv : visits plan a with
  | false => rfl
  | true => exact absurd ((visits_iff plan a).1 hv) h

theorem visits_congr {plan plan' : List (List Activity)} {a : Activity}
    (h : Visited plan' a ↔ Visited plan a) : visits plan' a = visits plan a := by
  rw [Bool.eq_iff_iff, visits_iff, visits_iff]; exact h

theorem TaskChange.prizes {data : ProblemData} {plan plan' : List (List Activity)} {δ : Int}
    (h : TaskChange data (Visited plan) (Visited plan') δ) :
    missedPrizes data plan' = missedPrizes data plan + δ := by
  -- one client or shipment that changes
  have sameC : (∀ i, i < data.numClients → (Visited plan' ⟨.client, i⟩ ↔ Visited plan ⟨.client, i⟩)) →
      ((List.range data.numClients).map (fun i =>
        if visits plan' ⟨.client, i⟩ then 0 else (data.client i).prize)).sum
      = ((List.range data.numClients).map (fun i =>
        if visits plan ⟨.client, i⟩ then 0 else (data.client i).prize)).sum := by
    intro h
    apply sum_range_same
    intro i hi
    rw [visits_congr (h i hi)]
  have sameS : (∀ i, i < data.numShipments →
        (Visited plan' ⟨.pickup, i⟩ ↔ Visited plan ⟨.pickup, i⟩)) →
      ((List.range data.numShipments).map (fun i =>
        if visits plan' ⟨.pickup, i⟩ then 0 else (data.shipment i).prize)).sum
      = ((List.range data.numShipments).map (fun i =>
        if visits plan ⟨.pickup, i⟩ then 0 else (data.shipment i).prize)).sum := by
    intro h
    apply sum_range_same
    intro i hi
    rw [visits_congr (h i hi)]
  unfold missedPrizes
  cases h with
  | same h =>
    rw [sameC (fun i _ => h _ (by simp)), sameS (fun i _ => h _ (by simp))]
    omega
  | addClient c hc hn hg h =>
    rw [sameS (fun i _ => by rw [h _ (by simp)]; simp),
      sum_range_change _ (fun i => if visits plan ⟨.client, i⟩ then 0 else (data.client i).prize) _ c hc]
    · rw [visits_true ((h ⟨.client, c⟩ (by simp)).2 (.inr rfl)), visits_false hn]
      simp only [if_true, Bool.false_eq_true, if_false]
      omega
    · intro i hi
      rw [visits_congr (plan := plan) (plan' := plan') (a := ⟨.client, i⟩) (by rw [h _ (by simp)]; simp [hi])]
  | removeClient c hc hp hr hg h =>
    rw [sameS (fun i _ => by rw [h _ (by simp)]; simp),
      sum_range_change _ (fun i => if visits plan ⟨.client, i⟩ then 0 else (data.client i).prize) _ c hc]
    · rw [visits_false (a := ⟨.client, c⟩) (by rw [h _ (by simp)]; simp), visits_true hp]
      simp only [if_true, Bool.false_eq_true, if_false]
      omega
    · intro i hi
      rw [visits_congr (plan := plan) (plan' := plan') (a := ⟨.client, i⟩) (by rw [h _ (by simp)]; simp [hi])]
  | replaceClient c c' hc hc' hp hn hr hg h =>
    have hne : c ≠ c' := by rintro rfl; exact hn hp
    have e : ((List.range data.numClients).map (fun i =>
          if visits plan' ⟨.client, i⟩ then 0 else (data.client i).prize)).sum
        = ((List.range data.numClients).map (fun i =>
          if visits plan ⟨.client, i⟩ then 0 else (data.client i).prize)).sum
          + ((data.client c).prize - (data.client c').prize) := by
      rw [sum_range_change _ (fun i => if i = c' then
        (if visits plan' ⟨.client, c'⟩ then 0 else (data.client c').prize)
        else (if visits plan ⟨.client, i⟩ then 0 else (data.client i).prize)) _ c hc,
        sum_range_change _ (fun i => if visits plan ⟨.client, i⟩ then 0 else (data.client i).prize)
          _ c' hc']
      · rw [if_pos rfl, if_neg hne, visits_false (a := ⟨.client, c⟩)
            (by rw [h _ (by simp)]; simp [hne]), visits_true hp,
          visits_true (a := ⟨.client, c'⟩) ((h _ (by simp)).2 (.inr rfl)), visits_false hn]
        simp only [if_true, Bool.false_eq_true, if_false]
        omega
      · intro i hi; rw [if_neg hi]
      · intro i hi
        by_cases hi' : i = c'
        · rw [if_pos hi', hi']
        · rw [if_neg hi', visits_congr (plan := plan) (plan' := plan') (a := ⟨.client, i⟩)
            (by rw [h _ (by simp)]; simp [hi, hi'])]
    rw [sameS (fun i _ => by rw [h _ (by simp)]; simp), e]
    omega
  | addShipment k hk hn h =>
    rw [sameC (fun i _ => by rw [h _ (by simp)]; simp),
      sum_range_change _ (fun i => if visits plan ⟨.pickup, i⟩ then 0 else (data.shipment i).prize)
        _ k hk]
    · rw [visits_true (a := ⟨.pickup, k⟩) ((h _ (by simp)).2 (.inr (.inl rfl))), visits_false hn]
      simp only [if_true, Bool.false_eq_true, if_false]
      omega
    · intro i hi
      rw [visits_congr (plan := plan) (plan' := plan') (a := ⟨.pickup, i⟩) (by rw [h _ (by simp)]; simp [hi])]
  | removeShipment k hk hp hr h =>
    rw [sameC (fun i _ => by rw [h _ (by simp)]; simp),
      sum_range_change _ (fun i => if visits plan ⟨.pickup, i⟩ then 0 else (data.shipment i).prize)
        _ k hk]
    · rw [visits_false (a := ⟨.pickup, k⟩) (by rw [h _ (by simp)]; simp), visits_true hp]
      simp only [if_true, Bool.false_eq_true, if_false]
      omega
    · intro i hi
      rw [visits_congr (plan := plan) (plan' := plan') (a := ⟨.pickup, i⟩) (by rw [h _ (by simp)]; simp [hi])]
  | replaceShipment k k' hk hk' hp hn hr h =>
    have hne : k ≠ k' := by rintro rfl; exact hn hp
    have e : ((List.range data.numShipments).map (fun i =>
          if visits plan' ⟨.pickup, i⟩ then 0 else (data.shipment i).prize)).sum
        = ((List.range data.numShipments).map (fun i =>
          if visits plan ⟨.pickup, i⟩ then 0 else (data.shipment i).prize)).sum
          + ((data.shipment k).prize - (data.shipment k').prize) := by
      rw [sum_range_change _ (fun i => if i = k' then
        (if visits plan' ⟨.pickup, k'⟩ then 0 else (data.shipment k').prize)
        else (if visits plan ⟨.pickup, i⟩ then 0 else (data.shipment i).prize)) _ k hk,
        sum_range_change _ (fun i => if visits plan ⟨.pickup, i⟩ then 0 else (data.shipment i).prize)
          _ k' hk']
      · rw [if_pos rfl, if_neg hne, visits_false (a := ⟨.pickup, k⟩)
            (by rw [h _ (by simp)]; simp [hne]), visits_true hp,
          visits_true (a := ⟨.pickup, k'⟩) ((h _ (by simp)).2 (.inr (.inl rfl))), visits_false hn]
        simp only [if_true, Bool.false_eq_true, if_false]
        omega
      · intro i hi; rw [if_neg hi]
      · intro i hi
        by_cases hi' : i = k'
        · rw [if_pos hi', hi']
        · rw [if_neg hi', visits_congr (plan := plan) (plan' := plan') (a := ⟨.pickup, i⟩)
            (by rw [h _ (by simp)]; simp [hi, hi'])]
    rw [sameC (fun i _ => by rw [h _ (by simp)]; simp), e]
    omega

/-! ## Groups and required visits -/

theorem group_getD {data : ProblemData} {g : Nat} {grp : ClientGroup} (h : data.groups[g]? = some grp) :
    data.group g = grp := by
  show data.groups.getD g _ = _
  rw [List.getD_eq_getElem?_getD, h]; rfl

theorem client_getElem {data : ProblemData} {c : Nat} (h : c < data.numClients) :
    data.clients[c]? = some (data.client c) := by
  have h' : c < data.clients.length := h
  show _ = some (data.clients.getD c _)
  rw [List.getD_eq_getElem?_getD, List.getElem?_eq_getElem h']; rfl

/-- The groups of a client. -/
theorem group_of_mem {data : ProblemData} (hd : Consistent data) {grp : ClientGroup}
    (hg : grp ∈ data.groups) {i : Nat} (hi : i ∈ grp.clients) :
    ∃ g, data.group g = grp ∧ (data.client i).group = some g ∧ i < data.numClients := by
  obtain ⟨g, hlt, he⟩ := List.mem_iff_getElem.1 hg
  have hgr : data.groups[g]? = some grp := by rw [List.getElem?_eq_getElem hlt, he]
  obtain ⟨c, hc, hcg⟩ := (hd.groupClients g grp hgr).2 i hi
  have hlt' : i < data.numClients := by
    obtain ⟨h, -⟩ := List.getElem?_eq_some_iff.1 hc
    exact h
  rw [client_getElem hlt'] at hc
  cases hc
  exact ⟨g, group_getD hgr, hcg, hlt'⟩

theorem mem_group {data : ProblemData} (hd : Consistent data) {c g : Nat} (hc : c < data.numClients)
    (hg : (data.client c).group = some g) :
    c ∈ (data.group g).clients ∧ (data.client c).required = false ∧ data.group g ∈ data.groups := by
  obtain ⟨grp, h1, h2, h3⟩ := hd.clientGroup c _ g (client_getElem hc) hg
  rw [group_getD h1]
  exact ⟨h2, h3, List.mem_of_getElem? h1⟩

theorem TaskChange.exclusive {data : ProblemData} (hd : Consistent data)
    {plan plan' : List (List Activity)} {δ : Int}
    (h : TaskChange data (Visited plan) (Visited plan') δ) (he : Exclusive data plan) :
    Exclusive data plan' := by
  intro grp hgr i hi j hj hvi hvj
  obtain ⟨g, hg, hig, hin⟩ := group_of_mem hd hgr hi
  obtain ⟨g', hg', hjg, hjn⟩ := group_of_mem hd hgr hj
  have keep := he grp hgr i hi j hj
  cases h with
  | same h => exact keep ((h _ (by simp)).1 hvi) ((h _ (by simp)).1 hvj)
  | addClient c hc hn hgc h =>
    rw [h _ (by simp)] at hvi hvj
    rcases hvi with hvi | hvi <;> rcases hvj with hvj | hvj
    · exact keep hvi hvj
    · cases hvj; exact absurd hvi (hgc g' hjg i (by rw [hg']; exact hi))
    · cases hvi; exact absurd hvj (hgc g hig j (by rw [hg]; exact hj))
    · cases hvi; cases hvj; rfl
  | removeClient c hc hp hr hgc h =>
    rw [h _ (by simp)] at hvi hvj
    exact keep hvi.1 hvj.1
  | replaceClient c c' hc hc' hp hn hr hgc h =>
    rw [h _ (by simp)] at hvi hvj
    rcases hvi with hvi | hvi <;> rcases hvj with hvj | hvj
    · exact keep hvi.1 hvj.1
    · cases hvj
      rw [hjg] at hgc
      have := (mem_group hd hc hgc).1
      rw [hg'] at this
      exact absurd (he grp hgr c this i hi hp hvi.1) (fun h => hvi.2 (by rw [h]))
    · cases hvi
      rw [hig] at hgc
      have := (mem_group hd hc hgc).1
      rw [hg] at this
      exact absurd (he grp hgr c this j hj hp hvj.1) (fun h => hvj.2 (by rw [h]))
    · cases hvi; cases hvj; rfl
  | addShipment k hk hn h =>
    rw [h _ (by simp)] at hvi hvj
    simp only [Activity.mk.injEq, reduceCtorEq, false_and, or_false] at hvi hvj
    exact keep hvi hvj
  | removeShipment k hk hp hr h =>
    rw [h _ (by simp)] at hvi hvj
    exact keep hvi.1 hvj.1
  | replaceShipment k k' hk hk' hp hn hr h =>
    rw [h _ (by simp)] at hvi hvj
    simp only [Activity.mk.injEq, reduceCtorEq, false_and, or_false] at hvi hvj
    exact keep hvi.1 hvj.1

theorem TaskChange.complete {data : ProblemData} (hd : Consistent data)
    {plan plan' : List (List Activity)} {δ : Int}
    (h : TaskChange data (Visited plan) (Visited plan') δ) (he : CompletePlan data plan) :
    CompletePlan data plan' := by
  obtain ⟨h1, h2, h3⟩ := he
  cases h with
  | same h =>
    refine ⟨fun i hi hr => (h _ (by simp)).2 (h1 i hi hr), fun i hi hr => (h _ (by simp)).2 (h2 i hi hr),
      fun g hg hr => ?_⟩
    obtain ⟨i, hi, hv⟩ := h3 g hg hr
    exact ⟨i, hi, (h _ (by simp)).2 hv⟩
  | addClient c hc hn hgc h =>
    refine ⟨fun i hi hr => (h _ (by simp)).2 (.inl (h1 i hi hr)),
      fun i hi hr => (h _ (by simp)).2 (.inl (h2 i hi hr)), fun g hg hr => ?_⟩
    obtain ⟨i, hi, hv⟩ := h3 g hg hr
    exact ⟨i, hi, (h _ (by simp)).2 (.inl hv)⟩
  | removeClient c hc hp hr' hgc h =>
    refine ⟨fun i hi hr => (h _ (by simp)).2 ⟨h1 i hi hr, ?_⟩,
      fun i hi hr => (h _ (by simp)).2 ⟨h2 i hi hr, by simp⟩, fun g hg hr => ?_⟩
    · intro he; cases he; rw [hr'] at hr; cases hr
    · obtain ⟨i, hi, hv⟩ := h3 g hg hr
      refine ⟨i, hi, (h _ (by simp)).2 ⟨hv, ?_⟩⟩
      intro he; cases he
      obtain ⟨g', hg', hcg, -⟩ := group_of_mem hd hg hi
      have := hgc g' hcg
      rw [hg', hr] at this
      cases this
  | replaceClient c c' hc hc' hp hn hr' hgc h =>
    refine ⟨fun i hi hr => (h _ (by simp)).2 (.inl ⟨h1 i hi hr, ?_⟩),
      fun i hi hr => (h _ (by simp)).2 (.inl ⟨h2 i hi hr, by simp⟩), fun g hg hr => ?_⟩
    · intro he; cases he; rw [hr'] at hr; cases hr
    · obtain ⟨i, hi, hv⟩ := h3 g hg hr
      by_cases hic : i = c
      · subst hic
        obtain ⟨g', hg', hcg, -⟩ := group_of_mem hd hg hi
        rw [hcg] at hgc
        have := (mem_group hd hc' hgc.symm).1
        rw [hg'] at this
        exact ⟨c', this, (h _ (by simp)).2 (.inr rfl)⟩
      · exact ⟨i, hi, (h _ (by simp)).2 (.inl ⟨hv, by simp [hic]⟩)⟩
  | addShipment k hk hn h =>
    refine ⟨fun i hi hr => (h _ (by simp)).2 (.inl (h1 i hi hr)),
      fun i hi hr => (h _ (by simp)).2 (.inl (h2 i hi hr)), fun g hg hr => ?_⟩
    obtain ⟨i, hi, hv⟩ := h3 g hg hr
    exact ⟨i, hi, (h _ (by simp)).2 (.inl hv)⟩
  | removeShipment k hk hp hr' h =>
    refine ⟨fun i hi hr => (h _ (by simp)).2 ⟨h1 i hi hr, by simp⟩,
      fun i hi hr => (h _ (by simp)).2 ⟨h2 i hi hr, ?_, by simp⟩, fun g hg hr => ?_⟩
    · intro he; cases he; rw [hr'] at hr; cases hr
    · obtain ⟨i, hi, hv⟩ := h3 g hg hr
      exact ⟨i, hi, (h _ (by simp)).2 ⟨hv, by simp⟩⟩
  | replaceShipment k k' hk hk' hp hn hr' h =>
    refine ⟨fun i hi hr => (h _ (by simp)).2 (.inl ⟨h1 i hi hr, by simp⟩),
      fun i hi hr => (h _ (by simp)).2 (.inl ⟨h2 i hi hr, ?_, by simp⟩), fun g hg hr => ?_⟩
    · intro he; cases he; rw [hr'] at hr; cases hr
    · obtain ⟨i, hi, hv⟩ := h3 g hg hr
      exact ⟨i, hi, (h _ (by simp)).2 (.inl ⟨hv, by simp⟩)⟩

/-! ## The numbers of clients and shipments of a route -/

/-- The number of clients, pickups and deliveries. -/
def taskCount (acts : List Activity) : Nat := acts.countP (fun a => a.type ≠ .depot)

theorem taskCount_append (l m : List Activity) : taskCount (l ++ m) = taskCount l + taskCount m := by
  simp [taskCount, List.countP_append]

theorem taskCount_noDepot {l : List Activity} (h : Phase.NoDepot l) : taskCount l = l.length := by
  unfold taskCount
  rw [List.countP_eq_length]
  intro a ha
  simpa using h a ha

theorem used_iff_taskCount (acts : List Activity) : used acts = true ↔ taskCount acts ≠ 0 := by
  unfold used taskCount
  rw [Ne, List.countP_eq_zero, List.any_eq_true]
  simp

theorem used_eq_false_iff (acts : List Activity) : used acts = false ↔ taskCount acts = 0 := by
  cases h : used acts with
  | true => simpa using (used_iff_taskCount acts).1 h
  | false =>
    simp only [true_iff]
    refine Classical.byContradiction (fun hn => ?_)
    rw [(used_iff_taskCount acts).2 hn] at h
    cases h

theorem count_types (acts : List Activity) :
    taskCount acts = acts.countP (fun a => a.type = .client)
      + acts.countP (fun a => a.type = .pickup) + acts.countP (fun a => a.type = .delivery) := by
  induction acts with
  | nil => rfl
  | cons a acts ih =>
    unfold taskCount at *
    simp only [List.countP_cons, ih]
    cases h : a.type <;> simp <;> omega

/-- As many pickups as deliveries. -/
theorem counts_of_closed {l : List Activity} (h : Closed l)
    (honce : ∀ a : Activity, a.type ≠ .depot → l.count a ≤ 1) :
    l.countP (fun a => a.type = .pickup) = l.countP (fun a => a.type = .delivery) := by
  have hmap : ∀ (ty : ActivityType), (l.filter (fun a => a.type = ty)).length
      = l.countP (fun a => a.type = ty) := fun ty => by rw [List.countP_eq_length_filter]
  have hnd : ∀ (ty : ActivityType), ty ≠ .depot →
      ((l.filter (fun a => a.type = ty)).map (·.idx)).Nodup := by
    intro ty hty
    have h1 : (l.filter (fun a => a.type = ty)).Nodup := by
      rw [List.nodup_iff_count]
      intro a
      by_cases ha : a.type = ty
      · rw [List.count_filter (by simp [ha])]
        exact honce a (by rw [ha]; exact hty)
      · rw [List.count_eq_zero.2]
        · omega
        · intro hm; simp at hm; exact ha hm.2
    exact nodup_idx ty h1 (fun a ha => by simpa using (List.mem_filter.1 ha).2)
  have hmem : ∀ (ty : ActivityType) (k : Nat),
      k ∈ (l.filter (fun a => a.type = ty)).map (·.idx) ↔ (⟨ty, k⟩ : Activity) ∈ l := by
    intro ty k
    simp only [List.mem_map, List.mem_filter, decide_eq_true_eq]
    constructor
    · rintro ⟨⟨t, i⟩, ⟨h1, h2⟩, h3⟩
      simp only at h2 h3
      subst h2; subst h3; exact h1
    · intro hk; exact ⟨_, ⟨hk, rfl⟩, rfl⟩
  have h1 := length_le_of_nodup (hnd .delivery (by decide))
    (m := (l.filter (fun a => a.type = .pickup)).map (·.idx)) (by
      intro k hk
      rw [hmem] at hk ⊢
      exact (h.both (s := k) (fun hf => hf _ hk (.inr rfl))).1)
  have h2 := length_le_of_nodup (hnd .pickup (by decide))
    (m := (l.filter (fun a => a.type = .delivery)).map (·.idx)) (by
      intro k hk
      rw [hmem] at hk ⊢
      exact (h.both (s := k) (fun hf => hf _ hk (.inl rfl))).2.1)
  rw [List.length_map, List.length_map, hmap, hmap] at h1 h2
  omega

theorem route_taskCount {data : ProblemData} (vt : Nat) {acts : List Activity} (h : Closed acts)
    (honce : ∀ a : Activity, a.type ≠ .depot → acts.count a ≤ 1) :
    (SRoute.ofActs data vt acts).numClients + 2 * (SRoute.ofActs data vt acts).numShipments
      = taskCount acts := by
  obtain ⟨h1, h2, -⟩ := SRoute.ofActs_counts data vt acts
  rw [h1, h2, count_types]
  have := counts_of_closed h honce
  omega

/-! ## States and moves -/

namespace Spec

/-- The number of reload depots in all routes. -/
def reloads (plan : List (List Activity)) : Nat := (plan.map depotVisits).sum

end Spec

theorem reloads_set {plan : List (List Activity)} {i : Nat} (hi : i < plan.length) (new : List Activity) :
    reloads (plan.set i new) + depotVisits (plan.getD i []) = reloads plan + depotVisits new := by
  unfold reloads
  induction plan generalizing i with
  | nil => simp at hi
  | cons l plan ih =>
    cases i with
    | zero => simp; omega
    | succ i =>
      have := ih (i := i) (by simpa using hi)
      simp only [List.set_cons_succ, List.map_cons, List.sum_cons, List.getD_cons_succ]
      omega

/-- Compares numbers of reload depots of concatenated routes. -/
macro "count_depots" : tactic =>
  `(tactic| (simp [depotVisits_append, depotVisits_cons] <;> omega))

theorem near_set {plan : List (List Activity)} {i : Nat} {new : List Activity} (hi : i < plan.length)
    (h : depotVisits new ≤ depotVisits (plan.getD i []) + 1) :
    reloads (plan.set i new) ≤ reloads plan + 1 := by
  have := reloads_set hi new
  omega

theorem near_set2 {plan : List (List Activity)} {i j : Nat} {x y : List Activity} (hij : i ≠ j)
    (hi : i < plan.length) (hj : j < plan.length)
    (h : depotVisits x + depotVisits y
      ≤ depotVisits (plan.getD i []) + depotVisits (plan.getD j []) + 1) :
    reloads ((plan.set i x).set j y) ≤ reloads plan + 1 := by
  have h1 := reloads_set hi x
  have h2 := reloads_set (plan := plan.set i x) (i := j) (by simpa using hj) y
  rw [getD_set_ne _ (fun e => hij e.symm)] at h2
  omega

/-- A search solution in which everything is up to date. -/
structure SearchOk (data : ProblemData) (plan : List (List Activity)) (s : SSol) : Prop where
  clean : SSol.Clean data plan s
  routes : ∀ k, k < data.numVehicles →
    RouteOk data (data.vehicleType (vehTypeAt data k)) (plan.getD k [])

/-- What a move leads to: routes for which `D` holds may have changed, and have not been updated. -/
structure Moved (data : ProblemData) (plan plan' : List (List Activity)) (D : Nat → Prop) (δ : Int)
    (s : SSol) : Prop where
  but : SSol.CleanBut data D plan' s
  routes : ∀ k, k < data.numVehicles →
    RouteOk data (data.vehicleType (vehTypeAt data k)) (plan'.getD k [])
  tasks : TaskChange data (Visited plan) (Visited plan') δ
  kept : ∀ k, ¬ D k → plan'.getD k [] = plan.getD k []
  near : reloads plan' ≤ reloads plan + 1

/-- What the costs of moves need. -/
structure CostOk (data : ProblemData) (ce : CostEvaluator) : Prop where
  good : GoodData data
  valid : ce.Valid
  length : ce.loadPenalties.length = data.numLoadDimensions

/-- The routes of a plan that changed are evaluated exactly. -/
def FitsOn (data : ProblemData) (D : Nat → Prop) (plan : List (List Activity)) : Prop :=
  ∀ k, k < data.numVehicles → D k → used (plan.getD k []) = true →
    Fits data (vehTypeAt data k) (plan.getD k [])

namespace SearchOk

variable {data : ProblemData} {plan : List (List Activity)} {s : SSol}

theorem closed (h : SearchOk data plan s) {k : Nat} (hk : k < data.numVehicles) :
    Closed (plan.getD k []) := (h.routes k hk).ships

theorem once (h : SearchOk data plan s) (k : Nat) (a : Activity) (ha : a.type ≠ .depot) :
    (plan.getD k []).count a ≤ 1 := h.clean.1.once a ha k

theorem route (h : SearchOk data plan s) {k : Nat} (hk : k < data.numVehicles) :
    s.route k = SRoute.ofActs data (vehTypeAt data k) (plan.getD k []) := h.clean.2 k hk

/-- Parts of a route have nothing in common. -/
theorem apart (h : SearchOk data plan s) {k : Nat} {xs ms ys : List Activity}
    (he : plan.getD k [] = xs ++ ms ++ ys) : Apart xs ms ∧ Apart xs ys ∧ Apart ms ys := by
  have key : ∀ a : Activity, a.type ≠ .depot → (xs ++ ms ++ ys).count a ≤ 1 := fun a ha => by
    rw [← he]; exact h.once k a ha
  have one : ∀ {a : Activity} {l : List Activity}, a ∈ l → 1 ≤ l.count a := fun hm =>
    List.count_pos_iff.2 hm
  refine ⟨?_, ?_, ?_⟩
  all_goals
    intro a ha h1 h2
    have h3 := key a ha
    have h4 := one h1
    have h5 := one h2
    simp only [List.count_append] at h3
    omega

/-- Different routes have nothing in common. -/
theorem apart_routes (h : SearchOk data plan s) {i j : Nat} (hij : i ≠ j) :
    Apart (plan.getD i []) (plan.getD j []) :=
  fun _ ha hi hj => hij (h.clean.1.unique ha hi hj)

end SearchOk

theorem Apart.sub {l m l' m' : List Activity} (h : Apart l m) (hl : ∀ a ∈ l', a ∈ l)
    (hm : ∀ a ∈ m', a ∈ m) : Apart l' m' := fun a ha h1 h2 => h a ha (hl a h1) (hm a h2)

/-- The penalised cost of a search solution is that of its plan. -/
theorem planCost_eq {data : ProblemData} {plan : List (List Activity)} {s : SSol}
    (h : SSol.Clean data plan s) (ce : CostEvaluator) :
    ce.penalisedCostSSol data s = planCost data ce plan := by
  have hown : ∀ a : Activity, a.type ≠ .depot → (s.owner a = none ↔ ¬ Visited plan a) := by
    intro a ha
    constructor
    · rintro hn ⟨i, hi⟩
      rw [(h.1.owner a ha i).2 hi] at hn
      cases hn
    · intro hn
      cases ho : s.owner a with
      | none => rfl
      | some i => exact absurd ⟨i, (h.1.owner a ha i).1 ho⟩ hn
  have hpr : ∀ (a : Activity) (x : Int), a.type ≠ .depot →
      (if s.owner a = none then x else 0) = if visits plan a then 0 else x := by
    intro a x ha
    by_cases hv : Visited plan a
    · rw [if_neg (fun hn => (hown a ha).1 hn hv), visits_true hv]; rfl
    · rw [if_pos ((hown a ha).2 hv), visits_false hv]; rfl
  have hroutes : s.routes.map (ce.penalisedCostSearch data)
      = (List.range data.numVehicles).map (fun k =>
          routeCost data ce (vehTypeAt data k) (plan.getD k [])) := by
    apply List.ext_getElem
    · rw [List.length_map, List.length_map, List.length_range, h.1.sized.routes]
    · intro k h1 h2
      rw [List.length_map] at h1 h2
      rw [List.length_range] at h2
      rw [List.getElem_map, List.getElem_map, List.getElem_range]
      unfold routeCost
      rw [← h.2 k h2]
      unfold SSol.route
      simp [List.getD_eq_getElem?_getD, h1]
  unfold CostEvaluator.penalisedCostSSol planCost missedPrizes routesCost
  rw [hroutes]
  simp only [hpr ⟨.client, _⟩ _ (by simp : (ActivityType.client ≠ .depot)),
    hpr ⟨.pickup, _⟩ _ (by simp : (ActivityType.pickup ≠ .depot))]

end PyVRP
