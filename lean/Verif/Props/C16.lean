import Verif.Props.C13
import Verif.Model.CostEvaluator
/-!
# C16, C17: objective value; equality and hash of solutions
-/
namespace PyVRP
open Spec

/-! ### C16 -/

/-- Sum of the penalties of the excess loads, dimension by dimension. -/
def Spec.loadPenaltySum (penalties : List (Int → Int)) (excess : List Int) : Int :=
  match penalties, excess with
  | f :: fs, x :: xs => f x + loadPenaltySum fs xs
  | _, _ => 0

/-- What a route costs: distance, duration and fixed vehicle costs plus penalties. -/
def Spec.routeCost (ce : CostEvaluator) (r : Route) : Int :=
  r.distanceCost + r.durationCost + r.fixedVehicleCost
    + loadPenaltySum ce.loadPenalties r.excessLoad
    + ce.twPenalty_ r.timeWarp + ce.distPenalty_ r.excessDistance

theorem excessLoadPenalties_eq (ce : CostEvaluator) (l : List Int) :
    ce.excessLoadPenalties l = loadPenaltySum ce.loadPenalties l := by
  have : ∀ (fs : List (Int → Int)) (l : List Int) (acc : Int),
      (fs.zip l).foldl (fun cost p => cost + p.1 p.2) acc = acc + loadPenaltySum fs l := by
    intro fs
    induction fs with
    | nil => intro l acc; simp [loadPenaltySum]
    | cons f fs ih =>
      intro l acc
      cases l with
      | nil => simp [loadPenaltySum]
      | cons x xs => simp only [List.zip_cons_cons, List.foldl_cons, ih, loadPenaltySum]; omega
  have h := this ce.loadPenalties l 0
  simpa [CostEvaluator.excessLoadPenalties] using h

/-- Routes of an accepted solution are not empty and have non-negative excesses. -/
theorem Spec.Built.route_facts {data : ProblemData} {plan : RoutePlan} {routes : List Route}
    (hb : Built data plan routes) (hv : ValidPlan data plan) {r : Route} (hr : r ∈ routes) :
    r.empty = false ∧ 0 ≤ r.timeWarp ∧ 0 ≤ r.excessDistance ∧ (∀ x ∈ r.excessLoad, 0 ≤ x)
      ∧ r.excessLoad.length = data.numLoadDimensions := by
  obtain ⟨p, hp, hm⟩ := hb.mem hr
  have hnn := Route.make_nonneg hm
  refine ⟨?_, hnn.1, hnn.2.1, hnn.2.2.1, hnn.2.2.2.1⟩
  have ht := hb.types p hp
  have hmem : data.vehicleType p.1 ∈ data.vehicleTypes := by
    simp [ProblemData.vehicleType, List.getD_eq_getElem?_getD, List.getElem?_eq_getElem ht]
  have hc := (C07_counts data p.2 p.1 r (hb.sizes p hp) (hb.reloads _ hmem) hm).2.2.2.2.2
  cases he : r.empty
  · rfl
  · obtain ⟨a, ha, hd⟩ := hv.nonempty p hp
    exact absurd (hc.1 he a ha) hd

/-- **C16.** The penalised cost of an accepted solution. -/
theorem C16_penalised_cost (data : ProblemData) (plan : RoutePlan) (routes : List Route) (s : Solution)
    (hb : Built data plan routes) (hn : ∀ g ∈ data.groups, g.clients.Nodup)
    (h : Solution.make data routes = .ok s) (ce : CostEvaluator) :
    ce.penalisedCost s = (routes.map (routeCost ce)).sum + (s.unplanned.map (prizeOf data)).sum := by
  have hv := (Solution.make_eq_ok hb hn h).1
  have hr := (C15_totals data plan routes s hb hn h).1
  have hu := (C15_unplanned data plan routes s hb hn h).2.2.1
  unfold CostEvaluator.penalisedCost
  rw [Solution.foldl_add, hr, hu, Int.add_comm]
  congr 2
  apply List.map_congr_left
  intro r hr'
  obtain ⟨h1, h2, h3, h4, h5⟩ := hb.route_facts hv hr'
  unfold CostEvaluator.penalisedCostRoute routeCost
  rw [h1, excessLoadPenalties_eq]
  simp only [CostEvaluator.twPenalty, CostEvaluator.distPenalty, CostEvaluator.excessDistPenalty]
  have : max (r.excessDistance - 0) 0 = r.excessDistance := by omega
  rw [this]
  rfl

theorem loadPenaltySum_zero (fs : List (Int → Int)) (hf : ∀ f ∈ fs, IsPenalty f) (l : List Int)
    (h : ∀ x ∈ l, x = 0) : loadPenaltySum fs l = 0 := by
  induction fs generalizing l with
  | nil => simp [loadPenaltySum]
  | cons f fs ih =>
    cases l with
    | nil => simp [loadPenaltySum]
    | cons x xs =>
      have hx := h x (by simp)
      subst hx
      simp only [loadPenaltySum, (hf f (by simp)).zero]
      rw [ih (fun g hg => hf g (by simp [hg])) xs (fun y hy => h y (by simp [hy]))]
      rfl

theorem sum_map_add3 {α : Type} (f g h : α → Int) (l : List α) :
    (l.map (fun x => f x + g x + h x)).sum = (l.map f).sum + (l.map g).sum + (l.map h).sum := by
  induction l with
  | nil => rfl
  | cons x rest ih => simp only [List.map_cons, List.sum_cons]; omega

/-- **C16.** For a feasible solution both objective values are distance, duration and fixed vehicle
costs plus uncollected prizes, whatever the penalties; an infeasible solution has the largest
cost. -/
theorem C16_cost (data : ProblemData) (plan : RoutePlan) (routes : List Route) (s : Solution)
    (hb : Built data plan routes) (hn : ∀ g ∈ data.groups, g.clients.Nodup)
    (h : Solution.make data routes = .ok s) (ce : CostEvaluator) (hce : ce.Valid) :
    (s.isFeasible = true →
      ce.cost s = s.distanceCost + s.durationCost + s.fixedVehicleCost + s.uncollectedPrizes
      ∧ ce.penalisedCost s = ce.cost s)
    ∧ (s.isFeasible = false → ce.cost s = MAX) := by
  constructor
  · intro hf
    have hv := (Solution.make_eq_ok hb hn h).1
    have hc : ce.cost s = ce.penalisedCost s := by simp [CostEvaluator.cost, hf]
    refine ⟨?_, hc.symm⟩
    rw [hc, C16_penalised_cost data plan routes s hb hn h ce]
    obtain ⟨-, hd, hdc, hdu, -, hduc, -, -, hfix, -⟩ := C15_totals data plan routes s hb hn h
    rw [hdc, hduc, hfix, (C15_unplanned data plan routes s hb hn h).2.2.1]
    congr 1
    have hfr := ((C14_feasible_iff data plan routes s hb hn h).1 hf).2
    have hone : ∀ r ∈ routes, routeCost ce r
        = r.distanceCost + r.durationCost + r.fixedVehicleCost := by
      intro r hr
      obtain ⟨-, h2, h3, h4, h5⟩ := hb.route_facts hv hr
      have hf := hfr r hr
      simp only [Route.isFeasible, Bool.and_eq_true, Bool.not_eq_true', Route.hasExcessLoad,
        Route.hasTimeWarp, Route.hasExcessDistance, decide_eq_false_iff_not, List.any_eq_false,
        decide_eq_true_eq] at hf
      obtain ⟨⟨f1, f2⟩, f3⟩ := hf
      have e1 : r.timeWarp = 0 := by omega
      have e2 : r.excessDistance = 0 := by omega
      have e3 : ∀ x ∈ r.excessLoad, x = 0 := fun x hx => by
        have := f1 x hx; have := h4 x hx; omega
      simp [routeCost, e1, e2, hce.tw.zero, hce.dist.zero, loadPenaltySum_zero _ hce.load _ e3]
    rw [List.map_congr_left hone, sum_map_add3]
  · intro hf
    simp [CostEvaluator.cost, hf]

/-- Truncated multiplication with a non-negative rational is a penalty function. -/
theorem ratPenalty_isPenalty (n d : Int) (hn : 0 ≤ n) (hd : 0 < d) : IsPenalty (ratPenalty n d) := by
  constructor
  · simp [ratPenalty]
  · intro x y hx hxy
    unfold ratPenalty
    rw [Int.tdiv_eq_ediv_of_nonneg (Int.mul_nonneg hx hn),
      Int.tdiv_eq_ediv_of_nonneg (Int.mul_nonneg (by omega) hn)]
    exact Int.ediv_le_ediv hd (Int.mul_le_mul_of_nonneg_right hxy hn)

/-- Penalties are never negative. -/
theorem IsPenalty.nonneg {f : Int → Int} (h : IsPenalty f) (x : Int) (hx : 0 ≤ x) : 0 ≤ f x := by
  have := h.mono 0 x (by omega) hx
  rw [h.zero] at this
  exact this

/-! ### C17 -/

/-- Routes made for the same instance are equal iff vehicle type and activities are. -/
theorem Route.eq_iff {data : ProblemData} {p q : Nat × List Activity} {r t : Route}
    (hr : Route.make data p.2 p.1 = .ok r) (ht : Route.make data q.2 q.1 = .ok t) :
    Route.eq r t = true ↔ p = q := by
  constructor
  · intro h
    simp only [Route.eq, Bool.and_eq_true, beq_iff_eq] at h
    obtain ⟨⟨-, hv⟩, hs⟩ := h
    have h1 := (C07_schedule_lists_activities data p.2 p.1 r hr).1
    have h2 := (C07_schedule_lists_activities data q.2 q.1 t ht).1
    have hv1 : r.vehicleType = p.1 := by rw [Route.make_eq_ok hr]; rfl
    have hv2 : t.vehicleType = q.1 := by rw [Route.make_eq_ok ht]; rfl
    have hvt : p.1 = q.1 := by rw [← hv1, ← hv2, hv]
    rw [hs, h2, hvt] at h1
    simp only [fullActs, List.cons_append, List.cons.injEq, true_and] at h1
    have := List.append_cancel_right h1
    exact Prod.ext hvt this.symm
  · rintro rfl
    rw [hr] at ht
    injection ht with ht
    subst ht
    simp [Route.eq]

theorem countP_routes {data : ProblemData} {plan : RoutePlan} {routes : List Route}
    (hb : Built data plan routes) {p : Nat × List Activity} {r : Route}
    (hr : Route.make data p.2 p.1 = .ok r) : routes.countP (Route.eq r) = plan.count p := by
  refine Built.induction (motive := fun plan routes =>
    routes.countP (Route.eq r) = plan.count p) rfl ?_ hb
  intro q plan t routes hm _ _ _ _ ih
  rw [List.countP_cons, List.count_cons, ih]
  have := Route.eq_iff hr hm
  by_cases hpq : p = q
  · have h1 := this.2 hpq
    simp [h1, hpq]
  · have h1 : Route.eq r t = false := by
      cases hh : Route.eq r t
      · rfl
      · exact absurd (this.1 hh) hpq
    have h2 : ¬ q = p := fun hh => hpq hh.symm
    simp [h1, h2]

theorem perm_of_count {α : Type} [BEq α] [LawfulBEq α] (l1 : List α) : ∀ l2 : List α,
    l1.length = l2.length → (∀ x ∈ l1, l1.count x = l2.count x) → l1.Perm l2 := by
  induction l1 with
  | nil => intro l2 h _; cases l2 with
    | nil => exact List.Perm.refl _
    | cons y ys => simp at h
  | cons x xs ih =>
    intro l2 hl hc
    have hx : x ∈ l2 := by
      have := hc x (by simp)
      rw [List.count_cons_self] at this
      exact List.count_pos_iff.1 (by omega)
    have hp := List.perm_cons_erase hx
    refine List.Perm.trans (List.Perm.cons x (ih (l2.erase x) ?_ ?_)) hp.symm
    · have := hp.length_eq
      simp only [List.length_cons] at this hl
      omega
    · intro y hy
      have h1 := hc y (by simp [hy])
      have h2 := hp.count_eq y
      rw [List.count_cons] at h1 h2
      omega

/-- Routes of plans that are permutations of each other are permutations of each other. -/
theorem Spec.Built.perm {data : ProblemData} {plan1 plan2 : RoutePlan} {routes1 routes2 : List Route}
    (h1 : Built data plan1 routes1) (h2 : Built data plan2 routes2) (h : plan1.Perm plan2) :
    routes1.Perm routes2 := by
  have hm := h.map (fun p => Route.make data p.2 p.1)
  rw [h1.made, h2.made] at hm
  have hf := hm.filterMap (fun e : Except Error Route => match e with
    | .ok r => some r
    | .error _ => none)
  have hid : ∀ l : List Route, (l.map (Except.ok (ε := Error))).filterMap (fun e => match e with
    | .ok r => some r
    | .error _ => none) = l := by
    intro l
    induction l with
    | nil => rfl
    | cons r rest ih => simp only [List.map_cons, List.filterMap_cons, ih]
  rw [hid, hid] at hf
  exact hf

theorem perm_natSum {a b : List Nat} (h : a.Perm b) : a.sum = b.sum := by
  induction h with
  | nil => rfl
  | cons x _ ih => simp [ih]
  | swap x y l => simp; omega
  | trans _ _ h1 h2 => exact h1.trans h2

theorem C17_fields {data : ProblemData} {plan1 plan2 : RoutePlan} {routes1 routes2 : List Route}
    {s1 s2 : Solution} (hb1 : Built data plan1 routes1) (hb2 : Built data plan2 routes2)
    (hn : ∀ g ∈ data.groups, g.clients.Nodup)
    (h1 : Solution.make data routes1 = .ok s1) (h2 : Solution.make data routes2 = .ok s2)
    (hp : plan1.Perm plan2) :
    s1.distance = s2.distance ∧ s1.duration = s2.duration ∧ s1.distanceCost = s2.distanceCost
    ∧ s1.durationCost = s2.durationCost ∧ s1.timeWarp = s2.timeWarp
    ∧ s1.numClients = s2.numClients ∧ s1.numShipments = s2.numShipments
    ∧ s1.numRoutes = s2.numRoutes ∧ s1.uncollectedPrizes = s2.uncollectedPrizes := by
  have hpr := Spec.Built.perm hb1 hb2 hp
  obtain ⟨-, a1, a2, a3, -, a4, a5, -, -, a6, a7, a8, -, -, a9, -⟩ :=
    C15_totals data plan1 routes1 s1 hb1 hn h1
  obtain ⟨-, b1, b2, b3, -, b4, b5, -, -, b6, b7, b8, -, -, b9, -⟩ :=
    C15_totals data plan2 routes2 s2 hb2 hn h2
  have u1 : s1.uncollectedPrizes = Solution.allPrizes data - s1.prizes := by
    rw [(Solution.make_eq_ok hb1 hn h1).2]; rfl
  have u2 : s2.uncollectedPrizes = Solution.allPrizes data - s2.prizes := by
    rw [(Solution.make_eq_ok hb2 hn h2).2]; rfl
  rw [u1, u2, a1, a2, a3, a4, a5, a6, a7, a8, a9, b1, b2, b3, b4, b5, b6, b7, b8, b9]
  refine ⟨Solution.perm_sum (hpr.map _), Solution.perm_sum (hpr.map _),
    Solution.perm_sum (hpr.map _), Solution.perm_sum (hpr.map _), Solution.perm_sum (hpr.map _),
    perm_natSum (hpr.map _), perm_natSum (hpr.map _), hpr.length_eq, ?_⟩
  rw [Solution.perm_sum (hpr.map _)]

/-- **C17.** Solutions of the same instance are equal iff their routes are the same up to order. -/
theorem C17_equal_iff (data : ProblemData) (plan1 plan2 : RoutePlan) (routes1 routes2 : List Route)
    (s1 s2 : Solution) (hb1 : Built data plan1 routes1) (hb2 : Built data plan2 routes2)
    (hn : ∀ g ∈ data.groups, g.clients.Nodup)
    (h1 : Solution.make data routes1 = .ok s1) (h2 : Solution.make data routes2 = .ok s2) :
    Solution.eq s1 s2 = true ↔ plan1.Perm plan2 := by
  have hr1 := (C15_totals data plan1 routes1 s1 hb1 hn h1).1
  have hr2 := (C15_totals data plan2 routes2 s2 hb2 hn h2).1
  have hl1 := hb1.length
  have hl2 := hb2.length
  have hperm : Solution.isPermutation routes1 routes2 = true ↔ plan1.Perm plan2 := by
    simp only [Solution.isPermutation, Bool.and_eq_true, beq_iff_eq, List.all_eq_true]
    constructor
    · rintro ⟨k1, k2⟩
      apply perm_of_count _ _ (by omega)
      intro p hp
      have : Route.make data p.2 p.1 ∈ routes1.map (Except.ok (ε := Error)) := by
        rw [← hb1.made]; exact List.mem_map_of_mem (f := fun p => Route.make data p.2 p.1) hp
      obtain ⟨r, hr, hm⟩ := List.mem_map.1 this
      have := k2 r hr
      rwa [countP_routes hb1 hm.symm, countP_routes hb2 hm.symm] at this
    · intro hp
      refine ⟨by have := hp.length_eq; omega, fun r hr => ?_⟩
      obtain ⟨p, hp', hm⟩ := hb1.mem hr
      rw [countP_routes hb1 hm, countP_routes hb2 hm]
      exact hp.count_eq p
  constructor
  · intro h
    simp only [Solution.eq, Bool.and_eq_true, hr1, hr2] at h
    exact hperm.1 h.2
  · intro hp
    obtain ⟨e1, e2, e3, e4, e5, e6, e7, -, -⟩ := C17_fields hb1 hb2 hn h1 h2 hp
    simp [Solution.eq, e1, e2, e3, e4, e5, e6, e7, hr1, hr2, hperm.2 hp]

/-- **C17.** Equality is reflexive, symmetric and transitive on the solutions of an instance, and
equal solutions have equal hashes. -/
theorem C17_equivalence (data : ProblemData) (hn : ∀ g ∈ data.groups, g.clients.Nodup)
    (plan1 plan2 plan3 : RoutePlan) (routes1 routes2 routes3 : List Route) (s1 s2 s3 : Solution)
    (hb1 : Built data plan1 routes1) (hb2 : Built data plan2 routes2)
    (hb3 : Built data plan3 routes3)
    (h1 : Solution.make data routes1 = .ok s1) (h2 : Solution.make data routes2 = .ok s2)
    (h3 : Solution.make data routes3 = .ok s3) :
    Solution.eq s1 s1 = true
    ∧ (Solution.eq s1 s2 = true → Solution.eq s2 s1 = true)
    ∧ (Solution.eq s1 s2 = true → Solution.eq s2 s3 = true → Solution.eq s1 s3 = true)
    ∧ (Solution.eq s1 s2 = true → ∀ hashInt, s1.hash hashInt = s2.hash hashInt) := by
  rw [C17_equal_iff data plan1 plan1 routes1 routes1 s1 s1 hb1 hb1 hn h1 h1,
    C17_equal_iff data plan1 plan2 routes1 routes2 s1 s2 hb1 hb2 hn h1 h2,
    C17_equal_iff data plan2 plan1 routes2 routes1 s2 s1 hb2 hb1 hn h2 h1,
    C17_equal_iff data plan2 plan3 routes2 routes3 s2 s3 hb2 hb3 hn h2 h3,
    C17_equal_iff data plan1 plan3 routes1 routes3 s1 s3 hb1 hb3 hn h1 h3]
  refine ⟨List.Perm.refl _, List.Perm.symm, List.Perm.trans, fun hp hashInt => ?_⟩
  obtain ⟨e1, e2, e3, e4, e5, e6, e7, e8, e9⟩ := C17_fields hb1 hb2 hn h1 h2 hp
  simp only [Solution.hash, e1, e2, e5, e8, e9]

/-! ### Examples -/
namespace Demo

/-- The penalties 20, 6 and 13/2. -/
def costEvaluator : CostEvaluator := ⟨[ratPenalty 20 1], ratPenalty 6 1, ratPenalty 13 2⟩

theorem costEvaluator_valid : costEvaluator.Valid := by
  refine ⟨?_, ?_, ?_⟩
  · intro f hf
    simp [costEvaluator] at hf
    subst hf
    exact ratPenalty_isPenalty 20 1 (by decide) (by decide)
  · exact ratPenalty_isPenalty 6 1 (by decide) (by decide)
  · exact ratPenalty_isPenalty 13 2 (by decide) (by decide)

/-- The other order of the routes gives an equal solution. -/
example : (match Solution.make data routes, Solution.make data routes.reverse with
    | .ok s, .ok t => Solution.eq s t && (s.routes != t.routes)
    | _, _ => false) = true := by decide

end Demo
end PyVRP
