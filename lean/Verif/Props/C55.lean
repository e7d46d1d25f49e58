import Verif.Lemmas.Int64Solution
import Verif.Props.C13
import Verif.Props.C22
import Verif.Props.C53
/-!
# C55: with numbers of a moderate size, 64-bit arithmetic does not overflow

`PyVRP.I64` (`Verif/Model/Int64.lean`) has the same functions as the model, but on 64-bit integers: each
addition, subtraction, multiplication, negation and conversion is checked, and the result is `none` if one
of them overflows, or if an assertion of the constructors fails.
-/
namespace PyVRP
open Spec

theorem Spec.Room.le {data : ProblemData} {B M n : Nat} (h : Room data B M n) :
    (2 * (data.numLoadDimensions : Int) + 20) * (M * (B * n)) ≤ MAX
    ∧ 20 * ((M : Int) * (B * n)) ≤ MAX := by
  unfold Room at h
  have e : (((2 * data.numLoadDimensions + 20) * M * B * n : Nat) : Int)
      = (2 * (data.numLoadDimensions : Int) + 20) * (M * (B * n)) := by
    push_cast
    grind
  rw [e] at h
  refine ⟨h, ?_⟩
  have h0 : 0 ≤ (M : Int) * (B * n) :=
    Int.mul_nonneg (Int.natCast_nonneg _) (Int.mul_nonneg (Int.natCast_nonneg _) (Int.natCast_nonneg _))
  have := Int.mul_nonneg (show 0 ≤ 2 * (data.numLoadDimensions : Int) by omega) h0
  rw [Int.add_mul] at h
  omega

theorem Spec.Room.mono {data : ProblemData} {B M n m : Nat} (h : Room data B M n) (hm : m ≤ n) :
    Room data B M m := by
  unfold Room at *
  have := Nat.mul_le_mul_left ((2 * data.numLoadDimensions + 20) * M * B) hm
  omega

theorem mem_vehicleTypes {data : ProblemData} {k : Nat} (hk : k < data.vehicleTypes.length) :
    data.vehicleType k ∈ data.vehicleTypes := by
  unfold ProblemData.vehicleType
  rw [List.getD_eq_getElem?_getD, List.getElem?_eq_getElem hk]
  exact List.getElem_mem hk

/-- **C55, routes.** If there is room for the stops of a route, then the constructor computes the route's
statistics without overflow, and so do the methods that return the waiting time and the end time. -/
theorem C55_route (data : ProblemData) (hg : GoodData data) (B M : Nat) (hM : 1 ≤ M)
    (hs : Small data B M) (acts : List Activity) (k : Nat) (hk : k < data.vehicleTypes.length)
    (hr : Room data B M (acts.length + 2)) :
    I64.makeRoute data acts k = some (Route.make data acts k)
    ∧ ∀ r, Route.make data acts k = .ok r →
      I64.waitDuration r = some r.waitDuration ∧ I64.endTime r = some r.endTime := by
  have hm := MAX_eq
  have hr2 : 20 * ((M : Int) * (B * ((acts.length : Int) + 2))) ≤ MAX := hr.le.2
  obtain ⟨h1, h2⟩ := I64.build_eq (I64.dataBd hg.times hs) (I64.vehBd hg hs (mem_vehicleTypes hk))
    (by omega) acts hr2
  unfold I64.makeRoute Route.make
  cases Route.validate data k acts with
  | error e => exact ⟨rfl, fun r h => by cases h⟩
  | ok u =>
    dsimp only
    rw [h1]
    refine ⟨rfl, fun r h => ?_⟩
    cases h
    have h0 : 0 ≤ (B : Int) * ((acts.length : Int) + 2) :=
      Int.mul_nonneg (Int.natCast_nonneg _) (by omega)
    have hMX := Int.mul_le_mul_of_nonneg_right (show (1 : Int) ≤ M by omega) h0
    have d := h2.duration
    have t := h2.travel
    have s := h2.service
    have st := h2.startTime
    have w := h2.timeWarp
    unfold I64.waitDuration I64.endTime Route.waitDuration Route.endTime
    simp (disch := omega) only [Option.bind_eq_bind, Option.bind_some, I64.add_eq, I64.sub_eq, and_self]

theorem I64.routes_bd {data : ProblemData} (hg : GoodData data) {B M : Nat} (hM : 1 ≤ M)
    (hs : Small data B M) (plan : RoutePlan) : ∀ (routes : List Route),
    plan.map (fun p => Route.make data p.2 p.1) = routes.map Except.ok →
    (∀ p ∈ plan, p.1 < data.vehicleTypes.length) → Room data B M (numStops plan) →
    I64.stops routes = numStops plan
    ∧ ∀ r ∈ routes, I64.RouteBd M (B * r.size) data.numLoadDimensions r := by
  induction plan with
  | nil =>
    intro routes h _ _
    cases routes with
    | nil => exact ⟨rfl, fun r hr => by cases hr⟩
    | cons r rest => cases h
  | cons p rest ih =>
    intro routes h hk hr
    cases routes with
    | nil => cases h
    | cons r rs =>
      rw [List.map_cons, List.map_cons, List.cons.injEq] at h
      have hn : numStops (p :: rest) = (p.2.length + 2) + numStops rest := by simp [numStops]
      rw [hn] at hr
      obtain ⟨i1, i2⟩ := ih rs h.2 (fun q hq => hk q (List.mem_cons_of_mem _ hq))
        (hr.mono (by omega))
      have h2 := (I64.build_eq (I64.dataBd hg.times hs)
        (I64.vehBd hg hs (mem_vehicleTypes (hk p (List.mem_cons_self ..)))) (by omega) p.2
        (hr.mono (Nat.le_add_right _ _)).le.2).2
      have hmk := h.1
      unfold Route.make at hmk
      cases hv : Route.validate data p.1 p.2 with
      | error e => rw [hv] at hmk; cases hmk
      | ok u =>
        rw [hv] at hmk
        injection hmk with hmk
        have hsz : r.size = p.2.length + 2 := by
          rw [← hmk]
          exact I64.mkSchedule_length _ _ _ _
        rw [hmk] at h2
        refine ⟨by rw [I64.stops_cons, i1, hn, hsz], fun x hx => ?_⟩
        rcases List.mem_cons.1 hx with rfl | hx
        · rw [hsz]
          push_cast
          exact h2
        · exact i2 x hx

/-- **C55, solutions.** If there is room for all stops, and for the clients and shipments, then the
constructor of a solution adds up the statistics of its routes without overflow. -/
theorem C55_solution (data : ProblemData) (hg : GoodData data) (B M : Nat) (hM : 1 ≤ M)
    (hs : Small data B M) (plan : RoutePlan) (routes : List Route) (hb : Built data plan routes)
    (hr : Room data B M (data.clients.length + data.shipments.length + numStops plan)) :
    I64.makeSolution data routes = some (Solution.make data routes) := by
  obtain ⟨h1, h2⟩ := I64.routes_bd hg hM hs plan routes hb.made hb.types
    (hr.mono (Nat.le_add_left _ _))
  exact (I64.makeSolution_eq (Int.natCast_nonneg B) (by omega) hs.clientPrizes hs.shipmentPrizes h2
    (by rw [h1]; exact hr.le.2)).1

/-- **C55, objective values.** Then the objective value of the solution is also computed without overflow,
with and without penalties. -/
theorem C55_cost (data : ProblemData) (hg : GoodData data) (B M : Nat) (hM : 1 ≤ M)
    (hs : Small data B M) (plan : RoutePlan) (routes : List Route) (hb : Built data plan routes)
    (hr : Room data B M (data.clients.length + data.shipments.length + numStops plan))
    (ce : CostEvaluator) (hp : SmallPenalties data ce M) (s : Solution)
    (hsol : Solution.make data routes = .ok s) :
    I64.penalisedCost ce s = some (ce.penalisedCost s) ∧ I64.cost ce s = some (ce.cost s) := by
  have hm := MAX_eq
  obtain ⟨h1, h2⟩ := I64.routes_bd hg hM hs plan routes hb.made hb.types
    (hr.mono (Nat.le_add_left _ _))
  have h0 : (0 : Int) ≤ B := Int.natCast_nonneg B
  obtain ⟨k1, k2, k3⟩ := (I64.makeSolution_eq h0 (show (1 : Int) ≤ M by omega) hs.clientPrizes
    hs.shipmentPrizes h2 (by rw [h1]; exact hr.le.2)).2 s hsol
  have hle := hr.le.1
  have e1 : (B : Int) * ((data.clients.length + data.shipments.length + numStops plan : Nat) : Int)
      = B * (data.numClients + data.numShipments : Nat) + B * numStops plan := by
    rw [Int.natCast_add, Int.mul_add]; rfl
  have n1 : 0 ≤ (B : Int) * ((data.numClients + data.numShipments : Nat) : Int) :=
    Int.mul_nonneg h0 (Int.natCast_nonneg _)
  have n2 : 0 ≤ (B : Int) * (numStops plan : Int) := Int.mul_nonneg h0 (Int.natCast_nonneg _)
  rw [e1, Int.mul_add, Int.mul_add] at hle
  rw [h1] at k2
  have hD : (20 : Int) ≤ 2 * (data.numLoadDimensions : Int) + 20 := by omega
  have m1 := Int.mul_le_mul_of_nonneg_right (show (1 : Int) ≤ M by omega) n1
  have m2 := Int.mul_le_mul_of_nonneg_right (show (1 : Int) ≤ M by omega) n2
  have m3 := Int.mul_le_mul_of_nonneg_right hD (show 0 ≤ (M : Int) * (B * (data.numClients + data.numShipments : Nat)) by omega)
  have m4 := Int.mul_le_mul_of_nonneg_right hD (show 0 ≤ (M : Int) * (B * numStops plan) by omega)
  have hpen : I64.penalisedCost ce s = some (ce.penalisedCost s) := by
    unfold I64.penalisedCost CostEvaluator.penalisedCost
    rw [k1]
    exact I64.costLoop_eq h0 (by omega) ⟨hp.dims, hp.loads, hp.tw, hp.dist⟩ routes _ h2
      (by rw [h1]; omega) (by rw [h1]; omega) (by rw [h1]; omega)
  refine ⟨hpen, ?_⟩
  unfold I64.cost CostEvaluator.cost I64.ternary
  split
  · exact hpen
  · rfl

/-! ## Negative distances and large numbers -/

/-- The 64-bit integer that an overflowing computation gives on common hardware. (In C++ it is undefined
behaviour.) -/
def wrapped (x : Int) : Int := (x + (MAX + 1)) % (2 * (MAX + 1)) - (MAX + 1)

/-- **C55, negation.** Small numbers are not enough, since `ProblemData` accepts negative distances: a
vehicle's maximum distance is by default the largest 64-bit integer, and subtracting it from the distance of
a route with total distance below `-1` overflows. When the result is wrapped around, a route that meets all
restrictions is taken to exceed the maximum distance by a lot. -/
theorem C55_negation_distance :
    ∃ (data : ProblemData) (acts : List Activity) (r : Route), GoodData data
      ∧ (∀ m ∈ data.dists, ∀ x ∈ m.data, -10 ≤ x ∧ x ≤ 10) ∧ (∀ m ∈ data.durs, ∀ x ∈ m.data, x ≤ 10)
      ∧ Route.make data acts 0 = .ok r ∧ r.isFeasible = true
      ∧ r.distance = -20 ∧ (data.vehicleType 0).maxDistance = MAX
      ∧ I64.makeRoute data acts 0 = none
      ∧ wrapped (r.distance - (data.vehicleType 0).maxDistance) = 9223372036854775789 :=
  ⟨Demo.negativeData, [Demo.client 0, Demo.client 1], _, Demo.negativeGood, by decide, by decide, rfl,
    by decide +kernel, by decide +kernel, by decide +kernel, by decide +kernel, by decide +kernel⟩

/-- As `Demo.data`, but the distances are large. -/
def Demo.farData (x : Int) : ProblemData := { Demo.data with dists := [⟨3, 3, [0, x, x, x, 0, x, x, x, 0]⟩] }

/-- Some bound on the numbers is needed: five times the distance must fit. -/
example : ProblemData.make (Demo.farData (MAX / 5 + 1)) = .ok (Demo.farData (MAX / 5 + 1))
    ∧ I64.makeRoute (Demo.farData (MAX / 5 + 1)) Demo.acts 0 = none
    ∧ (∃ r, I64.makeRoute (Demo.farData (MAX / 5)) Demo.acts 0 = some (.ok r)) := by
  refine ⟨by decide +kernel, by decide +kernel,
    ⟨Route.build (Demo.farData (MAX / 5)) Demo.acts 0, by decide +kernel⟩⟩

/-! ## Non-vacuity -/

namespace Demo

theorem smallData : Small data 50 3 := by
  constructor <;> decide

theorem smallPenalties : SmallPenalties data costEvaluator 1000 where
  dims := by decide
  loads := by
    intro f hf x hx
    simp [costEvaluator] at hf
    subst hf
    simp only [ratPenalty]
    rw [Int.tdiv_eq_ediv_of_nonneg (by omega)]
    omega
  tw := by
    intro x hx
    simp only [costEvaluator, ratPenalty]
    rw [Int.tdiv_eq_ediv_of_nonneg (by omega)]
    omega
  dist := by
    intro x hx
    simp only [costEvaluator, ratPenalty]
    rw [Int.tdiv_eq_ediv_of_nonneg (by omega)]
    omega

/-- The solution with two routes of `C13`, and what its objective values are. -/
example : ∃ s, I64.makeSolution data routes = some (.ok s) ∧ s.routes.length = 2
    ∧ I64.penalisedCost costEvaluator s = some (costEvaluator.penalisedCost s) := by
  have hs : Small data 50 1000 := by constructor <;> decide
  have hr : Room data 50 1000 (data.clients.length + data.shipments.length + numStops plan) := by
    unfold Room; decide
  obtain ⟨s, h⟩ : ∃ s, Solution.make data routes = .ok s := ⟨_, rfl⟩
  refine ⟨s, ?_, ?_, (C55_cost data goodData 50 1000 (by decide) hs plan routes built hr costEvaluator
    smallPenalties s h).1⟩
  · rw [C55_solution data goodData 50 1000 (by decide) hs plan routes built hr, h]
  · cases h
    decide +kernel

/-- With distances and times up to a million, unit costs and penalties up to 100000 and two load dimensions,
there is room for 3.8 million stops. -/
example (h : ProblemData) (hd : h.numLoadDimensions = 2) : Room h 1000000 100000 3800000 := by
  unfold Room; rw [hd]; decide

end Demo
end PyVRP
