import Verif.Lemmas.Int64Route
/-!
# Solutions and objective values with 64-bit numbers
-/
namespace PyVRP.I64
open Spec

variable {data : ProblemData} {B M : Int}

/-- The number of stops of routes. -/
def stops (routes : List Route) : Nat := (routes.map Route.size).sum

theorem stops_cons (r : Route) (rest : List Route) : stops (r :: rest) = r.size + stops rest := by
  simp [stops]

theorem sum_eq {Q : Int} (l : List Int) : ∀ (acc : Int), (∀ x ∈ l, 0 ≤ x ∧ x ≤ Q) → 0 ≤ Q → 0 ≤ acc →
    acc + Q * l.length ≤ MAX →
    sum acc l = some (l.foldl (· + ·) acc)
    ∧ acc ≤ l.foldl (· + ·) acc ∧ l.foldl (· + ·) acc ≤ acc + Q * l.length := by
  have hm := MAX_eq
  induction l with
  | nil => intro acc _ _ _ _; simp [sum]
  | cons x rest ih =>
    intro acc h hQ ha hr
    have hx := h x (List.mem_cons_self ..)
    have hbn : Q * ((x :: rest).length : Int) = Q * rest.length + Q := by
      rw [List.length_cons, Int.natCast_succ, Int.mul_add, Int.mul_one]
    have hbr : 0 ≤ Q * (rest.length : Int) := Int.mul_nonneg hQ (Int.natCast_nonneg _)
    rw [hbn] at hr ⊢
    obtain ⟨h1, h2, h3⟩ := ih (acc + x) (fun y hy => h y (List.mem_cons_of_mem _ hy)) hQ (by omega)
      (by omega)
    simp only [sum, List.foldl_cons, Option.bind_eq_bind]
    rw [add_eq (by omega), Option.bind_some]
    exact ⟨h1, by omega, by omega⟩

/-- Bounds on the statistics of a solution. -/
structure SolBd (M X : Int) (s : Solution) : Prop where
  prizes : 0 ≤ s.prizes ∧ s.prizes ≤ 2 * X
  distance : 0 ≤ s.distance ∧ s.distance ≤ X
  distanceCost : 0 ≤ s.distanceCost ∧ s.distanceCost ≤ M * X
  duration : 0 ≤ s.duration ∧ s.duration ≤ 4 * X
  overtime : 0 ≤ s.overtime ∧ s.overtime ≤ 4 * X
  durationCost : 0 ≤ s.durationCost ∧ s.durationCost ≤ 8 * (M * X)
  excessDistance : 0 ≤ s.excessDistance ∧ s.excessDistance ≤ X
  timeWarp : 0 ≤ s.timeWarp ∧ s.timeWarp ≤ 8 * X
  fixedCost : -(M * X) ≤ s.fixedVehicleCost ∧ s.fixedVehicleCost ≤ M * X
  excessLoad : ∀ x ∈ s.excessLoad, 0 ≤ x ∧ x ≤ 2 * X

theorem getD_bd {l : List Int} {Q : Int} (h : ∀ x ∈ l, 0 ≤ x ∧ x ≤ Q) (hQ : 0 ≤ Q) (i : Nat) :
    0 ≤ l.getD i 0 ∧ l.getD i 0 ≤ Q := by
  rw [List.getD_eq_getElem?_getD]
  cases hi : l[i]? with
  | none => exact ⟨Int.le_refl 0, hQ⟩
  | some x => exact h x (List.mem_of_getElem? hi)

theorem addRoute_eq {X Y : Int} {L : Nat} {s : Solution} {r : Route} (hM : 1 ≤ M) (hX : 0 ≤ X)
    (hY : 0 ≤ Y) (hs : SolBd M X s) (hr : RouteBd M Y L r) (h : 20 * (M * (X + Y)) ≤ MAX) :
    addRoute data s r = some (Solution.addRoute data s r)
    ∧ SolBd M (X + Y) (Solution.addRoute data s r) := by
  have hm := MAX_eq
  rw [Int.mul_add] at h
  have hMX : X ≤ M * X := by
    have := Int.mul_le_mul_of_nonneg_right hM hX
    omega
  have hMY : Y ≤ M * Y := by
    have := Int.mul_le_mul_of_nonneg_right hM hY
    omega
  obtain ⟨s1, s2, s3, s4, s5, s6, s7, s8, s9, s10⟩ := hs
  obtain ⟨r1, r2, r3, r4, r5, r6, r7, -, -, -, r11, r12, -, r14⟩ := hr
  have g1 := getD_bd s10 (by omega)
  have g2 := getD_bd r14 (by omega)
  have he := each_eq (f := fun dim => add (s.excessLoad.getD dim 0) (r.excessLoad.getD dim 0))
    (g := fun dim => s.excessLoad.getD dim 0 + r.excessLoad.getD dim 0)
    (l := List.range data.numLoadDimensions)
    (fun dim _ => add_eq (by have := g1 dim; have := g2 dim; omega))
  constructor
  · unfold addRoute Solution.addRoute
    simp (disch := omega) only [Option.bind_eq_bind, Option.bind_some, add_eq, he]
  · constructor <;> (unfold Solution.addRoute; dsimp only)
    · omega
    · omega
    · rw [Int.mul_add]; omega
    · omega
    · omega
    · rw [Int.mul_add]; omega
    · omega
    · omega
    · rw [Int.mul_add]; omega
    · intro x hx
      rw [List.mem_map] at hx
      obtain ⟨dim, _, rfl⟩ := hx
      have := g1 dim
      have := g2 dim
      omega

theorem addRoutes_eq (h0 : 0 ≤ B) (hM : 1 ≤ M) {L : Nat} (routes : List Route) :
    ∀ (s : Solution) (n : Nat), (∀ r ∈ routes, RouteBd M (B * r.size) L r) → SolBd M (B * n) s →
    20 * (M * (B * (n + stops routes : Nat))) ≤ MAX →
    addRoutes data s routes = some (routes.foldl (Solution.addRoute data) s)
    ∧ SolBd M (B * (n + stops routes : Nat)) (routes.foldl (Solution.addRoute data) s) := by
  induction routes with
  | nil => intro s n _ hs _; exact ⟨rfl, by simpa [stops] using hs⟩
  | cons r rest ih =>
    intro s n hb hs hr
    rw [stops_cons] at hr ⊢
    have e1 : B * ((n + r.size : Nat) : Int) = B * n + B * r.size := by
      rw [Int.natCast_add, Int.mul_add]
    have hle : 20 * (M * (B * (n + r.size : Nat))) ≤ 20 * (M * (B * (n + (r.size + stops rest) : Nat))) := by
      apply Int.mul_le_mul_of_nonneg_left _ (by omega)
      apply Int.mul_le_mul_of_nonneg_left _ (by omega)
      apply Int.mul_le_mul_of_nonneg_left _ h0
      omega
    obtain ⟨a1, a2⟩ := addRoute_eq (data := data) hM (Int.mul_nonneg h0 (Int.natCast_nonneg _))
      (Int.mul_nonneg h0 (Int.natCast_nonneg _)) hs (hb r (List.mem_cons_self ..))
      (by rw [← e1]; omega)
    rw [← e1] at a2
    rw [← Nat.add_assoc] at hr ⊢
    obtain ⟨b1, b2⟩ := ih (Solution.addRoute data s r) (n + r.size)
      (fun x hx => hb x (List.mem_cons_of_mem _ hx)) a2 hr
    rw [addRoutes, a1]
    exact ⟨b1, b2⟩

theorem allPrizes_eq (hc : ∀ c ∈ data.clients, 0 ≤ c.prize ∧ c.prize ≤ B)
    (hs : ∀ c ∈ data.shipments, 0 ≤ c.prize ∧ c.prize ≤ B) (h0 : 0 ≤ B)
    (hr : B * (data.numClients + data.numShipments : Nat) ≤ MAX) :
    allPrizes data = some (Solution.allPrizes data)
    ∧ 0 ≤ Solution.allPrizes data
    ∧ Solution.allPrizes data ≤ B * (data.numClients + data.numShipments : Nat) := by
  unfold allPrizes Solution.allPrizes
  have e : B * ((data.numClients + data.numShipments : Nat) : Int)
      = B * data.clients.length + B * data.shipments.length := by
    rw [Int.natCast_add, Int.mul_add]; rfl
  have n1 : 0 ≤ B * (data.clients.length : Int) := Int.mul_nonneg h0 (Int.natCast_nonneg _)
  have n2 : 0 ≤ B * (data.shipments.length : Int) := Int.mul_nonneg h0 (Int.natCast_nonneg _)
  rw [e] at hr ⊢
  obtain ⟨a1, a2, a3⟩ := sum_eq (Q := B) (data.clients.map (·.prize)) 0 (by
    intro x hx
    rw [List.mem_map] at hx
    obtain ⟨c, hc', rfl⟩ := hx
    exact hc c hc') h0 (by omega) (by rw [List.length_map]; omega)
  rw [List.foldl_map, List.length_map] at *
  obtain ⟨b1, b2, b3⟩ := sum_eq (Q := B) (data.shipments.map (·.prize))
    (data.clients.foldl (fun acc c => acc + c.prize) 0) (by
    intro x hx
    rw [List.mem_map] at hx
    obtain ⟨c, hc', rfl⟩ := hx
    exact hs c hc') h0 (by omega) (by rw [List.length_map]; omega)
  rw [List.foldl_map, List.length_map] at *
  rw [a1]
  exact ⟨b1, by omega, by omega⟩

theorem addRoutes_routes (routes : List Route) : ∀ s : Solution,
    (routes.foldl (Solution.addRoute data) s).routes = s.routes := by
  induction routes with
  | nil => intro s; rfl
  | cons r rest ih => intro s; rw [List.foldl_cons, ih]; rfl

/-- Nothing has been added up yet. -/
structure Fresh (routes : List Route) (s : Solution) : Prop where
  routes : s.routes = routes
  prizes : s.prizes = 0
  distance : s.distance = 0
  distanceCost : s.distanceCost = 0
  duration : s.duration = 0
  overtime : s.overtime = 0
  durationCost : s.durationCost = 0
  excessDistance : s.excessDistance = 0
  timeWarp : s.timeWarp = 0
  fixedCost : s.fixedVehicleCost = 0

theorem fresh_clients {routes : List Route} (st : Solution.SState) (l : List Nat) :
    ∀ s : Solution, Fresh routes s → Fresh routes (l.foldl (Solution.missingClient data st) s) := by
  induction l with
  | nil => intro s h; exact h
  | cons x rest ih =>
    intro s h
    rw [List.foldl_cons]
    apply ih
    unfold Solution.missingClient
    split
    · obtain ⟨a, b, c, d, e, f, g, i, j, k⟩ := h
      exact ⟨a, b, c, d, e, f, g, i, j, k⟩
    · exact h

theorem fresh_shipments {routes : List Route} (st : Solution.SState) (l : List Nat) :
    ∀ s : Solution, Fresh routes s → Fresh routes (l.foldl (Solution.missingShipment data st) s) := by
  induction l with
  | nil => intro s h; exact h
  | cons x rest ih =>
    intro s h
    rw [List.foldl_cons]
    apply ih
    unfold Solution.missingShipment
    split
    · obtain ⟨a, b, c, d, e, f, g, i, j, k⟩ := h
      exact ⟨a, b, c, d, e, f, g, i, j, k⟩
    · exact h

theorem fresh_groups {routes : List Route} (st : Solution.SState) (groups : List ClientGroup) :
    ∀ s t : Solution, Fresh routes s → Solution.groupLoop st s groups = .ok t → Fresh routes t := by
  induction groups with
  | nil => intro s t h e; cases e; exact h
  | cons g rest ih =>
    intro s t h e
    unfold Solution.groupLoop at e
    dsimp only at e
    split at e
    · cases e
    · split at e
      · refine ih _ t ?_ e
        obtain ⟨a, b, c, d, e, f, g, i, j, k⟩ := h
        exact ⟨a, b, c, d, e, f, g, i, j, k⟩
      · exact ih s t h e

variable {routes : List Route}

theorem evaluate_eq (h0 : 0 ≤ B) (hM : 1 ≤ M) {L : Nat}
    (hc : ∀ c ∈ data.clients, 0 ≤ c.prize ∧ c.prize ≤ B)
    (hs : ∀ c ∈ data.shipments, 0 ≤ c.prize ∧ c.prize ≤ B)
    (hb : ∀ r ∈ routes, RouteBd M (B * r.size) L r)
    (hr : 20 * (M * (B * (data.numClients + data.numShipments + stops routes : Nat))) ≤ MAX)
    {s : Solution} (hf : Fresh routes s) :
    evaluate data s = some (Solution.evaluate data s)
    ∧ (Solution.evaluate data s).routes = routes
    ∧ -(2 * (B * stops routes)) ≤ (Solution.evaluate data s).uncollectedPrizes
    ∧ (Solution.evaluate data s).uncollectedPrizes ≤ B * (data.numClients + data.numShipments : Nat) := by
  have hm := MAX_eq
  obtain ⟨f1, f2, f3, f4, f5, f6, f7, f8, f9, f10⟩ := hf
  have e1 : B * ((data.numClients + data.numShipments + stops routes : Nat) : Int)
      = B * (data.numClients + data.numShipments : Nat) + B * stops routes := by
    rw [Int.natCast_add, Int.mul_add]
  have n1 : 0 ≤ B * ((data.numClients + data.numShipments : Nat) : Int) :=
    Int.mul_nonneg h0 (Int.natCast_nonneg _)
  have n2 : 0 ≤ B * (stops routes : Int) := Int.mul_nonneg h0 (Int.natCast_nonneg _)
  rw [e1, Int.mul_add] at hr
  have m1 : B * ((data.numClients + data.numShipments : Nat) : Int)
      ≤ M * (B * (data.numClients + data.numShipments : Nat)) := by
    have := Int.mul_le_mul_of_nonneg_right hM n1
    omega
  have m2 : B * (stops routes : Int) ≤ M * (B * stops routes) := by
    have := Int.mul_le_mul_of_nonneg_right hM n2
    omega
  obtain ⟨p1, p2, p3⟩ := allPrizes_eq hc hs h0 (by omega)
  obtain ⟨q1, q2⟩ := addRoutes_eq (data := data) h0 hM (L := L) routes
    { s with excessLoad := List.replicate data.numLoadDimensions 0 } 0 hb (by
      constructor <;> simp [*]) (by rw [Nat.zero_add]; omega)
  rw [Nat.zero_add] at q2
  rw [f1] at q1 q2
  have q3 := q2.prizes
  have q4 := addRoutes_routes (data := data) routes
    { s with excessLoad := List.replicate data.numLoadDimensions 0 }
  rw [f1] at q4
  unfold evaluate Solution.evaluate
  rw [f1]
  dsimp only
  refine ⟨?_, ?_, by omega, by omega⟩
  · rw [p1, q1]
    dsimp only [Option.bind_eq_bind, Option.bind_some]
    rw [sub_eq (by omega)]
    rfl
  · exact q4

theorem makeSolution_eq (h0 : 0 ≤ B) (hM : 1 ≤ M) {L : Nat}
    (hc : ∀ c ∈ data.clients, 0 ≤ c.prize ∧ c.prize ≤ B)
    (hs : ∀ c ∈ data.shipments, 0 ≤ c.prize ∧ c.prize ≤ B)
    (hb : ∀ r ∈ routes, RouteBd M (B * r.size) L r)
    (hr : 20 * (M * (B * (data.numClients + data.numShipments + stops routes : Nat))) ≤ MAX) :
    makeSolution data routes = some (Solution.make data routes)
    ∧ ∀ s, Solution.make data routes = .ok s → s.routes = routes
      ∧ -(2 * (B * stops routes)) ≤ s.uncollectedPrizes
      ∧ s.uncollectedPrizes ≤ B * (data.numClients + data.numShipments : Nat) := by
  unfold makeSolution Solution.make
  by_cases hn : routes.length > data.numVehicles
  · rw [if_pos hn, if_pos hn]
    exact ⟨rfl, fun s h => by cases h⟩
  · rw [if_neg hn, if_neg hn]
    dsimp only
    cases hl : Solution.routeLoop
      { clientVisited := List.replicate data.numClients false
        shipmentVisited := List.replicate data.numShipments false
        usedVehicles := List.replicate data.numVehicleTypes 0 } routes with
    | error e => exact ⟨rfl, fun s h => by cases h⟩
    | ok st =>
      have hf := fresh_shipments (data := data) (routes := routes) st (List.range data.numShipments) _
        (fresh_clients (data := data) st (List.range data.numClients) { routes := routes }
          (by constructor <;> rfl))
      dsimp only
      cases hg : Solution.groupLoop st ((List.range data.numShipments).foldl
        (Solution.missingShipment data st) ((List.range data.numClients).foldl
        (Solution.missingClient data st) { routes := routes })) data.groups with
      | error e => exact ⟨rfl, fun s h => by cases h⟩
      | ok s1 =>
        have hf' := fresh_groups st data.groups _ _ hf hg
        obtain ⟨k1, k2, k3, k4⟩ := evaluate_eq h0 hM hc hs hb hr hf'
        dsimp only
        cases Solution.vehicleLoop data st (List.range data.numVehicleTypes) with
        | error e => exact ⟨rfl, fun s h => by cases h⟩
        | ok u =>
          dsimp only
          rw [k1]
          refine ⟨rfl, fun s h => ?_⟩
          cases h
          exact ⟨k2, k3, k4⟩

/-! ## Objective values -/

variable {ce : CostEvaluator} {L : Nat}

/-- Bounds on penalties. -/
structure PenBd (ce : CostEvaluator) (M : Int) (L : Nat) : Prop where
  dims : ce.loadPenalties.length = L
  loads : ∀ f ∈ ce.loadPenalties, ∀ x, 0 ≤ x → 0 ≤ f x ∧ f x ≤ M * x
  tw : ∀ x, 0 ≤ x → 0 ≤ ce.twPenalty_ x ∧ ce.twPenalty_ x ≤ M * x
  dist : ∀ x, 0 ≤ x → 0 ≤ ce.distPenalty_ x ∧ ce.distPenalty_ x ≤ M * x

theorem pen_le {f : Int → Int} (hM : 0 ≤ M) (hf : ∀ x, 0 ≤ x → 0 ≤ f x ∧ f x ≤ M * x) {x k X : Int}
    (hx : 0 ≤ x ∧ x ≤ k * X) : 0 ≤ f x ∧ f x ≤ k * (M * X) := by
  have h1 := hf x hx.1
  have h2 := Int.mul_le_mul_of_nonneg_left hx.2 hM
  rw [Int.mul_left_comm] at h2
  omega

theorem excessLoadPenalties_eq {X : Int} {l : List Int} (hM : 1 ≤ M) (hX : 0 ≤ X) (hp : PenBd ce M L)
    (hl : l.length = L) (h : ∀ x ∈ l, 0 ≤ x ∧ x ≤ 2 * X) (hr : 2 * (M * X) * L ≤ MAX) (hr1 : 2 * (M * X) ≤ MAX) :
    excessLoadPenalties ce l = some (ce.excessLoadPenalties l)
    ∧ 0 ≤ ce.excessLoadPenalties l ∧ ce.excessLoadPenalties l ≤ 2 * (M * X) * L := by
  have hm := MAX_eq
  unfold excessLoadPenalties CostEvaluator.excessLoadPenalties
  rw [if_pos (by rw [hl, hp.dims])]
  have hb : ∀ p ∈ ce.loadPenalties.zip l, 0 ≤ p.1 p.2 ∧ p.1 p.2 ≤ 2 * (M * X) := by
    intro p hp'
    have := List.of_mem_zip (show (p.1, p.2) ∈ _ from hp')
    exact pen_le (by omega) (hp.loads p.1 this.1) (h p.2 this.2)
  rw [each_eq (g := fun p : (Int → Int) × Int => p.1 p.2) (fun p hp' => chk_eq (by
    have := hb p hp'; omega))]
  have hlen : ((ce.loadPenalties.zip l).map (fun p => p.1 p.2)).length = L := by
    rw [List.length_map, List.length_zip, hl, hp.dims, Nat.min_self]
  have := sum_eq (Q := 2 * (M * X)) ((ce.loadPenalties.zip l).map (fun p => p.1 p.2)) 0 (by
    intro x hx
    rw [List.mem_map] at hx
    obtain ⟨p, hp', rfl⟩ := hx
    exact hb p hp') (by have := Int.mul_nonneg (show 0 ≤ M by omega) hX; omega) (by omega)
    (by rw [hlen]; omega)
  rw [hlen, List.foldl_map] at this
  obtain ⟨k1, k2, k3⟩ := this
  exact ⟨k1, k2, by omega⟩

theorem penalisedCostRoute_eq {X : Int} {r : Route} (hM : 1 ≤ M) (hX : 0 ≤ X) (hp : PenBd ce M L)
    (hb : RouteBd M X L r) (hr : (2 * L + 20) * (M * X) ≤ MAX) :
    penalisedCostRoute ce r = some (ce.penalisedCostRoute r)
    ∧ -(M * X) ≤ ce.penalisedCostRoute r ∧ ce.penalisedCostRoute r ≤ (2 * L + 19) * (M * X) := by
  have hm := MAX_eq
  have hMX : X ≤ M * X := by
    have := Int.mul_le_mul_of_nonneg_right hM hX
    omega
  have e1 : (2 * (L : Int) + 20) * (M * X) = 2 * (M * X) * L + 20 * (M * X) := by
    grind
  have e2 : (2 * (L : Int) + 19) * (M * X) = 2 * (M * X) * L + 19 * (M * X) := by
    grind
  have hn : 0 ≤ 2 * (M * X) * (L : Int) := Int.mul_nonneg (by omega) (Int.natCast_nonneg _)
  rw [e1] at hr
  rw [e2]
  obtain ⟨l1, l2, l3⟩ := excessLoadPenalties_eq (X := X) hM hX hp hb.dims hb.excessLoad (by omega) (by omega)
  have t1 := pen_le (show 0 ≤ M by omega) hp.tw hb.timeWarp
  have r3 := hb.excessDistance
  have d1 := pen_le (x := max (r.excessDistance - 0) 0) (k := 1) (X := X) (show 0 ≤ M by omega) hp.dist
    (by omega)
  have r2 := hb.distanceCost
  have r6 := hb.durationCost
  have r12 := hb.fixedCost
  unfold penalisedCostRoute CostEvaluator.penalisedCostRoute
  have hne : penalisedCostNonEmpty ce r = some (r.distanceCost + r.durationCost + r.fixedVehicleCost
      + ce.excessLoadPenalties r.excessLoad + ce.twPenalty r.timeWarp + ce.distPenalty r.excessDistance 0) := by
    unfold penalisedCostNonEmpty twPenalty distPenalty CostEvaluator.twPenalty CostEvaluator.distPenalty
      CostEvaluator.excessDistPenalty
    simp (disch := omega) only [Option.bind_eq_bind, Option.bind_some, add_eq, sub_eq, chk_eq, l1]
  by_cases he : r.empty = true
  · rw [if_pos he]
    unfold ternary
    rw [if_neg (by simp [he])]
    refine ⟨rfl, by omega, by omega⟩
  · rw [if_neg he]
    unfold ternary
    rw [if_pos he, hne]
    refine ⟨rfl, ?_⟩
    unfold CostEvaluator.twPenalty CostEvaluator.distPenalty CostEvaluator.excessDistPenalty
    omega

theorem costLoop_eq (h0 : 0 ≤ B) (hM : 1 ≤ M) (hp : PenBd ce M L) (routes : List Route) :
    ∀ (c : Int), (∀ r ∈ routes, RouteBd M (B * r.size) L r) →
    -MAX - 1 ≤ c - M * (B * stops routes) → c + (2 * L + 20) * (M * (B * stops routes)) ≤ MAX →
    (2 * L + 20) * (M * (B * stops routes)) ≤ MAX →
    costLoop ce c routes = some (routes.foldl (fun cost r => cost + ce.penalisedCostRoute r) c) := by
  have hm := MAX_eq
  induction routes with
  | nil => intro c _ _ _ _; rfl
  | cons r rest ih =>
    intro c hb h1 h2 h3
    have e1 : B * (stops (r :: rest) : Int) = B * r.size + B * stops rest := by
      rw [stops_cons, Int.natCast_add, Int.mul_add]
    rw [e1, Int.mul_add] at h1 h2 h3
    rw [Int.mul_add] at h2 h3
    have n1 : 0 ≤ B * (r.size : Int) := Int.mul_nonneg h0 (Int.natCast_nonneg _)
    have n2 : 0 ≤ B * (stops rest : Int) := Int.mul_nonneg h0 (Int.natCast_nonneg _)
    have n3 := Int.mul_nonneg (show 0 ≤ M by omega) n1
    have n4 := Int.mul_nonneg (show 0 ≤ M by omega) n2
    have n5 := Int.mul_nonneg (show 0 ≤ 2 * (L : Int) + 20 by omega) n3
    have n6 := Int.mul_nonneg (show 0 ≤ 2 * (L : Int) + 20 by omega) n4
    obtain ⟨k1, k2, k3⟩ := penalisedCostRoute_eq hM n1 hp (hb r (List.mem_cons_self ..)) (by omega)
    have e2 : (2 * (L : Int) + 20) * (M * (B * r.size)) = (2 * L + 19) * (M * (B * r.size))
        + M * (B * r.size) := by
      rw [Int.add_mul, Int.add_mul]; omega
    rw [costLoop, k1]
    dsimp only [Option.bind_eq_bind, Option.bind_some]
    rw [add_eq (by omega), Option.bind_some, List.foldl_cons]
    exact ih _ (fun x hx => hb x (List.mem_cons_of_mem _ hx)) (by omega) (by omega) (by omega)

end PyVRP.I64
