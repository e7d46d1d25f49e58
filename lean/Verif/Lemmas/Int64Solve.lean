import Verif.Lemmas.Solve
import Verif.Model.Int64Solve
import Verif.Props.C51
import Verif.Props.C62
/-!
# `solve` does not overflow
-/
namespace PyVRP.Checked64
open Spec Checked

/-! ## Solutions that are accepted -/

/-- The routes of a solution are not longer than the routes of the search may be. -/
theorem plan_le {data : ProblemData} {n : Nat} (hw : RoutesWithin data n)
    (hn : ∀ g ∈ data.groups, g.clients.Nodup) {plan : RoutePlan} {routes : List PyVRP.Route} {sol : Solution}
    (hb : Built data plan routes) (hm : Solution.make data routes = .ok sol) :
    ∀ p ∈ plan, p.2.length + 2 ≤ n := by
  intro p hp
  have hv := (C13_solution_accepts_exactly_valid data plan routes hb hn).1.1 ⟨sol, hm⟩
  have hr : ∃ r, Route.make data p.2 p.1 = .ok r := by
    have : Route.make data p.2 p.1 ∈ routes.map Except.ok := by
      rw [← hb.made]; exact List.mem_map.2 ⟨p, hp, rfl⟩
    obtain ⟨r, -, e⟩ := List.mem_map.1 this
    exact ⟨r, e.symm⟩
  have hlt := hb.types p hp
  have hsz := hb.sizes p hp
  have hf := (C05_route_accepts_exactly_wellformed data p.2 p.1 hsz
    (hb.reloads _ (mem_vehicleTypes hlt))).1.1 hr
  have htrips : depotVisits p.2 + 1 ≤ (data.vehicleType p.1).maxTrips := by
    have := hf.reloads
    have hd : depotVisits p.2 ≤ p.2.length := List.countP_le_length
    unfold reloadLimit at this
    unfold VehicleType.maxTrips
    unfold SIZE_MAX at *
    split <;> split at this <;> omega
  have hon : ∀ a : Activity, a.type ≠ .depot → p.2.count a ≤ 1 := by
    intro a had
    have h1 := tasks_once hb hv had
    obtain ⟨l1, l2, e⟩ := List.append_of_mem hp
    have e : visited plan = visited l1 ++ (p.2 ++ visited l2) := by
      rw [e]; simp [visited]
    rw [e, List.count_append, List.count_append] at h1
    omega
  have hok : RouteOk data (data.vehicleType p.1) p.2 :=
    ⟨hf.inRange, fun s => (Phase.ok_iff s _).2 (hf.shipments s), htrips⟩
  have h1 := hok.length_le hon
  have h2 := hw _ (mem_vehicleTypes hlt)
  omega

theorem sum_le_mul {α : Type} (f : α → Nat) (n : Nat) : ∀ (l : List α), (∀ x ∈ l, f x ≤ n) →
    (l.map f).sum ≤ l.length * n
  | [], _ => by simp
  | x :: l, h => by
    have h1 := sum_le_mul f n l (fun y hy => h y (by simp [hy]))
    have h2 := h x (by simp)
    rw [List.map_cons, List.sum_cons, List.length_cons, Nat.succ_mul]
    omega

theorem stops_le {data : ProblemData} {n : Nat} (hw : RoutesWithin data n)
    (hn : ∀ g ∈ data.groups, g.clients.Nodup) {plan : RoutePlan} {routes : List PyVRP.Route} {sol : Solution}
    (hb : Built data plan routes) (hm : Solution.make data routes = .ok sol) :
    numStops plan ≤ data.numVehicles * n := by
  have hv := (C13_solution_accepts_exactly_valid data plan routes hb hn).1.1 ⟨sol, hm⟩
  have h1 := sum_le_mul (fun p : Nat × List Activity => p.2.length + 2) n plan (plan_le hw hn hb hm)
  have h2 := Nat.mul_le_mul_right n hv.fleet
  unfold numStops ProblemData.numVehicles
  omega

/-- What is known about an instance: routes of at most `n` nodes, and all of a solution's routes together,
fit. -/
structure Setting (data : ProblemData) (B M n : Nat) : Prop where
  good : GoodData data
  reloads : ∀ v ∈ data.vehicleTypes, v.maxReloads ≤ SIZE_MAX
  groups : ∀ g ∈ data.groups, g.clients.Nodup
  memory : FitsMemory data
  one : 1 ≤ M
  small : Small data B M
  within : RoutesWithin data n
  operators : OperatorRoom data B M n
  solutions : Room data B M (data.clients.length + data.shipments.length + data.numVehicles * n)

section setting
variable {data : ProblemData} {B M n : Nat} (hS : Setting data B M n)
include hS

theorem makeRoute_eq {acts : List Activity} {k : Nat} (hk : k < data.vehicleTypes.length)
    (hl : acts.length + 2 ≤ n) : I64.makeRoute data acts k = some (Route.make data acts k) := by
  refine (C55_route data hS.good B M hS.one hS.small acts k hk (hS.solutions.mono ?_)).1
  have := Nat.mul_le_mul_right n (show 1 ≤ data.numVehicles from hS.good.hasVehicle)
  omega

theorem makeSolution_eq {plan : RoutePlan} {routes : List PyVRP.Route} {sol : Solution}
    (hb : Built data plan routes) (hm : Solution.make data routes = .ok sol) :
    I64.makeSolution data routes = some (.ok sol) := by
  rw [← hm]
  refine C55_solution data hS.good B M hS.one hS.small plan routes hb (hS.solutions.mono ?_)
  have := stops_le hS.within hS.groups hb hm
  omega

theorem cost_eq {ce : CostEvaluator} (hp : SmallPenalties data ce M) {sol : Solution}
    (hsol : Accepted data sol) :
    I64.penalisedCost ce sol = some (ce.penalisedCost sol) ∧ I64.cost ce sol = some (ce.cost sol) := by
  obtain ⟨plan, routes, hb, hm⟩ := hsol
  refine C55_cost data hS.good B M hS.one hS.small plan routes hb (hS.solutions.mono ?_) ce hp sol hm
  have := stops_le hS.within hS.groups hb hm
  omega

theorem ctx {ce : CostEvaluator} (hv : ce.Valid) (hp : SmallPenalties data ce M) :
    Ctx data ce B M n (limit data B M n) :=
  C62.ctx ⟨hS.good, hv, hp.dims⟩ hS.one hS.small hp hS.operators hS.within

/-! ## Unloading -/

theorem unloadRoutes_eq : ∀ (l : List SRoute), (∀ r ∈ l, r.vehicleType < data.vehicleTypes.length
      ∧ (r.nodes.map (·.activity)).tail.dropLast.length + 2 ≤ n) →
    unloadRoutes data l = some (SSol.unloadRoutes data l)
  | [], _ => rfl
  | r :: rest, h => by
    have ih := unloadRoutes_eq rest (fun x hx => h x (by simp [hx]))
    have hr := h r (by simp)
    unfold unloadRoutes SSol.unloadRoutes
    split
    · exact ih
    · rw [makeRoute_eq hS hr.1 hr.2, Option.bind_eq_bind, Option.bind_some]
      cases Route.make data (r.nodes.map (·.activity)).tail.dropLast r.vehicleType with
      | error e => rfl
      | ok route =>
        dsimp only
        rw [ih, Option.bind_eq_bind, Option.bind_some]
        cases SSol.unloadRoutes data rest <;> rfl

theorem unloadSolution_eq {ce : CostEvaluator} (hv : ce.Valid) (hp : SmallPenalties data ce M)
    {plan : List (List Activity)} {s : SSol} (h : SearchOk data plan s) (hex : Exclusive data plan) :
    unloadSolution data s = some (s.unload data) := by
  have hx := ctx hS hv hp
  obtain ⟨sol, hu, ⟨rplan, routes, hb, hm⟩, -, -⟩ := unload_result hS.good hS.reloads hS.groups h hex
    (hS.memory.inMemory h)
  have h0 := unload_eq hx.cost hx.dist h
  unfold unload at h0
  unfold unloadSolution
  generalize (s.routes.mapM (fun r => do
    let _ ← empty data r
    ensure (2 ≤ r.size))) = m at h0
  cases m with
  | none => cases h0
  | some u =>
    rw [Option.bind_eq_bind, Option.bind_some, unloadRoutes_eq hS s.routes, Option.bind_eq_bind, Option.bind_some]
    · unfold SSol.unload at hu ⊢
      cases he : SSol.unloadRoutes data s.routes with
      | error e => rfl
      | ok rs =>
        rw [he] at hu
        dsimp only at hu ⊢
        have e : rs = routes := by
          rw [← SolutionFile.make_routes hu, ← SolutionFile.make_routes hm]
        subst e
        rw [makeSolution_eq hS hb hm, hm]
    · intro r hr
      obtain ⟨k, hk, rfl⟩ := List.mem_iff_getElem.1 hr
      rw [h.clean.1.sized.routes] at hk
      have he := h.route hk
      unfold SSol.route at he
      rw [List.getD_eq_getElem?_getD, List.getElem?_eq_getElem (by rw [h.clean.1.sized.routes]; exact hk),
        Option.getD_some] at he
      rw [he]
      have hlt := vehTypeAt_lt data hk
      refine ⟨hlt, ?_⟩
      have hc : (SRoute.ofActs data (vehTypeAt data k) (plan.getD k [])).nodes.map (·.activity)
          = fullActs (data.vehicleType (vehTypeAt data k)) (plan.getD k []) := SRoute.canon_activities _ _
      rw [hc]
      have := hx.length_le hlt (h.routes k hk) (h.once k)
      simpa [fullActs] using this

/-- **A call of the local search**, with the solution that it returns. -/
theorem runAll_eq {ce : CostEvaluator} (hv : ce.Valid) (hp : SmallPenalties data ce M) {ls : LocalSearch}
    (hls : SearchHistory data ls) {sol : Solution} (hsol : Accepted data sol) (exhaustive : Bool) (fuel : Nat) :
    runAll data ce ls sol exhaustive fuel = some (ls.run data ce sol exhaustive fuel) := by
  have hx := ctx hS hv hp
  have hd := consistent hx.cost
  have hnv := hS.good.hasVehicle
  have h := hls.ready hS.good hnv hS.groups
  obtain ⟨plan, st, e, ok, -⟩ := LocalSearch.prepare_spec hS.good hnv hS.groups h hsol ce exhaustive
  obtain ⟨r, e2, h2⟩ := LocalSearch.search_spec hd ls.unaryOps fuel ok
  unfold runAll LocalSearch.run
  rw [prepare_eq hx hnv hS.groups h hsol, Option.bind_eq_bind, Option.bind_some, e]
  dsimp only
  rw [search_eq hx ls.unaryOps fuel ok (prepare_sized e), Option.bind_eq_bind, Option.bind_some, e2]
  cases r with
  | none => rfl
  | some st' =>
    obtain ⟨plan', run⟩ := h2 st' rfl
    dsimp only
    rw [unloadSolution_eq hS hv hp run.ok.sol run.ok.exclusive, Option.bind_eq_bind, Option.bind_some]
    generalize SSol.unload data st'.sol = x
    cases x <;> rfl

theorem call_eq {σ : Type} (next : σ → Nat × σ) {ce : CostEvaluator} (hv : ce.Valid)
    (hp : SmallPenalties data ce M) {ls : LocalSearch} (hls : SearchHistory data ls) (rng : σ) {sol : Solution}
    (hsol : Accepted data sol) (exhaustive : Bool) (fuel : Nat) :
    call data ce next ls rng sol exhaustive fuel = some (ls.call next data ce rng sol exhaustive fuel) := by
  unfold call LocalSearch.call
  dsimp only
  rw [runAll_eq hS hv hp (hls.shuffle next rng) hsol, Option.bind_eq_bind, Option.bind_some]
  generalize LocalSearch.run data ce _ sol exhaustive fuel = x
  rcases x with e | _ | ⟨s, l⟩ <;> rfl

/-! ## Random solutions -/

omit hS in
theorem buildRoutes_made : ∀ (l : List (List Activity × Nat)) (rs : List PyVRP.Route),
    Solution.buildRoutes data l = .ok rs → l.map (fun p => Route.make data p.1 p.2) = rs.map Except.ok
  | [], rs, h => by cases h; rfl
  | (acts, v) :: rest, rs, h => by
    unfold Solution.buildRoutes at h
    split at h
    · cases h
    · rename_i r hr
      split at h
      · cases h
      · rename_i rs' hrs
        cases h
        rw [List.map_cons, List.map_cons, buildRoutes_made rest rs' hrs, hr]

theorem buildRoutes_eq : ∀ (l : List (List Activity × Nat)), (∀ p ∈ l, p.2 < data.vehicleTypes.length
      ∧ p.1.length + 2 ≤ n) → buildRoutes data l = some (Solution.buildRoutes data l)
  | [], _ => rfl
  | (acts, v) :: rest, h => by
    have ih := buildRoutes_eq rest (fun x hx => h x (by simp [hx]))
    have hr := h (acts, v) (by simp)
    unfold buildRoutes Solution.buildRoutes
    rw [makeRoute_eq hS hr.1 hr.2, Option.bind_eq_bind, Option.bind_some]
    cases Route.make data acts v with
    | error e => rfl
    | ok route =>
      dsimp only
      rw [ih, Option.bind_eq_bind, Option.bind_some]
      cases Solution.buildRoutes data rest <;> rfl

omit hS in
theorem make_size {acts : List Activity} {k : Nat} {r : PyVRP.Route} (h : Route.make data acts k = .ok r) :
    r.vehicleType = k ∧ r.schedule.length = acts.length + 2 := by
  refine ⟨by rw [Route.make_eq_ok h]; rfl, ?_⟩
  have := congrArg List.length (C07_schedule_lists_activities data acts k r h).1
  rw [List.length_map] at this
  rw [this]; simp [fullActs]

theorem makeRandom_eq {σ : Type} (next : σ → Nat × σ) (rng : σ) :
    makeRandom next data rng = some (Solution.makeRandom next data rng)
    ∧ ∃ sol, Solution.makeRandom next data rng = .ok sol ∧ Accepted data sol := by
  have hd : Consistent data := ((C37_accepts_exactly_consistent data data).1 hS.good.made).2
  obtain ⟨plan, routes, sol, e, hb, -, hm, -, -⟩ := C18_random_valid_complete next rng data hd hS.groups
    (Solve.numAvailable_pos hS.good) hS.reloads (by
      obtain ⟨v, hv⟩ := List.exists_mem_of_ne_nil _ hd.hasVehicle
      have := hS.memory v hv
      dsimp only [ProblemData.numClients, ProblemData.numShipments] at this
      omega)
  refine ⟨?_, sol, e, plan, routes, hb, hm⟩
  unfold Solution.makeRandom at e
  unfold makeRandom Solution.makeRandom
  dsimp only at e ⊢
  generalize (Solution.randomPlan next data rng).1.zip (Solution.randomPlan next data rng).2.1 = l at e ⊢
  cases hr : Solution.buildRoutes data l with
  | error x => rw [hr] at e; cases e
  | ok rs =>
    rw [hr] at e
    dsimp only at e
    have h1 : rs = routes := by
      rw [← SolutionFile.make_routes e, ← SolutionFile.make_routes hm]
    subst h1
    rw [buildRoutes_eq hS, Option.bind_eq_bind, Option.bind_some, hr]
    · dsimp only
      rw [makeSolution_eq hS hb hm, hm]
    · intro p hp
      have h2 := buildRoutes_made l rs hr
      have h3 : Route.make data p.1 p.2 ∈ rs.map Except.ok := by
        rw [← h2]; exact List.mem_map.2 ⟨p, hp, rfl⟩
      obtain ⟨r, hr', e1⟩ := List.mem_map.1 h3
      have h4 : (Except.ok r : Except Error PyVRP.Route) ∈ plan.map (fun p => Route.make data p.2 p.1) := by
        rw [hb.made]; exact List.mem_map.2 ⟨r, hr', rfl⟩
      obtain ⟨q, hq, e2⟩ := List.mem_map.1 h4
      have k1 := make_size e1.symm
      have k2 := make_size e2
      have k3 := hb.types q hq
      have k4 := plan_le hS.within hS.groups hb hm q hq
      omega

end setting
end PyVRP.Checked64
