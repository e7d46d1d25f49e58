import Verif.Model.PlotSolution
import Verif.Props.C13
/-!
# C69: the plotted solution
-/
namespace PyVRP
open Spec

namespace Spec

/-- The consecutive pairs of a list. -/
def legs {α : Type} : List α → List (α × α)
  | [] => []
  | [_] => []
  | x :: y :: rest => (x, y) :: legs (y :: rest)

/-- Where an activity takes place, on the map. -/
def onMap (data : ProblemData) (a : Activity) : Int × Int :=
  ((data.locations.getD (place data a) default).x, (data.locations.getD (place data a) default).y)

/-- Both are visits to a depot. -/
def betweenDepots (p : Activity × Activity) : Bool := p.1.type = .depot ∧ p.2.type = .depot

/-- The legs of a tour on the map, without those from a depot to a depot. -/
def tourLegs (data : ProblemData) (tour : List Activity) : List ((Int × Int) × (Int × Int)) :=
  ((legs tour).filter fun p => !betweenDepots p).map fun p => (onMap data p.1, onMap data p.2)

/-- The visits of a tour on the map, without the depots. -/
def tourVisits (data : ProblemData) (tour : List Activity) : List (Int × Int) :=
  (tour.filter fun a => a.type ≠ .depot).map (onMap data)

/-- The pieces of lines that are drawn for a trip: out, along, and back. -/
def edges (t : Plot.Trip) : List ((Int × Int) × (Int × Int)) := t.arrow :: legs (t.line.getD []) ++ [t.back]

/-- The points at which the line of a trip bends, or its dot if it has no line. -/
def visible (t : Plot.Trip) : List (Int × Int) := (t.line.or t.dots).getD []

end Spec

namespace Plot

theorem legs_snoc {α : Type} (b a : α) : ∀ l : List α, legs (l ++ [b] ++ [a]) = legs (l ++ [b]) ++ [(b, a)]
  | [] => rfl
  | [x] => rfl
  | x :: y :: l => by
    have ih := legs_snoc b a (y :: l)
    simp only [List.cons_append, legs] at ih ⊢
    rw [ih]

/-- The trips, when some part of the current trip has been done. -/
def build (data : ProblemData) (cur : List Nat) : List Activity → List (List Nat)
  | [] => [cur]
  | a :: rest => if a.type = .depot then cur :: build data [] rest else build data (cur ++ [place data a]) rest

theorem tripsLoop_eq (data : ProblemData) : ∀ (acts : List Activity) (done : List (List Nat)) (cur : List Nat),
    tripsLoop data (done ++ [cur]) acts = .ok (done ++ build data cur acts)
  | [], done, cur => rfl
  | a :: rest, done, cur => by
    have ih1 := tripsLoop_eq data rest (done ++ [cur]) []
    have ih2 := tripsLoop_eq data rest done (cur ++ [place data a])
    have hp := Route.place_eq data a
    obtain ⟨ty, i⟩ := a
    cases ty <;> simp_all [tripsLoop, tripsStep, build]

/-- What is drawn, when some part of the current trip has been done. -/
def drawn (data : ProblemData) (pl : Bool) (endDepot : Nat) (cur : List Nat) (start : Nat) (acts : List Activity) :
    List Trip :=
  let depots := start :: ((acts ++ [(⟨.depot, endDepot⟩ : Activity)]).filter (·.isDepot)).map (·.idx)
  ((build data cur acts).zip (depots.zip depots.tail)).filterMap fun t => drawTrip data pl t.1 t.2

theorem drawn_nil (data : ProblemData) (pl : Bool) (e : Nat) (cur : List Nat) (start : Nat) :
    drawn data pl e cur start [] = (drawTrip data pl cur (start, e)).toList := by
  simp [drawn, build, Activity.isDepot, List.filterMap_cons]
  cases drawTrip data pl cur (start, e) <;> rfl

theorem drawn_depot (data : ProblemData) (pl : Bool) (e : Nat) (cur : List Nat) (start : Nat) (a : Activity)
    (ha : a.type = .depot) (rest : List Activity) : drawn data pl e cur start (a :: rest)
      = (drawTrip data pl cur (start, a.idx)).toList ++ drawn data pl e [] a.idx rest := by
  have hd : a.isDepot = true := (Route.isDepot_iff a).2 ha
  simp only [drawn, build, ha, if_true, List.cons_append, List.filter_cons, hd, List.map_cons, List.tail_cons,
    List.zip_cons_cons, List.filterMap_cons]
  cases drawTrip data pl cur (start, a.idx) <;> rfl

theorem drawn_visit (data : ProblemData) (pl : Bool) (e : Nat) (cur : List Nat) (start : Nat) (a : Activity)
    (ha : a.type ≠ .depot) (rest : List Activity) : drawn data pl e cur start (a :: rest)
      = drawn data pl e (cur ++ [place data a]) start rest := by
  have hd : a.isDepot = false := by rw [Route.isDepot_eq]; simpa using ha
  simp only [drawn, build, ha, if_false, List.cons_append, List.filter_cons, hd, Bool.false_eq_true]

theorem tourLegs_cons (data : ProblemData) (a b : Activity) (l : List Activity) :
    tourLegs data (a :: b :: l)
      = (if betweenDepots (a, b) then [] else [(onMap data a, onMap data b)]) ++ tourLegs data (b :: l) := by
  simp only [tourLegs, legs, List.filter_cons]
  cases betweenDepots (a, b) <;> rfl

theorem drawTrip_edges (data : ProblemData) (pl : Bool) (c : List Nat) (b : Activity) (s e : Nat) :
    ((drawTrip data pl (c ++ [place data b]) (s, e)).toList).flatMap edges
      = (onMap data ⟨.depot, s⟩, point data ((c ++ [place data b]).headD 0))
        :: legs ((c ++ [place data b]).map (point data)) ++ [(onMap data b, onMap data ⟨.depot, e⟩)] := by
  cases c with
  | nil => simp [drawTrip, edges, legs, onMap, point, place]
  | cons x c =>
    have : (c ++ [place data b]).getLastD x = place data b := by simp
    simp [drawTrip, edges, onMap, point, place]

/-- The lines of the trips that are still to be drawn. -/
theorem drawn_edges (data : ProblemData) (pl : Bool) (e : Nat) : ∀ (acts : List Activity) (start : Nat),
    (drawn data pl e [] start acts).flatMap edges
      = tourLegs data ((⟨.depot, start⟩ : Activity) :: acts ++ [(⟨.depot, e⟩ : Activity)])
    ∧ ∀ (c : List Nat) (b : Activity), b.type ≠ .depot →
      (drawn data pl e (c ++ [place data b]) start acts).flatMap edges
        = (onMap data ⟨.depot, start⟩, point data ((c ++ [place data b]).headD 0))
          :: legs ((c ++ [place data b]).map (point data))
          ++ tourLegs data (b :: acts ++ [(⟨.depot, e⟩ : Activity)])
  | [], start => by
    refine ⟨?_, fun c b hb => ?_⟩
    · rw [drawn_nil]; rfl
    · rw [drawn_nil, drawTrip_edges]
      have : betweenDepots (b, ⟨.depot, e⟩) = false := by simp [betweenDepots, hb]
      simp only [List.cons_append, List.nil_append]
      rw [tourLegs_cons, this]
      rfl
  | a :: rest, start => by
    by_cases ha : a.type = .depot
    · obtain ⟨h1, -⟩ := drawn_edges data pl e rest a.idx
      have hae : (⟨.depot, a.idx⟩ : Activity) = a := by obtain ⟨ty, i⟩ := a; cases ha; rfl
      rw [hae] at h1
      refine ⟨?_, fun c b hb => ?_⟩
      · rw [drawn_depot _ _ _ _ _ _ ha, List.flatMap_append, h1]
        have : betweenDepots ((⟨.depot, start⟩ : Activity), a) = true := by simp [betweenDepots, ha]
        simp only [List.cons_append]
        rw [tourLegs_cons, this]
        rfl
      · rw [drawn_depot _ _ _ _ _ _ ha, List.flatMap_append, h1, drawTrip_edges, hae]
        have : betweenDepots (b, a) = false := by simp [betweenDepots, hb]
        simp only [List.cons_append]
        rw [tourLegs_cons, this]
        simp
    · obtain ⟨-, h2⟩ := drawn_edges data pl e rest start
      refine ⟨?_, fun c b hb => ?_⟩
      · rw [drawn_visit _ _ _ _ _ _ ha, h2 [] a ha]
        have : betweenDepots ((⟨.depot, start⟩ : Activity), a) = false := by simp [betweenDepots, ha]
        simp only [List.cons_append]
        rw [tourLegs_cons, this]
        rfl
      · rw [drawn_visit _ _ _ _ _ _ ha, h2 (c ++ [place data b]) a ha]
        have : betweenDepots (b, a) = false := by simp [betweenDepots, hb]
        simp only [List.cons_append]
        rw [tourLegs_cons, this, List.map_append, List.map_append, List.map_cons, List.map_nil, List.map_cons,
          List.map_nil, legs_snoc]
        have hh : (c ++ [place data b] ++ [place data a]).headD 0 = (c ++ [place data b]).headD 0 := by
          cases c <;> rfl
        rw [hh]
        simp [onMap, point]

theorem drawTrip_visible (data : ProblemData) (pl : Bool) (c : List Nat) (p : Nat × Nat) :
    ((drawTrip data pl c p).toList).flatMap visible = c.map (point data)
    ∧ ((drawTrip data true c p).toList).flatMap (fun t => t.dots.getD []) = c.map (point data)
    ∧ ∀ t ∈ drawTrip data false c p, (t.dots.isSome ↔ t.line = none) := by
  cases c with
  | nil => simp [drawTrip]
  | cons x c =>
    cases c with
    | nil => simp [drawTrip, visible]
    | cons y c => simp [drawTrip, visible]

theorem tourVisits_cons (data : ProblemData) (a : Activity) (l : List Activity) :
    tourVisits data (a :: l) = (if a.type = .depot then [] else [onMap data a]) ++ tourVisits data l := by
  by_cases ha : a.type = .depot <;> simp [tourVisits, ha]

theorem drawn_visible (data : ProblemData) (pl : Bool) (e : Nat) : ∀ (acts : List Activity) (start : Nat)
    (c : List Nat),
    (drawn data pl e c start acts).flatMap visible = c.map (point data) ++ tourVisits data acts
    ∧ (drawn data true e c start acts).flatMap (fun t => t.dots.getD []) = c.map (point data) ++ tourVisits data acts
    ∧ ∀ t ∈ drawn data false e c start acts, (t.dots.isSome ↔ t.line = none)
  | [], start, c => by
    obtain ⟨h1, h2, h3⟩ := drawTrip_visible data pl c (start, e)
    simp only [drawn_nil]
    refine ⟨by rw [h1]; simp [tourVisits], by rw [h2]; simp [tourVisits], fun t ht => h3 t (by simpa using ht)⟩
  | a :: rest, start, c => by
    rw [tourVisits_cons]
    by_cases ha : a.type = .depot
    · obtain ⟨h1, h2, h3⟩ := drawTrip_visible data pl c (start, a.idx)
      obtain ⟨i1, i2, i3⟩ := drawn_visible data pl e rest a.idx []
      simp only [drawn_depot _ _ _ _ _ _ ha, List.flatMap_append, h1, h2, i1, i2, ha, if_true, List.map_nil,
        List.nil_append, List.mem_append, true_and]
      rintro t (ht | ht)
      · exact h3 t (by simpa using ht)
      · exact i3 t ht
    · obtain ⟨i1, i2, i3⟩ := drawn_visible data pl e rest start (c ++ [place data a])
      simp only [drawn_visit _ _ _ _ _ _ ha, i1, i2, ha, if_false, List.map_append, List.map_cons, List.map_nil,
        List.append_assoc]
      exact ⟨rfl, rfl, i3⟩

theorem drawRoute_eq {data : ProblemData} {acts : List Activity} {vt : Nat} {r : Route}
    (h : Route.make data acts vt = .ok r) (pl : Bool) :
    r.schedule.map (·.activity) = fullActs (data.vehicleType vt) acts
    ∧ drawRoute data pl r
      = .ok (drawn data pl (data.vehicleType vt).endDepot [] (data.vehicleType vt).startDepot acts) := by
  have hr := Route.make_eq_ok h
  subst hr
  have hs : (Route.build data acts vt).schedule.map (·.activity) = fullActs (data.vehicleType vt) acts :=
    Route.mkSchedule_activities ..
  refine ⟨hs, ?_⟩
  simp only [drawRoute, hs, fullActs]
  have hl : tripsLoop data [] (⟨.depot, (data.vehicleType vt).startDepot⟩ :: acts)
      = .ok (build data [] acts) := by
    have := tripsLoop_eq data acts [] []
    simpa [tripsLoop, tripsStep] using this
  have hd : ((⟨.depot, (data.vehicleType vt).startDepot⟩ : Activity) :: acts
      ++ [(⟨.depot, (data.vehicleType vt).endDepot⟩ : Activity)]).dropLast
      = ⟨.depot, (data.vehicleType vt).startDepot⟩ :: acts := List.dropLast_concat
  rw [hd, hl]
  rfl

theorem drawRoutes_ok {data : ProblemData} {pl : Bool} : ∀ {routes : List Route},
    (∀ r ∈ routes, ∃ ts, drawRoute data pl r = .ok ts) →
    ∃ tss, drawRoutes data pl routes = .ok tss ∧ tss.length = routes.length
      ∧ ∀ (i : Nat) r ts, routes[i]? = some r → tss[i]? = some ts → drawRoute data pl r = .ok ts
  | [], _ => ⟨[], rfl, rfl, by simp⟩
  | r :: routes, h => by
    obtain ⟨ts, hts⟩ := h r (List.mem_cons_self ..)
    obtain ⟨tss, h1, h2, h3⟩ := drawRoutes_ok fun r' hr' => h r' (List.mem_cons_of_mem _ hr')
    refine ⟨ts :: tss, by simp only [drawRoutes, hts, h1], by simp [h2], ?_⟩
    intro i r' ts' hi hi'
    cases i with
    | zero =>
      simp only [List.getElem?_cons_zero, Option.some.injEq] at hi hi'
      subst hi hi'; exact hts
    | succ i =>
      simp only [List.getElem?_cons_succ] at hi hi'
      exact h3 i r' ts' hi hi'

end Plot

/-- **C69.** For a route, the arrows and lines that are drawn are the legs of its schedule, in order, other than those
from a depot to a depot. Each visit is a point of a line, or a dot if it is the only one of its trip. With
`plot_locations` all visits are dots, without it only those that are the only one of a trip. (`_partial` because a leg from a
depot to a depot is not drawn: see `C69_depots_negation`.) -/
theorem C69_route_partial (data : ProblemData) (acts : List Activity) (vt : Nat) (r : Route)
    (h : Route.make data acts vt = .ok r) (plotLocations : Bool) :
    let tour := r.schedule.map (·.activity)
    ∃ ts, Plot.drawRoute data plotLocations r = .ok ts
      ∧ ts.flatMap edges = tourLegs data tour
      ∧ ts.flatMap visible = tourVisits data tour
      ∧ (plotLocations = true → ts.flatMap (fun t => t.dots.getD []) = tourVisits data tour)
      ∧ (plotLocations = false → ∀ t ∈ ts, (t.dots.isSome ↔ t.line = none)) := by
  intro tour
  obtain ⟨h1, h2⟩ := Plot.drawRoute_eq h plotLocations
  obtain ⟨k1, k2, k3⟩ := Plot.drawn_visible data plotLocations (data.vehicleType vt).endDepot acts
    (data.vehicleType vt).startDepot []
  have hv : tourVisits data tour = tourVisits data acts := by
    simp only [tour, h1, fullActs, tourVisits]
    simp
  refine ⟨_, h2, ?_, ?_, ?_, ?_⟩
  · rw [(Plot.drawn_edges data plotLocations _ acts _).1]
    simp only [tour, h1, fullActs]
  · rw [k1, hv]; rfl
  · rintro rfl
    rw [k2, hv]; rfl
  · rintro rfl
    exact k3

/-- **C69.** Plotting a solution never raises. It shows all depots, and each of the routes as above. With
`plot_locations`, clients and shipments that are not visited are shown as dots, if there are any. -/
theorem C69_solution (data : ProblemData) (plan : RoutePlan) (routes : List Route) (s : Solution)
    (hb : Built data plan routes) (hn : ∀ g ∈ data.groups, g.clients.Nodup)
    (h : Solution.make data routes = .ok s) (plotLocations : Bool) :
    ∃ p, Plot.solution data s plotLocations = .ok p
      ∧ p.depots.length = data.depots.length
      ∧ (∀ i, i < data.depots.length → p.depots[i]? = some (onMap data ⟨.depot, i⟩))
      ∧ p.routes.length = routes.length
      ∧ (∀ (i : Nat) r ts, routes[i]? = some r → p.routes[i]? = some ts →
        Plot.drawRoute data plotLocations r = .ok ts)
      ∧ (p.unvisited = none ↔ plotLocations = false ∨ ∀ a, a.type ≠ .depot → InRange data a → a ∈ visited plan)
      ∧ ∀ dots, p.unvisited = some dots → ∃ l : List Activity, l.Nodup
        ∧ (∀ a, a ∈ l ↔ a.type ≠ .depot ∧ InRange data a ∧ a ∉ visited plan) ∧ dots = l.map (onMap data) := by
  obtain ⟨hnd, hmem, -⟩ := C15_unplanned data plan routes s hb hn h
  have hsr := (C15_totals data plan routes s hb hn h).1
  have hrs : ∀ r ∈ routes, ∃ ts, Plot.drawRoute data plotLocations r = .ok ts := by
    intro r hr
    have : Except.ok r ∈ plan.map fun p => Route.make data p.2 p.1 := by
      rw [hb.made]; exact List.mem_map_of_mem hr
    obtain ⟨p, -, hp⟩ := List.mem_map.1 this
    exact ⟨_, (Plot.drawRoute_eq hp plotLocations).2⟩
  obtain ⟨tss, h1, h2, h3⟩ := Plot.drawRoutes_ok hrs
  have hf : s.unplanned.filter (!·.isDepot) = s.unplanned := by
    rw [List.filter_eq_self]
    intro a ha
    rw [Route.isDepot_eq]
    simpa using ((hmem a).1 ha).1
  refine ⟨_, by simp only [Plot.solution, hsr, h1]; rfl, ?_, ?_, h2, h3, ?_, ?_⟩
  · simp
  · intro i hi
    simp [List.getElem?_eq_getElem hi, Plot.point, onMap, place, ProblemData.depot]
  · dsimp only
    by_cases hu : s.unplanned = []
    · have : ∀ a : Activity, a.type ≠ .depot → InRange data a → a ∈ visited plan := by
        intro a h1 h2
        refine Classical.byContradiction fun h3 => ?_
        have := (hmem a).2 ⟨h1, h2, h3⟩
        rw [hu] at this; cases this
      exact ⟨fun _ => .inr this, fun _ => by simp [hu]⟩
    · have : ¬ ∀ a : Activity, a.type ≠ .depot → InRange data a → a ∈ visited plan := by
        intro hall
        obtain ⟨a, ha⟩ := List.exists_mem_of_ne_nil _ hu
        obtain ⟨m1, m2, m3⟩ := (hmem a).1 ha
        exact m3 (hall a m1 m2)
      have hlen : (s.unplanned.length != 0) = true := by simpa using hu
      cases plotLocations <;> simp [hlen, this]
  · dsimp only
    intro dots hdots
    split at hdots
    · simp only [Option.some.injEq, hf] at hdots
      exact ⟨s.unplanned, hnd, hmem, hdots.symm⟩
    · cases hdots

/-! ## What is not so, and concrete cases -/

namespace C69

/-- The first vehicles may reload at the other depot. -/
def reload : ProblemData :=
  { Demo.data with vehicleTypes := Demo.data.vehicleTypes.map fun v => { v with reloadDepots := [1] } }

end C69

/-- **C69 (finding).** A trip without visits is not drawn: here the vehicle drives from (0, 0) to the depot at (3, 4) to
reload at once, and neither is connected by any line to the other in this direction. -/
theorem C69_depots_negation : ProblemData.make C69.reload = .ok C69.reload ∧ ∃ r ts,
    Route.make C69.reload [Demo.depot 1, Demo.client 1] 0 = .ok r
    ∧ Plot.drawRoute C69.reload true r = .ok ts
    ∧ ((0, 0), (3, 4)) ∈ (legs (r.schedule.map (·.activity))).map (fun p => (onMap C69.reload p.1, onMap C69.reload p.2))
    ∧ ((0, 0), (3, 4)) ∉ ts.flatMap edges := by
  refine ⟨by decide, Route.build C69.reload [Demo.depot 1, Demo.client 1] 0, _, by decide, rfl, by decide, by decide⟩

/-- A solution of two routes, which does not visit a client. -/
example : ∃ routes s p, Built Demo.data [(0, [Demo.client 0, Demo.pickup 0, Demo.delivery 0]), (1, [Demo.client 1, Demo.client 3])]
      routes ∧ Solution.make Demo.data routes = .ok s ∧ Plot.solution Demo.data s true = .ok p
    ∧ p.depots = [(0, 0), (3, 4)] ∧ p.unvisited = some [(6, 8), (6, 8)] := by
  refine ⟨[Route.build Demo.data [Demo.client 0, Demo.pickup 0, Demo.delivery 0] 0,
    Route.build Demo.data [Demo.client 1, Demo.client 3] 1], _, _, ⟨by decide, by decide, by decide, by decide⟩, rfl, rfl,
    by decide, by decide⟩

/-- Two trips, one of them with a single visit. -/
example : ∃ r ts, Route.make Demo.data [Demo.client 0, Demo.depot 0, Demo.client 1, Demo.client 3] 0 = .ok r
    ∧ Plot.drawRoute Demo.data false r = .ok ts
    ∧ ts.flatMap edges = [((0, 0), (3, 4)), ((3, 4), (0, 0)), ((0, 0), (6, 8)), ((6, 8), (3, 4)), ((3, 4), (0, 0))]
    ∧ ts.map (·.dots) = [some [(3, 4)], none] := by
  refine ⟨Route.build Demo.data [Demo.client 0, Demo.depot 0, Demo.client 1, Demo.client 3] 0, _, by decide, rfl,
    by decide, by decide⟩

end PyVRP
