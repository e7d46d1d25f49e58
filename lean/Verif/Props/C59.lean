import Verif.Model.Printers
import Verif.Lemmas.PyText
import Verif.Props.C13
import Verif.Props.C16
import Verif.Props.C29
import Verif.Props.C38
/-!
# C59: the text of routes, solutions and results
-/
namespace PyVRP
open Spec Csv

namespace Spec

/-- What a visit looks like to a reader of the text: which depot is visited is not told. -/
def shown (a : Activity) : Option Activity := if a.type = .depot then none else some a

/-- Reads one visit. -/
def readVisit (t : Text) : Option (Option Activity) :=
  if t = ['|'] then some none
  else match Activity.parse t with
    | .ok a => some (some a)
    | .error _ => none

/-- Reads the visits of a route, separated by spaces. -/
def readRoute (t : Text) : Option (List (Option Activity)) :=
  if t = [] then some [] else (Py.split ' ' t).mapM readVisit

end Spec

theorem shownAs_cases (a : Activity) :
    (a.type = .depot ∧ a.shownAs = ['|']) ∨ (a.type ≠ .depot ∧ a.shownAs = a.print) := by
  unfold Activity.shownAs Activity.isDepot
  by_cases h : a.type = .depot
  · exact Or.inl ⟨h, by simp [h]⟩
  · exact Or.inr ⟨h, by simp [h]⟩

theorem print_head (a : Activity) : a.print ≠ ['|'] := by
  unfold Activity.print
  intro h
  have := (List.cons.inj h).1
  revert this
  cases a.type <;> decide

theorem not_mem_print {c : Char} (hc : isDigit c = false) (ht : c ∉ ['D', 'C', 'L', 'U']) (a : Activity) :
    c ∉ a.print := by
  unfold Activity.print
  rw [List.mem_cons, not_or]
  refine ⟨?_, Py.not_mem_decimal hc _⟩
  intro h
  apply ht
  rw [h]
  cases a.type <;> decide

theorem not_mem_shownAs {c : Char} (hc : isDigit c = false) (ht : c ∉ ['D', 'C', 'L', 'U', '|'])
    (a : Activity) : c ∉ a.shownAs := by
  simp only [List.mem_cons, not_or, List.not_mem_nil, not_false_eq_true, and_true] at ht
  rcases shownAs_cases a with ⟨_, h⟩ | ⟨_, h⟩
  · rw [h]; simp; exact ht.2.2.2.2
  · rw [h]; exact not_mem_print hc (by simp; exact ⟨ht.1, ht.2.1, ht.2.2.1, ht.2.2.2.1⟩) a

theorem shownAs_ne_nil (a : Activity) : a.shownAs ≠ [] := by
  rcases shownAs_cases a with ⟨_, h⟩ | ⟨_, h⟩
  · rw [h]; simp
  · rw [h]; simp [Activity.print]

theorem printVisits_join : ∀ (l : List Activity), printVisits l = Py.join [' '] (l.map Activity.shownAs)
  | [] => rfl
  | [_] => rfl
  | a :: b :: l => by
    rw [printVisits, printVisits_join (b :: l)]
    simp [Py.join]

theorem printVisits_nil (l : List Activity) : printVisits l = [] ↔ l = [] := by
  cases l with
  | nil => simp [printVisits]
  | cons a l =>
    cases l with
    | nil => simp [printVisits, shownAs_ne_nil]
    | cons b l => simp [printVisits]

theorem split_printVisits {l : List Activity} (h : l ≠ []) :
    Py.split ' ' (printVisits l) = l.map Activity.shownAs := by
  rw [printVisits_join]
  apply Py.split_join
  · simpa using h
  · intro t ht
    obtain ⟨a, _, rfl⟩ := List.mem_map.1 ht
    exact not_mem_shownAs (by decide) (by decide) a

theorem shownAs_injective {a b : Activity} : a.shownAs = b.shownAs ↔ shown a = shown b := by
  unfold shown
  rcases shownAs_cases a with ⟨h1, h2⟩ | ⟨h1, h2⟩ <;> rcases shownAs_cases b with ⟨h3, h4⟩ | ⟨h3, h4⟩ <;>
    rw [h2, h4]
  · simp [h1, h3]
  · simp only [h1, h3, if_true, if_false, reduceCtorEq, iff_false]
    exact fun h => print_head b h.symm
  · simp only [h1, h3, if_true, if_false, reduceCtorEq, iff_false]
    exact print_head a
  · simp only [h1, h3, if_false, Option.some.injEq]
    exact ⟨C38_injective a b, fun h => by rw [h]⟩

theorem map_shownAs_injective : ∀ {l m : List Activity},
    l.map Activity.shownAs = m.map Activity.shownAs ↔ l.map shown = m.map shown
  | [], [] => by simp
  | [], _ :: _ => by simp
  | _ :: _, [] => by simp
  | a :: l, b :: m => by
    rw [List.map_cons, List.map_cons, List.map_cons, List.map_cons, List.cons.injEq, List.cons.injEq,
      shownAs_injective, map_shownAs_injective]

theorem printVisits_injective {l m : List Activity} :
    printVisits l = printVisits m ↔ l.map shown = m.map shown := by
  constructor
  · intro h
    by_cases hl : l = []
    · subst hl
      have : m = [] := (printVisits_nil m).1 h.symm
      subst this
      rfl
    · have hm : m ≠ [] := fun hm => hl ((printVisits_nil l).1 (by rw [h, (printVisits_nil m).2 hm]))
      rw [← map_shownAs_injective, ← split_printVisits hl, ← split_printVisits hm, h]
  · intro h
    rw [printVisits_join, printVisits_join, map_shownAs_injective.2 h]

theorem readVisit_shownAs {a : Activity} (h : a.idx ≤ SIZE_MAX) : readVisit a.shownAs = some (shown a) := by
  unfold readVisit shown
  rcases shownAs_cases a with ⟨h1, h2⟩ | ⟨h1, h2⟩
  · rw [h2, if_pos rfl, if_pos h1]
  · rw [h2, if_neg (print_head a), if_neg h1, C38_round_trip a h]

theorem readRoute_printVisits {l : List Activity} (h : ∀ a ∈ l, a.idx ≤ SIZE_MAX) :
    readRoute (printVisits l) = some (l.map shown) := by
  unfold readRoute
  by_cases hl : l = []
  · subst hl; rfl
  · rw [if_neg fun h => hl ((printVisits_nil l).1 h), split_printVisits hl]
    clear hl
    induction l with
    | nil => rfl
    | cons a l ih =>
      rw [List.map_cons, List.mapM_cons, readVisit_shownAs (h a (by simp)),
        ih fun x hx => h x (by simp [hx])]
      rfl

theorem count_printVisits : ∀ (l : List Activity), (printVisits l).count '|' = depotVisits l
  | [] => rfl
  | [a] => by
    have := count_one a
    simpa [printVisits, depotVisits] using this
  | a :: b :: l => by
    rw [printVisits, List.count_append, List.count_cons, count_printVisits (b :: l), count_one a]
    simp only [depotVisits, List.countP_cons (a := a)]
    simp
    omega
where
  count_one (a : Activity) : a.shownAs.count '|' = if a.type = .depot then 1 else 0 := by
    rcases shownAs_cases a with ⟨h1, h2⟩ | ⟨h1, h2⟩
    · rw [h2, if_pos h1]; rfl
    · rw [h2, if_neg h1]
      exact List.count_eq_zero.2 (not_mem_print (by decide) (by decide) a)

theorem print_of_make {data : ProblemData} {acts : List Activity} {vt : Nat} {r : Route}
    (h : Route.make data acts vt = .ok r) : r.print = printVisits acts := by
  unfold Route.print
  rw [(C07_schedule_lists_activities data acts vt r h).1]
  simp [fullActs]

/-- **C59.** The text of a route is the list of its visits: reading it gives every client, pickup and
delivery, in order, and a mark where the vehicle reloads. -/
theorem C59_route (data : ProblemData) (acts : List Activity) (vt : Nat) (r : Route)
    (h : Route.make data acts vt = .ok r) (hi : ∀ a ∈ acts, a.idx ≤ SIZE_MAX) :
    readRoute r.print = some (acts.map shown) := by
  rw [print_of_make h]
  exact readRoute_printVisits hi

/-- **C59.** Two routes have the same text exactly if their visits are the same, up to the choice of the
depots at which they reload. -/
theorem C59_same_route (data data' : ProblemData) (acts acts' : List Activity) (vt vt' : Nat) (r r' : Route)
    (h : Route.make data acts vt = .ok r) (h' : Route.make data' acts' vt' = .ok r') :
    r.print = r'.print ↔ acts.map shown = acts'.map shown := by
  rw [print_of_make h, print_of_make h']
  exact printVisits_injective

/-- **C59.** The text has a bar between any two trips. -/
theorem C59_trips (data : ProblemData) (acts : List Activity) (vt : Nat) (r : Route)
    (hsize : acts.length < SIZE_MAX) (hreloads : (data.vehicleType vt).maxReloads ≤ SIZE_MAX)
    (h : Route.make data acts vt = .ok r) :
    r.print.count '|' + 1 = r.numTrips := by
  rw [print_of_make h, count_printVisits, (C07_counts data acts vt r hsize hreloads h).2.2.2.1]

/-! ### Solutions -/

/-- The line of a route. -/
def routeLine (idx : Nat) (acts : List Activity) : Text :=
  "Route #".toList ++ decimal (idx + 1) ++ ": ".toList ++ printVisits acts

def routeLines (idx : Nat) : List (List Activity) → List Text
  | [] => []
  | acts :: l => routeLine idx acts :: routeLines (idx + 1) l

theorem newline_not_mem_line (idx : Nat) (acts : List Activity) : '\n' ∉ routeLine idx acts := by
  unfold routeLine
  rw [List.mem_append, List.mem_append, List.mem_append, not_or, not_or, not_or]
  refine ⟨⟨⟨by decide, Py.not_mem_decimal (by decide) _⟩, by decide⟩, ?_⟩
  rw [printVisits_join]
  induction acts with
  | nil => simp [Py.join]
  | cons a l ih =>
    cases l with
    | nil => exact not_mem_shownAs (by decide) (by decide) a
    | cons b l =>
      rw [List.map_cons, List.map_cons, Py.join, ← List.map_cons, List.mem_append, List.mem_append, not_or,
        not_or]
      · exact ⟨⟨not_mem_shownAs (by decide) (by decide) a, by decide⟩, ih⟩
      · simp

theorem printRoutes_cons (idx : Nat) (r : Route) (rs : List Route) (acts : List Activity)
    (h : r.print = printVisits acts) :
    printRoutes idx (r :: rs) = routeLine idx acts ++ '\n' :: printRoutes (idx + 1) rs := by
  have : r.printLine idx = routeLine idx acts := by
    unfold Route.printLine routeLine
    rw [h]
  rw [printRoutes, this]

theorem built_print {data : ProblemData} : ∀ {plan : RoutePlan} {routes : List Route},
    plan.map (fun p => Route.make data p.2 p.1) = routes.map Except.ok →
      routes.map Route.print = plan.map (fun p => printVisits p.2)
  | [], [], _ => rfl
  | [], _ :: _, h => by simp at h
  | _ :: _, [], h => by simp at h
  | p :: plan, r :: routes, h => by
    rw [List.map_cons, List.map_cons, List.cons.injEq] at h
    rw [List.map_cons, List.map_cons, print_of_make h.1, built_print h.2]

theorem split_printRoutes : ∀ (idx : Nat) (routes : List Route) (plan : List (List Activity)),
    routes.map Route.print = plan.map printVisits →
      Py.split '\n' (printRoutes idx routes) = routeLines idx plan ++ [[]]
  | _, [], [], _ => rfl
  | _, [], _ :: _, h => by simp at h
  | _, _ :: _, [], h => by simp at h
  | idx, r :: routes, acts :: plan, h => by
    rw [List.map_cons, List.map_cons, List.cons.injEq] at h
    rw [printRoutes_cons idx r routes acts h.1, Py.split_append (newline_not_mem_line idx acts),
      split_printRoutes (idx + 1) routes plan h.2, routeLines, List.cons_append]

theorem solution_lines {data : ProblemData} {plan : RoutePlan} {routes : List Route} {s : Solution}
    (hb : Built data plan routes) (hn : ∀ g ∈ data.groups, g.clients.Nodup)
    (h : Solution.make data routes = .ok s) :
    Py.split '\n' s.print = routeLines 0 (plan.map (·.2)) ++ [[]] := by
  unfold Solution.print
  rw [(C15_totals data plan routes s hb hn h).1]
  apply split_printRoutes
  rw [built_print hb.made, List.map_map]
  rfl

theorem routeLines_length : ∀ (idx : Nat) (l : List (List Activity)), (routeLines idx l).length = l.length
  | _, [] => rfl
  | idx, _ :: l => by rw [routeLines, List.length_cons, routeLines_length (idx + 1) l, List.length_cons]

theorem routeLines_get : ∀ (idx : Nat) (l : List (List Activity)) (i : Nat),
    (routeLines idx l)[i]? = l[i]?.map (routeLine (idx + i))
  | _, [], _ => by simp [routeLines]
  | idx, acts :: l, 0 => by simp [routeLines]
  | idx, acts :: l, i + 1 => by
    rw [routeLines, List.getElem?_cons_succ, List.getElem?_cons_succ, routeLines_get (idx + 1) l i]
    rw [show idx + 1 + i = idx + (i + 1) by omega]

/-- **C59.** The text of a solution has one line per route, in order and numbered from one, and reading a
line gives the visits of the route. -/
theorem C59_solution (data : ProblemData) (plan : RoutePlan) (routes : List Route) (s : Solution)
    (hb : Built data plan routes) (hn : ∀ g ∈ data.groups, g.clients.Nodup)
    (h : Solution.make data routes = .ok s) (hi : ∀ p ∈ plan, ∀ a ∈ p.2, a.idx ≤ SIZE_MAX) :
    (Py.split '\n' s.print).length = plan.length + 1
    ∧ (Py.split '\n' s.print).getLast? = some []
    ∧ ∀ (i : Nat) (p : Nat × List Activity), plan[i]? = some p →
        ∃ visits, (Py.split '\n' s.print)[i]?
            = some ("Route #".toList ++ decimal (i + 1) ++ ": ".toList ++ visits)
          ∧ readRoute visits = some (p.2.map shown) := by
  rw [solution_lines hb hn h]
  refine ⟨by simp [routeLines_length], by simp, ?_⟩
  intro i p hp
  refine ⟨printVisits p.2, ?_, readRoute_printVisits (hi p (List.mem_of_getElem? hp))⟩
  have hlt : i < plan.length := (List.getElem?_eq_some_iff.1 hp).1
  rw [List.getElem?_append_left (by rw [routeLines_length, List.length_map]; exact hlt), routeLines_get,
    List.getElem?_map, hp, Nat.zero_add]
  rfl

theorem routeLines_injective : ∀ (idx : Nat) {l m : List (List Activity)},
    routeLines idx l = routeLines idx m ↔ l.map (·.map shown) = m.map (·.map shown)
  | _, [], [] => by simp
  | _, [], _ :: _ => by simp [routeLines]
  | _, _ :: _, [] => by simp [routeLines]
  | idx, a :: l, b :: m => by
    rw [routeLines, routeLines, List.map_cons, List.map_cons, List.cons.injEq, List.cons.injEq,
      routeLines_injective (idx + 1)]
    unfold routeLine
    rw [List.append_right_inj, printVisits_injective]

/-- **C59.** Two solutions have the same text exactly if they have the same routes in the same order, up to
the choice of the depots at which they reload and of the vehicle types. -/
theorem C59_same_solution (data data' : ProblemData) (plan plan' : RoutePlan) (routes routes' : List Route)
    (s s' : Solution) (hb : Built data plan routes) (hn : ∀ g ∈ data.groups, g.clients.Nodup)
    (h : Solution.make data routes = .ok s) (hb' : Built data' plan' routes')
    (hn' : ∀ g ∈ data'.groups, g.clients.Nodup) (h' : Solution.make data' routes' = .ok s') :
    s.print = s'.print ↔ plan.map (fun p => p.2.map shown) = plan'.map (fun p => p.2.map shown) := by
  have e1 := solution_lines hb hn h
  have e2 := solution_lines hb' hn' h'
  have key := routeLines_injective 0 (l := plan.map (·.2)) (m := plan'.map (·.2))
  rw [List.map_map, List.map_map] at key
  constructor
  · intro hp
    rw [hp, e2] at e1
    exact key.1 (List.append_cancel_right e1).symm
  · intro hp
    have hr : ∀ (idx : Nat) {l m : List Route}, l.map Route.print = m.map Route.print →
        printRoutes idx l = printRoutes idx m := by
      intro idx l
      induction l generalizing idx with
      | nil => intro m hm; cases m with
        | nil => rfl
        | cons _ _ => simp at hm
      | cons r l ih => intro m hm; cases m with
        | nil => simp at hm
        | cons r' m =>
          rw [List.map_cons, List.map_cons, List.cons.injEq] at hm
          have : r.printLine idx = r'.printLine idx := by
            unfold Route.printLine
            rw [hm.1]
          rw [printRoutes, printRoutes, this, ih (idx + 1) hm.2]
    unfold Solution.print
    rw [(C15_totals data plan routes s hb hn h).1, (C15_totals data' plan' routes' s' hb' hn' h').1]
    apply hr
    rw [built_print hb.made, built_print hb'.made]
    clear hb hb' h h' e1 e2 key hr
    induction plan generalizing plan' with
    | nil => cases plan' with
      | nil => rfl
      | cons _ _ => simp at hp
    | cons p plan ih => cases plan' with
      | nil => simp at hp
      | cons q plan' =>
        rw [List.map_cons, List.map_cons, List.cons.injEq] at hp
        rw [List.map_cons, List.map_cons, printVisits_injective.2 hp.1, ih plan' hp.2]

/-! ### Results -/

theorem newline_not_mem_showInt (n : Int) : '\n' ∉ showInt n := by
  unfold showInt
  split
  · rw [List.mem_cons, not_or]
    exact ⟨by decide, Py.not_mem_decimal (by decide) _⟩
  · exact Py.not_mem_decimal (by decide) _

theorem split_join_append {sep : Char} : ∀ (parts : List Text) (rest : Text), (∀ t ∈ parts, sep ∉ t) →
    Py.split sep (Py.join [sep] (parts ++ [rest])) = parts ++ Py.split sep rest
  | [], rest, _ => rfl
  | [t], rest, h => by
    show Py.split sep (Py.join [sep] [t, rest]) = _
    rw [Py.join, List.append_assoc, List.singleton_append, Py.split_append (h t (by simp))]
    · rfl
    · simp
  | t :: u :: ts, rest, h => by
    have ih := split_join_append (u :: ts) rest fun x hx => h x (by simp [hx])
    rw [List.cons_append, List.cons_append] at *
    rw [Py.join, List.append_assoc, List.singleton_append, Py.split_append (h t (by simp)), ih]
    · rfl
    · simp

theorem join_cons (sep t : Text) {l : List Text} (h : l ≠ []) :
    Py.join sep (t :: l) = t ++ sep ++ Py.join sep l := by
  cases l with
  | nil => exact absurd rfl h
  | cons u l => rw [Py.join]; simp

theorem join_join (sep : Text) : ∀ (l : List Text) (m : List Text), l ≠ [] → m ≠ [] →
    Py.join sep (Py.join sep l :: m) = Py.join sep (l ++ m)
  | [], _, h, _ => absurd rfl h
  | [t], _, _, _ => rfl
  | t :: u :: l, m, _, hm => by
    have ih := join_join sep (u :: l) m (by simp) hm
    rw [join_cons _ _ hm] at ih ⊢
    rw [join_cons _ _ (by simp), List.cons_append, join_cons sep t (by simp), ← ih]
    simp [List.append_assoc]

theorem newline_not_mem_summary {showSeconds : Int → Text} (hs : ∀ t, '\n' ∉ showSeconds t) (r : Result) :
    ∀ t ∈ r.summaryLines showSeconds, '\n' ∉ t := by
  have hd : ∀ n, '\n' ∉ decimal n := fun n => Py.not_mem_decimal (by decide) n
  have ho : '\n' ∉ r.objText := by
    unfold Result.objText
    split
    · unfold Cli.costText
      split
      · exact newline_not_mem_showInt _
      · decide
    · decide
  have happ : ∀ {a b : Text}, '\n' ∉ a → '\n' ∉ b → '\n' ∉ a ++ b := by
    intro a b ha hb h
    exact (List.mem_append.1 h).elim ha hb
  intro t ht
  unfold Result.summaryLines at ht
  simp only [List.mem_cons, List.not_mem_nil, or_false] at ht
  rcases ht with h | h | h | h | h | h | h | h | h | h | h <;> rw [h]
  · decide
  · decide
  · exact happ (by decide) (hd _)
  · exact happ (by decide) (hd _)
  · exact happ (by decide) (hd _)
  · exact happ (by decide) (hd _)
  · exact happ (by decide) ho
  · exact happ (by decide) (newline_not_mem_showInt _)
  · exact happ (by decide) (newline_not_mem_showInt _)
  · exact happ (by decide) (newline_not_mem_showInt _)
  · exact happ (happ (by decide) (hs _)) (by decide)

theorem result_lines {showSeconds : Int → Text} (hs : ∀ t, '\n' ∉ showSeconds t) (r : Result) :
    Py.split '\n' (r.print showSeconds)
      = r.summaryLines showSeconds ++ [[], "Routes".toList, "------".toList] ++ Py.split '\n' r.best.print := by
  unfold Result.print Result.summary
  rw [join_join _ _ _ (by simp [Result.summaryLines]) (by simp)]
  have : ∀ (l : List Text) (a b c d : Text), l ++ [a, b, c, d] = (l ++ [a, b, c]) ++ [d] := by simp
  rw [this, split_join_append]
  intro t ht
  rcases List.mem_append.1 ht with ht | ht
  · exact newline_not_mem_summary hs r t ht
  · simp only [List.mem_cons, List.not_mem_nil, or_false] at ht
    rcases ht with h | h | h <;> rw [h] <;> decide

theorem built_counts {data : ProblemData} {plan : RoutePlan} {routes : List Route}
    (hb : Built data plan routes) :
    routes.length = plan.length
    ∧ (routes.map (·.numTrips)).sum = (plan.map fun p => depotVisits p.2 + 1).sum
    ∧ (routes.map (·.numClients)).sum = (visited plan).countP (fun a => a.type = .client)
    ∧ (routes.map (·.numShipments)).sum = (visited plan).countP (fun a => a.type = .pickup) := by
  obtain ⟨hmade, htypes, hsizes, hreloads⟩ := hb
  induction plan generalizing routes with
  | nil =>
    cases routes with
    | nil => exact ⟨rfl, rfl, rfl, rfl⟩
    | cons _ _ => simp at hmade
  | cons p plan ih =>
    cases routes with
    | nil => simp at hmade
    | cons r routes =>
      rw [List.map_cons, List.map_cons, List.cons.injEq] at hmade
      obtain ⟨i1, i2, i3, i4⟩ := ih hmade.2 (fun q hq => htypes q (by simp [hq]))
        fun q hq => hsizes q (by simp [hq])
      have hv : (data.vehicleType p.1).maxReloads ≤ SIZE_MAX := by
        apply hreloads
        have := htypes p (by simp)
        unfold ProblemData.vehicleType
        rw [List.getD_eq_getElem?_getD, List.getElem?_eq_getElem this]
        exact List.getElem_mem this
      obtain ⟨c1, _, c3, c4, _⟩ := C07_counts data p.2 p.1 r (hsizes p (by simp)) hv hmade.1
      refine ⟨by simp [i1], ?_, ?_, ?_⟩
      · rw [List.map_cons, List.sum_cons, List.map_cons, List.sum_cons, i2, c4]
      · rw [List.map_cons, List.sum_cons, i3, c1, visited, visited, List.flatMap_cons, List.countP_append]
      · rw [List.map_cons, List.sum_cons, i4, c3, visited, visited, List.flatMap_cons, List.countP_append]

/-- **C59.** The text of a result states the numbers of routes, trips, clients and shipments of the best
solution, the objective value if it is feasible, its distance and duration, and then the routes. -/
theorem C59_result (showSeconds : Int → Text) (hs : ∀ t, '\n' ∉ showSeconds t) (data : ProblemData)
    (plan : RoutePlan) (routes : List Route) (res : Result)
    (hb : Built data plan routes) (hn : ∀ g ∈ data.groups, g.clients.Nodup)
    (h : Solution.make data routes = .ok res.best) :
    Py.split '\n' (res.print showSeconds) =
      ["Solution results".toList,
       "================".toList,
       "    # routes: ".toList ++ decimal plan.length,
       "     # trips: ".toList ++ decimal (plan.map fun p => depotVisits p.2 + 1).sum,
       "   # clients: ".toList ++ decimal ((visited plan).countP fun a => a.type = .client),
       " # shipments: ".toList ++ decimal ((visited plan).countP fun a => a.type = .pickup),
       "   objective: ".toList
         ++ (if res.best.isFeasible then showInt (objective res.best) else "INFEASIBLE".toList),
       "    distance: ".toList ++ showInt (routes.map (·.distance)).sum,
       "    duration: ".toList ++ showInt (routes.map (·.duration)).sum,
       "# iterations: ".toList ++ showInt res.numIterations,
       "    run-time: ".toList ++ showSeconds res.runtime ++ " seconds".toList,
       [],
       "Routes".toList,
       "------".toList]
      ++ Py.split '\n' res.best.print := by
  rw [result_lines hs]
  congr 1
  obtain ⟨b1, b2, b3, b4⟩ := built_counts hb
  have ht := C15_totals data plan routes res.best hb hn h
  have hd := ht.2.1
  have hdur := ht.2.2.2.1
  have hnum : res.best.numRoutes = plan.length := by
    unfold Solution.numRoutes; rw [ht.1, b1]
  have htr : res.best.numTrips = (plan.map fun p => depotVisits p.2 + 1).sum := by
    rw [← b2]; simp only [ht]
  have hcl : res.best.numClients = (visited plan).countP (fun a => a.type = .client) := by
    rw [← b3]; simp only [ht]
  have hsh : res.best.numShipments = (visited plan).countP (fun a => a.type = .pickup) := by
    rw [← b4]; simp only [ht]
  have hobj : res.objText
      = if res.best.isFeasible then showInt (objective res.best) else "INFEASIBLE".toList := by
    unfold Result.objText
    rw [(C42_result_cost data hn res ⟨plan, routes, hb, h⟩).2]
    unfold Result.isFeasible
    cases res.best.isFeasible <;> rfl
  unfold Result.summaryLines
  rw [hnum, htr, hcl, hsh, hobj, hd, hdur]
  rfl

end PyVRP

namespace PyVRP.Demo
open Spec Csv

/-- The text of the two routes of the demo. -/
example : String.ofList (Route.build data acts 0).print = "C0 L0 C1 U0 | C2" := by decide +kernel

example : readRoute "C0 L0 C1 U0 | C2".toList
    = some [some (client 0), some (pickup 0), some (client 1), some (delivery 0), none, some (client 2)] := by
  decide +kernel

/-- The conditions of `C59_route` and `C59_trips`. -/
example : Route.make data acts 0 = .ok (Route.build data acts 0) ∧ (∀ a ∈ acts, a.idx ≤ SIZE_MAX)
    ∧ acts.length < SIZE_MAX ∧ (data.vehicleType 0).maxReloads ≤ SIZE_MAX := by decide

/-- The text of the demo solution. -/
example : ∃ s, Solution.make data routes = .ok s
    ∧ String.ofList s.print = "Route #1: C0 L0 C1 U0 | C2\nRoute #2: C3\n" := by
  refine ⟨_, rfl, ?_⟩
  decide +kernel

example : ∀ p ∈ plan, ∀ a ∈ p.2, a.idx ≤ SIZE_MAX := by decide

/-- A result with this solution. -/
def printed : Option Result :=
  match Solution.make data routes with
  | .error _ => none
  | .ok best => some { best, stats := Statistics.make false 0, numIterations := 7, runtime := 3 }

example : printed.map (fun res => res.print fun t => showInt t ++ ".00".toList) = some
    ("Solution results\n================\n    # routes: 2\n     # trips: 3\n   # clients: 4\n"
    ++ " # shipments: 1\n   objective: 196\n    distance: 45\n    duration: 71\n# iterations: 7\n"
    ++ "    run-time: 3.00 seconds\n\nRoutes\n------\nRoute #1: C0 L0 C1 U0 | C2\nRoute #2: C3\n").toList := by
  decide +kernel

example : ∀ t : Int, '\n' ∉ showInt t ++ ".00".toList := by
  intro t h
  exact (List.mem_append.1 h).elim (newline_not_mem_showInt t) (by decide)

/-- The demo instance with a second depot at which the first vehicle type may reload. -/
def twoReloads : ProblemData :=
  { data with vehicleTypes := data.vehicleTypes.map fun v => { v with reloadDepots := [0, 1] } }

end PyVRP.Demo

namespace PyVRP
open Spec

/-- **C59, negation of the full claim.** The text does not determine the route: it does not tell at which
depot the vehicle reloads, nor the vehicle type. Two different routes, with different distances, have the
same text. -/
theorem C59_negation : ∃ r r' r'' : Route,
    Route.make Demo.twoReloads [Demo.client 2, Demo.depot 0, Demo.client 3] 0 = .ok r
    ∧ Route.make Demo.twoReloads [Demo.client 2, Demo.depot 1, Demo.client 3] 0 = .ok r'
    ∧ Route.make Demo.twoReloads [Demo.client 2, Demo.depot 1, Demo.client 3] 1 = .ok r''
    ∧ r.print = r'.print ∧ r'.print = r''.print ∧ r.distance ≠ r'.distance ∧ r'.distance ≠ r''.distance := by
  refine ⟨_, _, _, rfl, rfl, rfl, ?_, ?_, ?_, ?_⟩ <;> decide +kernel

end PyVRP
