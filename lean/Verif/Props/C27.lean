import Verif.Lemmas.Perturbation
/-!
# C27: perturbation
-/
namespace PyVRP
open Spec

/-! ## Specification -/

namespace Spec

/-- A perturbation manager after being made for valid parameters, and any number of shuffles. -/
inductive ManagerHistory (params : PerturbationParams) : PerturbationManager → Prop where
  | new (h : PerturbationParams.make params = .ok params) :
      ManagerHistory params (PerturbationManager.new params)
  | shuffle {m : PerturbationManager} {σ : Type} (next : σ → Nat × σ) (rng : σ)
      (h : ManagerHistory params m) : ManagerHistory params (m.shuffle next rng).1

/-- A search solution as it is between operations: it visits the routes of `plan`, which are well
formed, and everything it knows about its routes is up to date. -/
structure SearchState (data : ProblemData) (plan : List (List Activity)) (s : SSol) : Prop where
  clean : SSol.Clean data plan s
  wellFormed : ∀ i, i < data.numVehicles →
    WellFormed data (data.vehicleType (vehTypeAt data i)) (plan.getD i [])
  reloads : ∀ i, depotVisits (plan.getD i []) < SIZE_MAX

/-- There is a neighbourhood for each client and pickup, and neighbourhoods hold clients and shipments
of the problem. -/
structure CompleteNeighbours (data : ProblemData) (ns : Neighbours) : Prop where
  nodup : (ns.map (·.1)).Nodup
  keys : ∀ a ∈ allTasks data, a ∈ ns.map (·.1)
  inRange : ∀ entry ∈ ns, ∀ b ∈ entry.2, IsTask data b

end Spec

theorem Spec.SearchState.routeOk {data : ProblemData} {plan : List (List Activity)} {s : SSol}
    (h : SearchState data plan s) (i : Nat) (hi : i < data.numVehicles) :
    RouteOk data (data.vehicleType (vehTypeAt data i)) (plan.getD i []) :=
  (h.wellFormed i hi).routeOk (h.reloads i)

theorem promising_size {data : ProblemData} {s : SearchSpace} {m : Activity → Prop} {ns : Neighbours}
    (h : SpaceHistory data s m ns) :
    data.clients.length + data.shipments.length ≤ s.promising.size := by
  induction h with
  | new h =>
    rw [SearchSpace.make_ok h]
    exact (C34_new _).1
  | mark a h ha ih => rw [SearchSpace.markPromising_eq]; simpa [Bitset.size_put] using ih
  | markNode vt acts r pos h hr hacts hpos ih =>
    have key : ∀ (s : SearchSpace) (n : SNode), (s.markIfTask n).promising.size = s.promising.size := by
      intro s n
      unfold SearchSpace.markIfTask
      split
      · rw [SearchSpace.markPromising_eq]; exact Bitset.size_put _ _ _
      · rfl
    unfold SearchSpace.markPromisingNode
    dsimp only
    split <;> split <;> simp only [key] <;> exact ih
  | markAll h ih => simpa [SearchSpace.markAllPromising, Bitset.size, Bitset.set] using ih
  | unmarkAll h ih => simpa [SearchSpace.unmarkAllPromising, Bitset.size, Bitset.reset] using ih
  | shuffle next rng h ih => exact ih
  | setNeighbours h hs ih =>
    obtain ⟨_, _, rfl⟩ := SearchSpace.setNeighbours_ok.1 hs
    exact ih

theorem Spec.SpaceHistory.ok {data : ProblemData} {s : SearchSpace} {m : Activity → Prop}
    {ns : Neighbours} (h : SpaceHistory data s m ns) (hn : CompleteNeighbours data ns) :
    SpaceOk data s := by
  have ho := C43_orders data s m ns h
  refine ⟨promising_size h, ho.1, ?_, ?_⟩
  · intro p hp
    have := (ho.2.mem_iff).1 hp
    simp only [List.mem_map, List.mem_range] at this
    obtain ⟨t, ht, rfl⟩ := this
    exact ⟨ht, rfl⟩
  · intro a ha
    obtain ⟨ns', hns⟩ := (C43_neighbours_of data s m ns h hn.nodup a []).2.2 (hn.keys a ha)
    refine ⟨ns', hns, ?_⟩
    have := (C43_neighbours_of data s m ns h hn.nodup a ns').1.1 hns
    exact hn.inRange _ this

/-! ## C27 -/

/-- **C27.** Parameters are accepted exactly if the minimum is at most the maximum; then, whatever the
random numbers, the number of perturbations is between them. -/
theorem C27_number (params : PerturbationParams) (m : PerturbationManager)
    (hrange : params.maxPerturbations - params.minPerturbations < SIZE_MAX) :
    ((∃ p, PerturbationParams.make params = .ok p)
        ↔ params.minPerturbations ≤ params.maxPerturbations)
    ∧ (ManagerHistory params m → params.minPerturbations ≤ m.numPerturbations
        ∧ m.numPerturbations ≤ params.maxPerturbations) := by
  have hmake : (∃ p, PerturbationParams.make params = .ok p)
      ↔ params.minPerturbations ≤ params.maxPerturbations := by
    unfold PerturbationParams.make
    split
    · simp; omega
    · simp; omega
  refine ⟨hmake, ?_⟩
  intro h
  suffices hs : m.params = params ∧ params.minPerturbations ≤ m.numPerturbations
      ∧ m.numPerturbations ≤ params.maxPerturbations from hs.2
  induction h with
  | new h => exact ⟨rfl, Nat.le_refl _, hmake.1 ⟨_, h⟩⟩
  | @shuffle m σ next rng h ih =>
    obtain ⟨h1, h2, h3⟩ := ih
    unfold PerturbationManager.shuffle
    simp only [h1, randint]
    refine ⟨trivial, by omega, ?_⟩
    have h4 : (params.maxPerturbations - params.minPerturbations + 1) % 18446744073709551616
        = params.maxPerturbations - params.minPerturbations + 1 := by
      apply Nat.mod_eq_of_lt; unfold SIZE_MAX at hrange; omega
    rw [h4]
    have := Nat.mod_lt (next rng).1 (show
      params.maxPerturbations - params.minPerturbations + 1 > 0 by omega)
    omega

/-- **C27.** Each number between the minimum and the maximum is drawn for some random number. -/
theorem C27_every_number (params : PerturbationParams) (m : PerturbationManager)
    (hm : m.params = params) (hrange : params.maxPerturbations - params.minPerturbations < SIZE_MAX)
    (k : Nat) (h1 : params.minPerturbations ≤ k) (h2 : k ≤ params.maxPerturbations) :
    (m.shuffle (fun _ : Unit => (k - params.minPerturbations, ())) ()).1.numPerturbations = k := by
  unfold PerturbationManager.shuffle
  simp only [hm, randint]
  rw [Nat.mod_eq_of_lt (b := 18446744073709551616) (by unfold SIZE_MAX at hrange; omega),
    Nat.mod_eq_of_lt (by omega)]
  omega

/-- **C27.** A perturbation step never fails. There are exactly as many clients and shipments as the
number of perturbations says, or all if there are fewer, which were in a route and no longer are, or
were in no route and now are. Without these, all routes visit what they visited before, in the same
order; so nothing is removed and inserted again. Routes are well formed, and what was changed is marked
as promising. -/
theorem C27_perturb (data : ProblemData) (hnv : 0 < data.numVehicles) (ce : CostEvaluator)
    (m : PerturbationManager) (plan : List (List Activity)) (sol : SSol)
    (hsol : SearchState data plan sol) (space : SearchSpace) (marks : Activity → Prop)
    (ns : Neighbours) (hspace : SpaceHistory data space marks ns) (hns : CompleteNeighbours data ns) :
    ∃ sol' space' plan' changed,
      m.perturb data ce sol space = .ok ⟨sol', space'⟩
      ∧ SearchState data plan' sol'
      ∧ changed.Nodup ∧ (∀ a ∈ changed, a ∈ allTasks data)
      ∧ changed.length = min m.numPerturbations (data.clients.length + data.shipments.length)
      ∧ (∀ a ∈ changed, Visited plan' a ↔ ¬ Visited plan a)
      ∧ (∀ i, strip changed (plan'.getD i []) = strip changed (plan.getD i []))
      ∧ (∀ a ∈ changed, space'.isPromising a = true)
      ∧ space'.neighbours = space.neighbours ∧ space'.activityOrder = space.activityOrder
      ∧ space'.vehTypeOrder = space.vehTypeOrder := by
  have hso := hspace.ok hns
  unfold PerturbationManager.perturb
  split
  · rename_i h0
    exact ⟨sol, space, plan, [], rfl, hsol, by simp, by simp, by simp [h0], by simp, by simp, by simp,
      rfl, rfl, rfl⟩
  · rename_i h0
    have hso' := (SpaceHistory.unmarkAll hspace).ok hns
    have hsized := hsol.clean.1.sized
    have hgrp : PerturbationManager.Grouped data plan []
        (Bitset.new (sol.clients.length + sol.shipments.length)) [] := by
      rw [hsized.clients, hsized.shipments]
      refine ⟨?_, ?_, by simp [PerturbationManager.nodesOf], by simp [PerturbationManager.nodesOf],
        by simp [PerturbationManager.nodesOf], by simp⟩
      · exact (C34_new _).1
      · intro a ha
        have h1 := (C34_new (data.numClients + data.numShipments)).2.2.2 (PerturbationManager.bitAt data a)
        have h2 := (C34_new (data.numClients + data.numShipments)).1
        have h3 := PerturbationManager.bitAt_lt ha
        rw [if_pos (by omega)] at h1
        unfold Bitset.getItem at h1
        rw [if_neg (by omega)] at h1
        injection h1 with h1
        rw [h1]
        simp [PerturbationManager.nodesOf]
    obtain ⟨st', plan', T, e, g, s, t1, t2, -, t4, t5⟩ := PerturbationManager.perturbLoop_spec hnv ce
      space.unmarkAllPromising.activityOrder m.numPerturbations plan ⟨sol, space.unmarkAllPromising⟩
      (Bitset.new (sol.clients.length + sol.shipments.length)) [] ⟨hsol.clean, hsol.routeOk, hso'⟩
      (fun a ha => hso'.order.mem_iff.1 ha) hgrp
    obtain ⟨sol', space'⟩ := st'
    refine ⟨sol', space', plan', T, e, ⟨g.clean, fun i hi => (g.routes i hi).wellFormed, ?_⟩, t1, t2, ?_,
      s.toggled, s.rest, s.marked, s.grows.neighbours, s.grows.order, s.grows.types⟩
    · intro i
      have hdep : ∀ l : List Activity, depotVisits l = depotVisits (strip T l) := by
        intro l
        induction l with
        | nil => rfl
        | cons a l ih =>
          by_cases hd : a.type = .depot
          · have : strip T (a :: l) = a :: strip T l := by
              unfold strip
              rw [List.filter_cons_of_pos]
              simp only [Bool.not_eq_true', List.any_eq_false, decide_eq_true_eq]
              intro x hx hs
              rcases allTasks_cases (t2 x hx) with ⟨c, -, rfl⟩ | ⟨k, -, rfl⟩ <;>
                simp [SameTask, pickupOf, hd] at hs
            rw [this, depotVisits_cons, depotVisits_cons, ih]
          · by_cases hm : ∃ x ∈ T, SameTask x a
            · rw [strip_drop hm, depotVisits_cons, ih]; simp [hd]
            · have : strip T (a :: l) = a :: strip T l := by
                unfold strip
                rw [List.filter_cons_of_pos]
                simp only [Bool.not_eq_true', List.any_eq_false, decide_eq_true_eq]
                exact fun x hx hs => hm ⟨x, hx, hs⟩
              rw [this, depotVisits_cons, depotVisits_cons, ih]
      rw [hdep, s.rest i, ← hdep]
      exact hsol.reloads i
    · have hsub : T.length ≤ (allTasks data).length :=
        length_le_of_nodup t1 t2
      have hall := allTasks_length data
      have e1 : data.numClients = data.clients.length := rfl
      have e2 : data.numShipments = data.shipments.length := rfl
      rcases t5 with t5 | t5
      · omega
      · have : (allTasks data).length ≤ T.length := by
          apply length_le_of_nodup (allTasks_nodup data)
          intro a ha
          rcases t5 a (hso'.order.mem_iff.2 ha) with h' | h'
          · cases h'
          · exact h'
        omega

/-- **C27.** A search solution into which a solution was loaded can be perturbed. -/
theorem C27_loaded (data : ProblemData) (ht : TimesOk data)
    (hn : ∀ g ∈ data.groups, g.clients.Nodup) (plan : RoutePlan) (routes : List Route)
    (sol : Solution) (hb : Built data plan routes) (h : Solution.make data routes = .ok sol)
    (s s' : SSol) (hs : Loads data s) (hl : SSol.load data s sol = .ok s') :
    ∃ plan', SearchState data plan' s' := by
  obtain ⟨old, hc⟩ := hs.clean ht hn
  obtain ⟨s'', h1, h2⟩ := SSol.load_spec ht hb hn h hc
  rw [hl] at h1
  injection h1 with h1
  subst h1
  have hok := SSol.loadedPlan_ok hb
  refine ⟨_, h2, hok.routes, fun i => ?_⟩
  have := hok.sizes i
  have h3 : depotVisits ((SSol.loadedPlan data plan).getD i []) ≤ _ := List.countP_le_length
  omega

/-! ## Non-vacuity -/

example : CompleteNeighbours Demo.data C43.demoNeighbours := by
  refine ⟨by decide, ?_, ?_⟩
  · decide +kernel
  · intro entry he b hb
    simp only [C43.demoNeighbours, List.mem_cons, List.not_mem_nil, or_false] at he
    rcases he with rfl | rfl | rfl | rfl | rfl | rfl <;>
      simp only [List.mem_cons, List.not_mem_nil, or_false] at hb
    · rcases hb with rfl | rfl | rfl <;> exact ⟨by decide, by simp [InRange, Demo.data]⟩
    · subst hb; exact ⟨by decide, by simp [InRange, Demo.data]⟩
    · subst hb; exact ⟨by decide, by simp [InRange, Demo.data]⟩
    · subst hb; exact ⟨by decide, by simp [InRange, Demo.data]⟩

/-- The example's search space. -/
def Demo.space : SearchSpace :=
  { neighbours := C43.demoNeighbours, activityOrder := allTasks Demo.data
    vehTypeOrder := [(0, 0), (1, 2)], promising := Bitset.new 6 }

example : SearchSpace.make Demo.data C43.demoNeighbours = .ok Demo.space := rfl

/-- Two of the example's clients, and the shipment, are removed; then another client is inserted. -/
def Demo.perturbed (n : Nat) : Except Error PerturbationManager.State :=
  match Demo.loadAll (SSol.new Demo.data) [Demo.routes] with
  | .error e => .error e
  | .ok s => (PerturbationManager.mk {} n).perturb Demo.data Demo.costEvaluator s
      { Demo.space with activityOrder := (allTasks Demo.data).reverse }

example : (match Demo.perturbed 2, Demo.perturbed 4, Demo.perturbed 9 with
    | .ok a, .ok b, .ok c => decide (
        a.sol.clients = [none, some 0, some 0, some 2, none] ∧ a.sol.shipments = [(none, none)]
        ∧ b.sol.clients = [none, some 0, some 0, none, some 0] ∧ b.sol.shipments = [(none, none)]
        ∧ c.sol.clients = [none, none, none, none, some 0] ∧ c.sol.shipments = [(none, none)])
    | _, _, _ => false) = true := by decide +kernel

end PyVRP
