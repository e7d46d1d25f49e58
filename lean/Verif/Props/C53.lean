import Verif.Props.C49
import Verif.Lemmas.CheckedRun
/-!
# C53: assertions of the local search never fail

`Checked` holds the operators and the local search as they are compiled with assertions: each returns `none` if an assertion fails, if an index is outside of the array it is used
for, or if an unsigned number would become negative.
-/
namespace PyVRP
open Spec
open SSol (RefOk)

/-! ## Theorems -/

/-- **C53, evaluating moves.** In a state of the local search, no operator fails an assertion or reads
outside an array when it evaluates a move, and it computes what it computes without assertions. -/
theorem C53_evaluate_partial (data : ProblemData) (ce : CostEvaluator) (hc : CostOk data ce)
    (hdist : DistancesOk data) (plan : List (List Activity)) (s : SSol) (h : SearchState data plan s)
    (u : Activity) (hu : u ∈ allTasks data) :
    (∀ op, Checked.evaluateUnary op data ce s u = some (op.evaluate data ce s u))
    ∧ ∀ op v cache, BinaryOp.Valid op → RefOk data v → v ≠ .task u → (s.find v).isSome = true →
      cache.length = op.cacheSize data →
      Checked.evaluateBinary op data ce s cache u v = some (op.evaluate data ce s cache u v) :=
  ⟨fun op => Checked.evaluateUnary_eq op hc hdist h.ok hu,
    fun op _ _ hop hv hvu hin hlen => Checked.evaluateBinary_eq op hop hc hdist h.ok hu hv hvu hin hlen⟩

/-- **C53, applying moves.** The same for applying a move that an operator found. -/
theorem C53_apply (data : ProblemData) (ce : CostEvaluator) (hg : GoodData data)
    (plan : List (List Activity)) (s : SSol) (h : SearchState data plan s) (hex : Exclusive data plan)
    (u : Activity) (hu : u ∈ allTasks data) :
    (∀ op, (UnaryOp.evaluate op data ce s u).apply = true →
      Checked.applyUnary op data s u (op.evaluate data ce s u).move
        = some (op.apply data s u (op.evaluate data ce s u).move))
    ∧ ∀ op v cache, BinaryOp.Valid op → RefOk data v → v ≠ .task u →
      (op.evaluate data ce s cache u v).1.apply = true →
      Checked.applyBinary op data s u v (op.evaluate data ce s cache u v).1.move
        = some (op.apply data s u v (op.evaluate data ce s cache u v).1.move) := by
  have hd : Consistent data := ((C37_accepts_exactly_consistent data data).1 hg.made).2
  exact ⟨fun op hap => Checked.applyUnary_eq op h.ok hap,
    fun op _ _ hop hv hvu hap => Checked.applyBinary_eq op hop hd h.ok hex hu hv hvu hap⟩

/-- **C53, improving.** From any state in which the local search starts improving, no assertion fails, and
no array is read outside of its bounds, for however many rounds. The search does what it does without
assertions.

Partial: distances must not be negative, see `C53_negation_distance`, and routes must be evaluated
exactly, see `C53_negation_cost`. -/
theorem C53_search_partial (data : ProblemData) (ce : CostEvaluator) (hc : CostOk data ce) (B : Nat)
    (hB : Moderate data B) (hdist : DistancesOk data) (hn : ∀ g ∈ data.groups, g.clients.Nodup)
    (ls : LocalSearch) (hls : SearchHistory data ls) (sol : Solution) (hsol : Accepted data sol)
    (exhaustive : Bool) (st : LState) (hst : ls.prepare data ce sol exhaustive = .ok st) (fuel : Nat) :
    Checked.search data ce ls.unaryOps fuel st = some (LState.search data ce ls.unaryOps fuel st) := by
  have hd : Consistent data := ((C37_accepts_exactly_consistent data data).1 hc.good.made).2
  obtain ⟨plan, st0, e0, ok, -⟩ := LocalSearch.prepare_spec hc.good hc.good.hasVehicle hn
    (hls.ready hc.good hc.good.hasVehicle hn) hsol ce exhaustive
  rw [hst] at e0
  injection e0 with e0
  subst e0
  exact Checked.search_eq (hB.exact hc) hd hdist _ fuel ok trivial (Checked.prepare_sized hst)

/-- **C53, before improving.** Whatever was done with the local search before, and whatever accepted solution
it is given, no assertion fails while that solution is loaded, perturbed and repaired.

Partial: distances must not be negative. -/
theorem C53_prepare_partial (data : ProblemData) (ce : CostEvaluator) (hc : CostOk data ce)
    (hdist : DistancesOk data) (hn : ∀ g ∈ data.groups, g.clients.Nodup) (ls : LocalSearch)
    (hls : SearchHistory data ls) (sol : Solution) (hsol : Accepted data sol) (exhaustive : Bool) :
    Checked.prepare data ce ls sol exhaustive = some (ls.prepare data ce sol exhaustive) :=
  Checked.prepare_eq hc hdist hc.good.hasVehicle hn (hls.ready hc.good hc.good.hasVehicle hn) hsol exhaustive

/-- **C53.** No assertion fails in a call of the local search, and no array is read outside of its bounds:
it returns what it returns without assertions.

Partial: distances must not be negative, see `C53_negation_distance`, and routes must be evaluated
exactly, see `C53_negation_cost`. -/
theorem C53_run_partial (data : ProblemData) (ce : CostEvaluator) (hc : CostOk data ce) (B : Nat)
    (hB : Moderate data B) (hdist : DistancesOk data) (hn : ∀ g ∈ data.groups, g.clients.Nodup)
    (ls : LocalSearch) (hls : SearchHistory data ls) (sol : Solution) (hsol : Accepted data sol)
    (exhaustive : Bool) (fuel : Nat) :
    Checked.run data ce ls sol exhaustive fuel = some (ls.run data ce sol exhaustive fuel) :=
  Checked.run_eq (hB.exact hc) hdist hc.good.hasVehicle hn (hls.ready hc.good hc.good.hasVehicle hn) hsol
    exhaustive fuel (fun _ _ _ _ => trivial)

/-- **C53, partial.** The same if vehicles may reload without limit, see `StaysModerate` in C25. -/
theorem C53_unlimited_partial (data : ProblemData) (ce : CostEvaluator) (hc : CostOk data ce) (B N : Nat)
    (hn : ∀ g ∈ data.groups, g.clients.Nodup) (ls : LocalSearch) (hls : SearchHistory data ls)
    (sol : Solution) (hsol : Accepted data sol) (exhaustive : Bool)
    (hB : ∀ st, ls.prepare data ce sol exhaustive = .ok st → StaysModerate data ce B N st.sol) (fuel : Nat) :
    Checked.run data ce ls sol exhaustive fuel = some (ls.run data ce sol exhaustive fuel) := by
  obtain ⟨_, st, e, -⟩ := LocalSearch.prepare_spec hc.good hc.good.hasVehicle hn
    (hls.ready hc.good hc.good.hasVehicle hn) hsol ce exhaustive
  obtain ⟨hm, hnn, -⟩ := hB st e
  exact Checked.run_eq (hm.exact hc hnn) hnn.distances hc.good.hasVehicle hn
    (hls.ready hc.good hc.good.hasVehicle hn) hsol exhaustive fuel (fun _ st e hs => (hB st e).atMost hs)

/-! ## Counterexamples -/

namespace Demo

/-- As `againData`, but travelling between the locations has a negative distance. -/
def negativeData : ProblemData := { againData with dists := [⟨2, 2, [0, -10, -10, 0]⟩] }

def negativeSearch : LocalSearch := searchWith negativeData [] [.relocate 2]

def negativeRoutes : List Route := [Route.build negativeData [client 0, client 1] 0]

theorem negativeGood : GoodData negativeData where
  made := by decide
  vehicles := by
    intro v hv
    have h : ∀ v ∈ negativeData.vehicleTypes, VehicleType.replace v {} = .ok v := by decide
    exact ⟨_, h v hv⟩
  times := by constructor <;> decide

theorem negativeCost : CostOk negativeData againEvaluator := ⟨negativeGood, againCost.2, againCost.3⟩

theorem negativeModerate : Moderate negativeData 100 where
  pos := by decide
  times := againModerate.times
  vehicles := by decide
  durations := by decide
  distances := by decide
  total := by decide
  releases := .inl (by decide)

theorem negativeHistory : SearchHistory negativeData negativeSearch :=
  (searchWith_history ⟨_, rfl⟩ (by simp [BinaryOp.Valid])).1

theorem negativeAccepted : Accepted negativeData (solutionOf negativeData negativeRoutes) :=
  accepted_of (plan := [(0, [client 0, client 1])])
    (by refine ⟨?_, ?_, ?_, ?_⟩ <;> decide) ⟨_, rfl⟩

/-- Whether the search fails an assertion within `fuel` rounds. -/
def aborts (data : ProblemData) (ce : CostEvaluator) (ls : LocalSearch) (sol : Solution) (fuel : Nat) : Bool :=
  match ls.prepare data ce sol true with
  | .error _ => false
  | .ok st => (Checked.search data ce ls.unaryOps fuel st).isNone

theorem aborts_spec {data : ProblemData} {ce : CostEvaluator} {ls : LocalSearch} {sol : Solution} {fuel : Nat}
    (h : aborts data ce ls sol fuel = true) :
    ∃ st, ls.prepare data ce sol true = .ok st ∧ Checked.search data ce ls.unaryOps fuel st = none := by
  unfold aborts at h
  split at h
  · cases h
  · exact ⟨_, by assumption, Option.isNone_iff_eq_none.1 h⟩

set_option maxRecDepth 100000 in
theorem negativeAborts :
    aborts negativeData againEvaluator negativeSearch (solutionOf negativeData negativeRoutes) 20 = true := by
  decide +kernel

set_option maxRecDepth 100000 in
theorem loopAborts : aborts loopData warpEvaluator loopSearch (solutionOf loopData loopRoutes) 20 = true := by
  decide +kernel

end Demo

/-- **C53 is false in general.** Instances may have negative distances. The assertion that a segment's
distance is not negative (`search/Route.h` 918) then fails. -/
theorem C53_negation_distance :
    CostOk Demo.negativeData Demo.againEvaluator ∧ Moderate Demo.negativeData 100
    ∧ (∀ g ∈ Demo.negativeData.groups, g.clients.Nodup)
    ∧ SearchHistory Demo.negativeData Demo.negativeSearch
    ∧ Accepted Demo.negativeData (Demo.solutionOf Demo.negativeData Demo.negativeRoutes)
    ∧ ∃ st, Demo.negativeSearch.prepare Demo.negativeData Demo.againEvaluator
        (Demo.solutionOf Demo.negativeData Demo.negativeRoutes) true = .ok st
      ∧ Checked.search Demo.negativeData Demo.againEvaluator Demo.negativeSearch.unaryOps 20 st = none :=
  ⟨Demo.negativeCost, Demo.negativeModerate, by decide, Demo.negativeHistory, Demo.negativeAccepted,
    Demo.aborts_spec Demo.negativeAborts⟩

/-- **C53 is false in general.** With release times, reloading and a limit on the duration of a route, the
assertion that a move changes the cost by as much as was evaluated (`LocalSearch.cpp` 155 and 201) fails.
No distance is negative here. -/
theorem C53_negation_cost :
    CostOk Demo.loopData Demo.warpEvaluator ∧ DistancesOk Demo.loopData
    ∧ (∀ g ∈ Demo.loopData.groups, g.clients.Nodup)
    ∧ SearchHistory Demo.loopData Demo.loopSearch
    ∧ Accepted Demo.loopData (Demo.solutionOf Demo.loopData Demo.loopRoutes)
    ∧ ∃ st, Demo.loopSearch.prepare Demo.loopData Demo.warpEvaluator
        (Demo.solutionOf Demo.loopData Demo.loopRoutes) true = .ok st
      ∧ Checked.search Demo.loopData Demo.warpEvaluator Demo.loopSearch.unaryOps 20 st = none :=
  ⟨Demo.warpEvaluator_cost Demo.loopGood rfl, by unfold DistancesOk; decide, by decide,
    (Demo.searchWith_history ⟨_, rfl⟩ (by simp [Demo.loopBinary, BinaryOp.Valid])).1, Demo.loopAccepted,
    Demo.aborts_spec Demo.loopAborts⟩

/-! ## Examples -/

section Examples
open Demo

/-- The hypotheses of `C53_search_partial` are met, and the search changes something. -/
example : ∃ st, againSearch.prepare againData againEvaluator (solutionOf againData againRoutes) true = .ok st
    ∧ Checked.search againData againEvaluator againSearch.unaryOps 20 st
      = some (LState.search againData againEvaluator againSearch.unaryOps 20 st) := by
  obtain ⟨_, st, e, -⟩ := LocalSearch.prepare_spec againGood againGood.hasVehicle (by decide)
    (againHistory.ready againGood againGood.hasVehicle (by decide)) againAccepted againEvaluator true
  exact ⟨st, e, C53_search_partial againData againEvaluator againCost 100 againModerate
    (by unfold DistancesOk; decide) (by decide) againSearch againHistory _ againAccepted true st e 20⟩

/-- The hypotheses of `C53_run_partial` are met, when the solution is perturbed first. -/
example : Checked.run againData againEvaluator againSearch (solutionOf againData againRoutes) false 20
    = some (againSearch.run againData againEvaluator (solutionOf againData againRoutes) false 20) :=
  C53_run_partial againData againEvaluator againCost 100 againModerate (by unfold DistancesOk; decide)
    (by decide) againSearch againHistory _ againAccepted false 20

theorem Demo.costOk : CostOk data costEvaluator := ⟨goodData, costEvaluator_valid, rfl⟩

/-- The hypotheses of `C53_prepare_partial` are met, when clients and a shipment must be inserted. -/
example (exhaustive : Bool) : ∃ plan st,
    Checked.prepare data costEvaluator (searchWith data [] []) (solutionOf data []) exhaustive = some (.ok st)
    ∧ SearchOk data plan st.sol ∧ Visited plan (client 0) ∧ Visited plan (pickup 0) := by
  have hls : SearchHistory data (searchWith data [] []) := (searchWith_history ⟨_, rfl⟩ (by simp)).1
  have hsol : Accepted data (solutionOf data []) :=
    accepted_of (plan := []) (by refine ⟨?_, ?_, ?_, ?_⟩ <;> decide) ⟨_, rfl⟩
  obtain ⟨plan, st, e, ok, cp, -⟩ := LocalSearch.prepare_spec goodData goodData.hasVehicle (by decide)
    (hls.ready goodData goodData.hasVehicle (by decide)) hsol costEvaluator exhaustive
  refine ⟨plan, st, ?_, ok.sol, cp.clients 0 (by decide) rfl, cp.shipments 0 (by decide) rfl⟩
  rw [C53_prepare_partial data costEvaluator costOk (by unfold DistancesOk; decide) (by decide) _ hls _ hsol, e]

/-- The hypotheses of `C53_evaluate_partial` are met, for moves that improve. -/
example : ∃ plan, SearchState data plan state
    ∧ Checked.evaluateUnary .removeAdjacentDepot data costEvaluator state (client 2)
      = some ⟨-75, true, .removePrev⟩
    ∧ (Checked.evaluateBinary (.swap 3 1) data costEvaluator state ((BinaryOp.swap 3 1).init data)
      (pickup 0) (.task (client 3))).map (·.1) = some ⟨-35, true, .none⟩ := by
  obtain ⟨plan, h, -⟩ := state_ok
  obtain ⟨h1, -⟩ := C53_evaluate_partial data costEvaluator costOk (by unfold DistancesOk; decide) plan state h
    (client 2) (by decide)
  obtain ⟨-, h2⟩ := C53_evaluate_partial data costEvaluator costOk (by unfold DistancesOk; decide) plan state h
    (pickup 0) (by decide)
  refine ⟨plan, h, ?_, ?_⟩
  · rw [h1]; decide +kernel
  · rw [h2 _ _ _ (by simp [BinaryOp.Valid]) (by unfold RefOk; decide) (by decide) (by decide +kernel) (by decide)]
    decide +kernel

/-- The hypotheses of `C53_apply` are met, for these moves. -/
example : ∃ s', Checked.applyBinary (.swap 3 1) data state (pickup 0) (.task (client 3)) .none = some s' := by
  obtain ⟨plan, h, hex⟩ := state_ok
  obtain ⟨-, h2⟩ := C53_apply data costEvaluator costOk.good plan state h hex (pickup 0) (by decide)
  have e : (BinaryOp.evaluate (.swap 3 1) data costEvaluator state ((BinaryOp.swap 3 1).init data)
      (pickup 0) (.task (client 3))).1 = ⟨-35, true, .none⟩ := by decide +kernel
  have := h2 (.swap 3 1) (.task (client 3)) ((BinaryOp.swap 3 1).init data) (by simp [BinaryOp.Valid])
    (by unfold RefOk; decide) (by decide) (by rw [e])
  rw [e] at this
  exact ⟨_, this⟩

/-- The hypotheses of `C53_unlimited_partial` are met. -/
example (fuel : Nat) : Checked.run Demo.unlimitedData costEvaluator Demo.unlimitedSearch
      (Demo.solutionOf Demo.unlimitedData Demo.unlimitedRoutes) true fuel
    = some (Demo.unlimitedSearch.run Demo.unlimitedData costEvaluator
      (Demo.solutionOf Demo.unlimitedData Demo.unlimitedRoutes) true fuel) :=
  C53_unlimited_partial Demo.unlimitedData _ Demo.unlimitedCost 100 200 (by decide) Demo.unlimitedSearch
    Demo.unlimitedHistory _ Demo.unlimitedAccepted true Demo.unlimitedStays fuel

end Examples

end PyVRP
