import Verif.Checks.Search

/-!
# Penalties and iterated local search in the cases of the test suite

Checks of `/repo/tests/test_PenaltyManager.py` and `test_IteratedLocalSearch.py`, except those on large
instances. There is no rounding: all numbers are exact.
-/
namespace PyVRP.Checks

/-! ## `test_PenaltyManager.py` -/

/-- `test_constructor_throws_when_arguments_invalid`. -/
example : ∀ p ∈ ([⟨-1, 1, 1/2, 1/2, 0, 0, 0⟩, ⟨0, 1, 1/2, 1/2, 0, 0, 0⟩, ⟨1, -1, 1/2, 1/2, 0, 0, 0⟩,
      ⟨1, 1/2, 1/2, 1/2, 0, 0, 0⟩, ⟨1, 3/2, -1, 1/2, 0, 0, 0⟩, ⟨1, 3/2, 2, 1/2, 0, 0, 0⟩, ⟨1, 1, 1, -1, 0, 0, 0⟩,
      ⟨1, 1, 1, 2, 0, 0, 0⟩, ⟨1, 3/2, 1/2, 1/2, -1, 0, 0⟩, ⟨1, 3/2, 1/2, 1/2, 2, 0, 0⟩, ⟨1, 3/2, 1/2, 1/2, 0, -1, 0⟩,
      ⟨1, 3/2, 1/2, 1/2, 0, 2, 1⟩] : List PenaltyParams), p.check.isSome = true := by
  decide +kernel

/-- `test_midpoint_penalties_multiple_load_dimensions`. -/
example : (PenaltyParams.midpointPenalties .exact {} okSmallMultipleLoad).1.length = 2 := by decide +kernel

/-- `test_midpoint_penalties`. -/
example : ∀ p ∈ [(0, 0, 0), (1/10, 100000, 50000 + 5/100), (0, Neighbourhood.doubleMax, Neighbourhood.doubleMax / 2),
      (Neighbourhood.doubleMax, Neighbourhood.doubleMax, Neighbourhood.doubleMax)],
    PenaltyParams.midpointPenalties .exact { minPenalty := p.1, maxPenalty := p.2.1 } okSmall
      = ([p.2.2], p.2.2, p.2.2) := by
  decide +kernel

/-- The parameters of most tests. -/
def fourRegistrations : PenaltyParams := ⟨4, 11/10, 9/10, 1/2, 5/100, 1/10, 100000⟩

/-- Registers solutions one after another. -/
def registered (pm : PenaltyManager) : List Solution → PenaltyManager
  | [] => pm
  | s :: rest =>
    match pm.register .exact s with
    | .ok pm => registered pm rest
    | .error _ => pm

/-- `pm.cost_evaluator()`. -/
def evaluator (pm : PenaltyManager) : CostEvaluator :=
  match pm.costEvaluator .exact with
  | .ok ce => ce
  | .error _ => ⟨[], id, id⟩

/-- `load_penalty(x, capacity, 0)`, `tw_penalty(x)` and `dist_penalty(x, 0)`. -/
def loadPenalty (pm : PenaltyManager) (load capacity : Int) : Int := (evaluator pm).loadPenalty load capacity 0
def twPenalty (pm : PenaltyManager) (x : Int) : Int := (evaluator pm).twPenalty x
def distPenalty (pm : PenaltyManager) (x : Int) : Int := (evaluator pm).distPenalty x 0

def feas : Solution := solution okSmall [[0, 1]]
def infeas : Solution := solution okSmall [[0, 1, 2]]

/-- `test_load_penalty_update_increase`. -/
example :
    let pm := PenaltyManager.make ([1], 1, 1) fourRegistrations
    let balanced := registered pm [feas, infeas, feas, infeas]
    let more := registered balanced [infeas, infeas, infeas, infeas]
    let pm' := PenaltyManager.make ([100], 1, 1) fourRegistrations
    feas.hasExcessLoad = false ∧ infeas.hasExcessLoad = true
      ∧ loadPenalty pm 2 1 = 1 ∧ loadPenalty balanced 2 1 = 1 ∧ loadPenalty more 2 1 = 1
      ∧ loadPenalty pm' 2 1 = 100 ∧ loadPenalty (registered pm' [infeas, infeas, infeas, infeas]) 2 1 = 110 := by
  decide +kernel

/-- `test_load_penalty_update_decrease`. -/
example :
    let pm := PenaltyManager.make ([4], 1, 1) fourRegistrations
    let balanced := registered pm [feas, infeas, feas, infeas]
    let less := registered balanced [feas, feas, feas, feas]
    let pm' := PenaltyManager.make ([100], 1, 1) fourRegistrations
    let low := PenaltyManager.make ([1/10], 1, 1) fourRegistrations
    loadPenalty pm 2 1 = 4 ∧ loadPenalty balanced 2 1 = 4 ∧ loadPenalty less 2 1 = 3
      ∧ loadPenalty pm' 2 1 = 100 ∧ loadPenalty (registered pm' [feas, feas, feas, feas]) 2 1 = 90
      ∧ loadPenalty low 11 1 = 1 ∧ loadPenalty (registered low [feas, feas, feas, feas]) 11 1 = 1 := by
  decide +kernel

/-- `test_time_warp_penalty_update_increase`. -/
example :
    let pm := PenaltyManager.make ([1], 1, 1) fourRegistrations
    let balanced := registered pm [feas, infeas, feas, infeas]
    let more := registered balanced [infeas, infeas, infeas, infeas]
    let pm' := PenaltyManager.make ([1], 100, 1) fourRegistrations
    feas.hasTimeWarp = false ∧ infeas.hasTimeWarp = true
      ∧ twPenalty pm 1 = 1 ∧ twPenalty balanced 1 = 1 ∧ twPenalty more 1 = 1
      ∧ twPenalty pm' 1 = 100 ∧ twPenalty (registered pm' [infeas, infeas, infeas, infeas]) 1 = 110 := by
  decide +kernel

/-- `test_time_warp_penalty_update_decrease`. -/
example :
    let pm := PenaltyManager.make ([1], 4, 1) fourRegistrations
    let balanced := registered pm [feas, infeas, feas, infeas]
    let less := registered balanced [feas, feas, feas, feas]
    let pm' := PenaltyManager.make ([1], 100, 1) fourRegistrations
    let low := PenaltyManager.make ([1], 1/10, 1) fourRegistrations
    twPenalty pm 1 = 4 ∧ twPenalty balanced 1 = 4 ∧ twPenalty less 1 = 3
      ∧ twPenalty pm' 1 = 100 ∧ twPenalty (registered pm' [feas, feas, feas, feas]) 1 = 90
      ∧ twPenalty low 10 = 1 ∧ twPenalty (registered low [feas, feas, feas, feas]) 10 = 1 := by
  decide +kernel

/-- `test_does_not_update_penalties_before_sufficient_registrations`. -/
example :
    let data := withTypes okSmall [{ numAvailable := 3, capacity := [10], maxDistance := 6000 }]
    let pm := PenaltyManager.make ([4], 4, 4) fourRegistrations
    let feas := solution data [[0, 1], [2, 3]]
    let infeas := solution data [[0, 1, 2, 3]]
    let penalties := fun pm => (loadPenalty pm 2 1, twPenalty pm 1, distPenalty pm 1)
    feas.isFeasible = true ∧ infeas.isFeasible = false ∧ penalties pm = (4, 4, 4)
      ∧ penalties (registered pm [feas]) = (4, 4, 4) ∧ penalties (registered pm [feas, infeas]) = (4, 4, 4)
      ∧ penalties (registered pm [feas, infeas, feas]) = (4, 4, 4)
      ∧ penalties (registered pm [feas, infeas, feas, feas]) = (3, 3, 3) := by
  decide +kernel

/-- `test_max_min_penalty`. -/
example :
    let params : PenaltyParams := { solutionsBetweenUpdates := 1, penaltyDecrease := 0, penaltyIncrease := 2 }
    let pm := PenaltyManager.make ([20], params.maxPenalty, 6) params
    let infeas := solution okSmall [[0, 1, 2, 3]]
    let feas := solution okSmall [[0, 1], [2, 3]]
    twPenalty pm 1 = 100000 ∧ twPenalty (registered pm [infeas]) 1 = 100000
      ∧ twPenalty (registered pm [infeas, feas]) 10 = 1 := by
  decide +kernel

/-- `test_does_not_warn_while_violation_decreases`. -/
example :
    let pm := PenaltyManager.make ([100000], 1, 1) { solutionsBetweenUpdates := 1, penaltyIncrease := 2 }
    let sols := [solution okSmall [[1, 2, 0, 3]], solution okSmall [[0, 1, 3]], solution okSmall [[1, 2, 0]]]
    sols.map (·.excessLoad) = [[8], [5], [3]] ∧ (registered pm sols).warnings = 0 := by
  decide +kernel

/-- `test_warn_when_violations_stuck`. -/
example :
    let pm := PenaltyManager.make ([100000], 1, 1) { solutionsBetweenUpdates := 1 }
    let infeas := solution okSmall [[1, 2, 0, 3]]
    (registered pm [infeas]).warnings = 0 ∧ (registered pm [infeas, infeas]).warnings = 1 := by
  decide +kernel

/-- `test_init_clips_penalties`. -/
example :
    let pm := PenaltyManager.make ([0], 100001, 2) {}
    loadPenalty pm 10 0 = 1 ∧ twPenalty pm 1 = 100000 ∧ distPenalty pm 1 = 2 := by
  decide +kernel

/-- `test_max_cost_evaluator`. -/
example :
    (match (PenaltyManager.make ([20, 20], 6, 6) { maxPenalty := 100 }).maxCostEvaluator .exact with
      | .ok ce => some [ce.loadPenalty 1 0 0, ce.loadPenalty 1 0 1, ce.twPenalty 1, ce.distPenalty 1 0]
      | .error _ => none) = some [100, 100, 100, 100] := by
  decide +kernel

/-! ## `test_IteratedLocalSearch.py` -/

/-- `test_params_constructor_raises_when_arguments_invalid`. -/
example : (IlsParams.check { numItersNoImprovement := -1, historyLength := 1 }).isSome = true
    ∧ (IlsParams.check { numItersNoImprovement := 0, historyLength := 0 }).isSome = true
    ∧ (IlsParams.check { numItersNoImprovement := 0, historyLength := 1 }).isSome = false := by
  decide +kernel

/-- A search method which returns the given solutions one at a time. -/
def script (sols : List Solution) (_ : Solution) (_ : CostEvaluator) (_ : Bool) : List Solution × Solution :=
  match sols with
  | [] => ([], { routes := [] })
  | s :: rest => (rest, s)

/-- `IteratedLocalSearch(data, PenaltyManager(([20], 6, 6)), search, init, params)`. The clock always shows the
same time. -/
def ils {σ : Type} (search : σ → Solution → CostEvaluator → Bool → σ × Solution) (init : Solution)
    (params : IlsParams) : IlsEnv σ Criterion :=
  { R := .exact, params, search, stop := Criterion.call, init, clock := fun _ => 0 }

/-- `run(MaxIterations(n))`. -/
def ilsRun {σ : Type} (env : IlsEnv σ Criterion) (ss : σ) (n : Nat) : Option Result :=
  match Ils.run env (PenaltyManager.make ([20], 6, 6) {}) ss (.maxIterations n 0) true (n + 1) with
  | .ok r => r
  | .error _ => none

/-- The callbacks of `run(MaxIterations(n))`. -/
def ilsEvents {σ : Type} (env : IlsEnv σ Criterion) (ss : σ) (n : Nat) : List IlsEvent :=
  match Ils.start env (PenaltyManager.make ([20], 6, 6) {}) ss (.maxIterations n 0) true with
  | .error _ => []
  | .ok s =>
    match Ils.loop env (n + 1) s with
    | .error _ => []
    | .ok (s, _) => s.events

/-- `test_ils_result_has_correct_stats`. -/
example :
    let init := random okSmall 42
    let search := fun s sol ce exhaustive => Solve.searchMethod Rng.next okSmall 50 s sol ce exhaustive
    let start := match LocalSearch.make okSmall (neighbours okSmall) (PerturbationManager.new ⟨0, 0⟩) with
      | .ok ls => .ok (ls, afterRandom okSmall 42)
      | .error e => .error (.raised e)
    (ilsRun (ils search init {}) start 10).map (fun res => (res.best.eq init, res.numIterations, res.stats.numIterations,
        (res.stats.data[0]?).map (fun d => (d.currentCost, d.currentFeas))))
      = some (true, 10, 10, some ((cost [20] 6 6).penalisedCost init, init.isFeasible)) := by
  decide +kernel

/-- `test_ils_acceptance_behaviour`. -/
example :
    let sols := [solution okSmall [[0, 2], [1, 3]], solution okSmall [[0, 1], [2, 3]], solution okSmall [[0, 1], [3, 2]],
      solution okSmall [[0, 3], [1, 2]], solution okSmall [[0, 1], [2, 3]]]
    let env := ils script (solution okSmall [[0, 2], [1, 3]]) { historyLength := 2, exhaustiveOnBest := false }
    (ilsRun env sols 5).map (fun r => r.stats.data.map fun d => (d.currentCost, d.candidateCost, d.bestCost))
      = some [(22065, 22065, 22065), (9725, 9725, 9725), (9868, 9868, 9725), (9240, 9240, 9240), (9725, 9725, 9240)] := by
  decide +kernel

/-- `test_restart`. -/
example :
    let sols := [solution okSmall [[0, 2], [1, 3]], solution okSmall [[0, 1], [2, 3]], solution okSmall [[0, 1], [2, 3]],
      solution okSmall [[0, 1], [3, 2]]]
    let current := fun params => (ilsRun (ils script (solution okSmall [[0, 2], [1, 3]]) params) sols 4).map
      (fun r => r.stats.data.map (·.currentCost))
    current { historyLength := 1, exhaustiveOnBest := false } = some [22065, 9725, 9725, 9725]
      ∧ current { numItersNoImprovement := 1, historyLength := 1, exhaustiveOnBest := false }
        = some [22065, 9725, 9725, 9868] := by
  decide +kernel

/-- The solutions of the next two tests: the last one is the result of an exhaustive search. -/
def newBest : List Solution :=
  [solution okSmall [[0, 1], [3, 2]], solution okSmall [[0, 1], [2, 3]], solution okSmall [[0, 3], [1, 2]]]

/-- `test_exhaustive_search_on_new_best_solution`. -/
example :
    (ilsRun (ils script (solution okSmall [[0, 1], [3, 2]]) {}) newBest 2).bind (·.cost) = some 9240 := by
  decide +kernel

/-- `test_callback_on_start_and_end`. -/
example :
    ((ilsEvents (ils (fun (_ : Unit) sol _ _ => ((), sol)) (random okSmall 42) {}) () 10).filter
      (fun e => match e with | .onStart => true | _ => false)).length = 1 := by
  decide +kernel

/-- `test_callback_on_iteration_and_restart`. -/
example : ∀ n ∈ [1, 10, 100],
    let init := random okSmall 42
    let events := ilsEvents (ils (fun (_ : Unit) sol _ _ => ((), sol)) init { numItersNoImprovement := 1 }) () n
    (events.filter (fun e => match e with
        | .onIteration current candidate best _ => current.eq init && candidate.eq init && best.eq init
        | _ => false)).length = n
      ∧ (events.filter (fun e => match e with | .onRestart best => best.eq init | _ => false)).length = n - 1
      ∧ (events.filter (fun e => match e with | .onIteration .. => true | _ => false)).length = n
      ∧ (events.filter (fun e => match e with | .onRestart .. => true | _ => false)).length = n - 1 := by
  decide +kernel

/-- `test_callback_on_best`. -/
example :
    let events := ilsEvents (ils script (solution okSmall [[0, 1], [3, 2]]) {}) newBest 2
    (events.filterMap (fun e => match e with
      | .onBest best => some (best.eq (solution okSmall [[0, 3], [1, 2]]))
      | _ => none)) = [true] := by
  decide +kernel

end PyVRP.Checks
