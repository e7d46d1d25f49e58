import Verif.Props.C46
import Verif.Lemmas.Unlimited
import Verif.Lemmas.SearchShift
/-!
# C25: the local search only improves, and stops
-/
namespace PyVRP
open Spec
open SSol (RefOk)

/-! ## Specification -/

namespace Spec

/-- The number of depots in the routes, reload depots included. -/
def numDepots (s : SSol) : Nat :=
  (s.routes.map (fun r => r.nodes.countP (fun node => node.activity.type = .depot))).sum

/-- The penalised cost is lower, or it is the same and there are fewer depots. -/
def Improves (data : ProblemData) (ce : CostEvaluator) (s s' : SSol) : Prop :=
  ce.penalisedCostSSol data s' < ce.penalisedCostSSol data s
    ∨ (ce.penalisedCostSSol data s' = ce.penalisedCostSSol data s ∧ numDepots s' < numDepots s)

/-- `n` moves lead from `s` to `s'`, each of which improves. -/
inductive Improving (data : ProblemData) (ce : CostEvaluator) (s : SSol) : Nat → SSol → Prop where
  | none : Improving data ce s 0 s
  | move {n : Nat} {s' s'' : SSol} (h : Improving data ce s n s') (better : Improves data ce s' s'') :
      Improving data ce s (n + 1) s''

/-- A search that starts improving from `s` stays in the range of the number types, also if vehicles may
reload without limit: nothing has a negative cost, and the instance is moderate for as many reloads as
`s` has, plus one for each unit of its cost. -/
structure StaysModerate (data : ProblemData) (ce : CostEvaluator) (B N : Nat) (s : SSol) : Prop where
  moderate : ModerateUpTo data B (fun _ => N + 2)
  nonneg : NonnegCosts data
  start : reloadVisits s + ce.penalisedCostSSol data s ≤ N

end Spec

/-! ## Lemmas -/

section
variable {data : ProblemData} {ce : CostEvaluator}

theorem SearchOk.numDepots {plan : List (List Activity)} {s : SSol} (h : SearchOk data plan s) :
    numDepots s = reloads plan + 2 * data.numVehicles := by
  have hlen := h.clean.1.length
  have e : s.routes.map (fun r => r.nodes.countP (fun node => node.activity.type = .depot))
      = plan.map (fun acts => depotVisits acts + 2) := by
    apply List.ext_getElem
    · rw [List.length_map, List.length_map, h.clean.1.sized.routes, hlen]
    · intro k h1 h2
      rw [List.length_map] at h1 h2
      have hk : k < data.numVehicles := by omega
      rw [List.getElem_map, List.getElem_map]
      have he := h.route hk
      unfold SSol.route at he
      rw [List.getD_eq_getElem?_getD, List.getElem?_eq_getElem h1, Option.getD_some,
        List.getD_eq_getElem?_getD, List.getElem?_eq_getElem h2, Option.getD_some] at he
      have hn : (SRoute.ofActs data (vehTypeAt data k) plan[k]).nodes.map (·.activity)
          = fullActs (data.vehicleType (vehTypeAt data k)) plan[k] := SRoute.canon_activities _ _
      have hc := congrArg (List.countP (fun a : Activity => a.type = .depot)) hn
      rw [List.countP_map] at hc
      rw [he]
      refine hc.trans ?_
      rw [fullActs, List.countP_append, List.countP_cons]
      simp [depotVisits]
  unfold Spec.numDepots reloads
  rw [e, ← hlen]
  clear e h hlen
  induction plan with
  | nil => rfl
  | cons acts plan ih =>
    rw [List.map_cons, List.sum_cons, List.map_cons, List.sum_cons, ih, List.length_cons]
    omega

theorem Spec.Better.improves {plan plan' : List (List Activity)} {s s' : SSol} (h : SearchOk data plan s)
    (h' : SearchOk data plan' s') (hb : Better data ce plan plan') : Improves data ce s s' := by
  unfold Improves
  rw [planCost_eq h.clean, planCost_eq h'.clean, h.numDepots, h'.numDepots]
  unfold Better at hb
  omega

theorem Spec.Steps.improving {I : List (List Activity) → Prop} {plan plan' : List (List Activity)}
    {s s' : SSol} {n : Nat} (hs : SearchOk data plan s) (h : Steps data ce plan s n plan' s')
    (he : Exact data ce I) (hI : I plan) :
    SearchOk data plan' s' ∧ Improving data ce s n s' := by
  induction h with
  | refl => exact ⟨hs, .none⟩
  | step h ok _ _ better ih =>
    exact ⟨ok, .move ih.2 ((better _ he (h.keeps he hs hI).1).improves ih.1 ok)⟩

theorem LocalSearch.search_stops {I : List (List Activity) → Prop} (hd : Consistent data)
    (he : Exact data ce I) (ops : List UnaryOp) {plan : List (List Activity)} {st : LState}
    (h : LState.Ok data ce plan st) (hI : I plan) :
    ∃ fuel st', ∀ fuel', fuel ≤ fuel' → LState.search data ce ops fuel' st = .ok (some st') := by
  unfold LState.search
  split
  · exact ⟨0, st, fun _ _ => rfl⟩
  · obtain ⟨fuel, st', hs⟩ := LState.searchLoop_stops (ce := ce) hd he ops (plan := plan)
      (st := { st with completed := false }) ⟨h.sol, h.exclusive, h.space, h.self, h.caches⟩ hI
    exact ⟨fuel, st', fun fuel' hf => LState.searchLoop_le ops hf hs⟩

namespace LState

theorem update_numUpdates (st : LState) (u : Option Nat) (v : Nat) :
    (update data st u v).numUpdates = st.numUpdates + 1 := by
  unfold update
  dsimp only
  cases u with
  | none => split <;> rfl
  | some u => split <;> rfl

theorem markIf_numUpdates (st : LState) (node : Option (Nat × Nat)) :
    (markIf st node).numUpdates = st.numUpdates := by cases node <;> rfl

theorem applyUnaryOps_numUpdates {ops : List UnaryOp} {st st' : LState} {u : Activity}
    (h : applyUnaryOps data ce ops st u = .ok (st', true)) : st'.numUpdates = st.numUpdates + 1 := by
  unfold applyUnaryOps at h
  split at h
  · cases h
  · dsimp only at h
    split at h
    · cases h
    · split at h
      · injection h with h; injection h with h h1; subst h
        rw [update_numUpdates]; exact congrArg (· + 1) (markIf_numUpdates st _)
      · split at h
        · cases h
        · injection h with h; injection h with h h1; subst h
          rw [update_numUpdates]; exact congrArg (· + 1) (markIf_numUpdates st _)

theorem applyBinaryOps_numUpdates {st st' : LState} {u : Activity} {v : NodeRef}
    (h : applyBinaryOps data ce st u v = .ok (st', true)) : st'.numUpdates = st.numUpdates + 1 := by
  unfold applyBinaryOps at h
  dsimp only at h
  split at h
  · cases h
  · split at h
    · cases h
    · split at h
      · cases h
      · injection h with h; injection h with h h1; subst h
        rw [update_numUpdates]
        exact congrArg (· + 1) (markIf_numUpdates _ _)

theorem Progress.improves {I : List (List Activity) → Prop} {plan plan' : List (List Activity)}
    {st st' : LState} (he : Exact data ce I) (h : Ok data ce plan st) (hI : I plan) (p : Progress data ce plan st plan' st')
    (hn : st'.numUpdates = st.numUpdates + 1) : Improves data ce st.sol st'.sol := by
  obtain ⟨n, h1, h2, -, -⟩ := p.steps
  have : n = 1 := by omega
  subst this
  have hi := (h1.improving h.sol he hI).2
  generalize st'.sol = s' at hi
  cases hi with
  | move h0 hb => cases h0; exact hb

end LState

end

section
variable {data : ProblemData} {ce : CostEvaluator} {I : List (List Activity) → Prop}

theorem LocalSearch.moves_of_exact (he : Exact data ce I) (hn : ∀ g ∈ data.groups, g.clients.Nodup)
    {ls : LocalSearch} (hls : SearchHistory data ls) {sol : Solution} (hsol : Accepted data sol)
    (exhaustive : Bool) (hI : ∀ plan st, ls.prepare data ce sol exhaustive = .ok st →
      SearchOk data plan st.sol → I plan) :
    ∃ st, ls.prepare data ce sol exhaustive = .ok st
      ∧ ∃ fuel st', (∀ fuel', fuel ≤ fuel' → LState.search data ce ls.unaryOps fuel' st = .ok (some st'))
        ∧ ∃ n, st'.numUpdates = st.numUpdates + n ∧ Improving data ce st.sol n st'.sol := by
  have hg := he.cost.good
  have hd : Consistent data := ((C37_accepts_exactly_consistent data data).1 hg.made).2
  obtain ⟨plan, st, e, ok, -, -, -⟩ := LocalSearch.prepare_spec hg hg.hasVehicle hn
    (hls.ready hg hg.hasVehicle hn) hsol ce exhaustive
  have hI := hI plan st e ok.sol
  obtain ⟨fuel, st', hs⟩ := LocalSearch.search_stops hd he ls.unaryOps ok hI
  obtain ⟨r, e2, h2⟩ := LocalSearch.search_spec hd ls.unaryOps fuel ok
  rw [hs fuel (Nat.le_refl _)] at e2
  injection e2 with e2
  obtain ⟨plan', run⟩ := h2 st' e2.symm
  obtain ⟨n, steps, hnum⟩ := run.steps
  exact ⟨st, e, fuel, st', hs, n, hnum, (steps.improving ok.sol he hI).2⟩

theorem LocalSearch.cost_of_exact (he : Exact data ce I)
    (hmem : ∀ plan s, I plan → SearchOk data plan s → InMemory s)
    (hrel : ∀ v ∈ data.vehicleTypes, v.maxReloads ≤ SIZE_MAX) (hn : ∀ g ∈ data.groups, g.clients.Nodup)
    {ls : LocalSearch} (hls : SearchHistory data ls) {sol : Solution} (hsol : Accepted data sol)
    (exhaustive : Bool) (hI : ∀ plan st, ls.prepare data ce sol exhaustive = .ok st →
      SearchOk data plan st.sol → I plan) :
    ∃ fuel st sol' ls',
      (∀ fuel', fuel ≤ fuel' → ls.run data ce sol exhaustive fuel' = .ok (some (sol', ls')))
      ∧ ls.prepare data ce sol exhaustive = .ok st
      ∧ Accepted data sol' ∧ sol'.isComplete = true
      ∧ ce.penalisedCost sol' ≤ ce.penalisedCostSSol data st.sol
      ∧ (exhaustive = true → sol.isComplete = true → ce.penalisedCost sol' ≤ ce.penalisedCost sol) := by
  have hg := he.cost.good
  have hd : Consistent data := ((C37_accepts_exactly_consistent data data).1 hg.made).2
  obtain ⟨plan, st, e, ok, hcomp, hsame, -⟩ := LocalSearch.prepare_spec hg hg.hasVehicle hn
    (hls.ready hg hg.hasVehicle hn) hsol ce exhaustive
  have hI := hI plan st e ok.sol
  obtain ⟨fuel, st', hs⟩ := LocalSearch.search_stops hd he ls.unaryOps ok hI
  obtain ⟨r, e2, h2⟩ := LocalSearch.search_spec hd ls.unaryOps fuel ok
  rw [hs fuel (Nat.le_refl _)] at e2
  injection e2 with e2
  obtain ⟨plan', run⟩ := h2 st' e2.symm
  obtain ⟨n, steps, hnum⟩ := run.steps
  obtain ⟨sol', hu, hacc, hcomp', hcost⟩ := unload_result hg hrel hn run.ok.sol run.ok.exclusive
    (hmem plan' _ (steps.keeps he ok.sol hI).1 run.ok.sol)
  have hle : planCost data ce plan' ≤ planCost data ce plan := by
    rcases steps.better he ok.sol hI with ⟨-, rfl⟩ | hb
    · exact Int.le_refl _
    · unfold Better at hb; omega
  refine ⟨fuel, st, sol', { ls with space := st'.space, sol := st'.sol }, fun fuel' hf => ?_, e, hacc,
    hcomp' (steps.complete hcomp), ?_, fun h1 h3 => ?_⟩
  · unfold LocalSearch.run; rw [e]; dsimp only; rw [hs fuel' hf]; dsimp only; rw [hu]
  · rw [hcost, planCost_eq ok.sol.clean]; exact hle
  · rw [hcost, hsame h1 h3]; exact hle

theorem Spec.StaysModerate.atMost {B N : Nat} {plan : List (List Activity)} {s : SSol}
    (h : StaysModerate data ce B N s) (hs : SearchOk data plan s) : AtMost data ce N plan := by
  have := h.start
  rw [reloadVisits_eq hs, planCost_eq hs.clean] at this
  exact this

end

/-! ## Theorems -/

/-- **C25, partial.** Every move that the local search applies lowers the penalised cost, or keeps it and
removes a depot: `n` moves lead from the state in which it starts improving to the state in which it
stops, where `n` is the number of updates that it counts. It stops after finitely many of them.

Partial: this is so if all routes are evaluated exactly, see `Moderate`; `C25_unlimited_partial` is for vehicles that may reload without limit. Without that the claim is false,
see `C25_negation_stops` and `C25_negation_cost`. -/
theorem C25_moves_partial (data : ProblemData) (ce : CostEvaluator) (hc : CostOk data ce) (B : Nat)
    (hB : Moderate data B) (hn : ∀ g ∈ data.groups, g.clients.Nodup) (ls : LocalSearch)
    (hls : SearchHistory data ls) (sol : Solution) (hsol : Accepted data sol) (exhaustive : Bool) :
    ∃ st, ls.prepare data ce sol exhaustive = .ok st
      ∧ ∃ fuel st', (∀ fuel', fuel ≤ fuel' → LState.search data ce ls.unaryOps fuel' st = .ok (some st'))
        ∧ ∃ n, st'.numUpdates = st.numUpdates + n ∧ Improving data ce st.sol n st'.sol :=
  LocalSearch.moves_of_exact (hB.exact hc) hn hls hsol exhaustive (fun _ _ _ _ => trivial)

/-- **C25, partial.** A call of the local search returns. The penalised cost of what it returns is not
higher than that of the solution from which it started improving; this is the given one if that is
complete and the search is exhaustive. Partial: see above. -/
theorem C25_cost_partial (data : ProblemData) (ce : CostEvaluator) (hc : CostOk data ce) (B : Nat)
    (hB : Moderate data B) (hrel : ∀ v ∈ data.vehicleTypes, v.maxReloads ≤ SIZE_MAX)
    (hn : ∀ g ∈ data.groups, g.clients.Nodup) (ls : LocalSearch)
    (hls : SearchHistory data ls) (sol : Solution) (hsol : Accepted data sol) (exhaustive : Bool) :
    ∃ fuel st sol' ls',
      (∀ fuel', fuel ≤ fuel' → ls.run data ce sol exhaustive fuel' = .ok (some (sol', ls')))
      ∧ ls.prepare data ce sol exhaustive = .ok st
      ∧ Accepted data sol' ∧ sol'.isComplete = true
      ∧ ce.penalisedCost sol' ≤ ce.penalisedCostSSol data st.sol
      ∧ (exhaustive = true → sol.isComplete = true → ce.penalisedCost sol' ≤ ce.penalisedCost sol) :=
  LocalSearch.cost_of_exact (hB.exact hc) (fun _ _ _ hs => hB.fits.inMemory hs) hrel hn hls hsol exhaustive
    (fun _ _ _ _ => trivial)

/-- **C25, partial.** The same if vehicles may reload without limit, which is what they do by default if they
have reload depots: every move improves, the search stops, and its result does not cost more. A move
makes at most one more visit to a reload depot and then lowers the cost, so that the number of visits is
bounded by the cost in the beginning. Partial: see `StaysModerate`. -/
theorem C25_unlimited_partial (data : ProblemData) (ce : CostEvaluator) (hc : CostOk data ce) (B N : Nat)
    (hrel : ∀ v ∈ data.vehicleTypes, v.maxReloads ≤ SIZE_MAX)
    (hn : ∀ g ∈ data.groups, g.clients.Nodup) (ls : LocalSearch)
    (hls : SearchHistory data ls) (sol : Solution) (hsol : Accepted data sol) (exhaustive : Bool)
    (hB : ∀ st, ls.prepare data ce sol exhaustive = .ok st → StaysModerate data ce B N st.sol) :
    (∃ st, ls.prepare data ce sol exhaustive = .ok st
      ∧ ∃ fuel st', (∀ fuel', fuel ≤ fuel' → LState.search data ce ls.unaryOps fuel' st = .ok (some st'))
        ∧ ∃ n, st'.numUpdates = st.numUpdates + n ∧ Improving data ce st.sol n st'.sol)
    ∧ ∃ fuel st sol' ls',
      (∀ fuel', fuel ≤ fuel' → ls.run data ce sol exhaustive fuel' = .ok (some (sol', ls')))
      ∧ ls.prepare data ce sol exhaustive = .ok st
      ∧ Accepted data sol' ∧ sol'.isComplete = true
      ∧ ce.penalisedCost sol' ≤ ce.penalisedCostSSol data st.sol
      ∧ (exhaustive = true → sol.isComplete = true → ce.penalisedCost sol' ≤ ce.penalisedCost sol) := by
  obtain ⟨_, st, e, -⟩ := LocalSearch.prepare_spec hc.good hc.good.hasVehicle hn
    (hls.ready hc.good hc.good.hasVehicle hn) hsol ce exhaustive
  obtain ⟨hm, hnn, -⟩ := hB st e
  have hI : ∀ plan st, ls.prepare data ce sol exhaustive = .ok st → SearchOk data plan st.sol →
      AtMost data ce N plan := fun _ st e hs => (hB st e).atMost hs
  exact ⟨LocalSearch.moves_of_exact (hm.exact hc hnn) hn hls hsol exhaustive hI,
    LocalSearch.cost_of_exact (hm.exact hc hnn) (fun _ _ hI hs => hm.inMemory hc hnn hI hs) hrel hn hls hsol
      exhaustive hI⟩

/-- **C25, partial.** A single move, of a client or pickup in a state of the search. Nothing changes if no
operator applies. Partial: see above. -/
theorem C25_move_partial (data : ProblemData) (ce : CostEvaluator) (hc : CostOk data ce) (B : Nat)
    (hB : Moderate data B) (plan : List (List Activity)) (st : LState) (h : LState.Ok data ce plan st)
    (u : Activity) (hu : u ∈ allTasks data) :
    (∀ ops, ∃ st' b, LState.applyUnaryOps data ce ops st u = .ok (st', b)
      ∧ (b = false → st' = st)
      ∧ (b = true → st'.numUpdates = st.numUpdates + 1 ∧ Improves data ce st.sol st'.sol))
    ∧ ∀ v, RefOk data v → v ≠ .task u → ∃ st' b, LState.applyBinaryOps data ce st u v = .ok (st', b)
      ∧ (b = false → st'.sol = st.sol)
      ∧ (b = true → st'.numUpdates = st.numUpdates + 1 ∧ Improves data ce st.sol st'.sol) := by
  have hd : Consistent data := ((C37_accepts_exactly_consistent data data).1 hc.good.made).2
  refine ⟨fun ops => ?_, fun v hv hvu => ?_⟩
  · obtain ⟨plan', st', b, e, p, h1, -⟩ := LState.applyUnaryOps_spec h hd ops hu
    refine ⟨st', b, e, h1, fun hb => ?_⟩
    subst hb
    exact ⟨LState.applyUnaryOps_numUpdates e, p.improves (hB.exact hc) h trivial (LState.applyUnaryOps_numUpdates e)⟩
  · obtain ⟨plan', st', b, e, p, h1, -⟩ := LState.applyBinaryOps_spec h hd hu hv hvu
    refine ⟨st', b, e, fun hb => (h1 hb).2, fun hb => ?_⟩
    subst hb
    exact ⟨LState.applyBinaryOps_numUpdates e, p.improves (hB.exact hc) h trivial (LState.applyBinaryOps_numUpdates e)⟩

/-! ## Counterexamples -/

deriving instance DecidableEq for LState
deriving instance Inhabited for Solution

namespace Demo

/-- Each task has all others as neighbours. -/
def everyOther (data : ProblemData) : Neighbours :=
  (allTasks data).map (fun a => (a, (allTasks data).filter (· ≠ a)))

/-- A local search with these operators. -/
def searchWith (data : ProblemData) (unary : List UnaryOp) (binary : List BinaryOp) : LocalSearch :=
  match LocalSearch.make data (everyOther data) (PerturbationManager.new {}) with
  | .error _ => { manager := PerturbationManager.new {}, space := ⟨[], [], [], Bitset.new 0⟩, sol := SSol.new data }
  | .ok ls => binary.foldl LocalSearch.addBinary (unary.foldl LocalSearch.addUnary ls)

/-- An instance with two vehicles that may reload, without capacities. -/
def reloadData (clients : List Client) (depotLate maxDuration : Int) : ProblemData :=
  { locations := [⟨0, 0, ""⟩, ⟨3, 4, ""⟩]
    clients := clients
    depots := [⟨0, 0, depotLate, 0, ""⟩]
    vehicleTypes := [
      { numAvailable := 2, startDepot := 0, endDepot := 0, capacity := [], twEarly := 0
        twLate := 100, shiftDuration := maxDuration, maxDistance := MAX, fixedCost := 0
        unitDistanceCost := 0, unitDurationCost := 1, profile := 0, startLate := 100
        initialLoad := [], reloadDepots := [0], maxReloads := 2, maxOvertime := 0
        unitOvertimeCost := 0, maxDuration := maxDuration, name := "" }]
    dists := [⟨2, 2, [0, 5, 5, 0]⟩]
    durs := [⟨2, 2, [0, 5, 5, 0]⟩]
    groups := []
    shipments := [] }

/-- An optional client, with its time window, release time and prize. -/
def optionalClient (early late release prize : Int) : Client :=
  ⟨1, [], [], 0, early, late, release, prize, false, none, ""⟩

/-- Time warp costs 3 for each unit. -/
def warpEvaluator : CostEvaluator := ⟨[], ratPenalty 3 1, ratPenalty 1 1⟩

def loopData : ProblemData :=
  reloadData [optionalClient 0 70 30 11, optionalClient 0 60 0 11, optionalClient 0 30 0 18,
    optionalClient 10 80 50 9] 50 0

/-- The default operators of PyVRP that support this instance, in some order. -/
def loopUnary : List UnaryOp := [.removeOptionalClient, .removeAdjacentDepot]
def loopBinary : List BinaryOp :=
  [.insertOptionalClient, .replaceOptionalClient, .swap 1 1, .relocate 2, .swap 2 2, .swap 2 1,
    .swapTails, .relocate 1, .relocateWithDepot]

def loopSearch : LocalSearch := searchWith loopData loopUnary loopBinary

def loopRoutes : List Route :=
  [Route.build loopData [client 1, client 0, depot 0, client 2, client 3] 0]

/-- The solution with these routes. -/
def solutionOf (data : ProblemData) (routes : List Route) : Solution :=
  match Solution.make data routes with
  | .error _ => default
  | .ok sol => sol

def worseData : ProblemData :=
  reloadData [optionalClient 20 20 20 3, optionalClient 10 60 50 0, optionalClient 10 40 0 19] 100 20

def worseSearch : LocalSearch := searchWith worseData [] [.swapTails, .relocate 2]

def worseRoutes : List Route := [Route.build worseData [client 0, depot 0, client 1, client 2] 0]

set_option maxRecDepth 100000 in
theorem worse : (match worseSearch.run worseData warpEvaluator (solutionOf worseData worseRoutes) true 20 with
    | .ok (some (sol', _)) => decide (warpEvaluator.penalisedCost (solutionOf worseData worseRoutes) = 135
        ∧ warpEvaluator.penalisedCost sol' = 145)
    | _ => false) = true := by decide +kernel

/-- What a local search is built with is complete. -/
theorem everyOther_complete (data : ProblemData) : CompleteNeighbours data (everyOther data) := by
  have hk : (everyOther data).map (·.1) = allTasks data := by simp [everyOther, Function.comp_def]
  refine ⟨?_, ?_, ?_⟩
  · rw [hk]
    unfold allTasks
    rw [List.nodup_append]
    refine ⟨?_, ?_, ?_⟩
    · refine List.Pairwise.map _ ?_ List.nodup_range
      intro a b hab h; simp at h; exact hab h
    · refine List.Pairwise.map _ ?_ List.nodup_range
      intro a b hab h; simp at h; exact hab h
    · intro a ha b hb
      simp only [List.mem_map] at ha hb
      obtain ⟨i, -, rfl⟩ := ha
      obtain ⟨j, -, rfl⟩ := hb
      simp
  · intro a ha; rw [hk]; exact ha
  · intro entry he b hb
    obtain ⟨a, -, rfl⟩ := List.mem_map.1 he
    exact allTasks_task (List.mem_filter.1 hb).1

theorem searchWith_history {data : ProblemData} {unary : List UnaryOp} {binary : List BinaryOp}
    (hok : ∃ ls, LocalSearch.make data (everyOther data) (PerturbationManager.new {}) = .ok ls)
    (hv : ∀ op ∈ binary, op.Valid) : SearchHistory data (searchWith data unary binary)
      ∧ (searchWith data unary binary).unaryOps = unary := by
  obtain ⟨ls, hls⟩ := hok
  unfold searchWith
  rw [hls]
  dsimp only
  have h0 : SearchHistory data ls ∧ ls.unaryOps = [] := by
    refine ⟨.new (everyOther_complete data) (.new rfl) (by decide) hls, ?_⟩
    unfold LocalSearch.make at hls
    split at hls
    · cases hls
    · injection hls with hls; subst hls; rfl
  have h1 : ∀ (ops : List UnaryOp) (ls : LocalSearch), SearchHistory data ls →
      SearchHistory data (ops.foldl LocalSearch.addUnary ls)
        ∧ (ops.foldl LocalSearch.addUnary ls).unaryOps = ls.unaryOps ++ ops := by
    intro ops
    induction ops with
    | nil => intro ls h; exact ⟨h, by simp⟩
    | cons op ops ih =>
      intro ls h
      obtain ⟨i1, i2⟩ := ih _ (.addUnary op h)
      exact ⟨i1, by rw [List.foldl_cons, i2]; simp [LocalSearch.addUnary]⟩
  have h2 : ∀ (ops : List BinaryOp) (ls : LocalSearch), (∀ op ∈ ops, op.Valid) → SearchHistory data ls →
      SearchHistory data (ops.foldl LocalSearch.addBinary ls)
        ∧ (ops.foldl LocalSearch.addBinary ls).unaryOps = ls.unaryOps := by
    intro ops
    induction ops with
    | nil => intro ls _ h; exact ⟨h, rfl⟩
    | cons op ops ih =>
      intro ls hv h
      obtain ⟨i1, i2⟩ := ih _ (fun o ho => hv o (by simp [ho])) (.addBinary op (hv op (by simp)) h)
      exact ⟨i1, by rw [List.foldl_cons, i2]; rfl⟩
  obtain ⟨a1, a2⟩ := h1 unary ls h0.1
  obtain ⟨b1, b2⟩ := h2 binary _ hv a1
  exact ⟨b1, by rw [b2, a2, h0.2, List.nil_append]⟩

theorem warpEvaluator_cost {data : ProblemData} (hg : GoodData data) (hl : data.numLoadDimensions = 0) :
    CostOk data warpEvaluator :=
  ⟨hg, ⟨by simp [warpEvaluator], ratPenalty_isPenalty 3 1 (by decide) (by decide),
    ratPenalty_isPenalty 1 1 (by decide) (by decide)⟩, by rw [hl]; rfl⟩

theorem loopGood : GoodData loopData where
  made := by decide
  vehicles := by
    intro v hv
    have h : ∀ v ∈ loopData.vehicleTypes, VehicleType.replace v {} = .ok v := by decide
    exact ⟨_, h v hv⟩
  times := by constructor <;> decide

theorem worseGood : GoodData worseData where
  made := by decide
  vehicles := by
    intro v hv
    have h : ∀ v ∈ worseData.vehicleTypes, VehicleType.replace v {} = .ok v := by decide
    exact ⟨_, h v hv⟩
  times := by constructor <;> decide

theorem accepted_of {data : ProblemData} {plan : RoutePlan} {routes : List Route}
    (hb : Built data plan routes) (h : ∃ sol, Solution.make data routes = .ok sol) :
    Accepted data (solutionOf data routes) := by
  obtain ⟨sol, h⟩ := h
  refine ⟨plan, routes, hb, ?_⟩
  unfold solutionOf
  rw [h]

theorem loopAccepted : Accepted loopData (solutionOf loopData loopRoutes) :=
  accepted_of (plan := [(0, [client 1, client 0, depot 0, client 2, client 3])])
    (by refine ⟨?_, ?_, ?_, ?_⟩ <;> decide) ⟨_, rfl⟩

theorem worseAccepted : Accepted worseData (solutionOf worseData worseRoutes) :=
  accepted_of (plan := [(0, [client 0, depot 0, client 1, client 2])])
    (by refine ⟨?_, ?_, ?_, ?_⟩ <;> decide) ⟨_, rfl⟩

set_option maxRecDepth 100000 in
/-- After one round, each further round leads to the state in which it was, but for the counters. -/
theorem loops : (match loopSearch.prepare loopData warpEvaluator (solutionOf loopData loopRoutes) true with
    | .error _ => false
    | .ok st =>
      match LState.rounds loopData warpEvaluator loopUnary 1 { st with completed := false } with
      | none => false
      | some st1 => decide (st1.lastTest.length = 4 ∧ (∀ x ∈ st1.lastTest, 0 ≤ x)
          ∧ st1.space.activityOrder = allTasks loopData
          ∧ LState.rounds loopData warpEvaluator loopUnary 1 st1 = some (LState.shift 2 0 st1)))
    = true := by decide +kernel

end Demo

/-- **C25, negation.** The local search may run for ever. Here it does, with the default operators of
PyVRP, on a valid instance and an accepted and complete solution. -/
theorem C25_negation_stops :
    CostOk Demo.loopData Demo.warpEvaluator
    ∧ (∀ c ∈ Demo.loopData.clients, Client.make c = .ok c)
    ∧ SearchHistory Demo.loopData Demo.loopSearch
    ∧ Accepted Demo.loopData (Demo.solutionOf Demo.loopData Demo.loopRoutes)
    ∧ (Demo.solutionOf Demo.loopData Demo.loopRoutes).isComplete = true
    ∧ ∀ fuel, Demo.loopSearch.run Demo.loopData Demo.warpEvaluator
        (Demo.solutionOf Demo.loopData Demo.loopRoutes) true fuel = .ok none := by
  have hh := Demo.searchWith_history (data := Demo.loopData) (unary := Demo.loopUnary)
    (binary := Demo.loopBinary) ⟨_, rfl⟩ (by simp [Demo.loopBinary, BinaryOp.Valid])
  refine ⟨Demo.warpEvaluator_cost Demo.loopGood rfl, by decide, hh.1, Demo.loopAccepted, by decide +kernel,
    fun fuel => ?_⟩
  have hl := Demo.loops
  have hu : Demo.loopSearch.unaryOps = Demo.loopUnary := hh.2
  unfold LocalSearch.run
  cases hp : Demo.loopSearch.prepare Demo.loopData Demo.warpEvaluator
      (Demo.solutionOf Demo.loopData Demo.loopRoutes) true with
  | error e => rw [hp] at hl; cases hl
  | ok st =>
    rw [hp] at hl
    dsimp only at hl ⊢
    cases hr : LState.rounds Demo.loopData Demo.warpEvaluator Demo.loopUnary 1
        { st with completed := false } with
    | none => rw [hr] at hl; cases hl
    | some st1 =>
      rw [hr] at hl
      obtain ⟨h1, h2, h3, h4⟩ := of_decide_eq_true hl
      have hs : LState.search Demo.loopData Demo.warpEvaluator Demo.loopSearch.unaryOps fuel st = .ok none := by
        rw [hu]
        unfold LState.search
        rw [if_neg (by simp [Demo.loopUnary])]
        exact LState.searchLoop_never_stops (order := allTasks Demo.loopData) (n := 4) (by decide)
          (b := 0) (m := 1) (p := 1) (k := 2) (by omega) hr ⟨h1, h2, Nat.zero_le _, h3⟩ h4 fuel
      rw [hs]

/-- **C25, negation.** The local search may return a solution that is worse than the given one: here the
penalised cost goes from 135 to 145. -/
theorem C25_negation_cost :
    CostOk Demo.worseData Demo.warpEvaluator
    ∧ (∀ c ∈ Demo.worseData.clients, Client.make c = .ok c)
    ∧ SearchHistory Demo.worseData Demo.worseSearch
    ∧ Accepted Demo.worseData (Demo.solutionOf Demo.worseData Demo.worseRoutes)
    ∧ (Demo.solutionOf Demo.worseData Demo.worseRoutes).isComplete = true
    ∧ Demo.warpEvaluator.penalisedCost (Demo.solutionOf Demo.worseData Demo.worseRoutes) = 135
    ∧ ∃ sol' ls', Demo.worseSearch.run Demo.worseData Demo.warpEvaluator
        (Demo.solutionOf Demo.worseData Demo.worseRoutes) true 20 = .ok (some (sol', ls'))
      ∧ Demo.warpEvaluator.penalisedCost sol' = 145 := by
  have hh := Demo.searchWith_history (data := Demo.worseData) (unary := [])
    (binary := [.swapTails, .relocate 2]) ⟨_, rfl⟩ (by simp [BinaryOp.Valid])
  have hw := Demo.worse
  refine ⟨Demo.warpEvaluator_cost Demo.worseGood rfl, by decide, hh.1, Demo.worseAccepted,
    by decide +kernel, ?_⟩
  cases hr : Demo.worseSearch.run Demo.worseData Demo.warpEvaluator
      (Demo.solutionOf Demo.worseData Demo.worseRoutes) true 20 with
  | error e => rw [hr] at hw; cases hw
  | ok r =>
    cases r with
    | none => rw [hr] at hw; cases hw
    | some p =>
      rw [hr] at hw
      have := of_decide_eq_true hw
      exact ⟨this.1, p.1, p.2, rfl, this.2⟩

/-! ## Non-vacuity -/

namespace Demo

/-- The example, without a limit on durations for the vehicles that may reload. -/
def moderateData : ProblemData :=
  { data with vehicleTypes := data.vehicleTypes.map (fun v => { v with shiftDuration := MAX, maxDuration := MAX }) }

theorem moderateGood : GoodData moderateData where
  made := by decide
  vehicles := by
    intro v hv
    have h : ∀ v ∈ moderateData.vehicleTypes, VehicleType.replace v {} = .ok v := by decide
    exact ⟨_, h v hv⟩
  times := by constructor <;> decide

theorem moderate : Moderate moderateData 100 where
  pos := by decide
  times := by
    intro a ha
    have h : ∀ a ∈ allActivities moderateData, earliest moderateData a ≤ (100 : Nat)
      ∧ released moderateData a ≤ (100 : Nat) ∧ serviceTime moderateData a ≤ (100 : Nat) := by decide
    exact h a (mem_allActivities ha)
  vehicles := by decide
  durations := by decide
  distances := by decide
  total := by decide
  releases := .inr (by decide)

def moderateRoutes : List Route :=
  [Route.build moderateData [client 0, client 1, depot 0, client 2] 0,
    Route.build moderateData [pickup 0, client 3, delivery 0] 1]

def moderateSearch : LocalSearch :=
  searchWith moderateData [.removeAdjacentDepot, .removeOptionalClient] [.relocate 1, .swapTails, .swap 1 1]

theorem moderateCost : CostOk moderateData costEvaluator :=
  ⟨moderateGood, costEvaluator_valid, rfl⟩

theorem moderateAccepted : Accepted moderateData (solutionOf moderateData moderateRoutes) :=
  accepted_of (plan := [(0, [client 0, client 1, depot 0, client 2]), (1, [pickup 0, client 3, delivery 0])])
    (by refine ⟨?_, ?_, ?_, ?_⟩ <;> decide) ⟨_, rfl⟩

theorem moderateHistory : SearchHistory moderateData moderateSearch :=
  (searchWith_history ⟨_, rfl⟩ (by simp [BinaryOp.Valid])).1

set_option maxRecDepth 100000 in
/-- The search improves a solution for this instance. -/
example : (match moderateSearch.run moderateData costEvaluator (solutionOf moderateData moderateRoutes) true 5 with
    | .ok (some (sol', _)) => decide (costEvaluator.penalisedCost (solutionOf moderateData moderateRoutes) = 199
        ∧ costEvaluator.penalisedCost sol' = 28)
    | _ => false) = true := by decide +kernel

/-- The hypotheses of `C46_result` hold for it too, whatever the number of rounds. -/
example (fuel : Nat) (exhaustive : Bool) :
    moderateSearch.run moderateData costEvaluator (solutionOf moderateData moderateRoutes) exhaustive fuel = .ok none
    ∨ ∃ sol' ls', moderateSearch.run moderateData costEvaluator (solutionOf moderateData moderateRoutes)
        exhaustive fuel = .ok (some (sol', ls'))
      ∧ Accepted moderateData sol' ∧ sol'.isComplete = true ∧ SearchHistory moderateData ls' :=
  C46_result moderateData moderateGood (by decide) (by decide) moderate.fits moderateSearch moderateHistory _
    moderateAccepted costEvaluator exhaustive fuel

/-- The same instance, in which vehicles may reload without limit. -/
def unlimitedData : ProblemData :=
  { moderateData with vehicleTypes := moderateData.vehicleTypes.map (fun v => { v with maxReloads := SIZE_MAX }) }

theorem unlimitedGood : GoodData unlimitedData where
  made := by decide
  vehicles := by
    intro v hv
    have h : ∀ v ∈ unlimitedData.vehicleTypes, VehicleType.replace v {} = .ok v := by decide
    exact ⟨_, h v hv⟩
  times := by constructor <;> decide

theorem unlimitedCost : CostOk unlimitedData costEvaluator :=
  ⟨unlimitedGood, costEvaluator_valid, rfl⟩

def unlimitedRoutes : List Route :=
  [Route.build unlimitedData [client 0, client 1, depot 0, client 2] 0,
    Route.build unlimitedData [pickup 0, client 3, delivery 0] 1]

/-- This search may add reload depots. -/
def unlimitedSearch : LocalSearch :=
  searchWith unlimitedData [.removeAdjacentDepot, .removeOptionalClient] [.relocate 1, .relocateWithDepot, .swap 1 1]

theorem unlimitedAccepted : Accepted unlimitedData (solutionOf unlimitedData unlimitedRoutes) :=
  accepted_of (plan := [(0, [client 0, client 1, depot 0, client 2]), (1, [pickup 0, client 3, delivery 0])])
    (by refine ⟨?_, ?_, ?_, ?_⟩ <;> decide) ⟨_, rfl⟩

theorem unlimitedHistory : SearchHistory unlimitedData unlimitedSearch :=
  (searchWith_history ⟨_, rfl⟩ (by simp [BinaryOp.Valid])).1

/-- It is not moderate, whatever the bound. -/
example (B : Nat) : ¬ Moderate unlimitedData B := by
  intro h
  have h1 := h.total _ (List.mem_cons_self)
  have h2 := h.pos
  have h3 : SIZE_MAX ≤ unlimitedData.numClients + 2 * unlimitedData.numShipments
      + (unlimitedData.vehicleTypes.head (by decide)).maxTrips + 4 := by decide
  have h4 := Nat.mul_le_mul (show 3 ≤ 3 * B by omega) h3
  have h5 : HALF < ((3 * SIZE_MAX : Nat) : Int) := by decide
  exact absurd (Int.lt_of_lt_of_le h5 (Int.ofNat_le.2 h4)) (Int.not_lt.2 h1)

theorem unlimitedModerate : ModerateUpTo unlimitedData 100 (fun _ => 200 + 2) where
  pos := by decide
  times := by
    intro a ha
    have h : ∀ a ∈ allActivities unlimitedData, earliest unlimitedData a ≤ (100 : Nat)
      ∧ released unlimitedData a ≤ (100 : Nat) ∧ serviceTime unlimitedData a ≤ (100 : Nat) := by decide
    exact h a (mem_allActivities ha)
  vehicles := by decide
  durations := by decide
  distances := by decide
  total := by decide
  releases := .inr (by decide)

set_option maxRecDepth 100000 in
theorem unlimitedStart : (match unlimitedSearch.prepare unlimitedData costEvaluator
      (solutionOf unlimitedData unlimitedRoutes) true with
    | .ok st => decide (reloadVisits st.sol = 1 ∧ costEvaluator.penalisedCostSSol unlimitedData st.sol = 199)
    | _ => false) = true := by decide +kernel

/-- But the search stays in range. -/
theorem unlimitedStays (st : LState) (h : unlimitedSearch.prepare unlimitedData costEvaluator
      (solutionOf unlimitedData unlimitedRoutes) true = .ok st) :
    StaysModerate unlimitedData costEvaluator 100 200 st.sol := by
  have hs := unlimitedStart
  rw [h] at hs
  obtain ⟨h1, h2⟩ := of_decide_eq_true hs
  exact ⟨unlimitedModerate, ⟨by decide, by decide, by decide, by decide⟩, by rw [h1, h2]; decide⟩

/-- So it stops, and its result costs at most 199. -/
example : ∃ fuel sol' ls',
    (∀ fuel', fuel ≤ fuel' → unlimitedSearch.run unlimitedData costEvaluator
      (solutionOf unlimitedData unlimitedRoutes) true fuel' = .ok (some (sol', ls')))
    ∧ costEvaluator.penalisedCost sol' ≤ costEvaluator.penalisedCost (solutionOf unlimitedData unlimitedRoutes) := by
  obtain ⟨-, fuel, st, sol', ls', h1, -, -, -, -, h2⟩ := C25_unlimited_partial unlimitedData costEvaluator
    unlimitedCost 100 200 (by decide) (by decide) unlimitedSearch unlimitedHistory _ unlimitedAccepted true
    unlimitedStays
  exact ⟨fuel, sol', ls', h1, h2 rfl (by decide +kernel)⟩

end Demo
end PyVRP
