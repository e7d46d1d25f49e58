import Verif.Lemmas.Int64Env
import Verif.Props.C53
/-!
# C61: the operators of the local search do not overflow

`PyVRP.Checked64` has, in `Verif/Model/Int64Operators.lean`, the operators of the local search on 64-bit
integers: the result is `none` if an operation overflows, or if an assertion fails.
-/
namespace PyVRP
open Spec
open SSol (RefOk)

namespace Spec

/-- There is room to evaluate moves of routes with at most `n` nodes. -/
def OperatorRoom (data : ProblemData) (B M n : Nat) : Prop :=
  (((40 * data.numLoadDimensions + 2000) * M * B * n : Nat) : Int) ≤ MAX

/-- The costs that an operator keeps between evaluations are within `limit`. -/
def CostsWithin (limit : Int) (cache : Cache) : Prop := ∀ c, some c ∈ cache → -limit ≤ c ∧ c ≤ limit

/-- What two evaluations of routes with at most `n` nodes may add up to. -/
def evaluationLimit (data : ProblemData) (B M n : Nat) : Int :=
  ((20 * data.numLoadDimensions + 1000) * M * B * n : Nat)

end Spec

namespace C61

theorem limit_eq (data : ProblemData) (B M n : Nat) :
    evaluationLimit data B M n = 2 * Checked64.limit data B M n := by
  have h := Checked64.limit_eq data B M n
  have e : (40 * data.numLoadDimensions + 2000) * M * B * n
      = 2 * ((20 * data.numLoadDimensions + 1000) * M * B * n) := by grind
  rw [e, Int.natCast_mul] at h
  unfold evaluationLimit
  omega

theorem cache_iff (data : ProblemData) (B M n : Nat) (cache : Cache) :
    CostsWithin (evaluationLimit data B M n) cache ↔ Checked64.CacheBd (Checked64.limit data B M n) cache := by
  unfold CostsWithin Checked64.CacheBd
  rw [limit_eq]

end C61

/-- **C61, moves of one node.** In every state of the local search whose routes have at most `n` nodes, each
operator that moves a single client or shipment evaluates its moves without overflow: it returns what it
returns with exact arithmetic. -/
theorem C61_unary (data : ProblemData) (ce : CostEvaluator) (hc : CostOk data ce) (B M : Nat) (hM : 1 ≤ M)
    (hs : Small data B M) (hp : SmallPenalties data ce M) (n : Nat) (hr : OperatorRoom data B M n)
    (plan : List (List Activity)) (s : SSol) (h : SearchState data plan s)
    (hn : ∀ i, (plan.getD i []).length + 2 ≤ n) (u : Activity) (hu : u ∈ allTasks data) (op : UnaryOp) :
    Checked64.evaluateUnary op data ce s u = some (op.evaluate data ce s u) := by
  have hdist : DistancesOk data := fun m hm x hx => (hs.distances m hm x hx).1
  have henv := Checked64.env hc.good hM hs hp (N := n) (by have := hn 0; omega) hr
  obtain ⟨y, h1, rfl⟩ := Checked64.evaluateUnary_ref henv (henv.solBd h.ok (fun i _ => hn i)) op u _
    (Checked.evaluateUnary_eq op hc hdist h.ok hu)
  exact h1

/-- **C61, moves of two nodes.** The same for the operators that move a client or shipment to another one.
They keep costs of some evaluations for later ones: these stay within bounds. -/
theorem C61_binary (data : ProblemData) (ce : CostEvaluator) (hc : CostOk data ce) (B M : Nat) (hM : 1 ≤ M)
    (hs : Small data B M) (hp : SmallPenalties data ce M) (n : Nat) (hr : OperatorRoom data B M n)
    (plan : List (List Activity)) (s : SSol) (h : SearchState data plan s)
    (hn : ∀ i, (plan.getD i []).length + 2 ≤ n) (u : Activity) (hu : u ∈ allTasks data)
    (op : BinaryOp) (hop : op.Valid) (v : NodeRef) (hv : RefOk data v) (hvu : v ≠ .task u)
    (hin : (s.find v).isSome = true) (cache : Cache) (hlen : cache.length = op.cacheSize data)
    (hcache : CostsWithin (evaluationLimit data B M n) cache) :
    Checked64.evaluateBinary op data ce s cache u v = some (op.evaluate data ce s cache u v)
    ∧ CostsWithin (evaluationLimit data B M n) (op.evaluate data ce s cache u v).2 := by
  have hdist : DistancesOk data := fun m hm x hx => (hs.distances m hm x hx).1
  have henv := Checked64.env hc.good hM hs hp (N := n) (by have := hn 0; omega) hr
  rw [C61.cache_iff] at hcache
  obtain ⟨y, h1, rfl, h2⟩ := Checked64.evaluateBinary_ref henv (henv.solBd h.ok (fun i _ => hn i)) op hcache u v _
    (Checked.evaluateBinary_eq op hop hc hdist h.ok hu hv hvu hin hlen)
  exact ⟨h1, (C61.cache_iff ..).2 h2⟩

/-- **C61, costs that are kept.** An operator starts without costs, and forgetting costs when a route is
updated keeps the others within bounds. -/
theorem C61_caches (data : ProblemData) (limit : Int) (op : BinaryOp) :
    CostsWithin limit (op.init data)
    ∧ ∀ cache r, CostsWithin limit cache → CostsWithin limit (op.update data r cache) := by
  constructor
  · intro c hc
    cases (List.mem_replicate.1 hc).2
  · intro cache r h c hc
    refine h c ?_
    have key : ∀ (l : List SNode) (cache : Cache), some c ∈ l.foldl (fun cache n =>
        match op.cacheIdx data n.activity with
        | some idx => cache.set idx none
        | none => cache) cache → some c ∈ cache := by
      intro l
      induction l with
      | nil => intro cache h; exact h
      | cons n l ih =>
        intro cache h
        have h' := ih _ h
        dsimp only at h'
        split at h'
        · rcases List.mem_or_eq_of_mem_set h' with h' | h'
          · exact h'
          · cases h'
        · exact h'
    exact key r.nodes cache hc

/-! ## Large numbers -/

namespace Demo

/-- Two required clients and an optional one, at distance `x` from the depot and from each other. -/
def wideData (x : Int) : ProblemData :=
  { locations := [⟨0, 0, ""⟩, ⟨0, 1, ""⟩, ⟨1, 0, ""⟩, ⟨1, 1, ""⟩]
    clients := [
      ⟨1, [], [], 0, 0, MAX, 0, 0, true, none, ""⟩,
      ⟨2, [], [], 0, 0, MAX, 0, 0, true, none, ""⟩,
      ⟨3, [], [], 0, 0, MAX, 0, 5, false, none, ""⟩]
    depots := [⟨0, 0, MAX, 0, ""⟩]
    vehicleTypes := [
      { numAvailable := 1, startDepot := 0, endDepot := 0, capacity := [], twEarly := 0
        twLate := MAX, shiftDuration := MAX, maxDistance := MAX, fixedCost := 0
        unitDistanceCost := 1, unitDurationCost := 0, profile := 0, startLate := MAX
        initialLoad := [], reloadDepots := [], maxReloads := 0, maxOvertime := 0
        unitOvertimeCost := 0, maxDuration := MAX, name := "" }]
    dists := [⟨4, 4, [0, x, x, x, x, 0, x, x, x, x, 0, x, x, x, x, 0]⟩]
    durs := [⟨4, 4, [0, 0, 0, 0, 0, 0, 0, 0, 0, 0, 0, 0, 0, 0, 0, 0]⟩]
    groups := []
    shipments := [] }

def wideRoutes (x : Int) : List Route := [Route.build (wideData x) [client 0, client 1] 0]

/-- The search solution for `wideRoutes`. -/
def wideState (x : Int) : SSol :=
  match Solution.make (wideData x) (wideRoutes x) with
  | .error _ => SSol.new (wideData x)
  | .ok sol =>
    match SSol.load (wideData x) (SSol.new (wideData x)) sol with
    | .error _ => SSol.new (wideData x)
    | .ok s => s

theorem wideGood : GoodData (wideData (MAX / 3)) where
  made := by decide +kernel
  vehicles := by
    intro v hv
    have h : ∀ v ∈ (wideData (MAX / 3)).vehicleTypes, VehicleType.replace v {} = .ok v := by decide +kernel
    exact ⟨_, h v hv⟩
  times := by constructor <;> decide

theorem wideBuilt : Built (wideData (MAX / 3)) [(0, [client 0, client 1])] (wideRoutes (MAX / 3)) := by
  refine ⟨?_, ?_, ?_, ?_⟩ <;> decide +kernel

theorem wideState_ok : ∃ plan, SearchState (wideData (MAX / 3)) plan (wideState (MAX / 3)) := by
  have h : ∃ sol, Solution.make (wideData (MAX / 3)) (wideRoutes (MAX / 3)) = .ok sol := ⟨_, rfl⟩
  obtain ⟨sol, h⟩ := h
  obtain ⟨s', -, h', -⟩ := C26_load_unload _ wideGood.times (by decide) _ _ sol wideBuilt h _ .new
  have e : wideState (MAX / 3) = s' := by unfold wideState; simp only [h, h']
  rw [e]
  exact C27_loaded _ wideGood.times (by decide) _ _ sol wideBuilt h _ s' .new h'

theorem wideCost : CostOk (wideData (MAX / 3)) lateEvaluator := ⟨wideGood, lateCost.2, rfl⟩

end Demo

/-- Some bound on the numbers is needed: with distances of a third of the largest 64-bit integer, the
solution of the local search is updated without overflow and no assertion fails, but the evaluation of
inserting a client overflows. -/
theorem C61_bound_needed :
    ∃ (data : ProblemData) (ce : CostEvaluator) (plan : List (List Activity)) (s : SSol),
      CostOk data ce ∧ DistancesOk data ∧ SearchState data plan s
      ∧ (∀ r ∈ s.routes, I64.update data r = some (r.update data))
      ∧ (Checked.evaluateBinary .insertOptionalClient data ce s [] ⟨.client, 2⟩ (.task ⟨.client, 0⟩)).isSome
        = true
      ∧ Checked64.evaluateBinary .insertOptionalClient data ce s [] ⟨.client, 2⟩ (.task ⟨.client, 0⟩)
        = none := by
  obtain ⟨plan, h⟩ := Demo.wideState_ok
  refine ⟨_, Demo.lateEvaluator, plan, _, Demo.wideCost, ?_, h, ?_, ?_, ?_⟩
  · unfold DistancesOk; decide +kernel
  · decide +kernel
  · decide +kernel
  · decide +kernel

/-! ## Non-vacuity -/

namespace Demo

/-- The hypotheses of `C61_unary` and `C61_binary` are met, for moves that improve. -/
example :
    Checked64.evaluateUnary .removeAdjacentDepot data costEvaluator state (client 2)
      = some ⟨-75, true, .removePrev⟩
    ∧ (Checked64.evaluateBinary (.swap 3 1) data costEvaluator state ((BinaryOp.swap 3 1).init data)
      (pickup 0) (.task (client 3))).map (·.1) = some ⟨-35, true, .none⟩ := by
  obtain ⟨plan, h, -⟩ := state_ok
  have hs : Small data 50 1000 := by constructor <;> decide
  have hn : ∀ i, (plan.getD i []).length + 2 ≤ 100 := by
    intro i
    by_cases hi : i < data.numVehicles
    · have h1 := (h.routeOk i hi).length_le (fun a ha => h.clean.1.once a ha i)
      have h2 := (h.routeOk i hi).trips
      have h3 : ∀ v ∈ data.vehicleTypes, v.maxTrips ≤ 6 := by decide
      have h4 := h3 _ (mem_vehicleTypes (vehTypeAt_lt data hi))
      have h5 : data.numClients + 2 * data.numShipments ≤ 7 := by decide
      omega
    · rw [List.getD_eq_getElem?_getD, List.getElem?_eq_none (by rw [h.clean.1.length]; omega)]
      decide
  have hr : OperatorRoom data 50 1000 100 := by unfold OperatorRoom; decide
  constructor
  · rw [C61_unary data costEvaluator costOk 50 1000 (by decide) hs smallPenalties 100 hr plan state h hn
      (client 2) (by decide)]
    decide +kernel
  · rw [(C61_binary data costEvaluator costOk 50 1000 (by decide) hs smallPenalties 100 hr plan state h hn
      (pickup 0) (by decide) (.swap 3 1) (by simp [BinaryOp.Valid]) (.task (client 3))
      (by unfold RefOk; decide) (by decide) (by decide +kernel) _ (by decide)
      (C61_caches data _ _).1).1]
    decide +kernel

/-- With distances and times up to a million, unit costs and penalties up to 100000 and two load dimensions,
there is room for routes with 44000 nodes. -/
example (h : ProblemData) (hd : h.numLoadDimensions = 2) : OperatorRoom h 1000000 100000 44000 := by
  unfold OperatorRoom; rw [hd]; decide

end Demo
end PyVRP
