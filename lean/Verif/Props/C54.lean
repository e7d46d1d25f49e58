import Verif.Props.C49
import Verif.Props.C47
import Verif.Lemmas.SupportsRun
/-!
# C54: operators that do not support an instance can be left out
-/
namespace PyVRP
open Spec
open SSol (RefOk)

/-! ## Theorems -/

/-- **C54, moves.** An operator that does not support the instance says of no move that it should be
applied, in any state of the local search in which everything that is required is visited. -/
theorem C54_never (data : ProblemData) (hg : GoodData data) (ce : CostEvaluator)
    (plan : List (List Activity)) (s : SSol) (h : SearchState data plan s) (hcomp : CompletePlan data plan)
    (u : Activity) (hu : u ∈ allTasks data) :
    (∀ op, UnaryOp.supports op data = false → (op.evaluate data ce s u).apply = false)
    ∧ ∀ op v cache, BinaryOp.supports op data = false → RefOk data v →
      (op.evaluate data ce s cache u v).1.apply = false := by
  have hd : Consistent data := ((C37_accepts_exactly_consistent data data).1 hg.made).2
  exact ⟨fun op hs => op.unsupported hd h.ok hs hu,
    fun op _ cache hs hv => op.unsupported hd h.ok hcomp hs hu hv cache⟩

/-- **C54, the local search.** With only the operators that support the instance, the local search returns
the same solution, and is left as it would be with all operators. -/
theorem C54_search (data : ProblemData) (hg : GoodData data) (hn : ∀ g ∈ data.groups, g.clients.Nodup)
    (ce : CostEvaluator) (ls : LocalSearch) (hls : SearchHistory data ls) (sol : Solution)
    (hsol : Accepted data sol) (exhaustive : Bool) (fuel : Nat) (hf : 0 < fuel) :
    LocalSearch.run data ce
        { ls with
          unaryOps := ls.unaryOps.filter (·.supports data)
          binaryOps := ls.binaryOps.filter (·.supports data) } sol exhaustive fuel
      = match ls.run data ce sol exhaustive fuel with
        | .error e => .error e
        | .ok none => .ok none
        | .ok (some (sol', ls')) => .ok (some (sol', { ls' with
            unaryOps := ls.unaryOps.filter (·.supports data)
            binaryOps := ls.binaryOps.filter (·.supports data) })) := by
  cases fuel with
  | zero => omega
  | succ fuel =>
    refine (LocalSearch.run_supported hg hg.hasVehicle hn (hls.ready hg hg.hasVehicle hn) hsol exhaustive
      fuel).trans ?_
    have hops : ∀ sol' ls', ls.run data ce sol exhaustive (fuel + 1) = .ok (some (sol', ls')) →
        ls'.unaryOps = ls.unaryOps ∧ ls'.binaryOps = ls.binaryOps := by
      intro sol' ls' h
      unfold LocalSearch.run at h
      split at h
      · cases h
      · split at h
        · cases h
        · cases h
        · split at h
          · cases h
          · injection h with h; injection h with h; injection h with _ h; subst h; exact ⟨rfl, rfl⟩
    generalize ls.run data ce sol exhaustive (fuel + 1) = r at hops ⊢
    cases r with
    | error e => rfl
    | ok r =>
      cases r with
      | none => rfl
      | some r =>
        obtain ⟨sol', ls'⟩ := r
        obtain ⟨h1, h2⟩ := hops sol' ls' rfl
        show Except.ok (some (sol', ls'.supported data)) = _
        unfold LocalSearch.supported
        rw [h1, h2]

theorem addOperators_supported (data : ProblemData) : ∀ (ops : List Operator) (all : LocalSearch),
    Solve.addOperators data ops (all.supported data) = (ops.foldl LocalSearch.add all).supported data
  | [], all => rfl
  | op :: ops, all => by
    rw [List.foldl_cons, ← addOperators_supported data ops]
    show Solve.addOperators data ops
      (if op.supports data then (all.supported data).add op else all.supported data) = _
    congr 1
    cases op with
    | unary op =>
      show (if op.supports data then _ else _) = _
      cases hs : op.supports data <;>
        simp [LocalSearch.add, LocalSearch.addUnary, LocalSearch.supported, hs]
    | binary op =>
      show (if op.supports data then _ else _) = _
      cases hs : op.supports data <;>
        simp [LocalSearch.add, LocalSearch.addBinary, LocalSearch.supported, hs]

/-- **C54, `solve`.** The local search that `solve` makes returns what a local search returns to which all of
the given operators are added, also those that do not support the instance. -/
theorem C54_solve (data : ProblemData) (hg : GoodData data) (hn : ∀ g ∈ data.groups, g.clients.Nodup)
    (R : Rounding) (params : SolveParams) (hp : GoodParams R params) :
    ∃ base ls, LocalSearch.make data (Neighbourhood.computeNeighbours R.rnd data params.neighbourhood)
        (PerturbationManager.new params.perturbation) = .ok base
      ∧ Solve.makeSearch R data params = .ok ls
      ∧ ∀ (ce : CostEvaluator) (sol : Solution), Accepted data sol → ∀ (exhaustive : Bool) (fuel : Nat),
        0 < fuel →
        (ls.run data ce sol exhaustive fuel).map (Option.map Prod.fst)
          = ((params.operators.foldl LocalSearch.add base).run data ce sol exhaustive fuel).map
              (Option.map Prod.fst) := by
  obtain ⟨ls, hls, -⟩ := Solve.makeSearch_spec (data := data) hp
  have hms := hls
  unfold Solve.makeSearch at hls
  split at hls
  · cases hls
  · rename_i base hbase
    injection hls with hls
    have hempty : base.unaryOps = [] ∧ base.binaryOps = [] := by
      have h := hbase
      unfold LocalSearch.make at h
      split at h
      · cases h
      · injection h with h; subst h; exact ⟨rfl, rfl⟩
    have h0 : SearchHistory data base :=
      .new (Solve.computeNeighbours_complete _ _ _) (.new hp.perturbation) hp.range hbase
    have hall : SearchHistory data (params.operators.foldl LocalSearch.add base) := by
      have := hp.operators
      revert this
      clear * - h0
      generalize params.operators = ops
      induction ops generalizing base with
      | nil => intro _; exact h0
      | cons op ops ih =>
        intro hv
        refine ih _ ?_ fun o ho => hv o (by simp [ho])
        cases op with
        | unary op => exact .addUnary op h0
        | binary op => exact .addBinary op (hv op (by simp)) h0
    have hsup : ls = (params.operators.foldl LocalSearch.add base).supported data := by
      rw [← hls, ← addOperators_supported]
      congr 1
      unfold LocalSearch.supported
      rw [hempty.1, hempty.2]
      obtain ⟨h1, h2⟩ := hempty
      cases base
      cases h1; cases h2
      rfl
    refine ⟨base, ls, hbase, hms, fun ce sol hsol exhaustive fuel hf => ?_⟩
    rw [hsup]
    refine (congrArg _ (C54_search data hg hn ce _ hall sol hsol exhaustive fuel hf)).trans ?_
    generalize (params.operators.foldl LocalSearch.add base).run data ce sol exhaustive fuel = r
    cases r with
    | error e => rfl
    | ok r => cases r <;> rfl

/-! ## Non-vacuity -/

namespace Demo

/-- All of the default operators. -/
def againAll : LocalSearch :=
  searchWith againData
    [.relocatePickup, .relocateDelivery, .removeAdjacentDepot, .removeOptionalClient, .removeOptionalShipment,
      .replaceGroup]
    [.relocate 1, .relocate 2, .swap 1 1, .swap 2 1, .swap 2 2, .swapTails, .relocateAlternative,
      .relocateWithDepot, .insertOptionalClient, .replaceOptionalClient, .insertOptionalShipment,
      .replaceOptionalShipment, .relocateShipment]

theorem againAllHistory : SearchHistory againData againAll :=
  (searchWith_history ⟨_, rfl⟩ (by simp [BinaryOp.Valid])).1

/-- The hypotheses of `C54_search` hold, and it leaves out ten of the 19 operators here. -/
example : (LocalSearch.supported againData againAll).unaryOps = [.removeOptionalClient]
    ∧ (LocalSearch.supported againData againAll).binaryOps
      = [.relocate 1, .relocate 2, .swap 1 1, .swap 2 1, .swap 2 2, .swapTails, .insertOptionalClient,
        .replaceOptionalClient] := by
  refine ⟨?_, ?_⟩ <;> decide +kernel

/-- So the search that finds a better solution in `C49_negation` finds the same one with all operators. -/
example : ∃ sol' ls', againAll.run againData againEvaluator (solutionOf againData againRoutes) true 20
      = .ok (some (sol', ls'))
    ∧ againEvaluator.penalisedCost (solutionOf againData againRoutes) = 100
    ∧ againEvaluator.penalisedCost sol' = 30 := by
  have h := C54_search againData againGood (by decide) againEvaluator againAll againAllHistory _ againAccepted
    true 20 (by decide)
  have h2 : ({ againAll with
      unaryOps := againAll.unaryOps.filter (·.supports againData)
      binaryOps := againAll.binaryOps.filter (·.supports againData) } : LocalSearch) = againSearch := rfl
  rw [h2] at h
  have ha := again
  split at ha
  · rename_i sol1 ls1 e1
    split at ha
    · obtain ⟨h0, h1, -⟩ := of_decide_eq_true ha
      rw [e1] at h
      split at h
      · cases h
      · cases h
      · rename_i sol' ls' e
        injection h with h; injection h with h; injection h with h _
        subst h
        exact ⟨_, _, e, h0, h1⟩
    · cases ha
  · cases ha

/-- The default parameters meet the hypothesis of `C54_solve`. -/
example : GoodParams .exact {} := defaultParams_good

/-- In this state the hypotheses of `C54_never` hold, and there are operators of which it says something. -/
example : CompletePlan swapData [[client 0, client 1], [pickup 0, delivery 0]]
    ∧ SearchState swapData [[client 0, client 1], [pickup 0, delivery 0]] swapBefore
    ∧ UnaryOp.supports .removeAdjacentDepot swapData = false
    ∧ BinaryOp.supports .relocateWithDepot swapData = false
    ∧ BinaryOp.supports (.relocate 2) swapData = true := by
  refine ⟨⟨?_, ?_, ?_⟩, swapBefore_ok, ?_, ?_, ?_⟩
  · simp only [← visits_iff]; decide
  · simp only [← visits_iff]; decide
  · intro g hg; cases hg
  · decide
  · decide
  · decide

/-- Without clients, moving a single activity is never possible, and so is exchanging tails of routes. -/
example : BinaryOp.supports (.relocate 1) { swapData with clients := [] } = false
    ∧ BinaryOp.supports .swapTails { swapData with clients := [] } = false
    ∧ BinaryOp.supports (.relocate 2) { swapData with clients := [] } = true := by decide

end Demo
end PyVRP
