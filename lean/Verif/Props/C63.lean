import Verif.Lemmas.Int64Ils
import Verif.Props.C47
/-!
# C63: `solve` does not overflow

`Checked64.solve` (`Verif/Model/Int64Solve.lean`) is `solve` on 64-bit integers: the random initial solution,
all calls of the local search, the solutions that it returns, and the costs by which the algorithm accepts
and compares solutions. The result is `none` if an operation overflows, if an index is outside of an array,
or if an assertion fails.
-/
namespace PyVRP
open Spec

namespace Spec

/-- There is room for what a run of `solve` adds up: in the local search for routes of at most `n` nodes,
and in solutions for as many such routes as there are vehicles. -/
structure SolveRoom (data : ProblemData) (B M n : Nat) : Prop where
  routes : RoutesWithin data n
  search : OperatorRoom data B M n
  solutions : Room data B M (data.clients.length + data.shipments.length + data.numVehicles * n)

end Spec

variable {σ τ : Type}

/-- **C63.** On an instance with numbers of a moderate size, `solve` does not overflow, however long it runs:
it returns what it would return with exact arithmetic. This holds for all parameters, random number
generators, stopping criteria, and accepted initial solutions. -/
theorem C63_solve (data : ProblemData) (hg : GoodData data)
    (hrel : ∀ v ∈ data.vehicleTypes, v.maxReloads ≤ SIZE_MAX) (hn : ∀ g ∈ data.groups, g.clients.Nodup)
    (hfit : FitsMemory data) (B M n : Nat) (hM : 1 ≤ M) (hs : Small data B M) (hr : SolveRoom data B M n)
    (R : Rounding) (params : SolveParams) (hp : GoodParams R params)
    (hpen : PenaltiesBelow R params.penalty.maxPenalty M)
    (next : σ → Nat × σ) (rng : σ) (stop : τ → Int → τ × Bool) (ts : τ) (clock : Nat → Int)
    (collectStats : Bool) (initial : Option Solution) (hinit : ∀ s, initial = some s → Accepted data s)
    (fuel rounds : Nat) :
    Checked64.solve next data R params stop ts clock rng collectStats initial fuel rounds
      = some (Solve.solve next R data params stop ts clock rng collectStats initial fuel rounds) := by
  have hS : Checked64.Setting data B M n := ⟨hg, hrel, hn, hfit, hM, hs, hr.routes, hr.search, hr.solutions⟩
  obtain ⟨ls, e, h⟩ := Solve.makeSearch_spec (data := data) hp
  have hpm := Solve.makePenalties_ok (data := data) hp
  have hmax : (Solve.makePenalties R data params).params.maxPenalty = params.penalty.maxPenalty := rfl
  unfold Checked64.solve Solve.solve
  rw [e]
  dsimp only
  rw [Checked64.initialSolution_eq hS next hpm hpen h, Option.bind_eq_bind, Option.bind_some]
  rcases Solve.initialSolution_valid hg hrel hn hfit next hpm h rng initial hinit rounds with
    e1 | ⟨init, ls', rng', e1, h1, -, h3⟩
  · rw [e1]; rfl
  · rw [e1]
    exact Checked64.runAlgorithm_eq hS next hpen h1 hpm hmax h3 rng' ts collectStats fuel

/-- **C63, the cost of the result.** Nor does the cost of the returned solution overflow. -/
theorem C63_cost (data : ProblemData) (hg : GoodData data)
    (hrel : ∀ v ∈ data.vehicleTypes, v.maxReloads ≤ SIZE_MAX) (hn : ∀ g ∈ data.groups, g.clients.Nodup)
    (hfit : FitsMemory data) (B M n : Nat) (hM : 1 ≤ M) (hs : Small data B M) (hr : SolveRoom data B M n)
    (R : Rounding) (params : SolveParams) (hp : GoodParams R params)
    (next : σ → Nat × σ) (rng : σ) (stop : τ → Int → τ × Bool) (ts : τ) (clock : Nat → Int)
    (hclock : ∀ i j, i ≤ j → clock i ≤ clock j)
    (collectStats : Bool) (initial : Option Solution) (hinit : ∀ s, initial = some s → Accepted data s)
    (fuel rounds : Nat) (res : Result)
    (hres : Solve.solve next R data params stop ts clock rng collectStats initial fuel rounds = .ok (some res)) :
    Checked64.resultCost res = some res.cost := by
  have hS : Checked64.Setting data B M n := ⟨hg, hrel, hn, hfit, hM, hs, hr.routes, hr.search, hr.solutions⟩
  have hacc : Accepted data res.best := by
    rcases C47_valid data hg hrel hn hfit R params hp next rng stop ts clock hclock collectStats initial hinit
      fuel rounds with e | ⟨res', e, h, -⟩
    · rw [hres] at e; cases e
    · rw [hres] at e; cases e; exact h
  have hzero : SmallPenalties data
      ⟨List.replicate res.best.excessLoad.length (fun _ => 0), fun _ => 0, fun _ => 0⟩ M := by
    have h0 : ∀ x : Int, 0 ≤ x → (0 : Int) ≤ 0 ∧ (0 : Int) ≤ M * x :=
      fun x hx => ⟨Int.le_refl _, Int.mul_nonneg (Int.natCast_nonneg _) hx⟩
    exact ⟨by rw [List.length_replicate]; exact hacc.dims hn,
      fun f hf => by rw [List.eq_of_mem_replicate hf]; exact h0, h0, h0⟩
  unfold Checked64.resultCost Result.cost
  split
  · rfl
  · dsimp only
    rw [(Checked64.cost_eq hS hzero hacc).2]
    rfl

/-- **C63, returning.** So if the stopping criterion stops, `solve` on 64-bit integers returns an
accepted solution, which is complete unless it is an incomplete initial solution given by the caller, and a
feasible initial solution is never made worse. As in C47, only for instances with
moderate numbers. -/
theorem C63_returns (data : ProblemData) (hg : GoodData data) (B M n : Nat) (hM : 1 ≤ M)
    (hs : Small data B M) (hr : SolveRoom data B M n) (C : Nat) (hC : Moderate data C)
    (hrel : ∀ v ∈ data.vehicleTypes, v.maxReloads ≤ SIZE_MAX) (hn : ∀ g ∈ data.groups, g.clients.Nodup)
    (R : Rounding) (params : SolveParams) (hp : GoodParams R params)
    (hpen : PenaltiesBelow R params.penalty.maxPenalty M)
    (next : σ → Nat × σ) (rng : σ) (stop : τ → Int → τ × Bool) (ts : τ)
    (hstop : ∀ least, Stops stop least ts) (clock : Nat → Int)
    (hclock : ∀ i j, i ≤ j → clock i ≤ clock j) (collectStats : Bool) (initial : Option Solution)
    (hinit : ∀ s, initial = some s → Accepted data s) :
    ∃ enough res, (∀ fuel rounds, enough ≤ fuel → enough ≤ rounds →
        Checked64.solve next data R params stop ts clock rng collectStats initial fuel rounds
          = some (.ok (some res)))
      ∧ Accepted data res.best ∧ (res.best.isComplete = true ∨ initial = some res.best)
      ∧ ∀ s, initial = some s → s.isFeasible = true → objective s ≤ MAX →
          res.best.isFeasible = true ∧ objective res.best ≤ objective s := by
  obtain ⟨enough, res, h1, h2⟩ := C47_returns_partial data hg C hC hrel hn R params hp next rng stop ts hstop
    clock hclock collectStats initial hinit
  refine ⟨enough, res, fun fuel rounds hf hr' => ?_, h2⟩
  rw [C63_solve data hg hrel hn hC.fits B M n hM hs hr R params hp hpen next rng stop ts clock collectStats
    initial hinit fuel rounds, h1 fuel rounds hf hr']

/-! ## Large numbers -/

set_option maxRecDepth 100000 in
/-- Some bound on the numbers is needed: with distances of a third of the largest 64-bit integer, the first
iteration from an accepted, feasible solution overflows. -/
theorem C63_bound_needed :
    ∃ (data : ProblemData) (params : SolveParams) (init : Solution),
      GoodData data ∧ FitsMemory data ∧ GoodParams .exact params ∧ Accepted data init ∧ init.isFeasible = true
      ∧ Checked64.solve Rng.next data .exact params Criterion.call (.maxIterations 1 0) (fun i => i)
          (Rng.ofSeed 42) true (some init) 10 20 = none := by
  refine ⟨Demo.wideData (MAX / 3), {}, Demo.solutionOf (Demo.wideData (MAX / 3)) (Demo.wideRoutes (MAX / 3)),
    Demo.wideGood, ?_, Demo.defaultParams_good, Demo.wideAccepted, ?_, ?_⟩
  · unfold FitsMemory; decide +kernel
  · decide +kernel
  · rw [← Option.isNone_iff_eq_none]
    decide +kernel

/-! ## Non-vacuity -/

/-- The default penalties, for floating point numbers with a relative error of at most `2 ^ -53`. -/
example (R : Rounding) (hR : ∀ x, 0 ≤ x → R.rnd x ≤ (1 + 1 / 9007199254740992) * x) :
    PenaltiesBelow R (PenaltyParams.maxPenalty {}) 100001 :=
  .of_error (1 / 9007199254740992) (by decide +kernel) (by decide +kernel) hR (by decide +kernel)

namespace Demo

theorem exactPenalties : PenaltiesBelow .exact (PenaltyParams.maxPenalty {}) 100000 :=
  .of_error 0 (by decide +kernel) (by decide +kernel) (fun x _ => by simp [Rounding.exact, Rat.add_zero, Rat.one_mul])
    (by decide +kernel)

theorem moderateSmall : Small moderateData 50 100000 := by constructor <;> decide

theorem moderateRoom : SolveRoom moderateData 50 100000 100 where
  routes := by unfold RoutesWithin; decide
  search := by unfold OperatorRoom; decide
  solutions := by unfold Room; decide

/-- The hypotheses of `C63_solve` are met, for the default parameters, any seed, and any number of iterations
and rounds. -/
example (seed : BitVec 32) (k fuel rounds : Nat) :
    Checked64.solve Rng.next moderateData .exact {} Criterion.call (.maxIterations k 0) (fun i => i)
        (Rng.ofSeed seed) true none fuel rounds
      = some (Solve.solveSeed .exact moderateData {} (.maxIterations k 0) (fun i => i) seed true none fuel rounds) :=
  C63_solve moderateData moderateGood (by decide) (by decide) moderate.fits 50 100000 100 (by decide) moderateSmall
    moderateRoom .exact {} defaultParams_good exactPenalties _ _ _ _ _ _ _ (by simp) _ _

set_option maxRecDepth 100000 in
/-- A run from seed 42 with one iteration, on 64-bit integers. -/
example : (match Checked64.solve Rng.next moderateData .exact {} Criterion.call (.maxIterations 1 0) (fun i => i)
      (Rng.ofSeed 42) true none 10 20 with
    | some (.ok (some r)) => decide (r.best.isFeasible = true ∧ Checked64.resultCost r = some (some 84))
    | _ => false) = true := by decide +kernel

end Demo
end PyVRP
