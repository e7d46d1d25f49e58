import Verif.Props.C47
import Verif.Props.C49
/-!
# C47: what a run of `solve` starts from
-/
namespace PyVRP
open Spec

variable {σ τ : Type}

theorem LocalSearch.shuffle_ops (next : σ → Nat × σ) (rng : σ) (ls : LocalSearch) :
    (∀ op, op ∈ (ls.shuffle next rng).1.unaryOps ↔ op ∈ ls.unaryOps)
    ∧ (∀ op, op ∈ (ls.shuffle next rng).1.binaryOps ↔ op ∈ ls.binaryOps)
    ∧ ∀ u, (ls.shuffle next rng).1.space.neighboursOf u = ls.space.neighboursOf u :=
  ⟨fun _ => (shuffle_perm next _ ls.unaryOps).mem_iff, fun _ => (shuffle_perm next _ ls.binaryOps).mem_iff,
    fun _ => rfl⟩

/-- **C47, partial.** Without an initial solution, a run of `solve` starts from a solution that is no worse
than a random one and locally optimal, for the largest penalties: no move of an operator that was added lowers
its penalised cost, in the sense of C49. The result of the run is not worse than this solution if it is
feasible. Partial: as for C49, and only for instances with moderate numbers. -/
theorem C47_start_partial (data : ProblemData) (hg : GoodData data) (B : Nat) (hB : Moderate data B)
    (hrel : ∀ v ∈ data.vehicleTypes, v.maxReloads ≤ SIZE_MAX) (hn : ∀ g ∈ data.groups, g.clients.Nodup)
    (R : Rounding) (params : SolveParams) (hp : GoodParams R params)
    (next : σ → Nat × σ) (rng : σ) (stop : τ → Int → τ × Bool) (ts : τ)
    (hstop : ∀ least, Stops stop least ts) (clock : Nat → Int)
    (hclock : ∀ i j, i ≤ j → clock i ≤ clock j) (collectStats : Bool) :
    ∃ ls ce random, Solve.makeSearch R data params = .ok ls
      ∧ (Solve.makePenalties R data params).maxCostEvaluator R = .ok ce
      ∧ Solution.makeRandom next data rng = .ok random
      ∧ ∃ enough init s plan res, (∀ fuel rounds, enough ≤ fuel → enough ≤ rounds →
          Solve.solve next R data params stop ts clock rng collectStats none fuel rounds = .ok (some res))
        ∧ ce.penalisedCost init ≤ ce.penalisedCost random
        ∧ SearchState data plan s ∧ SSol.unload data s = .ok init
        ∧ ce.penalisedCost init = ce.penalisedCostSSol data s
        ∧ (∀ u ∈ allTasks data, ∀ ns, ls.space.neighboursOf u = .ok ns →
            Unimprovable data ce ls.unaryOps ls.binaryOps plan s u
              (fun v => (∃ acts ∈ plan, u ∈ acts) ∧ Candidate ns plan v))
        ∧ (init.isFeasible = true → objective init ≤ MAX →
            res.best.isFeasible = true ∧ objective res.best ≤ objective init) := by
  obtain ⟨ls, e, h⟩ := Solve.makeSearch_spec (data := data) hp
  have hpm := Solve.makePenalties_ok (data := data) hp
  have hd : Consistent data := ((C37_accepts_exactly_consistent data data).1 hg.made).2
  obtain ⟨plan, routes, random, er, hb, -, hm, hcomp, -⟩ := C18_random_valid_complete next rng data hd hn
    (Solve.numAvailable_pos hg) hrel (by
      obtain ⟨v, hv⟩ := List.exists_mem_of_ne_nil _ hd.hasVehicle
      have := hB.fits v hv
      dsimp only [ProblemData.numClients, ProblemData.numShipments] at this
      omega)
  obtain ⟨ce, hce, hv, hl⟩ := hpm.maxEvaluator
  have hacc : Accepted data random := ⟨plan, routes, hb, hm⟩
  have hsh := h.shuffle next (Solution.randomPlan next data rng).2.2
  obtain ⟨F1, st, init, ls', hF1, -, h1, -, -, h4⟩ := C25_cost_partial data ce ⟨hg, hv, hl⟩ B hB hrel hn _
    hsh random hacc true
  obtain ⟨plan', k1, k2, k3, k4⟩ := C49_optimal_partial data ce ⟨hg, hv, hl⟩ B hB hrel hn _ hsh random hacc F1
    init ls' (hF1 F1 (Nat.le_refl _))
  have hls' : SearchHistory data ls' := .run ce true F1 hsh hacc (hF1 F1 (Nat.le_refl _))
  obtain ⟨F2, res, hF2, -, h6⟩ := Solve.runAlgorithm_stops (params := params) hg hB hrel hn next hstop
    hclock h1 hpm hls' (ls.shuffle next (Solution.randomPlan next data rng).2.2).2 collectStats
  refine ⟨ls, ce, random, e, hce, er, max F1 F2, init, ls'.sol, plan', res, fun fuel rounds hf hr => ?_,
    h4 rfl hcomp, k1, k2, k3, fun u hu ns hns => ?_, h6⟩
  · unfold Solve.solve
    rw [e]
    dsimp only
    have : Solve.initialSolution next R data (Solve.makePenalties R data params) ls rng none rounds
        = .ok (some (init, ls', (ls.shuffle next (Solution.randomPlan next data rng).2.2).2)) := by
      unfold Solve.initialSolution
      dsimp only
      rw [er]
      dsimp only
      rw [hce]
      dsimp only
      rw [Solve.call_eq, hF1 rounds (by omega)]
    rw [this]
    exact hF2 fuel rounds (by omega) (by omega)
  · obtain ⟨s1, s2, s3⟩ := ls.shuffle_ops next (Solution.randomPlan next data rng).2.2
    obtain ⟨a1, a2, a3, a4⟩ := k4 u hu ns (by rw [s3]; exact hns)
    exact ⟨fun op hop => a1 op ((s1 op).2 hop), fun hop => a2 ((s1 _).2 hop),
      fun op hop => a3 op ((s2 op).2 hop), fun op hop => a4 op ((s2 op).2 hop)⟩

/-! ## Non-vacuity -/

namespace Demo

/-- The default parameters, from any seed: the search begins with a local optimum. -/
example (seed : BitVec 32) : ∃ ls ce s plan, Solve.makeSearch .exact moderateData {} = .ok ls
    ∧ UnaryOp.removeOptionalClient ∈ ls.unaryOps ∧ BinaryOp.swapTails ∈ ls.binaryOps
    ∧ SearchState moderateData plan s
    ∧ ∀ u ∈ allTasks moderateData, ∀ ns, ls.space.neighboursOf u = .ok ns →
        Unimprovable moderateData ce ls.unaryOps ls.binaryOps plan s u
          (fun v => (∃ acts ∈ plan, u ∈ acts) ∧ Candidate ns plan v) := by
  obtain ⟨ls, ce, _, h1, -, -, _, _, s, plan, _, -, -, h2, -, -, h3, -⟩ := C47_start_partial moderateData
    moderateGood _ moderate (by decide) (by decide) .exact {} defaultParams_good Rng.next (Rng.ofSeed seed)
    Criterion.call (.maxIterations 3 0) (fun least => (C47_criteria least).1 3 _ rfl) (fun i => i)
    (fun i j h => Int.ofNat_le.2 h) true
  have h : (match Solve.makeSearch .exact moderateData {} with
      | .ok ls => decide (UnaryOp.removeOptionalClient ∈ ls.unaryOps ∧ BinaryOp.swapTails ∈ ls.binaryOps)
      | .error _ => false) = true := by decide +kernel
  rw [h1] at h
  obtain ⟨g1, g2⟩ := of_decide_eq_true h
  exact ⟨ls, ce, s, plan, h1, g1, g2, h2, h3⟩

end Demo
end PyVRP
