import Verif.Lemmas.LocalResult
/-!
# C46: what the local search returns
-/
namespace PyVRP
open Spec

/-! ## Lemmas -/

theorem Spec.GoodData.hasVehicle {data : ProblemData} (h : GoodData data) : 0 < data.numVehicles := by
  have hd : Consistent data := ((C37_accepts_exactly_consistent data data).1 h.made).2
  unfold ProblemData.numVehicles
  have hv := h.vehicles
  have hne := hd.hasVehicle
  cases hl : data.vehicleTypes with
  | nil => exact absurd hl hne
  | cons v vs =>
    obtain ⟨args, ha⟩ := hv v (by simp [hl])
    have : 0 < v.numAvailable := by
      rw [(C36_vehicle_fields args v ha).1]
      exact ((C36_vehicle_accepts args).1.1 ⟨v, ha⟩).available
    rw [List.map_cons, List.sum_cons]
    omega

/-- **C46.** Whatever was done before with a local search, calling it on an accepted solution never
raises. It goes on for ever, or it returns an accepted solution that is complete; then it is ready to be
called again. It does not matter which operators it has, which cost evaluator is given and whether the
search is exhaustive. -/
theorem C46_result (data : ProblemData) (hg : GoodData data)
    (hrel : ∀ v ∈ data.vehicleTypes, v.maxReloads ≤ SIZE_MAX) (hn : ∀ g ∈ data.groups, g.clients.Nodup)
    (hfit : FitsMemory data) (ls : LocalSearch) (hls : SearchHistory data ls) (sol : Solution) (hsol : Accepted data sol)
    (ce : CostEvaluator) (exhaustive : Bool) (fuel : Nat) :
    ls.run data ce sol exhaustive fuel = .ok none
    ∨ ∃ sol' ls', ls.run data ce sol exhaustive fuel = .ok (some (sol', ls'))
      ∧ Accepted data sol' ∧ sol'.isComplete = true ∧ SearchHistory data ls' := by
  have hd : Consistent data := ((C37_accepts_exactly_consistent data data).1 hg.made).2
  obtain ⟨plan, st, e, ok, hcomp, -, -⟩ := LocalSearch.prepare_spec hg hg.hasVehicle hn
    (hls.ready hg hg.hasVehicle hn) hsol ce exhaustive
  obtain ⟨r, e2, h2⟩ := LocalSearch.search_spec hd ls.unaryOps fuel ok
  cases r with
  | none => left; unfold LocalSearch.run; rw [e]; dsimp only; rw [e2]
  | some st' =>
    obtain ⟨plan', run⟩ := h2 st' rfl
    obtain ⟨n, steps, -⟩ := run.steps
    obtain ⟨sol', hu, hacc, hc, -⟩ := unload_result hg hrel hn run.ok.sol run.ok.exclusive (hfit.inMemory run.ok.sol)
    have hrun : ls.run data ce sol exhaustive fuel
        = .ok (some (sol', { ls with space := st'.space, sol := st'.sol })) := by
      unfold LocalSearch.run; rw [e]; dsimp only; rw [e2]; dsimp only; rw [hu]
    exact .inr ⟨sol', _, hrun, hacc, hc (steps.complete hcomp), hls.run ce exhaustive fuel hsol hrun⟩

end PyVRP
