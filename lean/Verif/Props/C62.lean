import Verif.Lemmas.Int64Whole
/-!
# C62: a call of the local search does not overflow

`PyVRP.Checked64` has, in `Verif/Model/Int64Run.lean`, the whole local search on 64-bit integers: loading a
solution, perturbing it, repairing it, and improving it. The result is `none` if an operation overflows, if
an index is outside of an array, or if an assertion fails.
-/
namespace PyVRP
open Spec

namespace Spec

/-- No route can have more than `n` nodes: at most one for each client, two for each shipment, the start and
the end, and one for each reload. (A vehicle makes one trip more than it may reload.) -/
def RoutesWithin (data : ProblemData) (n : Nat) : Prop :=
  ∀ v ∈ data.vehicleTypes, data.numClients + 2 * data.numShipments + v.maxTrips + 1 ≤ n

end Spec

namespace C62

theorem ctx {data : ProblemData} {ce : CostEvaluator} (hc : CostOk data ce) {B M : Nat} (hM : 1 ≤ M)
    (hs : Small data B M) (hp : SmallPenalties data ce M) {n : Nat} (hr : OperatorRoom data B M n)
    (hn : RoutesWithin data n) : Checked64.Ctx data ce B M n (Checked64.limit data B M n) := by
  have hlong : ∀ vt, vt < data.numVehicleTypes →
      data.numClients + 2 * data.numShipments + (data.vehicleType vt).maxTrips + 1 ≤ n :=
    fun vt hvt => hn _ (mem_vehicleTypes hvt)
  have htwo : 2 ≤ n := by
    have hlt := vehTypeAt_lt data hc.good.hasVehicle
    have h1 := hlong _ hlt
    have h2 : 1 ≤ (data.vehicleType (vehTypeAt data 0)).maxTrips := by
      unfold VehicleType.maxTrips; split <;> omega
    omega
  exact ⟨Checked64.env hc.good hM hs hp (by omega) hr, hc, fun m hm x hx => (hs.distances m hm x hx).1, htwo,
    hlong⟩

end C62

/-- **C62, before improving.** Whatever was done with the local search before, and whatever accepted solution
it is given: nothing overflows while that solution is loaded, perturbed and repaired. The result is that of
exact arithmetic. -/
theorem C62_prepare (data : ProblemData) (ce : CostEvaluator) (hc : CostOk data ce) (B M : Nat) (hM : 1 ≤ M)
    (hs : Small data B M) (hp : SmallPenalties data ce M) (n : Nat) (hr : OperatorRoom data B M n)
    (hn : RoutesWithin data n) (hg : ∀ g ∈ data.groups, g.clients.Nodup)
    (ls : LocalSearch) (hls : SearchHistory data ls) (sol : Solution) (hsol : Accepted data sol)
    (exhaustive : Bool) :
    Checked64.prepare data ce ls sol exhaustive = some (ls.prepare data ce sol exhaustive) :=
  Checked64.prepare_eq (C62.ctx hc hM hs hp hr hn) hc.good.hasVehicle hg
    (hls.ready hc.good hc.good.hasVehicle hg) hsol exhaustive

/-- **C62.** A call of the local search does not overflow, for however many rounds it improves: it returns
the solution, and keeps the state, that it would with exact arithmetic. -/
theorem C62_run (data : ProblemData) (ce : CostEvaluator) (hc : CostOk data ce) (B M : Nat) (hM : 1 ≤ M)
    (hs : Small data B M) (hp : SmallPenalties data ce M) (n : Nat) (hr : OperatorRoom data B M n)
    (hn : RoutesWithin data n) (hg : ∀ g ∈ data.groups, g.clients.Nodup)
    (ls : LocalSearch) (hls : SearchHistory data ls) (sol : Solution) (hsol : Accepted data sol)
    (exhaustive : Bool) (fuel : Nat) :
    Checked64.run data ce ls sol exhaustive fuel = some (ls.run data ce sol exhaustive fuel) :=
  Checked64.run_eq (C62.ctx hc hM hs hp hr hn) hc.good.hasVehicle hg
    (hls.ready hc.good hc.good.hasVehicle hg) hsol exhaustive fuel

/-! ## Large numbers -/

namespace Demo

def wideSearch : LocalSearch := searchWith (wideData (MAX / 3)) [] [.insertOptionalClient]

theorem wideHistory : SearchHistory (wideData (MAX / 3)) wideSearch :=
  (searchWith_history ⟨_, rfl⟩ (by simp [BinaryOp.Valid])).1

theorem wideAccepted : Accepted (wideData (MAX / 3)) (solutionOf (wideData (MAX / 3)) (wideRoutes (MAX / 3))) :=
  accepted_of wideBuilt ⟨_, rfl⟩

end Demo

set_option maxRecDepth 100000 in
/-- Some bound on the numbers is needed: with distances of a third of the largest 64-bit integer, a solution
is loaded and repaired without overflow, but improving it overflows. -/
theorem C62_bound_needed :
    ∃ (data : ProblemData) (ce : CostEvaluator) (ls : LocalSearch) (sol : Solution),
      CostOk data ce ∧ DistancesOk data ∧ RoutesWithin data 5 ∧ SearchHistory data ls ∧ Accepted data sol
      ∧ (Checked64.prepare data ce ls sol true).isSome = true
      ∧ Checked64.run data ce ls sol true 20 = none := by
  refine ⟨_, Demo.lateEvaluator, Demo.wideSearch, _, Demo.wideCost, ?_, ?_, Demo.wideHistory,
    Demo.wideAccepted, ?_, ?_⟩
  · unfold DistancesOk; decide +kernel
  · unfold RoutesWithin; decide +kernel
  · decide +kernel
  · decide +kernel

/-! ## Non-vacuity -/

namespace Demo

theorem againSmall : Small againData 100 1000 := by constructor <;> decide

theorem againPenalties : SmallPenalties againData againEvaluator 1000 where
  dims := by decide
  loads := by
    intro f hf x hx
    simp only [againEvaluator, List.mem_cons, List.not_mem_nil, or_false] at hf
    subst hf
    simp only [ratPenalty]
    rw [Int.tdiv_eq_ediv_of_nonneg (by omega)]
    omega
  tw := by
    intro x hx
    simp only [againEvaluator, ratPenalty]
    rw [Int.tdiv_eq_ediv_of_nonneg (by omega)]
    omega
  dist := by
    intro x hx
    simp only [againEvaluator, ratPenalty]
    rw [Int.tdiv_eq_ediv_of_nonneg (by omega)]
    omega

set_option maxRecDepth 100000 in
/-- The hypotheses of `C62_run` are met, and the search changes the solution: clients 0 and 1 were
visited, and now clients 1 and 2 are. -/
example : (Checked64.run againData againEvaluator againSearch (solutionOf againData againRoutes) true 20).map
      (fun r => match r with
        | .ok (some (sol, _)) => sol.routes.map (fun r => r.schedule.map (·.activity))
        | _ => []) = some [[depot 0, client 2, depot 0], [depot 1, client 1, depot 1]] := by
  rw [C62_run againData againEvaluator againCost 100 1000 (by decide) againSmall againPenalties 100
    (by unfold OperatorRoom; decide) (by unfold RoutesWithin; decide) (by decide) againSearch againHistory _
    againAccepted true 20]
  decide +kernel

/-- The hypotheses of `C62_prepare` are met, when clients and a shipment must be inserted. -/
example (exhaustive : Bool) : ∃ plan st,
    Checked64.prepare data costEvaluator (searchWith data [] []) (solutionOf data []) exhaustive = some (.ok st)
    ∧ SearchOk data plan st.sol ∧ Visited plan (client 0) ∧ Visited plan (pickup 0) := by
  have hls : SearchHistory data (searchWith data [] []) := (searchWith_history ⟨_, rfl⟩ (by simp)).1
  have hsol : Accepted data (solutionOf data []) :=
    accepted_of (plan := []) (by refine ⟨?_, ?_, ?_, ?_⟩ <;> decide) ⟨_, rfl⟩
  obtain ⟨plan, st, e, ok, cp, -⟩ := LocalSearch.prepare_spec goodData goodData.hasVehicle (by decide)
    (hls.ready goodData goodData.hasVehicle (by decide)) hsol costEvaluator exhaustive
  refine ⟨plan, st, ?_, ok.sol, cp.clients 0 (by decide) rfl, cp.shipments 0 (by decide) rfl⟩
  rw [C62_prepare data costEvaluator costOk 50 1000 (by decide) (by constructor <;> decide) smallPenalties 100
    (by unfold OperatorRoom; decide) (by unfold RoutesWithin; decide) (by decide) _ hls _ hsol, e]

end Demo
end PyVRP
