import Verif.Lemmas.CheckedLoad
import Verif.Lemmas.LocalResult
/-!
# No assertion fails in a call of the local search
-/
namespace PyVRP.Checked
open Spec

variable {data : ProblemData} {ce : CostEvaluator} {plan : List (List Activity)}

theorem perturb_eq (hco : CostOk data ce) (hdist : DistancesOk data) (hnv : 0 < data.numVehicles)
    (m : PerturbationManager) {s : SSol} (h : SearchOk data plan s) {space : SearchSpace}
    (hspace : SpaceOk data space) :
    perturb data ce m s space = some (m.perturb data ce s space)
    ∧ ∃ s' space' plan', m.perturb data ce s space = .ok ⟨s', space'⟩ ∧ SearchOk data plan' s'
      ∧ SpaceOk data space' ∧ space'.neighbours = space.neighbours := by
  unfold perturb PerturbationManager.perturb
  by_cases h0 : m.numPerturbations = 0
  · rw [if_pos h0, if_pos h0]
    exact ⟨rfl, _, _, _, rfl, h, hspace, rfl⟩
  · rw [if_neg h0, if_neg h0]
    have hsp : SpaceOk data space.unmarkAllPromising := by
      refine ⟨?_, hspace.order, hspace.types, hspace.neighbours⟩
      have := hspace.size
      simpa [SearchSpace.unmarkAllPromising, Bitset.size, Bitset.reset] using this
    have hsized := h.clean.1.sized
    have hgrp : PerturbationManager.Grouped data plan []
        (Bitset.new (s.clients.length + s.shipments.length)) [] := by
      rw [hsized.clients, hsized.shipments]
      refine ⟨?_, ?_, by simp [PerturbationManager.nodesOf], by simp [PerturbationManager.nodesOf],
        by simp [PerturbationManager.nodesOf], by simp⟩
      · exact (C34_new _).1
      · intro a ha
        have h1 := (C34_new (data.numClients + data.numShipments)).2.2.2 (PerturbationManager.bitAt data a)
        have h2 := (C34_new (data.numClients + data.numShipments)).1
        have h3 := PerturbationManager.bitAt_lt ha
        rw [if_pos (by omega)] at h1
        unfold Bitset.getItem at h1
        rw [if_neg (by omega)] at h1
        injection h1 with h1
        rw [h1]
        simp [PerturbationManager.nodesOf]
    have hall : ∀ a ∈ space.unmarkAllPromising.activityOrder, a ∈ allTasks data :=
      fun a ha => hsp.order.mem_iff.1 ha
    obtain ⟨st', plan', T, e, g, s', -⟩ := PerturbationManager.perturbLoop_spec hnv ce
      space.unmarkAllPromising.activityOrder m.numPerturbations _ ⟨s, space.unmarkAllPromising⟩
      (Bitset.new (s.clients.length + s.shipments.length)) [] ⟨h.clean, h.routes, hsp⟩ hall hgrp
    refine ⟨perturbLoop_eq hco hdist hnv _ _ plan _ _ [] ⟨h.clean, h.routes, hsp⟩ hall hgrp, ?_⟩
    obtain ⟨sol', space'⟩ := st'
    exact ⟨sol', space', plan', e, ⟨g.clean, g.routes⟩, g.space, s'.grows.neighbours⟩

theorem start_sized (ls : LocalSearch) (s s' : SSol) (sp : SearchSpace) :
    Sized data { ls.start data s with sol := s', space := sp } := by
  refine ⟨by simp [LocalSearch.start], by simp [LocalSearch.start], fun p hp => ?_⟩
  simp only [LocalSearch.start, List.mem_map] at hp
  obtain ⟨op, -, rfl⟩ := hp
  simp [BinaryOp.init]

theorem prepare_eq (hco : CostOk data ce) (hdist : DistancesOk data) (hnv : 0 < data.numVehicles)
    (hn : ∀ g ∈ data.groups, g.clients.Nodup) {ls : LocalSearch} (h : ls.Ready data)
    {sol : Solution} (hsol : Accepted data sol) (exhaustive : Bool) :
    prepare data ce ls sol exhaustive = some (ls.prepare data ce sol exhaustive) := by
  have hg := hco.good
  obtain ⟨rplan, routes, hb, hm⟩ := hsol
  obtain ⟨old, hold⟩ := h.sol
  obtain ⟨s, hl, hso, hex, -, -⟩ := load_result hg hn hb hm hold
  have hcaches : ∀ s', CachesOk data ce s' (ls.binaryOps.map (fun op => (op, op.init data))) := by
    intro s' p hp
    obtain ⟨op, h1, rfl⟩ := List.mem_map.1 hp
    exact ⟨h.ops op h1, BinaryOp.init_ok op data ce s'⟩
  unfold prepare LocalSearch.prepare
  rw [load_eq hg hb hn hm hold, Option.bind_eq_bind, Option.bind_some, hl]
  dsimp only
  cases exhaustive with
  | true =>
    rw [if_pos rfl, if_pos rfl, Option.bind_eq_bind, Option.bind_some]
    dsimp only
    have hsp : SpaceOk data (ls.start data s).space.markAllPromising := by
      refine ⟨?_, h.space.order, h.space.types, h.space.neighbours⟩
      have := h.space.size
      simpa [SearchSpace.markAllPromising, LocalSearch.start, Bitset.size, Bitset.set] using this
    exact ensureStructuralFeasibility_eq hco hdist hnv hn (plan := SSol.loadedPlan data rplan)
      ⟨hso, hsp, h.self, hcaches s⟩ (start_sized ls s _ _)
  | false =>
    obtain ⟨e, s', sp', plan', e', ok, spok, en⟩ := perturb_eq hco hdist hnv ls.manager hso
      (space := ls.space) h.space
    rw [if_neg (by simp), if_neg (by simp),
      show perturb data ce ls.manager (ls.start data s).sol (ls.start data s).space = _ from e,
      show ls.manager.perturb data ce (ls.start data s).sol (ls.start data s).space = _ from e', e',
      Option.bind_eq_bind, Option.bind_some]
    exact ensureStructuralFeasibility_eq hco hdist hnv hn (plan := plan')
      ⟨ok, spok, fun a ns hns => h.self a ns (by
        rw [← hns]; unfold SearchSpace.neighboursOf; rw [en]), hcaches s'⟩ (start_sized ls s _ _)

theorem unload_eq (hco : CostOk data ce) (hdist : DistancesOk data) {s : SSol} (h : SearchOk data plan s) :
    unload data s = some (s.unload data) := by
  unfold unload
  rw [mapM_eq (g := fun _ => ())]
  · rfl
  · intro r hr
    obtain ⟨i, hi, rfl⟩ := List.mem_iff_getElem.1 hr
    have hi' : i < data.numVehicles := by rw [← h.clean.1.sized.routes]; exact hi
    have hri : s.route i = s.routes[i] := by
      unfold SSol.route
      rw [List.getD_eq_getElem?_getD, List.getElem?_eq_getElem hi]; rfl
    have hs := sound_route hco hdist h hi'
    rw [hri] at hs
    rw [empty_eq hs, Option.bind_eq_bind, Option.bind_some, ensure_true hs.size]

theorem run_eq {I : List (List Activity) → Prop} (he : Exact data ce I) (hdist : DistancesOk data) (hnv : 0 < data.numVehicles)
    (hn : ∀ g ∈ data.groups, g.clients.Nodup) {ls : LocalSearch} (h : ls.Ready data)
    {sol : Solution} (hsol : Accepted data sol) (exhaustive : Bool) (fuel : Nat)
    (hI : ∀ plan st, ls.prepare data ce sol exhaustive = .ok st → SearchOk data plan st.sol → I plan) :
    run data ce ls sol exhaustive fuel = some (ls.run data ce sol exhaustive fuel) := by
  have hco := he.cost
  have hd := consistent hco
  obtain ⟨plan, st, e, ok, -⟩ := LocalSearch.prepare_spec hco.good hnv hn h hsol ce exhaustive
  obtain ⟨r, e2, h2⟩ := LocalSearch.search_spec hd ls.unaryOps fuel ok
  unfold run LocalSearch.run
  rw [prepare_eq hco hdist hnv hn h hsol, Option.bind_eq_bind, Option.bind_some, e]
  dsimp only
  rw [search_eq he hd hdist ls.unaryOps fuel ok (hI plan st e ok.sol) (prepare_sized e), Option.bind_eq_bind, Option.bind_some, e2]
  cases r with
  | none => rfl
  | some st' =>
    obtain ⟨plan', run⟩ := h2 st' rfl
    dsimp only
    rw [unload_eq hco hdist run.ok.sol, Option.bind_eq_bind, Option.bind_some]
    generalize SSol.unload data st'.sol = x
    cases x <;> rfl

end PyVRP.Checked
