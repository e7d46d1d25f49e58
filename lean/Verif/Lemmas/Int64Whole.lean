import Verif.Lemmas.Int64Load
import Verif.Lemmas.Int64Loop
import Verif.Lemmas.Int64Repair
/-!
# A call of the local search does not overflow
-/
namespace PyVRP.Checked64
open Spec Checked

variable {data : ProblemData} {ce : CostEvaluator} {plan : List (List Activity)}
  {B M : Int} {N : Nat} {K : Int}

theorem start_sized (ls : LocalSearch) (s s' : SSol) (sp : SearchSpace) :
    Sized data K { ls.start data s with sol := s', space := sp } := by
  refine ⟨Checked.start_sized ls s s' sp, fun p hp => ?_⟩
  simp only [LocalSearch.start, List.mem_map] at hp
  obtain ⟨op, -, rfl⟩ := hp
  exact (C61_caches data (2 * K) op).1

theorem prepare_eq (hx : Ctx data ce B M N K) (hnv : 0 < data.numVehicles)
    (hn : ∀ g ∈ data.groups, g.clients.Nodup) {ls : LocalSearch} (h : ls.Ready data)
    {sol : Solution} (hsol : Accepted data sol) (exhaustive : Bool) :
    prepare data ce ls sol exhaustive = some (ls.prepare data ce sol exhaustive) := by
  have hg := hx.cost.good
  obtain ⟨rplan, routes, hb, hm⟩ := hsol
  obtain ⟨old, hold⟩ := h.sol
  obtain ⟨s, hl, hso, hex, -, -⟩ := load_result hg hn hb hm hold
  have hcaches : ∀ s', CachesOk data ce s' (ls.binaryOps.map (fun op => (op, op.init data))) := by
    intro s' p hp
    obtain ⟨op, h1, rfl⟩ := List.mem_map.1 hp
    exact ⟨h.ops op h1, BinaryOp.init_ok op data ce s'⟩
  unfold prepare LocalSearch.prepare
  rw [load_eq hx hb hn hm hold, Option.bind_eq_bind, Option.bind_some, hl]
  dsimp only
  cases exhaustive with
  | true =>
    rw [if_pos rfl, if_pos rfl, Option.bind_eq_bind, Option.bind_some]
    dsimp only
    have hsp : SpaceOk data (ls.start data s).space.markAllPromising := by
      refine ⟨?_, h.space.order, h.space.types, h.space.neighbours⟩
      have := h.space.size
      simpa [SearchSpace.markAllPromising, LocalSearch.start, Bitset.size, Bitset.set] using this
    exact ensureStructuralFeasibility_eq hx hnv hn (plan := SSol.loadedPlan data rplan)
      ⟨hso, hsp, h.self, hcaches s⟩ (start_sized ls s _ _)
  | false =>
    obtain ⟨e, s', sp', plan', e', ok, spok, en⟩ := perturb_eq hx hnv ls.manager hso
      (space := ls.space) h.space
    rw [if_neg (by simp), if_neg (by simp),
      show perturb data ce ls.manager (ls.start data s).sol (ls.start data s).space = _ from e,
      show ls.manager.perturb data ce (ls.start data s).sol (ls.start data s).space = _ from e', e',
      Option.bind_eq_bind, Option.bind_some]
    exact ensureStructuralFeasibility_eq hx hnv hn (plan := plan')
      ⟨ok, spok, fun a ns hns => h.self a ns (by
        rw [← hns]; unfold SearchSpace.neighboursOf; rw [en]), hcaches s'⟩ (start_sized ls s _ _)

theorem prepare_sized {ls : LocalSearch} {sol : Solution} {exhaustive : Bool} {st : LState}
    (e : ls.prepare data ce sol exhaustive = .ok st) : Sized data K st := by
  unfold LocalSearch.prepare at e
  split at e
  · cases e
  · dsimp only at e
    rename_i s hs
    have h0 := start_sized (data := data) (K := K) ls s
    split at e
    · cases e
    · unfold LState.ensureStructuralFeasibility at e
      split at e
      · cases e
      · rename_i h1
        injection e with e
        rw [← e]
        exact repairAll_sized _ (h0 _ _) h1

theorem run_eq (hx : Ctx data ce B M N K) (hnv : 0 < data.numVehicles)
    (hn : ∀ g ∈ data.groups, g.clients.Nodup) {ls : LocalSearch} (h : ls.Ready data)
    {sol : Solution} (hsol : Accepted data sol) (exhaustive : Bool) (fuel : Nat) :
    run data ce ls sol exhaustive fuel = some (ls.run data ce sol exhaustive fuel) := by
  have hd := consistent hx.cost
  obtain ⟨plan, st, e, ok, -⟩ := LocalSearch.prepare_spec hx.cost.good hnv hn h hsol ce exhaustive
  obtain ⟨r, e2, h2⟩ := LocalSearch.search_spec hd ls.unaryOps fuel ok
  unfold run LocalSearch.run
  rw [prepare_eq hx hnv hn h hsol, Option.bind_eq_bind, Option.bind_some, e]
  dsimp only
  rw [search_eq hx ls.unaryOps fuel ok (prepare_sized e), Option.bind_eq_bind, Option.bind_some, e2]
  cases r with
  | none => rfl
  | some st' =>
    obtain ⟨plan', run⟩ := h2 st' rfl
    dsimp only
    rw [unload_eq hx.cost hx.dist run.ok.sol, Option.bind_eq_bind, Option.bind_some]
    generalize SSol.unload data st'.sol = x
    cases x <;> rfl

end PyVRP.Checked64
