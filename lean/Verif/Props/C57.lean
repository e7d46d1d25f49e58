import Verif.Lemmas.SearchStatistics
import Verif.Lemmas.Prepared
import Verif.Props.C49
/-!
# C57: the statistics of the local search

`Counted.run` is `LocalSearch.run` with the counters of the code, see `Model/SearchStatistics.lean`.
-/
namespace PyVRP
open Spec

/-! ## Specification -/

namespace Spec

/-- The number of clients and shipments that are in one of the solutions but not in the other. -/
def numChanged (data : ProblemData) (s s' : SSol) : Nat :=
  (allTasks data).countP (fun a => present s' a != present s a)

/-- What the search starts with: the given solution, perturbed unless the search is exhaustive. -/
def Perturbed (data : ProblemData) (ce : CostEvaluator) (ls : LocalSearch) (sol : Solution)
    (exhaustive : Bool) (s : SSol) : Prop :=
  ∃ loaded, ls.sol.load data sol = .ok loaded
    ∧ if exhaustive then s = loaded else ∃ sp, ls.manager.perturb data ce loaded ls.space = .ok ⟨s, sp⟩

end Spec

/-! ## Lemmas -/

variable {data : ProblemData} {ce : CostEvaluator}

theorem statistics_applied (c : Counts) (n : Nat) :
    (c.statistics n).improving = applied c.unary + applied c.binary := rfl

/-- What a call of the local search does, step by step. -/
theorem Counted.run_parts {ls ls' : LocalSearch} {sol sol' : Solution} {exhaustive : Bool} {fuel : Nat}
    {c : Counts} {stats : SearchStats}
    (hr : Counted.run data ce ls sol exhaustive fuel = .ok (some (sol', ls', c, stats))) :
    ∃ st st', ls.prepare data ce sol exhaustive = .ok st
      ∧ Counted.search data ce ls.unaryOps fuel (Counts.init ls.unaryOps ls.binaryOps) st = .ok (some (c, st'))
      ∧ st'.sol.unload data = .ok sol' ∧ ls'.sol = st'.sol ∧ stats = c.statistics st'.numUpdates := by
  unfold Counted.run at hr
  split at hr
  · cases hr
  · rename_i st e
    split at hr
    · cases hr
    · cases hr
    · rename_i c1 st1 e1
      split at hr
      · cases hr
      · rename_i s e2
        cases hr
        exact ⟨st, st1, e, e1, e2, rfl, rfl⟩

/-- The counts at the start. -/
theorem Counted.Tally.start {ls : LocalSearch} {st : LState} (hb : st.binary.length = ls.binaryOps.length) :
    Counted.Tally ls.unaryOps.length ls.binaryOps.length st.numUpdates 0 0
      (Counts.init ls.unaryOps ls.binaryOps) st :=
  ⟨Spec.Chained.init _, Spec.Chained.init _, by simp [Counts.init], by simp [Counts.init], hb, by
    simp only [Counts.init, applied_init, Nat.add_zero]⟩

theorem LState.repair_binary {st st' : LState} {counts counts' : List Nat} {a : Activity}
    (e : repair data ce st counts a = .ok (st', counts')) : st'.binary.length = st.binary.length := by
  have insC : ∀ {k : Nat} {st1 : LState}, insertClient data ce st k = .ok st1 →
      st1.binary.length = st.binary.length := by
    intro k st1 h
    unfold insertClient at h
    split at h
    · cases h
    · split at h
      · cases h
      · dsimp only at h
        split at h
        · cases h
        · cases h; exact Counted.update_binary _ _ _
  unfold repair at e
  split at e
  · split at e
    · split at e
      · cases e
      · rename_i e1; cases e; exact insC e1
    · split at e
      · cases e; rfl
      · unfold repairGroup at e
        split at e
        · split at e
          · cases e
          · rename_i e1; cases e; exact insC e1
        · split at e
          · cases e; rfl
          · split at e
            · cases e; exact Counted.update_binary _ _ _
            · cases e; rfl
  · split at e
    · split at e
      · cases e
      · rename_i e1
        cases e
        unfold insertShipment at e1
        split at e1
        · cases e1
        · split at e1
          · dsimp only at e1
            split at e1
            · cases e1; exact Counted.update_binary _ _ _
            · cases e1
          · cases e1
    · cases e; rfl
  · cases e; rfl

theorem LState.repairAll_binary : ∀ (todo : List Activity) {st st' : LState} {counts counts' : List Nat},
    repairAll data ce st counts todo = .ok (st', counts') → st'.binary.length = st.binary.length
  | [], st, st', counts, counts', e => by cases e; rfl
  | a :: todo, st, st', counts, counts', e => by
    unfold repairAll at e
    split at e
    · cases e
    · rename_i e1
      rw [repairAll_binary todo e, repair_binary e1]

theorem LocalSearch.prepare_binary {ls : LocalSearch} {sol : Solution} {exhaustive : Bool} {st : LState}
    (e : ls.prepare data ce sol exhaustive = .ok st) : st.binary.length = ls.binaryOps.length := by
  unfold LocalSearch.prepare at e
  split at e
  · cases e
  · dsimp only at e
    split at e
    · cases e
    · unfold LState.ensureStructuralFeasibility at e
      split at e
      · cases e
      · rename_i e1
        cases e
        rw [LState.repairAll_binary _ e1]
        simp [LocalSearch.start]

/-- A repair that counts no update changes nothing. -/
theorem LState.repair_still {st st' : LState} {counts counts' : List Nat} {a : Activity}
    (e : repair data ce st counts a = .ok (st', counts')) :
    st.numUpdates < st'.numUpdates ∨ st' = st := by
  unfold repair at e
  split at e
  · split at e
    · split at e
      · cases e
      · rename_i e1; cases e; exact .inl (by rw [insertClient_numUpdates e1]; omega)
    · split at e
      · cases e; exact .inr rfl
      · unfold repairGroup at e
        split at e
        · split at e
          · cases e
          · rename_i e1; cases e; exact .inl (by rw [insertClient_numUpdates e1]; omega)
        · split at e
          · cases e; exact .inr rfl
          · split at e
            · cases e; exact .inl (by rw [update_numUpdates]; exact Nat.lt_succ_self _)
            · cases e; exact .inr rfl
  · split at e
    · split at e
      · cases e
      · rename_i e1; cases e; exact .inl (by rw [insertShipment_numUpdates e1]; omega)
    · cases e; exact .inr rfl
  · cases e; exact .inr rfl

theorem LState.repairAll_still : ∀ (todo : List Activity) {st st' : LState} {counts counts' : List Nat},
    repairAll data ce st counts todo = .ok (st', counts') → st.numUpdates < st'.numUpdates ∨ st' = st
  | [], st, st', counts, counts', e => by cases e; exact .inr rfl
  | a :: todo, st, st', counts, counts', e => by
    unfold repairAll at e
    split at e
    · cases e
    · rename_i e1
      rcases repair_still e1 with h1 | rfl <;> rcases repairAll_still todo e with h2 | rfl
      · exact .inl (Nat.lt_trans h1 h2)
      · exact .inl h1
      · exact .inl h2
      · exact .inr rfl

theorem LState.ensureStructuralFeasibility_still {st st' : LState}
    (e : ensureStructuralFeasibility data ce st = .ok st') (h : st'.numUpdates = 0) : st' = st := by
  unfold ensureStructuralFeasibility at e
  split at e
  · cases e
  · rename_i e1
    cases e
    rcases repairAll_still _ e1 with h1 | h1
    · omega
    · exact h1

theorem SearchSpace.neighbours_bounded (space : SearchSpace) :
    ∃ M, ∀ u ns, space.neighboursOf u = .ok ns → ns.length ≤ M := by
  have h : ∀ l : List (Activity × List Activity), ∃ M, ∀ e ∈ l, e.2.length ≤ M := by
    intro l
    induction l with
    | nil => exact ⟨0, by simp⟩
    | cons e l ih =>
      obtain ⟨M, hM⟩ := ih
      refine ⟨max e.2.length M, fun e' he' => ?_⟩
      rcases List.mem_cons.1 he' with rfl | he'
      · exact Nat.le_max_left _ _
      · exact Nat.le_trans (hM e' he') (Nat.le_max_right _ _)
  obtain ⟨M, hM⟩ := h space.neighbours
  refine ⟨M, fun u ns hns => ?_⟩
  unfold SearchSpace.neighboursOf at hns
  split at hns
  · rename_i entry hf
    cases hns
    exact hM _ (List.mem_of_find?_eq_some hf)
  · cases hns

/-- All that the theorems below need. -/
theorem Counted.run_tally (hg : GoodData data) (hn : ∀ g ∈ data.groups, g.clients.Nodup)
    {ls ls' : LocalSearch} (hls : SearchHistory data ls) {sol sol' : Solution} (hsol : Accepted data sol)
    {exhaustive : Bool} {fuel : Nat} {c : Counts} {stats : SearchStats}
    (hr : Counted.run data ce ls sol exhaustive fuel = .ok (some (sol', ls', c, stats))) {M : Nat}
    (hM : ∀ u ∈ allTasks data, ∀ ns, ls.space.neighboursOf u = .ok ns → ns.length ≤ M) :
    ∃ s st st' plan rounds k l, Perturbed data ce ls sol exhaustive s
      ∧ ls.prepare data ce sol exhaustive = .ok st ∧ LState.Ok data ce plan st
      ∧ LState.search data ce ls.unaryOps fuel st = .ok (some st')
      ∧ ls'.sol = st'.sol ∧ stats = c.statistics st'.numUpdates
      ∧ st.numUpdates = numChanged data s st.sol
      ∧ (exhaustive = true → sol.isComplete = true → st.sol = s)
      ∧ Tally ls.unaryOps.length ls.binaryOps.length st.numUpdates k l c st'
      ∧ rounds ≤ stats.improving + 1
      ∧ (ls.unaryOps ≠ [] ∨ ls.binaryOps ≠ [] → 1 ≤ rounds)
      ∧ k ≤ rounds * (allTasks data).length
      ∧ l ≤ rounds * ((allTasks data).length * (2 * M + ls.space.vehTypeOrder.length))
      ∧ (exhaustive = true → k = rounds * (allTasks data).length) := by
  have hd : Consistent data := ((C37_accepts_exactly_consistent data data).1 hg.made).2
  have hready := hls.ready hg hg.hasVehicle hn
  obtain ⟨plan0, s, st0, e0, hl, hsound, hz, hex, hpert, -⟩ :=
    LocalSearch.prepare_start hg hg.hasVehicle hn hready hsol ce exhaustive
  obtain ⟨plan, st, e, ok, -, -, hN, hT, hall⟩ :=
    LocalSearch.prepare_spec hg hg.hasVehicle hn hready hsol ce exhaustive
  obtain ⟨st1, st', e1, es, -, e3, e4⟩ := Counted.run_parts hr
  rw [e] at e1
  cases e1
  have hsearch := Counted.search_eq (data := data) (ce := ce) ls.unaryOps fuel
    (Counts.init ls.unaryOps ls.binaryOps) st
  rw [es] at hsearch
  have hb := LocalSearch.prepare_binary e
  have ht := Counted.Tally.start hb
  have hcnt := LState.ensureStructuralFeasibility_counts hd hg.hasVehicle hn hsound (e0.symm.trans e)
  rw [hz, Nat.zero_add] at hcnt
  have hp : Perturbed data ce ls sol exhaustive st0.sol := by
    refine ⟨s, hl, ?_⟩
    cases exhaustive with
    | true => exact (hex rfl).1
    | false => exact ⟨_, hpert rfl⟩
  have hsame : exhaustive = true → sol.isComplete = true → st.sol = st0.sol := by
    intro h1 h2
    obtain ⟨-, h3, h4, -⟩ := hex h1
    have := LState.ensureStructuralFeasibility_same hd hn hsound h3 (h4 h2)
    rw [e0, this] at e
    cases e
    rfl
  have himp : stats.improving = applied c.unary + applied c.binary := by rw [e4]; rfl
  unfold Counted.search at es
  split at es
  · rename_i hnone
    cases es
    rw [Bool.and_eq_true, List.isEmpty_iff, List.isEmpty_iff] at hnone
    have hbin : ls.binaryOps = [] := by
      rw [hnone.2] at hb
      exact List.length_eq_zero_iff.1 hb.symm
    refine ⟨st0.sol, st, st, plan, 0, 0, 0, hp, e, ok, hsearch.symm, e3, e4, hcnt, hsame, ht,
      Nat.zero_le _, ?_, by simp, by simp, by simp⟩
    rintro (h | h)
    · exact absurd hnone.1 h
    · exact absurd hbin h
  · obtain ⟨rounds, k, l, b1, b2, b3, b4, b5, b6, t⟩ := Counted.searchLoop_tally (M := M) hd fuel
      (ht.of (st' := { st with completed := false }) rfl rfl) (plan := plan)
      ⟨ok.sol, ok.exclusive, ok.space, ok.self, ok.caches⟩ rfl
      (fun u hu ns hns => hM u hu ns (by rw [← hN]; exact hns)) (Nat.le_refl _) es
    have hnum := t.num
    dsimp only at b2 b4 b5 b6
    rw [hT] at b5
    exact ⟨st0.sol, st, st', plan, rounds, k, l, hp, e, ok, hsearch.symm, e3, e4, hcnt, hsame, t,
      by omega, fun _ => b1, by omega, by omega, fun h => by have := b6 (hall h); omega⟩

/-! ## Theorems -/

/-- **C57.** Counting changes nothing else. -/
theorem C57_counting (data : ProblemData) (ce : CostEvaluator) (ls : LocalSearch) (sol : Solution)
    (exhaustive : Bool) (fuel : Nat) :
    (Counted.run data ce ls sol exhaustive fuel).map (Option.map (fun r => (r.1, r.2.1)))
      = ls.run data ce sol exhaustive fuel := Counted.run_eq ls sol exhaustive fuel

/-- **C57, partial.** The number of updates is the number of improving moves, plus the number of clients
and shipments that had to be inserted or removed to make the solution complete. There are none of the
latter if the given solution is complete and the search exhaustive.

Partial: changes by perturbation are not counted, see `C57_negation_updates`. -/
theorem C57_updates_partial (data : ProblemData) (hg : GoodData data)
    (hn : ∀ g ∈ data.groups, g.clients.Nodup) (ce : CostEvaluator) (ls : LocalSearch)
    (hls : SearchHistory data ls) (sol : Solution) (hsol : Accepted data sol) (exhaustive : Bool)
    (fuel : Nat) (sol' : Solution) (ls' : LocalSearch) (c : Counts) (stats : SearchStats)
    (hr : Counted.run data ce ls sol exhaustive fuel = .ok (some (sol', ls', c, stats))) :
    ∃ s st, Perturbed data ce ls sol exhaustive s ∧ ls.prepare data ce sol exhaustive = .ok st
      ∧ stats.updates = stats.improving + numChanged data s st.sol
      ∧ (exhaustive = true → sol.isComplete = true → stats.updates = stats.improving)
      ∧ stats.improving ≤ stats.updates := by
  obtain ⟨M, hM⟩ := ls.space.neighbours_bounded
  obtain ⟨s, st, st', plan, rounds, k, l, h1, h2, -, -, -, h3, h4, h5, t, -⟩ :=
    Counted.run_tally hg hn hls hsol hr (fun u _ => hM u)
  have hnum := t.num
  have hi : stats.improving = applied c.unary + applied c.binary := by rw [h3]; rfl
  have hu : stats.updates = st'.numUpdates := by rw [h3]; rfl
  refine ⟨s, st, h1, h2, by omega, fun a b => ?_, by omega⟩
  have : numChanged data s st.sol = 0 := by
    unfold numChanged
    rw [h5 a b, List.countP_eq_zero]
    simp
  omega

/-- **C57.** The statistics of the operators, in the order in which the search has them. The search has
evaluated each operator as often as the one before it without applying that one. Its number of moves is
the sum of their evaluations, its number of improving moves the sum of their applications. -/
theorem C57_operators (data : ProblemData) (hg : GoodData data)
    (hn : ∀ g ∈ data.groups, g.clients.Nodup) (ce : CostEvaluator) (ls : LocalSearch)
    (hls : SearchHistory data ls) (sol : Solution) (hsol : Accepted data sol) (exhaustive : Bool)
    (fuel : Nat) (sol' : Solution) (ls' : LocalSearch) (c : Counts) (stats : SearchStats)
    (hr : Counted.run data ce ls sol exhaustive fuel = .ok (some (sol', ls', c, stats))) :
    c.unary.length = ls.unaryOps.length ∧ c.binary.length = ls.binaryOps.length
    ∧ (∃ k, Chained k c.unary) ∧ (∃ l, Chained l c.binary)
    ∧ (∀ s ∈ c.unary ++ c.binary, s.applications ≤ s.evaluations)
    ∧ stats.moves = ((c.unary ++ c.binary).map (·.evaluations)).sum
    ∧ stats.improving = ((c.unary ++ c.binary).map (·.applications)).sum := by
  obtain ⟨M, hM⟩ := ls.space.neighbours_bounded
  obtain ⟨s, st, st', plan, rounds, k, l, -, -, -, -, -, h3, -, -, t, -⟩ :=
    Counted.run_tally hg hn hls hsol hr (fun u _ => hM u)
  refine ⟨t.lenU, t.lenB, ⟨k, t.unary⟩, ⟨l, t.binary⟩, fun s hs => ?_, ?_, ?_⟩
  · rcases List.mem_append.1 hs with hs | hs
    · exact (t.unary.le s hs).1
    · exact (t.binary.le s hs).1
  · rw [h3, List.map_append, List.sum_append]; rfl
  · rw [h3, List.map_append, List.sum_append]; rfl

/-- **C57.** How much is evaluated. The search goes through all clients and shipments in rounds, of which
there is at most one more than there are improving moves. In each it evaluates at most each unary operator
once for each of them, and each binary operator twice for each of the at most `M` neighbours and once for
each vehicle type. If it is exhaustive then it leaves out none of the clients and shipments. -/
theorem C57_effort (data : ProblemData) (hg : GoodData data)
    (hn : ∀ g ∈ data.groups, g.clients.Nodup) (ce : CostEvaluator) (ls : LocalSearch)
    (hls : SearchHistory data ls) (sol : Solution) (hsol : Accepted data sol) (exhaustive : Bool)
    (fuel : Nat) (sol' : Solution) (ls' : LocalSearch) (c : Counts) (stats : SearchStats)
    (hr : Counted.run data ce ls sol exhaustive fuel = .ok (some (sol', ls', c, stats))) (M : Nat)
    (hM : ∀ u ∈ allTasks data, ∀ ns, ls.space.neighboursOf u = .ok ns → ns.length ≤ M) :
    ∃ rounds, rounds ≤ stats.improving + 1
      ∧ (ls.unaryOps ≠ [] ∨ ls.binaryOps ≠ [] → 1 ≤ rounds)
      ∧ stats.moves ≤ rounds * (data.numClients + data.numShipments)
          * (ls.unaryOps.length + (2 * M + data.numVehicleTypes) * ls.binaryOps.length)
      ∧ (exhaustive = true → Chained (rounds * (data.numClients + data.numShipments)) c.unary) := by
  have hT : ls.space.vehTypeOrder.length = data.numVehicleTypes := by
    rw [(hls.types hg hg.hasVehicle hn).length_eq]
    simp [ProblemData.numVehicleTypes]
  obtain ⟨s, st, st', plan, rounds, k, l, -, -, -, -, -, h3, -, -, t, b1, b2, b3, b4, b5⟩ :=
    Counted.run_tally hg hn hls hsol hr hM
  have hlen : (allTasks data).length = data.numClients + data.numShipments := by
    simp [allTasks, ProblemData.numClients, ProblemData.numShipments]
  rw [hlen] at b3 b4 b5
  rw [hT] at b4
  refine ⟨rounds, b1, b2, ?_, fun h => b5 h ▸ t.unary⟩
  have h1 := t.unary.sum_le
  have h2 := t.binary.sum_le
  rw [t.lenU] at h1
  rw [t.lenB] at h2
  have h4 : stats.moves = (c.unary.map (·.evaluations)).sum + (c.binary.map (·.evaluations)).sum := by
    rw [h3]; rfl
  have h5 := Nat.mul_le_mul_right ls.unaryOps.length b3
  have h6 := Nat.mul_le_mul_right ls.binaryOps.length b4
  rw [h4, Nat.mul_add]
  refine Nat.add_le_add (Nat.le_trans h1 h5) (Nat.le_trans h2 (Nat.le_trans h6 (Nat.le_of_eq ?_)))
  simp only [Nat.mul_assoc]

/-- **C57, partial.** The number of improving moves is the number of moves by which the search gets from
the completed solution to the returned one, each of which lowers the penalised cost, or keeps it and
removes a depot.

Partial: as for C25, this is so if all routes are evaluated exactly, see `Moderate`. Without that it is
false, see `C57_negation_improving`. -/
theorem C57_improving_partial (data : ProblemData) (ce : CostEvaluator) (hc : CostOk data ce) (B : Nat)
    (hB : Moderate data B) (hn : ∀ g ∈ data.groups, g.clients.Nodup) (ls : LocalSearch)
    (hls : SearchHistory data ls) (sol : Solution) (hsol : Accepted data sol) (exhaustive : Bool)
    (fuel : Nat) (sol' : Solution) (ls' : LocalSearch) (c : Counts) (stats : SearchStats)
    (hr : Counted.run data ce ls sol exhaustive fuel = .ok (some (sol', ls', c, stats))) :
    ∃ st, ls.prepare data ce sol exhaustive = .ok st
      ∧ Improving data ce st.sol stats.improving ls'.sol := by
  obtain ⟨M, hM⟩ := ls.space.neighbours_bounded
  have hd : Consistent data := ((C37_accepts_exactly_consistent data data).1 hc.good.made).2
  obtain ⟨s, st, st', plan, rounds, k, l, -, h2, ok, hs, hl, h3, -, -, t, -⟩ :=
    Counted.run_tally hc.good hn hls hsol hr (fun u _ => hM u)
  refine ⟨st, h2, ?_⟩
  obtain ⟨r, e5, h5⟩ := LocalSearch.search_spec (ce := ce) hd ls.unaryOps fuel ok
  rw [hs] at e5
  injection e5 with e5
  obtain ⟨plan', run⟩ := h5 st' e5.symm
  obtain ⟨n, steps, hnum⟩ := run.steps
  have := t.num
  have hi : stats.improving = applied c.unary + applied c.binary := by rw [h3]; rfl
  have : n = stats.improving := by omega
  rw [hl, ← this]
  exact (steps.improving ok.sol (hB.exact hc) trivial).2

/-- **C57.** If an exhaustive search counts no update, then it returns the given solution. -/
theorem C57_no_updates (data : ProblemData) (hg : GoodData data)
    (hn : ∀ g ∈ data.groups, g.clients.Nodup) (ce : CostEvaluator) (ls : LocalSearch)
    (hls : SearchHistory data ls) (sol : Solution) (hsol : Accepted data sol) (fuel : Nat)
    (sol' : Solution) (ls' : LocalSearch) (c : Counts) (stats : SearchStats)
    (hr : Counted.run data ce ls sol true fuel = .ok (some (sol', ls', c, stats)))
    (h0 : stats.updates = 0) : Solution.eq sol' sol = true := by
  have hd : Consistent data := ((C37_accepts_exactly_consistent data data).1 hg.made).2
  have hready := hls.ready hg hg.hasVehicle hn
  obtain ⟨M, hM⟩ := ls.space.neighbours_bounded
  obtain ⟨s, st, st', plan, rounds, k, l, -, h2, ok, hs, hl, h3, -, -, t, -⟩ :=
    Counted.run_tally hg hn hls hsol hr (fun u _ => hM u)
  obtain ⟨plan0, s0, st0, e0, hload, -, -, hex, -⟩ :=
    LocalSearch.prepare_start hg hg.hasVehicle hn hready hsol ce true
  obtain ⟨st1, st1', e1, -, hun, hl1, -⟩ := Counted.run_parts hr
  have hu : stats.updates = st'.numUpdates := by rw [h3]; rfl
  obtain ⟨r, e5, h5⟩ := LocalSearch.search_spec (ce := ce) hd ls.unaryOps fuel ok
  rw [hs] at e5
  injection e5 with e5
  obtain ⟨plan', run⟩ := h5 st' e5.symm
  obtain ⟨n, steps, hnum⟩ := run.steps
  have hn0 : n = 0 := by omega
  subst hn0
  have hsame : st'.sol = st.sol := by
    generalize st'.sol = a at steps ⊢
    generalize st.sol = b at steps ⊢
    cases steps
    rfl
  have hst : st = st0 := LState.ensureStructuralFeasibility_still (e0.symm.trans h2) (by omega)
  rw [← hl1, hl, hsame, hst, (hex rfl).1] at hun
  obtain ⟨rplan, routes, hb, hm⟩ := hsol
  obtain ⟨old, hold⟩ := hready.sol
  obtain ⟨s', k1, k2⟩ := SSol.load_spec hg.times hb hn hm hold
  rw [hload] at k1
  cases k1
  have hv := (C13_solution_accepts_exactly_valid data rplan routes hb hn).1.1 ⟨sol, hm⟩
  obtain ⟨routes', k3, k4⟩ := SSol.unload_spec k2 (SSol.loadedPlan_ok hb) hb.reloads
  have hperm := SSol.unloadPlan_perm hb hv
  obtain ⟨sol1, m⟩ := (C13_solution_accepts_exactly_valid data _ routes' k3 hn).1.2 (hv.perm hperm.symm)
  rw [k4, m] at hun
  cases hun
  exact (C17_equal_iff data _ _ _ _ _ _ k3 hb hn m hm).2 hperm

/-! ## Examples -/

namespace Demo

/-- The statistics of a call: evaluations and applications of the unary and of the binary operators, and
the numbers of moves, of improving moves and of updates. -/
def statisticsOf (data : ProblemData) (ce : CostEvaluator) (ls : LocalSearch) (routes : List Route)
    (exhaustive : Bool) (fuel : Nat) : Option (List (Nat × Nat) × List (Nat × Nat) × Nat × Nat × Nat) :=
  match Counted.run data ce ls (solutionOf data routes) exhaustive fuel with
  | .ok (some (_, _, c, stats)) =>
    some (c.unary.map (fun s => (s.evaluations, s.applications)),
      c.binary.map (fun s => (s.evaluations, s.applications)), stats.moves, stats.improving, stats.updates)
  | _ => none

set_option maxRecDepth 100000 in
/-- Five moves improve a complete solution: five updates. -/
theorem moderateStatistics : statisticsOf moderateData costEvaluator moderateSearch moderateRoutes true 20
    = some ([(12, 1), (11, 1)], [(48, 3), (45, 0), (45, 0)], 161, 5, 5) := by decide +kernel

set_option maxRecDepth 100000 in
/-- The perturbation has removed something required, so that there is an update more. -/
example : statisticsOf moderateData costEvaluator moderateSearch moderateRoutes false 20
    = some ([(10, 1), (9, 1)], [(42, 1), (41, 0), (41, 0)], 143, 3, 4) := by decide +kernel

set_option maxRecDepth 100000 in
/-- An empty solution has to be completed. -/
example : statisticsOf moderateData costEvaluator moderateSearch [] true 20
    = some ([(6, 0), (6, 0)], [(31, 0), (31, 0), (31, 0)], 105, 0, 4) := by decide +kernel

def bestRoutes : List Route :=
  match moderateSearch.run moderateData costEvaluator (solutionOf moderateData moderateRoutes) true 20 with
  | .ok (some (sol, _)) => sol.routes
  | _ => []

set_option maxRecDepth 100000 in
/-- Searching the returned solution again changes nothing. -/
example : (statisticsOf moderateData costEvaluator moderateSearch bestRoutes true 20).map (·.2.2)
    = some (105, 0, 0) := by decide +kernel

/-- The hypotheses of the theorems hold here. -/
theorem moderateCounted : ∃ sol' ls' c stats, Counted.run moderateData costEvaluator moderateSearch
      (solutionOf moderateData moderateRoutes) true 20 = .ok (some (sol', ls', c, stats))
    ∧ stats.improving = 5 := by
  have h := moderateStatistics
  unfold statisticsOf at h
  split at h
  · rename_i sol' ls' c stats hr
    refine ⟨sol', ls', c, stats, hr, ?_⟩
    simp only [Option.some.injEq, Prod.mk.injEq] at h
    exact h.2.2.2.1
  · cases h

example : ∃ st ls', moderateSearch.prepare moderateData costEvaluator
      (solutionOf moderateData moderateRoutes) true = .ok st
    ∧ Improving moderateData costEvaluator st.sol 5 (LocalSearch.sol ls') := by
  obtain ⟨sol', ls', c, stats, hr, h5⟩ := moderateCounted
  obtain ⟨st, h1, h2⟩ := C57_improving_partial moderateData costEvaluator moderateCost 100 moderate
    (by decide) moderateSearch moderateHistory _ moderateAccepted true 20 sol' ls' c stats hr
  exact ⟨st, ls', h1, h5 ▸ h2⟩

example : ∃ (stats : SearchStats) (c : Counts) (rounds : Nat), stats.improving = 5 ∧ stats.updates = 5
    ∧ rounds ≤ 6 ∧ Chained (rounds * 6) c.unary ∧ stats.moves ≤ rounds * 6 * (2 + (2 * 5 + 2) * 3) := by
  obtain ⟨sol', ls', c, stats, hr, h5⟩ := moderateCounted
  obtain ⟨s, st, -, -, -, h6, -⟩ := C57_updates_partial moderateData moderateGood (by decide)
    costEvaluator moderateSearch moderateHistory _ moderateAccepted true 20 sol' ls' c stats hr
  obtain ⟨rounds, h7, -, h8, h9⟩ := C57_effort moderateData moderateGood (by decide)
    costEvaluator moderateSearch moderateHistory _ moderateAccepted true 20 sol' ls' c stats hr 5
    (by
      have h : ∀ u ∈ allTasks moderateData, (match moderateSearch.space.neighboursOf u with
        | .ok ns => ns.length | .error _ => 0) ≤ 5 := by decide +kernel
      intro u hu ns hns
      have := h u hu
      rw [hns] at this
      exact this)
  rw [h5] at h7
  have hu : moderateSearch.unaryOps.length = 2 := by decide +kernel
  have hb : moderateSearch.binaryOps.length = 3 := by decide +kernel
  rw [hu, hb] at h8
  exact ⟨stats, c, rounds, h5, (h6 rfl (by decide +kernel)).trans h5, h7, h9 rfl, h8⟩

end Demo

/-- **C57, negation.** The changes by perturbation are not counted among the "changes to the solution":
here the given solution costs 135 and the returned one 58, and the number of updates is zero. -/
theorem C57_negation_updates :
    GoodData Demo.worseData ∧ SearchHistory Demo.worseData (Demo.searchWith Demo.worseData [] [])
    ∧ Accepted Demo.worseData (Demo.solutionOf Demo.worseData Demo.worseRoutes)
    ∧ Demo.warpEvaluator.penalisedCost (Demo.solutionOf Demo.worseData Demo.worseRoutes) = 135
    ∧ ∃ sol' ls' c stats, Counted.run Demo.worseData Demo.warpEvaluator (Demo.searchWith Demo.worseData [] [])
        (Demo.solutionOf Demo.worseData Demo.worseRoutes) false 20 = .ok (some (sol', ls', c, stats))
      ∧ Demo.warpEvaluator.penalisedCost sol' = 58 ∧ stats.updates = 0 := by
  refine ⟨Demo.worseGood, (Demo.searchWith_history ⟨_, rfl⟩ (by simp)).1, Demo.worseAccepted,
    by decide +kernel, ?_⟩
  have h : (match Counted.run Demo.worseData Demo.warpEvaluator (Demo.searchWith Demo.worseData [] [])
        (Demo.solutionOf Demo.worseData Demo.worseRoutes) false 20 with
      | .ok (some (sol', _, _, stats)) => decide (Demo.warpEvaluator.penalisedCost sol' = 58
          ∧ stats.updates = 0)
      | _ => false) = true := by decide +kernel
  split at h
  · rename_i sol' ls' c stats hr
    exact ⟨sol', ls', c, stats, hr, of_decide_eq_true h⟩
  · cases h

set_option maxRecDepth 100000 in
/-- **C57, negation.** An "improving" move may make the solution worse: here there is one, no other
change, and the penalised cost goes from 135 to 145. -/
theorem C57_negation_improving :
    CostOk Demo.worseData Demo.warpEvaluator ∧ SearchHistory Demo.worseData Demo.worseSearch
    ∧ Accepted Demo.worseData (Demo.solutionOf Demo.worseData Demo.worseRoutes)
    ∧ Demo.warpEvaluator.penalisedCost (Demo.solutionOf Demo.worseData Demo.worseRoutes) = 135
    ∧ ∃ sol' ls' c stats, Counted.run Demo.worseData Demo.warpEvaluator Demo.worseSearch
        (Demo.solutionOf Demo.worseData Demo.worseRoutes) true 20 = .ok (some (sol', ls', c, stats))
      ∧ Demo.warpEvaluator.penalisedCost sol' = 145 ∧ stats.improving = 1 ∧ stats.updates = 1 := by
  refine ⟨Demo.warpEvaluator_cost Demo.worseGood rfl,
    (Demo.searchWith_history ⟨_, rfl⟩ (by simp [BinaryOp.Valid])).1, Demo.worseAccepted,
    by decide +kernel, ?_⟩
  have h : (match Counted.run Demo.worseData Demo.warpEvaluator Demo.worseSearch
        (Demo.solutionOf Demo.worseData Demo.worseRoutes) true 20 with
      | .ok (some (sol', _, _, stats)) => decide (Demo.warpEvaluator.penalisedCost sol' = 145
          ∧ stats.improving = 1 ∧ stats.updates = 1)
      | _ => false) = true := by decide +kernel
  split at h
  · rename_i sol' ls' c stats hr
    exact ⟨sol', ls', c, stats, hr, of_decide_eq_true h⟩
  · cases h

end PyVRP
