import Verif.Props.C28
/-!
# C29: restart and late acceptance
# C30 (continued): number of iterations of a run
# C42: statistics
-/
namespace PyVRP
open Spec Ils
variable {σ τ : Type}

namespace Spec

/-- What an observer sees in the calls of the callbacks: the number of iterations since the last new
best solution or restart. The flag says that a new best was reported in the current iteration. -/
def countStep : Nat × Bool → IlsEvent → Nat × Bool
  | _, .onStart => (0, false)
  | _, .onRestart _ => (0, false)
  | _, .onBest _ => (0, true)
  | (n, newBest), .onIteration _ _ _ _ => if newBest then (0, false) else (n + 1, false)

/-- The number of iterations without a new best since the last new best or restart. -/
def withoutImprovement (events : List IlsEvent) : Nat := (events.foldl countStep (0, false)).1

/-- The last candidate and the last evaluator reported. -/
def lastCandidate (events : List IlsEvent) : Option (Solution × CostEvaluator) :=
  match events.getLast? with
  | some (.onIteration _ cand _ ce) => some (cand, ce)
  | _ => none

/-- The solution that a candidate is compared with: the one remembered `n` iterations ago, or the initial
solution if there are fewer iterations since the last restart. -/
def lateSolution (n : Nat) (init : Solution) (remembered : List Solution) : Solution :=
  (stored n remembered).getD init

/-- Which solution an iteration adds to those remembered: the current solution, unless the one of `n`
iterations ago is as good. -/
def remember (n : Nat) (init : Solution) (ce : CostEvaluator) (remembered : List Solution)
    (curr : Solution) : Solution :=
  if remembered.length < n then curr
  else if ce.penalisedCost curr < ce.penalisedCost (lateSolution n init remembered) then curr
  else lateSolution n init remembered

/-- `Remembers env s l`: `s` occurs at the top of the loop, and `l` lists what each iteration since the last
restart has remembered, according to the description in the documentation. -/
inductive Remembers (env : IlsEnv σ τ) (pm : PenaltyManager) (ss : σ) (ts : τ) (cs : Bool) :
    IlsState σ τ → List Solution → Prop
  | start {s} : start env pm ss ts cs = .ok s → Remembers env pm ss ts cs s []
  | step {s s' l cand ce} : Remembers env pm ss ts cs s l →
      iteration env { s with stopState := (env.stop s.stopState (s.costEval.cost s.best)).1 } = .ok s' →
      lastCandidate s'.events = some (cand, ce) →
      Remembers env pm ss ts cs s'
        (let l := if (withoutImprovement s.events : Int) = env.params.numItersNoImprovement then [] else l
         l ++ [remember env.params.historyLength.toNat env.init ce l s'.curr])

end Spec

theorem countStep_append (a b : List IlsEvent) (x : Nat × Bool) :
    (a ++ b).foldl countStep x = b.foldl countStep (a.foldl countStep x) := List.foldl_append

/-- The counter of the code is the observer's. -/
theorem iteration_count {env : IlsEnv σ τ} {s s' : IlsState σ τ}
    (hc : s.events.foldl countStep (0, false) = (s.itersNoImprovement, false))
    (h : iteration env s = .ok s') :
    s'.events.foldl countStep (0, false) = (s'.itersNoImprovement, false) ∧
    (s'.itersNoImprovement = 0 ∨
      s'.itersNoImprovement
        = (if (s.itersNoImprovement : Int) = env.params.numItersNoImprovement then 0
           else s.itersNoImprovement) + 1) := by
  obtain ⟨ce, pm', _, _, rfl⟩ := iteration_ok h
  have hr : (restart env s).events.foldl countStep (0, false) = ((restart env s).itersNoImprovement, false) ∧
      (restart env s).itersNoImprovement
        = (if (s.itersNoImprovement : Int) = env.params.numItersNoImprovement then 0
           else s.itersNoImprovement) := by
    simp only [restart]
    split
    · simp [countStep_append, countStep]
    · exact ⟨hc, rfl⟩
  dsimp only
  generalize env.search (restart env s).searchState (restart env s).curr ce false = call
  generalize hs2 : ({ restart env s with costEval := ce, searchState := call.1, pm := pm' } : IlsState σ τ) = s2
  have h2 : s2.events.foldl countStep (0, false) = (s2.itersNoImprovement, false) ∧
      s2.itersNoImprovement = (if (s.itersNoImprovement : Int) = env.params.numItersNoImprovement then 0
           else s.itersNoImprovement) := by rw [← hs2]; exact hr
  rw [(accept_best env _ _).2.2.2.2.2.2.2.2.1, (accept_best env _ _).2.2.2.2.2.2.1, countStep_append, ← h2.2]
  rcases updateBest_cases env s2 call.2 with ⟨_, h⟩ | ⟨_, _, h⟩ | ⟨_, _, _, h⟩ | ⟨_, _, _, h⟩ <;> rw [h]
  · simp [h2.1, countStep]
  · simp [countStep_append, countStep]
  · simp [countStep_append, countStep]
  · simp [countStep_append, countStep]

theorem reachable_count {env : IlsEnv σ τ} {pm : PenaltyManager} {ss : σ} {ts : τ} {cs : Bool}
    {s : IlsState σ τ} (h : Reachable env pm ss ts cs s) :
    s.events.foldl countStep (0, false) = (s.itersNoImprovement, false) ∧
    (1 ≤ env.params.numItersNoImprovement → (s.itersNoImprovement : Int) ≤ env.params.numItersNoImprovement) := by
  induction h with
  | start h =>
    simp only [start] at h
    split at h
    · cases h
    · cases h; exact ⟨rfl, fun h => by simpa using (by omega : (0:Int) ≤ _)⟩
  | step _ _ h ih =>
    rename_i s1 s2 _ _
    have := iteration_count (s := { s1 with stopState := (env.stop s1.stopState (s1.costEval.cost s1.best)).1 })
      ih.1 h
    refine ⟨this.1, fun h1 => ?_⟩
    have h2 := ih.2 h1
    dsimp only at this
    rcases this.2 with h3 | h3
    · omega
    · split at h3 <;> omega

/-- **C29.** When `num_iters_no_improvement` is positive, the next iteration starts with a restart (reported to
the callbacks, with the best solution) exactly if that many iterations have passed since the last new best
or restart, and never more than that many pass. -/
theorem C29_restart (env : IlsEnv σ τ) (pm : PenaltyManager) (ss : σ) (ts : τ) (cs : Bool)
    (s s' : IlsState σ τ) (hr : Reachable env pm ss ts cs s)
    (h : iteration env { s with stopState := (env.stop s.stopState (s.costEval.cost s.best)).1 } = .ok s') :
    (1 ≤ env.params.numItersNoImprovement →
      (withoutImprovement s.events : Int) ≤ env.params.numItersNoImprovement) ∧
    ((withoutImprovement s.events : Int) = env.params.numItersNoImprovement →
      ∃ rest, s'.events = s.events ++ .onRestart s.best :: rest ∧ ∀ b, .onRestart b ∉ rest) ∧
    ((withoutImprovement s.events : Int) ≠ env.params.numItersNoImprovement →
      ∃ rest, s'.events = s.events ++ rest ∧ ∀ b, .onRestart b ∉ rest) := by
  have hc := reachable_count hr
  have hw : withoutImprovement s.events = s.itersNoImprovement := by simp [withoutImprovement, hc.1]
  obtain ⟨ce, pm', _, _, he⟩ := iteration_ok h
  generalize hs0 : ({ s with stopState := _ } : IlsState σ τ) = s0 at he
  have hn0 : s0.itersNoImprovement = s.itersNoImprovement := by rw [← hs0]
  have he0 : s0.events = s.events := by rw [← hs0]
  have hb0 : s0.best = s.best := by rw [← hs0]
  -- the events after the restart
  have htail : ∃ rest, s'.events = (restart env s0).events ++ rest ∧ ∀ b, .onRestart b ∉ rest := by
    rw [he]
    dsimp only
    generalize env.search (restart env s0).searchState (restart env s0).curr ce false = call
    generalize hs2 : ({ restart env s0 with costEval := ce, searchState := call.1, pm := pm' } : IlsState σ τ) = s2
    have h2 : s2.events = (restart env s0).events := by rw [← hs2]
    rw [(accept_best env _ _).2.2.2.2.2.2.2.2.1, ← h2]
    rcases updateBest_cases env s2 call.2 with ⟨_, h⟩ | ⟨_, _, h⟩ | ⟨_, _, _, h⟩ | ⟨_, _, _, h⟩ <;> rw [h]
    · exact ⟨_, rfl, by simp⟩
    all_goals
      refine ⟨_, List.append_assoc _ _ _, by simp⟩
  rw [hw]
  refine ⟨hc.2, fun heq => ?_, fun hne => ?_⟩
  · obtain ⟨rest, h1, h2⟩ := htail
    refine ⟨rest, ?_, h2⟩
    rw [h1]
    simp only [restart, hn0, heq, if_true, he0, hb0]
    simp
  · obtain ⟨rest, h1, h2⟩ := htail
    refine ⟨rest, ?_, h2⟩
    rw [h1]
    simp only [restart, hn0, hne, if_false, he0]

/-- **C29**, corner case: with `num_iters_no_improvement = 0` the counter starts at the limit and then passes it,
so that there is one restart in the first iteration and no other one until a new best is found. -/
theorem C29_zero (env : IlsEnv σ τ) (pm : PenaltyManager) (ss : σ) (ts : τ) (cs : Bool)
    (h0 : env.params.numItersNoImprovement = 0) (s s' : IlsState σ τ) (hr : Reachable env pm ss ts cs s)
    (h : iteration env { s with stopState := (env.stop s.stopState (s.costEval.cost s.best)).1 } = .ok s')
    (hn : 0 < withoutImprovement s.events) :
    ∃ rest, s'.events = s.events ++ rest ∧ ∀ b, .onRestart b ∉ rest :=
  (C29_restart env pm ss ts cs s s' hr h).2.2 (by rw [h0]; omega)

theorem stored_map {α : Type} (n : Nat) (l : List α) :
    (stored n (l.map some)).join = stored n l := by
  unfold stored
  simp only [List.length_map, List.getElem?_map]
  split
  · rfl
  · cases l[l.length - n]? <;> rfl

/-- One iteration, with the record of what has been remembered. -/
theorem iteration_late {env : IlsEnv σ τ} {s s' : IlsState σ τ} {l : List Solution}
    (hlen : 0 < env.params.historyLength)
    (hc : s.events.foldl countStep (0, false) = (s.itersNoImprovement, false))
    (hh : RingBuffer.Holds env.params.historyLength.toNat s.history (l.map some))
    (h : iteration env s = .ok s') :
    ∃ cand ce, lastCandidate s'.events = some (cand, ce) ∧
      let restarts := (withoutImprovement s.events : Int) = env.params.numItersNoImprovement
      let base := if restarts then s.best else s.curr
      let remembered := if restarts then [] else l
      let late := lateSolution env.params.historyLength.toNat env.init remembered
      let found := env.search s.searchState base ce false
      (cand = found.2 ∨ cand = (env.search found.1 found.2 ce true).2) ∧
      s'.curr = (if ce.penalisedCost cand < ce.penalisedCost late ∨ ce.penalisedCost cand < ce.penalisedCost base
                 then cand else base) ∧
      RingBuffer.Holds env.params.historyLength.toNat s'.history
        ((remembered ++ [remember env.params.historyLength.toNat env.init ce remembered s'.curr]).map some) := by
  have hw : withoutImprovement s.events = s.itersNoImprovement := by simp [withoutImprovement, hc]
  obtain ⟨ce, pm', _, _, rfl⟩ := iteration_ok h
  have hn : 0 < env.params.historyLength.toNat := by omega
  have hrb : (restart env s).curr
      = (if (withoutImprovement s.events : Int) = env.params.numItersNoImprovement then s.best else s.curr) := by
    rw [hw]; simp only [restart]; split <;> rfl
  have hrs : (restart env s).searchState = s.searchState := by simp only [restart]; split <;> rfl
  have hrh : RingBuffer.Holds env.params.historyLength.toNat (restart env s).history
      ((if (withoutImprovement s.events : Int) = env.params.numItersNoImprovement then [] else l).map some) := by
    rw [hw]; simp only [restart]
    split
    · exact hh.perform hn .clear
    · exact hh
  dsimp only
  rw [← hrb, ← hrs]
  generalize (if (withoutImprovement s.events : Int) = env.params.numItersNoImprovement then [] else l) = r at hrh ⊢
  generalize restart env s = s1 at hrh ⊢
  generalize hcall : env.search s1.searchState s1.curr ce false = call
  generalize hs2 : ({ s1 with costEval := ce, searchState := call.1, pm := pm' } : IlsState σ τ) = s2
  have hce2 : s2.costEval = ce := by rw [← hs2]
  have hss2 : s2.searchState = call.1 := by rw [← hs2]
  have hcu2 : s2.curr = s1.curr := by rw [← hs2]
  have hh2 : s2.history = s1.history := by rw [← hs2]
  have hub : (updateBest env s2 call.2).1.curr = s1.curr ∧ (updateBest env s2 call.2).1.history = s1.history ∧
      (updateBest env s2 call.2).1.costEval = ce ∧
      ((updateBest env s2 call.2).2 = call.2 ∨
        (updateBest env s2 call.2).2 = (env.search call.1 call.2 ce true).2) := by
    rcases updateBest_cases env s2 call.2 with ⟨_, h⟩ | ⟨_, _, h⟩ | ⟨_, _, _, h⟩ | ⟨_, _, _, h⟩ <;> rw [h]
    · exact ⟨hcu2, hh2, hce2, .inl rfl⟩
    · exact ⟨hcu2, hh2, hce2, .inl rfl⟩
    · exact ⟨hcu2, hh2, hce2, .inr (by rw [hss2, hce2])⟩
    · exact ⟨hcu2, hh2, hce2, .inr (by rw [hss2, hce2])⟩
  generalize updateBest env s2 call.2 = ub at hub
  obtain ⟨s3, cand⟩ := ub
  obtain ⟨hcu3, hh3, hce3, hcand⟩ := hub
  dsimp only at hcu3 hh3 hce3 hcand ⊢
  have hpeek : s3.history.peek = stored env.params.historyLength.toNat r := by
    rw [hh3, hrh.peek hn, stored_map]
  have hnone : stored env.params.historyLength.toNat r = none ↔ r.length < env.params.historyLength.toNat := by
    unfold stored
    split
    · simp [*]
    · rename_i hge
      simp only [hge, iff_false]
      rw [List.getElem?_eq_getElem (by omega)]
      simp
  refine ⟨cand, ce, ?_, by rw [hcall]; exact hcand, ?_, ?_⟩
  · simp [lastCandidate, (accept_best env s3 cand).2.2.1, hce3]
  · have hsp : ∀ (c : Prop) [Decidable c] (x y : Int),
        (if c then (cand, x) else (s1.curr, y)).1 = if c then cand else s1.curr := by
      intro c _ x y; split <;> rfl
    have hlate : lateSolution env.params.historyLength.toNat env.init r = s3.history.peek.getD env.init := by
      rw [hpeek]; rfl
    rw [hlate]
    simp only [accept, hce3, hcu3]
    cases s3.history.peek <;> exact hsp _ _ _
  · simp only [accept, hce3, hcu3]
    rw [List.map_append, List.map_cons, List.map_nil]
    have key : ∀ (late : Solution) (hl : lateSolution env.params.historyLength.toNat env.init r = late)
        (curr : Solution) (cost : Int), cost = ce.penalisedCost curr →
        RingBuffer.Holds env.params.historyLength.toNat
          (if cost < ce.penalisedCost late ∨ s3.history.peek = none
            then s3.history.append curr else s3.history.skip)
          (r.map some ++ [some (remember env.params.historyLength.toNat env.init ce r curr)]) := by
      intro late hl curr cost hcost
      subst hcost
      unfold remember
      rw [hl]
      split
      · rename_i hor
        have : (if r.length < env.params.historyLength.toNat then curr
            else if ce.penalisedCost curr < ce.penalisedCost late then curr else late) = curr := by
          rcases hor with hor | hor
          · rw [if_pos hor]; split <;> rfl
          · rw [if_pos (hnone.1 (hpeek ▸ hor))]
        rw [this, hh3]
        exact hrh.perform hn (.append curr)
      · rename_i hor
        have h1 : ¬ r.length < env.params.historyLength.toNat := fun hlt => hor (.inr (hpeek ▸ hnone.2 hlt))
        have h2 : ¬ ce.penalisedCost curr < ce.penalisedCost late := fun hlt => hor (.inl hlt)
        rw [if_neg h1, if_neg h2, hh3]
        have h3 := hrh.perform hn .skip
        simp only [recordOp, stored_map] at h3
        have h4 : stored env.params.historyLength.toNat r = some late := by
          cases hst : stored env.params.historyLength.toNat r with
          | none => exact absurd (hnone.1 hst) h1
          | some x => rw [← hl]; simp [lateSolution, hst]
        rw [h4] at h3
        exact h3
    have hsplit : ∀ (c : Prop) [Decidable c] (a b : Solution) (x y : Int), x = ce.penalisedCost a →
        y = ce.penalisedCost b →
        (if c then (a, x) else (b, y)).2 = ce.penalisedCost (if c then (a, x) else (b, y)).1 := by
      intro c _ a b x y hx hy; split <;> assumption
    cases hst : s3.history.peek with
    | none =>
      have := key env.init (by simp [lateSolution, ← hpeek, hst])
      rw [hst] at this
      exact this _ _ (hsplit _ _ _ _ _ rfl rfl)
    | some x =>
      have := key x (by simp [lateSolution, ← hpeek, hst])
      rw [hst] at this
      exact this _ _ (hsplit _ _ _ _ _ rfl rfl)

theorem remembers_inv {env : IlsEnv σ τ} {pm : PenaltyManager} {ss : σ} {ts : τ} {cs : Bool}
    (hlen : 0 < env.params.historyLength) {s : IlsState σ τ} {l : List Solution}
    (h : Remembers env pm ss ts cs s l) :
    s.events.foldl countStep (0, false) = (s.itersNoImprovement, false) ∧
    RingBuffer.Holds env.params.historyLength.toNat s.history (l.map some) := by
  induction h with
  | start h =>
    simp only [start] at h
    split at h
    · cases h
    · cases h
      exact ⟨rfl, RingBuffer.history_holds env.params.historyLength.toNat (by omega) []⟩
  | step _ h hl ih =>
    rename_i s1 s2 l cand ce _
    obtain ⟨cand', ce', h1, h2⟩ := iteration_late
      (s := { s1 with stopState := (env.stop s1.stopState (s1.costEval.cost s1.best)).1 }) hlen ih.1 ih.2 h
    rw [hl] at h1
    cases h1
    exact ⟨(iteration_count
      (s := { s1 with stopState := (env.stop s1.stopState (s1.costEval.cost s1.best)).1 }) ih.1 h).1, h2.2.2⟩

/-- **C29.** Late acceptance: in each iteration the search method is called with the current solution (the best
one after a restart), and the candidate that is reported replaces it exactly if its penalised cost is below
that of the current solution or of the solution remembered `history_length` iterations ago. -/
theorem C29_late_acceptance (env : IlsEnv σ τ) (pm : PenaltyManager) (ss : σ) (ts : τ) (cs : Bool)
    (hlen : 0 < env.params.historyLength)
    (s s' : IlsState σ τ) (remembered : List Solution) (hr : Remembers env pm ss ts cs s remembered)
    (h : iteration env { s with stopState := (env.stop s.stopState (s.costEval.cost s.best)).1 } = .ok s') :
    ∃ cand ce, lastCandidate s'.events = some (cand, ce) ∧
      let restarts := (withoutImprovement s.events : Int) = env.params.numItersNoImprovement
      let base := if restarts then s.best else s.curr
      let remembered := if restarts then [] else remembered
      let late := lateSolution env.params.historyLength.toNat env.init remembered
      let found := env.search s.searchState base ce false
      (cand = found.2 ∨ cand = (env.search found.1 found.2 ce true).2) ∧
      s'.curr = (if ce.penalisedCost cand < ce.penalisedCost late ∨ ce.penalisedCost cand < ce.penalisedCost base
                 then cand else base) := by
  obtain ⟨h1, h2⟩ := remembers_inv hlen hr
  obtain ⟨cand, ce, h3, h4, h5, _⟩ := iteration_late
    (s := { s with stopState := (env.stop s.stopState (s.costEval.cost s.best)).1 }) hlen h1 h2 h
  exact ⟨cand, ce, h3, h4, h5⟩

/-- Every state reached has a record of what has been remembered. -/
theorem C29_every_state_remembers (env : IlsEnv σ τ) (pm : PenaltyManager) (ss : σ) (ts : τ) (cs : Bool)
    (hlen : 0 < env.params.historyLength) (s : IlsState σ τ) (h : Reachable env pm ss ts cs s) :
    ∃ l, Remembers env pm ss ts cs s l := by
  induction h with
  | start h => exact ⟨_, .start h⟩
  | step _ _ h ih =>
    obtain ⟨l, hl⟩ := ih
    obtain ⟨cand, ce, h1, _⟩ := C29_late_acceptance env pm ss ts cs hlen _ _ l hl h
    exact ⟨_, hl.step h h1⟩

/-! ### C30: iterations of a run -/

theorem iteration_iters {env : IlsEnv σ τ} {s s' : IlsState σ τ} (h : iteration env s = .ok s') :
    s'.iters = s.iters + 1 ∧ s'.stopState = s.stopState := by
  obtain ⟨ce, pm', _, _, rfl⟩ := iteration_ok h
  dsimp only
  generalize env.search (restart env s).searchState (restart env s).curr ce false = call
  generalize hs2 : ({ restart env s with costEval := ce, searchState := call.1, pm := pm' } : IlsState σ τ) = s2
  have h2 : s2.iters = s.iters + 1 ∧ s2.stopState = s.stopState := by
    rw [← hs2]; simp only [restart]; split <;> exact ⟨rfl, rfl⟩
  rw [(accept_best env _ _).2.2.2.2.2.1, (accept_best env _ _).2.2.2.2.1]
  rcases updateBest_cases env s2 call.2 with ⟨_, h⟩ | ⟨_, _, h⟩ | ⟨_, _, _, h⟩ | ⟨_, _, _, h⟩ <;> rw [h] <;>
    exact h2

/-- **C30.** With `MaxIterations(n)` a run performs exactly `n` iterations. -/
theorem C30_run_max_iterations (data : ProblemData) (hn : ∀ g ∈ data.groups, g.clients.Nodup)
    (env : IlsEnv σ Criterion) (hstop : env.stop = Criterion.call) (hclock : ∀ i j, i ≤ j → env.clock i ≤ env.clock j)
    (pm : PenaltyManager) (ss : σ) (cs : Bool) (n : Nat) (c : Criterion)
    (hs : SearchOk data env) (hpm : PmOk env.R data.numLoadDimensions pm)
    (hc : Criterion.makeMaxIterations n = .ok c) :
    ∃ res, run env pm ss c cs (n + 1) = .ok (some res) ∧ res.numIterations = n := by
  have hc' : c = .maxIterations n 0 := by
    unfold Criterion.makeMaxIterations at hc
    rw [if_neg (by omega)] at hc
    cases hc; rfl
  subst hc'
  obtain ⟨s0, h0⟩ := (C28_never_raises data hn env pm ss (.maxIterations n 0) cs hs hpm).1
  have key : ∀ (k m : Nat) (s : IlsState σ Criterion), Reachable env pm ss (.maxIterations n 0) cs s →
      s.stopState = .maxIterations n m → s.iters = m → m + k = n → 1 ≤ s.reads →
      ∃ s', loop env (k + 1) s = .ok (s', true) ∧ s'.iters = n ∧ 1 ≤ s'.reads := by
    intro k
    induction k with
    | zero =>
      intro m s hr hst hit hmk hrd
      have hans : (env.stop s.stopState (s.costEval.cost s.best)).2 = true := by
        rw [hstop, hst]; simp only [Criterion.call, decide_eq_true_iff]; omega
      refine ⟨{ s with stopState := (env.stop s.stopState (s.costEval.cost s.best)).1 }, ?_, ?_, hrd⟩
      · simp only [loop, hans, if_true]
      · show s.iters = n
        omega
    | succ k ih =>
      intro m s hr hst hit hmk hrd
      have hans : (env.stop s.stopState (s.costEval.cost s.best)).2 = false := by
        rw [hstop, hst]; simp only [Criterion.call, decide_eq_false_iff_not]; omega
      obtain ⟨s', h'⟩ := (C28_never_raises data hn env pm ss (.maxIterations n 0) cs hs hpm).2 s hr
        (env.stop s.stopState (s.costEval.cost s.best)).1
      have hi := iteration_iters h'
      dsimp only at hi
      obtain ⟨s'', h1, h2, h3⟩ := ih (m + 1) s' (hr.step hans h')
        (by rw [hi.2, hstop, hst]; rfl) (by omega) (by omega) (by
          obtain ⟨ce, pm', _, _, he⟩ := iteration_ok h'
          rw [he]
          dsimp only
          generalize env.search _ _ ce false = call
          generalize hs2 : ({ restart env _ with costEval := ce, searchState := call.1, pm := pm' } :
            IlsState σ Criterion) = s2
          have hrd2 : s2.reads = s.reads := by
            rw [← hs2]; simp only [restart]; split <;> rfl
          rw [(accept_best env _ _).2.2.2.2.2.2.2.2.2]
          have : (updateBest env s2 call.2).1.reads = s.reads := by
            rw [← hrd2]
            rcases updateBest_cases env s2 call.2 with ⟨_, h⟩ | ⟨_, _, h⟩ | ⟨_, _, _, h⟩ | ⟨_, _, _, h⟩ <;> rw [h]
          rw [this]
          split <;> omega)
      refine ⟨s'', ?_, h2, h3⟩
      rw [loop]
      simp only [hans, h']
      exact h1
  have hst0 : s0.stopState = .maxIterations n 0 ∧ s0.iters = 0 ∧ s0.reads = 2 := by
    have h0' := h0
    simp only [start] at h0'
    split at h0'
    · cases h0'
    · cases h0'; exact ⟨rfl, rfl, rfl⟩
  obtain ⟨s', h1, h2, h3⟩ := key n 0 s0 (.start h0) hst0.1 hst0.2.1 (by omega) (by omega)
  have hcl := hclock 1 s'.reads h3
  refine ⟨⟨s'.best, s'.stats, s'.iters, env.clock s'.reads - env.clock 1⟩, ?_, by simp [h2]⟩
  simp only [run, h0, h1, finish, Result.make]
  rw [if_neg (by omega), if_neg (by omega)]

/-! ### C42: statistics -/

/-- What is to be recorded about an iteration. -/
def Spec.datumOf : IlsEvent → Option Datum
  | .onIteration curr cand best ce =>
    some ⟨ce.penalisedCost curr, curr.isFeasible, ce.penalisedCost cand, cand.isFeasible,
      ce.penalisedCost best, best.isFeasible⟩
  | _ => none

/-- **C42.** At any point of a run, the statistics contain one datum for each iteration, in order, with the
penalised costs and feasibility of the solutions reported, and as many runtimes; nothing is collected if
that is not asked for. -/
theorem C42_one_datum_per_iteration (env : IlsEnv σ τ) (pm : PenaltyManager) (ss : σ) (ts : τ) (cs : Bool)
    (s : IlsState σ τ) (h : Reachable env pm ss ts cs s) :
    s.stats.collectStats = cs ∧
    (cs = true → s.stats.data = s.events.filterMap datumOf ∧ s.stats.data.length = s.iters ∧
      s.stats.runtimes.length = s.iters ∧ s.stats.numIterations = s.iters ∧
      s.stats.runtimes.sum = s.stats.clock - env.clock 0) ∧
    (cs = false → s.stats.data = [] ∧ s.stats.runtimes = [] ∧ s.stats.numIterations = 0) := by
  induction h with
  | start h =>
    simp only [start] at h
    split at h
    · cases h
    · cases h
      simp [Statistics.make, datumOf]
  | step _ _ h ih =>
    rename_i s1 s2 _ _
    obtain ⟨ce, pm', _, _, rfl⟩ := iteration_ok h
    generalize hs0 : ({ s1 with stopState := _ } : IlsState σ τ) = s0 at ih ⊢
    have e0 : s0.stats = s1.stats ∧ s0.iters = s1.iters ∧ s0.events = s1.events := by
      rw [← hs0]; exact ⟨rfl, rfl, rfl⟩
    have er : (restart env s0).stats = s1.stats ∧ (restart env s0).iters = s1.iters + 1 ∧
        (restart env s0).events.filterMap datumOf = s1.events.filterMap datumOf := by
      simp only [restart]
      split
      · simp [e0, datumOf]
      · simp [e0]
    dsimp only
    generalize restart env s0 = s3 at er ⊢
    generalize env.search _ _ ce false = call
    generalize hs4 : ({ s3 with costEval := ce, searchState := call.1, pm := pm' } : IlsState σ τ) = s4
    have e4 : s4.stats = s1.stats ∧ s4.iters = s1.iters + 1 ∧
        s4.events.filterMap datumOf = s1.events.filterMap datumOf := by
      rw [← hs4]; exact er
    have e5 : (updateBest env s4 call.2).1.stats = s1.stats ∧
        (updateBest env s4 call.2).1.iters = s1.iters + 1 ∧
        (updateBest env s4 call.2).1.events.filterMap datumOf = s1.events.filterMap datumOf := by
      rcases updateBest_cases env s4 call.2 with ⟨_, h⟩ | ⟨_, _, h⟩ | ⟨_, _, _, h⟩ | ⟨_, _, _, h⟩ <;> rw [h]
      · exact e4
      all_goals simp [e4, datumOf]
    generalize updateBest env s4 call.2 = ub at e5
    obtain ⟨s5, cand⟩ := ub
    dsimp only at e5 ⊢
    have e6 := accept_best env s5 cand
    generalize accept env s5 cand = s6 at e6 ⊢
    have e7 : s6.stats = s1.stats ∧ s6.iters = s1.iters + 1 ∧
        s6.events.filterMap datumOf = s1.events.filterMap datumOf := by
      rw [e6.2.2.2.2.2.2.2.1, e6.2.2.2.2.2.1, e6.2.2.2.2.2.2.2.2.1]; exact e5
    obtain ⟨i1, i2, i3⟩ := ih
    rw [e7.1]
    cases cs with
    | false =>
      have hcol : ∀ a b c d e, s1.stats.collect a b c d e = s1.stats := by
        intro a b c d e
        rw [Statistics.collect, if_pos (by simp [i1])]
      rw [hcol]
      exact ⟨i1, (fun h => by cases h), i3⟩
    | true =>
      obtain ⟨j1, j2, j3, j4, j5⟩ := i2 rfl
      rw [Statistics.collect, if_neg (by simp [i1])]
      refine ⟨i1, fun _ => ⟨?_, ?_, ?_, ?_, ?_⟩, (fun h => by cases h)⟩
      · rw [List.filterMap_append, e7.2.2, ← j1]; rfl
      · simp [j2, e7.2.1]
      · simp [j3, e7.2.1]
      · simp [j4, e7.2.1]
      · simp [j5]; omega

/-- **C42.** `Result.cost()` is the objective value of the best solution if that is feasible, else infinite. -/
theorem C42_result_cost (data : ProblemData) (hn : ∀ g ∈ data.groups, g.clients.Nodup) (res : Result)
    (ha : Accepted data res.best) :
    res.isFeasible = res.best.isFeasible ∧
    res.cost = if res.best.isFeasible then some (objective res.best) else none := by
  refine ⟨rfl, ?_⟩
  unfold Result.cost
  cases hf : res.best.isFeasible
  · rfl
  · simp only [Bool.not_true, Bool.false_eq_true, if_false, if_true, Option.some_inj]
    rw [ha.cost hn, if_pos hf]
    have hz : IsPenalty (fun _ => 0) := ⟨rfl, fun _ _ _ _ => Int.le_refl _⟩
    refine ⟨?_, hz, hz⟩
    intro f hfm
    rw [List.mem_replicate] at hfm
    rw [hfm.2]; exact hz

/-- A run of three iterations: there are three data points, the second candidate is not an improvement. -/
example : (match run (Demo.env Demo.keep true) (.make ([20], 6, 6) Demo.params) () (.maxIterations 3 0) true 4 with
    | .ok (some res) => res.numIterations == 3 && res.stats.data.length == 3
        && res.stats.data.map (·.bestCost) == [12, 12, 12] && res.cost == some 12
    | _ => false) = true := by decide +kernel

/-- With a limit of one iteration without improvement, the third iteration starts with a restart. -/
example : (match (do
      let env := { Demo.env Demo.keep true with params := { numItersNoImprovement := 1, historyLength := 2 } }
      let s ← start env (.make ([20], 6, 6) Demo.params) () (.maxIterations 3 0) true
      let (s, _) ← loop env 4 s
      pure (s.events.map (fun e => match e with
        | IlsEvent.onStart => 0 | IlsEvent.onRestart _ => 1 | IlsEvent.onBest _ => 2
        | IlsEvent.onIteration .. => 3))) with
    | .ok l => l == [0, 2, 3, 3, 1, 3]
    | _ => false) = true := by decide +kernel

/-- **C29, parameters.** The parameters of the algorithm are accepted exactly if the number of iterations
without improvement is not negative and the history is not empty. -/
theorem C29_params (p : IlsParams) : p.check = none ↔ 0 ≤ p.numItersNoImprovement ∧ 1 ≤ p.historyLength := by
  unfold IlsParams.check
  split
  · simp only [reduceCtorEq, false_iff]; omega
  · split
    · simp only [reduceCtorEq, false_iff]; omega
    · simp only [true_iff]; omega

example : ({} : IlsParams).check = none ∧ ({ numItersNoImprovement := 0, historyLength := 1 } : IlsParams).check = none :=
  ⟨(C29_params _).2 (by decide), (C29_params _).2 (by decide)⟩

end PyVRP
