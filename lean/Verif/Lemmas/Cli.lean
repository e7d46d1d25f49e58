import Verif.Model.Cli
import Verif.Props.C47
import Verif.Props.C52
import Verif.Props.C42
/-!
# Lemmas about the command line: how a run ends, and what it has collected
-/
namespace PyVRP
open Spec PenaltyManager

namespace Ils
variable {σ τ : Type} {env : IlsEnv σ τ} {pm : PenaltyManager} {ss : σ} {ts : τ} {cs : Bool}

/-- The loop ends in a reachable state, apart from the state of the stopping criterion. -/
theorem loop_end : ∀ {fuel : Nat} {s s' : IlsState σ τ}, Reachable env pm ss ts cs s →
    loop env fuel s = .ok (s', true) →
    ∃ s0, Reachable env pm ss ts cs s0 ∧ s'.best = s0.best ∧ s'.stats = s0.stats ∧ s'.iters = s0.iters
  | 0, s, s', _, h => by unfold loop at h; injection h with h; injection h with h1 h2; cases h2
  | fuel + 1, s, s', hr, h => by
    unfold loop at h
    dsimp only at h
    by_cases hs : (env.stop s.stopState (s.costEval.cost s.best)).2 = true
    · rw [if_pos hs] at h
      injection h with h; injection h with h1 h2
      subst h1
      exact ⟨s, hr, rfl, rfl, rfl⟩
    · rw [if_neg hs] at h
      split at h
      · cases h
      · rename_i s1 e
        exact loop_end (.step hr (by simpa using hs) e) h

theorem evaluatorOf_valid {R : Rounding} {ps : List Rat} {ce : CostEvaluator} (h : evaluatorOf R ps = .ok ce) :
    ce.Valid := by
  have h' := h
  unfold evaluatorOf at h'
  split at h'
  · rename_i dist tw loads he
    unfold CostEvaluator.make at h'
    split at h'
    · cases h'
    · rename_i h1
      split at h'
      · cases h'
      · rename_i h2
        split at h'
        · cases h'
        · rename_i h3
          have hr : ps = loads.reverse ++ [tw, dist] := by
            have : ps = ps.reverse.reverse := by simp
            rw [this, he]; simp
          obtain ⟨ce', e, hv, _⟩ := evaluatorOf_ok R ps (by rw [hr]; simp) (by
            intro p hp
            rw [hr, List.mem_append] at hp
            rcases hp with hp | hp
            · have h1 : ∀ x ∈ loads, ¬ x < 0 := by simpa using h1
              have := h1 p (List.mem_reverse.1 hp)
              grind
            · simp at hp
              rcases hp with rfl | rfl <;> grind)
          rw [h] at e
          injection e with e
          rw [e]; exact hv
  · cases h'

theorem reachable_valid {s : IlsState σ τ} (h : Reachable env pm ss ts cs s) : s.costEval.Valid := by
  cases h with
  | start h =>
    unfold Ils.start at h
    split at h
    · cases h
    · rename_i ce hce
      cases h
      exact evaluatorOf_valid hce
  | step _ _ h =>
    obtain ⟨ce, pm', hce, _, rfl⟩ := iteration_ok h
    dsimp only
    rw [(accept_best env _ _).2.2.1]
    have hv : ce.Valid := evaluatorOf_valid hce
    rcases updateBest_cases env { restart env _ with costEval := ce, searchState := _, pm := pm' } _ with
      ⟨_, h⟩ | ⟨_, _, h⟩ | ⟨_, _, _, h⟩ | ⟨_, _, _, h⟩ <;> rw [h] <;> exact hv

/-- The last datum is about the best solution. -/
theorem last_datum {s : IlsState σ τ} (h : Reachable env pm ss ts true s) (hi : s.iters ≠ 0) :
    ∃ d, s.stats.data.getLast? = some d ∧ d.bestFeas = s.best.isFeasible
      ∧ d.bestCost = s.costEval.penalisedCost s.best := by
  have hc := (C42_one_datum_per_iteration env pm ss ts true s h).1
  cases h with
  | start h =>
    unfold Ils.start at h
    split at h
    · cases h
    · cases h; exact absurd rfl hi
  | step hr _ h =>
    obtain ⟨ce, pm', hce, _, rfl⟩ := iteration_ok h
    dsimp only at hc ⊢
    generalize accept env _ _ = s2 at hc ⊢
    unfold Statistics.collect at hc ⊢
    cases hcs : s2.stats.collectStats with
    | false => simp [hcs] at hc
    | true =>
      rw [if_neg (by simp)]
      exact ⟨_, List.getLast?_concat, rfl, rfl⟩

/-- With a limit on the number of iterations there are at most so many of them. -/
theorem limited {env : IlsEnv σ Criterion} (hstop : env.stop = Criterion.call) {cs0 : List Criterion} {n : Int}
    (hn : 0 ≤ n) (hm : Criterion.maxIterations n 0 ∈ cs0) {s : IlsState σ Criterion}
    (h : Reachable env pm ss (.multipleCriteria cs0) cs s) :
    (s.iters : Int) ≤ n ∧ ∃ cs1, s.stopState = .multipleCriteria cs1 ∧ Criterion.maxIterations n s.iters ∈ cs1 := by
  induction h with
  | start h =>
    unfold Ils.start at h
    split at h
    · cases h
    · cases h; exact ⟨hn, _, rfl, hm⟩
  | step _ hs h ih =>
    rename_i s1 s2 _
    obtain ⟨i1, cs1, i2, i3⟩ := ih
    obtain ⟨e1, e2⟩ := iteration_stopState h
    dsimp only at e1 e2
    rw [hstop, i2] at hs e1
    simp only [Criterion.call] at hs e1
    rw [callAny_fst cs1 _ hs] at e1
    rw [callAny_snd] at hs
    have := List.any_eq_false.1 hs _ i3
    simp only [Criterion.call, decide_eq_true_eq] at this
    rw [e2]
    refine ⟨by omega, _, e1, ?_⟩
    have h1 := List.mem_map_of_mem (f := fun c => (Criterion.call c (s1.costEval.cost s1.best)).1) i3
    simp only [Criterion.call] at h1
    exact h1

end Ils

namespace Solve
variable {σ τ : Type}

/-- A result of `solve` describes a reachable state of the algorithm. -/
theorem solve_ok {next : σ → Nat × σ} {R : Rounding} {data : ProblemData} {params : SolveParams}
    {stop : τ → Int → τ × Bool} {ts : τ} {clock : Nat → Int} {rng : σ} {cs : Bool} {initial : Option Solution}
    {fuel rounds : Nat} {res : Result}
    (h : solve next R data params stop ts clock rng cs initial fuel rounds = .ok (some res)) :
    ∃ (env : IlsEnv (Except Failure (LocalSearch × σ)) τ) (pm : PenaltyManager)
      (ss : Except Failure (LocalSearch × σ)) (s : IlsState (Except Failure (LocalSearch × σ)) τ),
      env.stop = stop ∧ Ils.Reachable env pm ss ts cs s
      ∧ res.best = s.best ∧ res.stats = s.stats ∧ res.numIterations = s.iters := by
  unfold Solve.solve at h
  split at h
  · cases h
  · dsimp only at h
    split at h
    · cases h
    · cases h
    · rename_i init ls' rng' _
      unfold Solve.runAlgorithm at h
      split at h
      · cases h
      · rename_i s es
        split at h
        · cases h
        · rename_i s' done el
          split at h
          · cases h
          · cases h
          · cases done with
            | false => cases h
            | true =>
              obtain ⟨s0, h1, h2, h3, h4⟩ := Ils.loop_end (.start es) el
              rw [if_pos rfl] at h
              split at h
              · cases h
              · rename_i r er
                cases h
                unfold Ils.finish Result.make at er
                split at er
                · cases er
                · split at er
                  · cases er
                  · cases er
                    exact ⟨_, _, _, s0, by rfl, h1, h2, h3, congrArg Int.ofNat h4⟩

end Solve
end PyVRP
