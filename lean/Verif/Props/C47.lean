import Verif.Lemmas.Solve
/-!
# C47: `solve`
-/
namespace PyVRP
open Spec

variable {σ τ : Type}

/-- **C47.** `solve` never raises for valid arguments, and what it returns is an accepted solution. It is
complete unless it is an incomplete initial solution given by the caller. Here `fuel` and `rounds`
are arbitrary: whenever `solve` returns, it does so with enough of them. -/
theorem C47_valid (data : ProblemData) (hg : GoodData data)
    (hrel : ∀ v ∈ data.vehicleTypes, v.maxReloads ≤ SIZE_MAX) (hn : ∀ g ∈ data.groups, g.clients.Nodup)
    (hfit : FitsMemory data) (R : Rounding) (params : SolveParams) (hp : GoodParams R params)
    (next : σ → Nat × σ) (rng : σ) (stop : τ → Int → τ × Bool) (ts : τ) (clock : Nat → Int)
    (hclock : ∀ i j, i ≤ j → clock i ≤ clock j) (collectStats : Bool) (initial : Option Solution)
    (hinit : ∀ s, initial = some s → Accepted data s) (fuel rounds : Nat) :
    Solve.solve next R data params stop ts clock rng collectStats initial fuel rounds = .ok none
    ∨ ∃ res, Solve.solve next R data params stop ts clock rng collectStats initial fuel rounds = .ok (some res)
      ∧ Accepted data res.best ∧ (res.best.isComplete = true ∨ initial = some res.best) := by
  obtain ⟨ls, e, h⟩ := Solve.makeSearch_spec (data := data) hp
  have hpm := Solve.makePenalties_ok (data := data) hp
  unfold Solve.solve
  rw [e]
  dsimp only
  rcases Solve.initialSolution_valid hg hrel hn hfit next hpm h rng initial hinit rounds with
    e1 | ⟨init, ls', rng', e1, h1, h2, h3⟩
  · rw [e1]; exact .inl rfl
  · rw [e1]
    dsimp only
    rcases Solve.runAlgorithm_valid (params := params) (stop := stop) (ts := ts) hg hrel hn hfit next hclock
      h1 hpm h3 rng' collectStats fuel rounds with e2 | ⟨res, e2, h4, h5⟩
    · exact .inl e2
    · refine .inr ⟨res, e2, h4, ?_⟩
      rcases h5 with h5 | h5
      · rw [h5]; rcases h2 with h2 | h2
        · exact .inr h2
        · exact .inl h2
      · exact .inl h5

/-- **C47, partial.** If the stopping criterion stops, then `solve` returns a result. A feasible initial
solution is never made worse. Partial: only for instances with moderate numbers (see C25: the local
search need not return otherwise). -/
theorem C47_returns_partial (data : ProblemData) (hg : GoodData data) (B : Nat) (hB : Moderate data B)
    (hrel : ∀ v ∈ data.vehicleTypes, v.maxReloads ≤ SIZE_MAX) (hn : ∀ g ∈ data.groups, g.clients.Nodup)
    (R : Rounding) (params : SolveParams) (hp : GoodParams R params)
    (next : σ → Nat × σ) (rng : σ) (stop : τ → Int → τ × Bool) (ts : τ)
    (hstop : ∀ least, Stops stop least ts) (clock : Nat → Int)
    (hclock : ∀ i j, i ≤ j → clock i ≤ clock j) (collectStats : Bool) (initial : Option Solution)
    (hinit : ∀ s, initial = some s → Accepted data s) :
    ∃ enough res, (∀ fuel rounds, enough ≤ fuel → enough ≤ rounds →
        Solve.solve next R data params stop ts clock rng collectStats initial fuel rounds = .ok (some res))
      ∧ Accepted data res.best ∧ (res.best.isComplete = true ∨ initial = some res.best)
      ∧ ∀ s, initial = some s → s.isFeasible = true → objective s ≤ MAX →
          res.best.isFeasible = true ∧ objective res.best ≤ objective s := by
  obtain ⟨ls, e, h⟩ := Solve.makeSearch_spec (data := data) hp
  have hpm := Solve.makePenalties_ok (data := data) hp
  obtain ⟨F1, init, ls', rng', hF1, h1, h2, h3⟩ :=
    Solve.initialSolution_settles hg hB hrel hn next hpm h rng initial hinit
  obtain ⟨F2, res, hF2, ⟨h4, h5⟩, h6⟩ := Solve.runAlgorithm_stops (params := params) hg hB hrel hn next hstop
    hclock h1 hpm h3 rng' collectStats
  refine ⟨max F1 F2, res, fun fuel rounds hf hr => ?_, h4, ?_, fun s hs hsf hm => ?_⟩
  · unfold Solve.solve
    rw [e]
    dsimp only
    rw [hF1 rounds (by omega)]
    dsimp only
    exact hF2 fuel rounds (by omega) (by omega)
  · rcases h5 with h5 | h5
    · rw [h5]; rcases h2 with h2 | h2
      · exact .inr h2
      · exact .inl h2.2
    · exact .inl h5
  · have : s = init := by
      rcases h2 with h2 | h2
      · rw [hs] at h2; exact Option.some.inj h2
      · rw [h2.1] at hs; cases hs
    subst this
    exact h6 hsf hm

/-- **C47.** With `MaxIterations(n)`, a result comes after exactly `n` iterations. -/
theorem C47_iterations (data : ProblemData) (R : Rounding) (params : SolveParams)
    (next : σ → Nat × σ) (rng : σ) (n : Nat) (stop : Criterion) (hstop : Criterion.makeMaxIterations n = .ok stop)
    (clock : Nat → Int) (collectStats : Bool) (initial : Option Solution) (fuel rounds : Nat) (res : Result)
    (h : Solve.solve next R data params Criterion.call stop clock rng collectStats initial fuel rounds
      = .ok (some res)) : res.numIterations = n := by
  have hs : stop = .maxIterations n 0 := by
    unfold Criterion.makeMaxIterations at hstop
    rw [if_neg (by omega)] at hstop
    cases hstop; rfl
  subst hs
  unfold Solve.solve at h
  split at h
  · cases h
  · dsimp only at h
    split at h
    · cases h
    · cases h
    · rename_i init ls' rng' _
      unfold Solve.runAlgorithm at h
      split at h
      · cases h
      · rename_i s es
        split at h
        · cases h
        · rename_i s' done el
          split at h
          · cases h
          · cases h
          · cases done with
            | false => cases h
            | true =>
              have hst : s.stopState = .maxIterations n 0 ∧ s.iters = 0 := by
                unfold Ils.start at es
                split at es
                · cases es
                · cases es; exact ⟨rfl, rfl⟩
              have := Ils.loop_maxIterations rfl hst.1 (Nat.zero_le n) el
              rw [if_pos rfl] at h
              split at h
              · cases h
              · rename_i r er
                cases h
                unfold Ils.finish Result.make at er
                split at er
                · cases er
                · split at er
                  · cases er
                  · cases er
                    dsimp only
                    omega

/-! ## Which criteria stop -/

theorem stops_maxIterations (least : Int) (n : Int) : ∀ (m k : Nat), n ≤ k + m →
    Stops Criterion.call least (.maxIterations n k)
  | 0, k, h => ⟨_, fun cost _ hf => by simp [Criterion.call] at hf; omega⟩
  | m + 1, k, h => ⟨_, fun cost _ _ => by
      simp only [Criterion.call]
      exact stops_maxIterations least n m (k + 1) (by omega)⟩

theorem stops_noImprovement (least : Int) (n : Int) : ∀ (d : Nat) (m : Nat) (t : Int) (k : Nat),
    t ≤ least + d → n ≤ k + m → Stops Criterion.call least (.noImprovement n (some t) k) := by
  intro d
  induction d with
  | zero =>
    intro m
    induction m with
    | zero =>
      intro t k ht hk
      refine ⟨_, fun cost hc hf => ?_⟩
      simp only [Criterion.call] at hf
      rw [if_neg (by omega)] at hf
      simp at hf
      omega
    | succ m ih =>
      intro t k ht hk
      refine ⟨_, fun cost hc hf => ?_⟩
      simp only [Criterion.call]
      rw [if_neg (by omega)]
      exact ih t (k + 1) ht (by omega)
  | succ d ihd =>
    intro m
    induction m with
    | zero =>
      intro t k ht hk
      refine ⟨_, fun cost hc hf => ?_⟩
      simp only [Criterion.call] at hf ⊢
      split
      · exact ihd n.toNat cost 0 (by omega) (by omega)
      · rename_i h
        rw [if_neg h] at hf
        simp at hf
        omega
    | succ m ih =>
      intro t k ht hk
      refine ⟨_, fun cost hc hf => ?_⟩
      simp only [Criterion.call]
      split
      · exact ihd n.toNat cost 0 (by omega) (by omega)
      · exact ih t (k + 1) ht (by omega)

theorem stops_maxRuntime (least : Int) (n : Int) (clock : Nat → Int) (start : Int) : ∀ (m k : Nat),
    clock (k + m) - start > n → Stops Criterion.call least (.maxRuntime n (some start) clock k)
  | 0, k, h => ⟨_, fun cost _ hf => by simp [Criterion.call] at hf; rw [Nat.add_zero] at h; omega⟩
  | m + 1, k, h => ⟨_, fun cost _ _ => by
      simp only [Criterion.call]
      exact stops_maxRuntime least n clock start m (k + 1) (by rw [show k + 1 + m = k + (m + 1) by omega]; exact h)⟩

theorem stops_multiple (least : Int) {c : Criterion} (hc : Stops Criterion.call least c) :
    ∀ {cs : List Criterion}, c ∈ cs → Stops Criterion.call least (.multipleCriteria cs) := by
  induction hc with
  | mk c h ih =>
    intro cs hm
    refine ⟨_, fun cost hcost hf => ?_⟩
    simp only [Criterion.call] at hf ⊢
    rw [callAny_fst cs cost hf]
    rw [callAny_snd] at hf
    exact ih cost hcost (by simpa using List.any_eq_false.1 hf c hm) (List.mem_map_of_mem hm)

/-- **C47.** The criteria that count iterations stop, `MaxRuntime` does if time goes on, and
`MultipleCriteria` does if one of its criteria does. The costs given to them are bounded from below, as
the costs of solutions are. (`FirstFeasible` need not stop.) -/
theorem C47_criteria (least : Int) :
    (∀ n c, Criterion.makeMaxIterations n = .ok c → Stops Criterion.call least c)
    ∧ (∀ n c, Criterion.makeNoImprovement n = .ok c → Stops Criterion.call least c)
    ∧ (∀ n clock c, (∃ m, clock m - clock 0 > n) → Criterion.makeMaxRuntime n clock = .ok c →
        Stops Criterion.call least c)
    ∧ (∀ cs c c', Criterion.makeMultipleCriteria cs = .ok c → c' ∈ cs → Stops Criterion.call least c' →
        Stops Criterion.call least c) := by
  refine ⟨fun n c h => ?_, fun n c h => ?_, fun n clock c ht h => ?_, fun cs c c' h hm hc => ?_⟩
  · unfold Criterion.makeMaxIterations at h
    split at h
    · cases h
    · cases h; exact stops_maxIterations least n n.toNat 0 (by omega)
  · unfold Criterion.makeNoImprovement at h
    split at h
    · cases h
    · cases h
      refine ⟨_, fun cost hcost _ => ?_⟩
      simp only [Criterion.call]
      exact stops_noImprovement least n (cost - least).toNat n.toNat cost 0 (by omega) (by omega)
  · unfold Criterion.makeMaxRuntime at h
    split at h
    · cases h
    · cases h
      obtain ⟨m, hm⟩ := ht
      refine ⟨_, fun cost hcost hf => ?_⟩
      simp only [Criterion.call] at hf ⊢
      have h1 : ¬ clock 1 - clock 0 > n := by simpa using hf
      have h2 : 2 ≤ m := by
        rcases m with _ | _ | m
        · simp at hm; omega
        · exact absurd hm h1
        · omega
      exact stops_maxRuntime least n clock _ (m - 2) 2 (by rw [show 2 + (m - 2) = m by omega]; exact hm)
  · unfold Criterion.makeMultipleCriteria at h
    split at h
    · cases h
    · cases h; exact stops_multiple least hc hm

/-! ## Non-vacuity -/
namespace Demo

theorem defaultParams_good : GoodParams .exact {} where
  ils := by decide
  penalty := by decide +kernel
  minFloat := rfl
  maxFloat := rfl
  targetFloat := rfl
  neighbourhood := by rfl
  perturbation := by decide
  range := by decide
  operators := by
    intro op h
    simp only [defaultOperators, List.mem_cons, Operator.binary.injEq, reduceCtorEq, false_or, List.not_mem_nil,
      or_false] at h
    rcases h with rfl | rfl | rfl | rfl | rfl | rfl | rfl | rfl | rfl | rfl | rfl | rfl | rfl <;>
      simp [BinaryOp.Valid]

/-- `solve` returns with the default parameters, from any seed, after three iterations. -/
example (seed : BitVec 32) : ∃ enough res, ∀ fuel rounds, enough ≤ fuel → enough ≤ rounds →
    Solve.solveSeed .exact moderateData {} (.maxIterations 3 0) (fun i => i) seed true none fuel rounds
      = .ok (some res) ∧ res.numIterations = 3 ∧ res.best.isComplete = true := by
  obtain ⟨enough, res, h1, -, h2, -⟩ := C47_returns_partial moderateData moderateGood _ moderate (by decide)
    (by decide) .exact {} defaultParams_good Rng.next (Rng.ofSeed seed) Criterion.call (.maxIterations 3 0)
    (fun least => (C47_criteria least).1 3 _ rfl) (fun i => i) (fun i j h => Int.ofNat_le.2 h) true none
    (by simp)
  refine ⟨enough, res, fun fuel rounds hf hr => ⟨h1 fuel rounds hf hr, ?_, by simpa using h2⟩⟩
  exact C47_iterations moderateData .exact {} Rng.next (Rng.ofSeed seed) 3 _ rfl _ true none _ _ _
    (h1 fuel rounds hf hr)

set_option maxRecDepth 100000 in
/-- A run from seed 42 with one iteration, which returns a feasible solution with objective 84. -/
example : (match Solve.solveSeed .exact moderateData {} (.maxIterations 1 0) (fun i => i) 42 true none 10 20 with
    | .ok (some r) => decide (r.best.isFeasible = true ∧ r.numIterations = 1 ∧ objective r.best = 84)
    | _ => false) = true := by decide +kernel

end Demo
end PyVRP
