import Verif.Model.Ils
import Verif.Props.C16
import Verif.Props.C31
import Verif.Props.C32
/-!
# Invariants of the iterated local search
-/
namespace PyVRP
open Spec PenaltyManager

/-- A penalty manager for `dims` load dimensions, after any history. -/
structure PmOk (R : Rounding) (dims : Nat) (pm : PenaltyManager) : Prop where
  valid : ValidParams pm.params
  min : R.rnd pm.params.minPenalty = pm.params.minPenalty
  max : R.rnd pm.params.maxPenalty = pm.params.maxPenalty
  wf : pm.WF
  len : pm.penalties.length = dims + 2
  range : ∀ i < dims + 2, ∃ s, pm.slotAt i = some s ∧ InRange R pm.params s.1

theorem PmOk.make {R : Rounding} {params : PenaltyParams} {initial : List Rat × Rat × Rat}
    (hv : ValidParams params) (hf : Floats R params initial) :
    PmOk R initial.1.length (.make initial params) :=
  ⟨hv, hf.min, hf.max, make_wf _ _, make_length _ _, fun i hi => by
    obtain ⟨p, h1, h2⟩ := make_slot hv hf i hi
    exact ⟨_, h1, h2⟩⟩

theorem PmOk.register {R : Rounding} {dims : Nat} {pm : PenaltyManager} (h : PmOk R dims pm)
    (sol : Solution) (hd : sol.excessLoad.length = dims) :
    ∃ pm', pm.register R sol = .ok pm' ∧ PmOk R dims pm' := by
  obtain ⟨pm', hr, hp, hw, hl, hs⟩ := register_ok R pm sol h.wf (by simp [violations, hd, h.len])
  refine ⟨pm', hr, by rw [hp]; exact h.valid, by rw [hp]; exact h.min, by rw [hp]; exact h.max, hw,
    by rw [hl, h.len], fun i hi => ?_⟩
  obtain ⟨s, h1, h2⟩ := h.range i hi
  have h3 := hs i (by simp [violations, hd, hi])
  rw [h1, Option.map_some] at h3
  refine ⟨_, h3, ?_⟩
  rw [hp]
  exact foldl_inRange h.valid h.min h.max [_] s h2

theorem PmOk.evaluator {R : Rounding} {dims : Nat} {pm : PenaltyManager} (h : PmOk R dims pm) :
    ∃ ce, pm.costEvaluator R = .ok ce ∧ ce.Valid := by
  obtain ⟨ce, hc, hv, _⟩ := evaluatorOf_ok R pm.penalties (by have := h.len; omega) (fun p hp => by
    obtain ⟨i, hi, rfl⟩ := List.mem_iff_getElem.1 hp
    obtain ⟨s, h1, h2⟩ := h.range i (by rw [← h.len]; exact hi)
    have h3 := slotAt_penalty h1
    rw [List.getElem?_eq_getElem hi, Option.some_inj] at h3
    rw [h3]
    have := h.valid.min
    have := h2.1
    grind)
  exact ⟨ce, hc, hv⟩

/-- A solution that `Solution(data, routes)` has accepted, for some list of routes. -/
def Spec.Accepted (data : ProblemData) (s : Solution) : Prop :=
  ∃ plan routes, Built data plan routes ∧ Solution.make data routes = .ok s

/-- The objective of the problem. -/
def Spec.objective (s : Solution) : Int :=
  s.distanceCost + s.durationCost + s.fixedVehicleCost + s.uncollectedPrizes

namespace Ils
variable {σ τ : Type}

/-- The solutions that occur: all satisfy `P`. -/
structure Inv (env : IlsEnv σ τ) (dims : Nat) (P : Solution → Prop) (s : IlsState σ τ) : Prop where
  pm : PmOk env.R dims s.pm
  ce : s.costEval.Valid
  best : P s.best
  curr : P s.curr
  hist : ∀ x, some x ∈ s.history.buffer → P x

/-- What the search method must satisfy: it keeps `P`. -/
def Keeps (env : IlsEnv σ τ) (P : Solution → Prop) : Prop :=
  ∀ st x ce ex, P x → P (env.search st x ce ex).2

theorem Inv.start {env : IlsEnv σ τ} {dims : Nat} {P : Solution → Prop} {pm : PenaltyManager}
    (hpm : PmOk env.R dims pm) (hi : P env.init) (ss : σ) (ts : τ) (cs : Bool) :
    ∃ s, Ils.start env pm ss ts cs = .ok s ∧ Inv env dims P s := by
  obtain ⟨ce, hc, hv⟩ := hpm.evaluator
  simp only [Ils.start, hc]
  refine ⟨_, rfl, hpm, hv, hi, hi, ?_⟩
  intro x hx
  simp [RingBuffer.make, List.mem_replicate] at hx

theorem Inv.restart {env : IlsEnv σ τ} {dims : Nat} {P : Solution → Prop} {s : IlsState σ τ}
    (h : Inv env dims P s) : Inv env dims P (restart env s) := by
  unfold Ils.restart
  dsimp only
  split
  · refine ⟨h.pm, h.ce, h.best, h.best, ?_⟩
    intro x hx
    simp [RingBuffer.clear, List.mem_replicate] at hx
  · exact ⟨h.pm, h.ce, h.best, h.curr, h.hist⟩

theorem Inv.updateBest {env : IlsEnv σ τ} {dims : Nat} {P : Solution → Prop} {s : IlsState σ τ}
    (h : Inv env dims P s) (hk : Keeps env P) {cand : Solution} (hc : P cand) :
    Inv env dims P (updateBest env s cand).1 ∧ P (updateBest env s cand).2 := by
  unfold Ils.updateBest
  dsimp only
  split
  · split
    · split
      · exact ⟨⟨h.pm, h.ce, hk _ _ _ _ hc, h.curr, h.hist⟩, hk _ _ _ _ hc⟩
      · exact ⟨⟨h.pm, h.ce, hc, h.curr, h.hist⟩, hk _ _ _ _ hc⟩
    · exact ⟨⟨h.pm, h.ce, hc, h.curr, h.hist⟩, hc⟩
  · exact ⟨⟨h.pm, h.ce, h.best, h.curr, h.hist⟩, hc⟩

theorem Inv.accept {env : IlsEnv σ τ} {dims : Nat} {P : Solution → Prop} {s : IlsState σ τ}
    (h : Inv env dims P s) {cand : Solution} (hc : P cand) : Inv env dims P (accept env s cand) := by
  unfold Ils.accept
  dsimp only
  have h1 : ∀ (c : Prop) [Decidable c] (a b : Int),
      P (if c then (cand, a) else (s.curr, b)).1 := by
    intro c _ a b; split
    · exact hc
    · exact h.curr
  have key : ∀ (c : Prop) [Decidable c] (v x : Solution), P v →
      some x ∈ (if c then s.history.append v else s.history.skip).buffer → P x := by
    intro c _ v x hv hx
    split at hx
    · rcases List.mem_or_eq_of_mem_set hx with hx | hx
      · exact h.hist x hx
      · cases hx; exact hv
    · exact h.hist x hx
  exact ⟨h.pm, h.ce, h.best, h1 _ _ _, fun x hx => key _ _ x (h1 _ _ _) hx⟩

theorem iteration_unfold (env : IlsEnv σ τ) {s : IlsState σ τ} {dims : Nat} {P : Solution → Prop}
    (hd : ∀ x, P x → x.excessLoad.length = dims)
    (h : Inv env dims P s) (hk : Keeps env P) :
    ∃ ce pm, (restart env s).pm.costEvaluator env.R = .ok ce ∧ ce.Valid ∧
      (restart env s).pm.register env.R
        (env.search (restart env s).searchState (restart env s).curr ce false).2 = .ok pm ∧
      PmOk env.R dims pm ∧
      let call := env.search (restart env s).searchState (restart env s).curr ce false
      let ub := updateBest env { restart env s with costEval := ce, searchState := call.1, pm } call.2
      let s2 := accept env ub.1 ub.2
      iteration env s = .ok { s2 with
        stats := s2.stats.collect s2.curr ub.2 s2.best s2.costEval (env.clock s2.reads)
        reads := if s2.stats.collectStats then s2.reads + 1 else s2.reads
        events := s2.events ++ [.onIteration s2.curr ub.2 s2.best s2.costEval] } := by
  have h1 := h.restart
  obtain ⟨ce, hc, hv⟩ := h1.pm.evaluator
  obtain ⟨pm, hp, hpm⟩ := h1.pm.register
    (env.search (restart env s).searchState (restart env s).curr ce false).2 (hd _ (hk _ _ _ _ h1.curr))
  refine ⟨ce, pm, hc, hv, hp, hpm, ?_⟩
  simp only [iteration, hc, hp]

/-- The result of an iteration that does not raise. -/
theorem iteration_ok {env : IlsEnv σ τ} {s s' : IlsState σ τ} (h : iteration env s = .ok s') :
    ∃ ce pm, (restart env s).pm.costEvaluator env.R = .ok ce ∧
      let call := env.search (restart env s).searchState (restart env s).curr ce false
      (restart env s).pm.register env.R call.2 = .ok pm ∧
      let ub := updateBest env { restart env s with costEval := ce, searchState := call.1, pm } call.2
      let s2 := accept env ub.1 ub.2
      s' = { s2 with
        stats := s2.stats.collect s2.curr ub.2 s2.best s2.costEval (env.clock s2.reads)
        reads := if s2.stats.collectStats then s2.reads + 1 else s2.reads
        events := s2.events ++ [.onIteration s2.curr ub.2 s2.best s2.costEval] } := by
  simp only [iteration] at h
  split at h
  · cases h
  · rename_i ce hce
    split at h
    · cases h
    · rename_i pm hpm
      cases h
      exact ⟨ce, pm, hce, hpm, rfl⟩

/-- How `updateBest` changes the state. -/
theorem updateBest_cases (env : IlsEnv σ τ) (s : IlsState σ τ) (cand : Solution) :
    let r := updateBest env s cand
    let call := env.search s.searchState cand s.costEval true
    (¬ s.costEval.cost cand < s.costEval.cost s.best ∧
      r = ({ s with itersNoImprovement := s.itersNoImprovement + 1 }, cand)) ∨
    (s.costEval.cost cand < s.costEval.cost s.best ∧ env.params.exhaustiveOnBest = false ∧
      r = ({ s with itersNoImprovement := 0, best := cand, events := s.events ++ [.onBest cand] }, cand)) ∨
    (s.costEval.cost cand < s.costEval.cost s.best ∧ env.params.exhaustiveOnBest = true ∧
      call.2.isFeasible = true ∧
      r = ({ s with itersNoImprovement := 0, best := call.2, searchState := call.1
                    events := s.events ++ [.onBest call.2] }, call.2)) ∨
    (s.costEval.cost cand < s.costEval.cost s.best ∧ env.params.exhaustiveOnBest = true ∧
      call.2.isFeasible = false ∧
      r = ({ s with itersNoImprovement := 0, best := cand, searchState := call.1
                    events := s.events ++ [.onBest cand] }, call.2)) := by
  simp only [updateBest]
  by_cases h1 : s.costEval.cost cand < s.costEval.cost s.best
  · right
    simp only [h1, if_true, not_true_eq_false, true_and]
    cases h2 : env.params.exhaustiveOnBest
    · left; simp
    · right
      cases h3 : (env.search s.searchState cand s.costEval true).2.isFeasible
      · right; simp
      · left; simp
  · left; simp [h1]

theorem accept_best (env : IlsEnv σ τ) (s : IlsState σ τ) (cand : Solution) :
    (accept env s cand).best = s.best ∧ (accept env s cand).searchState = s.searchState ∧
    (accept env s cand).costEval = s.costEval ∧ (accept env s cand).pm = s.pm ∧
    (accept env s cand).stopState = s.stopState ∧ (accept env s cand).iters = s.iters ∧
    (accept env s cand).itersNoImprovement = s.itersNoImprovement ∧
    (accept env s cand).stats = s.stats ∧ (accept env s cand).events = s.events ∧
    (accept env s cand).reads = s.reads := ⟨rfl, rfl, rfl, rfl, rfl, rfl, rfl, rfl, rfl, rfl⟩

theorem accept_curr (env : IlsEnv σ τ) (s : IlsState σ τ) (cand : Solution) :
    (accept env s cand).curr = cand ∨ (accept env s cand).curr = s.curr := by
  simp only [accept]
  have : ∀ (c : Prop) [Decidable c] (a b : Int),
      (if c then (cand, a) else (s.curr, b)).1 = cand ∨ (if c then (cand, a) else (s.curr, b)).1 = s.curr := by
    intro c _ a b; split
    · exact .inl rfl
    · exact .inr rfl
  exact this _ _ _

theorem Inv.iteration {env : IlsEnv σ τ} {dims : Nat} {P : Solution → Prop} {s : IlsState σ τ}
    (hd : ∀ x, P x → x.excessLoad.length = dims)
    (h : Inv env dims P s) (hk : Keeps env P) :
    ∃ s', iteration env s = .ok s' ∧ Inv env dims P s' := by
  obtain ⟨ce, pm, hc, hv, hp, hpm, he⟩ := iteration_unfold env hd h hk
  refine ⟨_, he, ?_⟩
  have h1 := h.restart
  have h2 : Inv env dims P { Ils.restart env s with
      costEval := ce
      searchState := (env.search (Ils.restart env s).searchState (Ils.restart env s).curr ce false).1, pm } :=
    ⟨hpm, hv, h1.best, h1.curr, h1.hist⟩
  have h3 := h2.updateBest hk (hk (Ils.restart env s).searchState _ ce false h1.curr)
  have h4 := h3.1.accept h3.2
  exact ⟨h4.pm, h4.ce, h4.best, h4.curr, h4.hist⟩

/-- `s` occurs at the top of the loop. -/
inductive Reachable (env : IlsEnv σ τ) (pm : PenaltyManager) (ss : σ) (ts : τ) (cs : Bool) :
    IlsState σ τ → Prop
  | start {s} : start env pm ss ts cs = .ok s → Reachable env pm ss ts cs s
  | step {s s'} : Reachable env pm ss ts cs s →
      (env.stop s.stopState (s.costEval.cost s.best)).2 = false →
      iteration env { s with stopState := (env.stop s.stopState (s.costEval.cost s.best)).1 } = .ok s' →
      Reachable env pm ss ts cs s'

theorem Reachable.inv {env : IlsEnv σ τ} {pm : PenaltyManager} {ss : σ} {ts : τ} {cs : Bool}
    {dims : Nat} {P : Solution → Prop} {s : IlsState σ τ} (hd : ∀ x, P x → x.excessLoad.length = dims)
    (hpm : PmOk env.R dims pm) (hi : P env.init) (hk : Keeps env P)
    (h : Reachable env pm ss ts cs s) : Inv env dims P s := by
  induction h with
  | start h =>
    obtain ⟨s', hs', hinv⟩ := Inv.start (τ := τ) hpm hi ss ts cs
    rw [h] at hs'; cases hs'; exact hinv
  | step _ _ h ih =>
    rename_i s1 s2 _ _
    have h1 : Inv env dims P { s1 with stopState := (env.stop s1.stopState (s1.costEval.cost s1.best)).1 } :=
      ⟨ih.pm, ih.ce, ih.best, ih.curr, ih.hist⟩
    obtain ⟨s', hs', hinv⟩ := h1.iteration hd hk
    rw [h] at hs'; cases hs'; exact hinv

/-- What `run` returns. -/
theorem run_some {env : IlsEnv σ τ} {pm : PenaltyManager} {ss : σ} {ts : τ} {cs : Bool} {fuel : Nat}
    {res : Result} (h : run env pm ss ts cs fuel = .ok (some res)) :
    ∃ s, Reachable env pm ss ts cs s ∧ (env.stop s.stopState (s.costEval.cost s.best)).2 = true ∧
      res.best = s.best ∧ res.stats = s.stats ∧ res.numIterations = s.iters := by
  have key : ∀ (fuel : Nat) (s : IlsState σ τ) (r : IlsState σ τ), Reachable env pm ss ts cs s →
      loop env fuel s = .ok (r, true) →
      ∃ s', Reachable env pm ss ts cs s' ∧ (env.stop s'.stopState (s'.costEval.cost s'.best)).2 = true ∧
        r.best = s'.best ∧ r.stats = s'.stats ∧ r.iters = s'.iters := by
    intro fuel
    induction fuel with
    | zero => intro s r _ h; simp [loop] at h
    | succ fuel ih =>
      intro s r hr h
      simp only [loop] at h
      split at h
      · rename_i ha
        cases h
        exact ⟨s, hr, ha, rfl, rfl, rfl⟩
      · rename_i ha
        split at h
        · cases h
        · rename_i s' hs'
          exact ih s' r (hr.step (by simpa using ha) hs') h
  unfold run at h
  split at h
  · cases h
  · rename_i s hs
    split at h
    · cases h
    · cases h
    · rename_i s' hl
      split at h
      · cases h
      · rename_i res' hf
        cases h
        obtain ⟨s2, h1, h2, h3, h4, h5⟩ := key fuel s s' (.start hs) hl
        refine ⟨s2, h1, h2, ?_⟩
        unfold finish Result.make at hf
        split at hf
        · cases hf
        · split at hf
          · cases hf
          · cases hf
            exact ⟨h3, h4, by simp [h5]⟩

end Ils
end PyVRP
