import Verif.Lemmas.Ils
import Verif.Props.C30
import Verif.Props.Demo
/-!
# C28: the solver returns the best solution seen
-/
namespace PyVRP
open Spec Ils
variable {σ τ : Type}

namespace Spec

/-- The same search method, but also keeping a list of all solutions it has returned. -/
def logged (env : IlsEnv σ τ) : IlsEnv (σ × List Solution) τ :=
  { env with search := fun st x ce ex =>
      let (s', y) := env.search st.1 x ce ex
      ((s', st.2 ++ [y]), y) }

/-- What is asked of the search method (see C24 and C25 for `LocalSearch`): given an accepted
solution it returns an accepted solution, and costs can be represented. -/
structure SearchOk (data : ProblemData) (env : IlsEnv σ τ) : Prop where
  init : Accepted data env.init
  accepted : ∀ st x ce ex, Accepted data x → Accepted data (env.search st x ce ex).2
  fits_init : objective env.init ≤ 9223372036854775807
  fits : ∀ st x ce ex, Accepted data x → objective (env.search st x ce ex).2 ≤ 9223372036854775807

/-- Exhaustive search never turns a feasible solution into a costlier feasible one. -/
def NeverWorse (data : ProblemData) (env : IlsEnv σ τ) : Prop :=
  ∀ st x ce, Accepted data x → ce.Valid → x.isFeasible = true → (env.search st x ce true).2.isFeasible = true →
    objective (env.search st x ce true).2 ≤ objective x

end Spec

/-- **C28.** The returned solution (the best of the last state) is the initial solution or one that the
search method has returned, at any point of any run. -/
theorem C28_returned_was_found (env : IlsEnv σ τ) (pm : PenaltyManager) (ss : σ) (ts : τ) (cs : Bool)
    (s : IlsState (σ × List Solution) τ) (h : Reachable (logged env) pm (ss, []) ts cs s) :
    s.best ∈ env.init :: s.searchState.2 ∧ s.curr ∈ env.init :: s.searchState.2 := by
  induction h with
  | start h =>
    simp only [start] at h
    split at h
    · cases h
    · cases h
      exact ⟨List.mem_cons_self, List.mem_cons_self⟩
  | step _ _ h ih =>
    rename_i s s' _ _
    obtain ⟨ce, pm', _, _, rfl⟩ := iteration_ok h
    generalize hs0 : ({ s with stopState := _ } : IlsState (σ × List Solution) τ) = s0
    have hb0 : s0.best ∈ env.init :: s0.searchState.2 ∧ s0.curr ∈ env.init :: s0.searchState.2 := by
      rw [← hs0]; exact ih
    have hr : (restart (logged env) s0).best ∈ env.init :: (restart (logged env) s0).searchState.2 ∧
        (restart (logged env) s0).curr ∈ env.init :: (restart (logged env) s0).searchState.2 := by
      simp only [restart]
      split
      · exact ⟨hb0.1, hb0.1⟩
      · exact hb0
    generalize restart (logged env) s0 = s1 at hr
    have hmem : ∀ {x : Solution} {l : List Solution} {y : Solution},
        x ∈ env.init :: l → x ∈ env.init :: (l ++ [y]) := by
      intro x l y hx
      rcases List.mem_cons.1 hx with hx | hx
      · simp [hx]
      · simp [hx]
    generalize hs2 : ({ s1 with costEval := _, searchState := _, pm := _ } :
      IlsState (σ × List Solution) τ) = s2
    have h2 : s2.best ∈ env.init :: s2.searchState.2 ∧ s2.curr ∈ env.init :: s2.searchState.2 ∧
        ((logged env).search s1.searchState s1.curr ce false).2 ∈ env.init :: s2.searchState.2 := by
      rw [← hs2]
      exact ⟨hmem hr.1, hmem hr.2, by simp [logged]⟩
    generalize ((logged env).search s1.searchState s1.curr ce false).2 = cand at h2
    have h3 : (updateBest (logged env) s2 cand).1.best
          ∈ env.init :: (updateBest (logged env) s2 cand).1.searchState.2 ∧
        (updateBest (logged env) s2 cand).1.curr
          ∈ env.init :: (updateBest (logged env) s2 cand).1.searchState.2 ∧
        (updateBest (logged env) s2 cand).2
          ∈ env.init :: (updateBest (logged env) s2 cand).1.searchState.2 := by
      rcases updateBest_cases (logged env) s2 cand with ⟨_, h⟩ | ⟨_, _, h⟩ | ⟨_, _, _, h⟩ | ⟨_, _, _, h⟩ <;>
        rw [h]
      · exact h2
      · exact ⟨h2.2.2, h2.2.1, h2.2.2⟩
      · exact ⟨by simp [logged], hmem h2.2.1, by simp [logged]⟩
      · exact ⟨hmem h2.2.2, hmem h2.2.1, by simp [logged]⟩
    refine ⟨h3.1, ?_⟩
    rcases accept_curr (logged env) (updateBest (logged env) s2 cand).1 (updateBest (logged env) s2 cand).2
      with h | h
    · dsimp only; rw [h]; exact h3.2.2
    · dsimp only; rw [h]; exact h3.2.1

/-! ### The incumbent never gets worse -/

/-- Accepted solutions have an excess load for each dimension. -/
theorem Spec.Accepted.dims {data : ProblemData} {s : Solution} (hn : ∀ g ∈ data.groups, g.clients.Nodup)
    (h : Accepted data s) : s.excessLoad.length = data.numLoadDimensions := by
  obtain ⟨plan, routes, hb, hm⟩ := h
  rw [(C15_totals data plan routes s hb hn hm).2.2.2.2.2.2.2.2.2.2.2.2.1]
  simp

theorem Spec.Accepted.cost {data : ProblemData} {s : Solution} (hn : ∀ g ∈ data.groups, g.clients.Nodup)
    (h : Accepted data s) {ce : CostEvaluator} (hce : ce.Valid) :
    ce.cost s = if s.isFeasible then objective s else 9223372036854775807 := by
  obtain ⟨plan, routes, hb, hm⟩ := h
  have := C16_cost data plan routes s hb hn hm ce hce
  cases hf : s.isFeasible
  · rw [this.2 hf]; rfl
  · rw [(this.1 hf).1]; rfl

/-- The solutions that occur in a run. -/
def Occurs (data : ProblemData) (s : Solution) : Prop := Accepted data s ∧ objective s ≤ 9223372036854775807

theorem Spec.SearchOk.keeps {data : ProblemData} {env : IlsEnv σ τ} (h : SearchOk data env) :
    Keeps env (Occurs data) :=
  fun st x ce ex hx => ⟨h.accepted st x ce ex hx.1, h.fits st x ce ex hx.1⟩

/-- One state of the loop and a later one. -/
inductive Spec.Later (env : IlsEnv σ τ) : IlsState σ τ → IlsState σ τ → Prop
  | refl (s) : Later env s s
  | step {s s' s''} : Later env s s' →
      iteration env { s' with stopState := (env.stop s'.stopState (s'.costEval.cost s'.best)).1 } = .ok s'' →
      Later env s s''

/-- **C28.** A run never raises: every state reached can be continued. -/
theorem C28_never_raises (data : ProblemData) (hn : ∀ g ∈ data.groups, g.clients.Nodup)
    (env : IlsEnv σ τ) (pm : PenaltyManager) (ss : σ) (ts : τ) (cs : Bool)
    (hs : SearchOk data env) (hpm : PmOk env.R data.numLoadDimensions pm) :
    (∃ s, start env pm ss ts cs = .ok s) ∧
    (∀ s, Reachable env pm ss ts cs s → ∀ ts', ∃ s', iteration env { s with stopState := ts' } = .ok s') := by
  have hd : ∀ x, Occurs data x → x.excessLoad.length = data.numLoadDimensions := fun x hx => hx.1.dims hn
  constructor
  · obtain ⟨s, h, _⟩ := Inv.start (P := Occurs data) hpm ⟨hs.init, hs.fits_init⟩ ss ts cs
    exact ⟨s, h⟩
  · intro s hr ts'
    have h := hr.inv hd hpm ⟨hs.init, hs.fits_init⟩ hs.keeps
    have h' : Inv env data.numLoadDimensions (Occurs data) { s with stopState := ts' } :=
      ⟨h.pm, h.ce, h.best, h.curr, h.hist⟩
    obtain ⟨s', h1, _⟩ := h'.iteration hd hs.keeps
    exact ⟨s', h1⟩

/-- The new best solution of an iteration. -/
theorem iteration_best {data : ProblemData} (hn : ∀ g ∈ data.groups, g.clients.Nodup)
    {env : IlsEnv σ τ} (hs : SearchOk data env) {s s' : IlsState σ τ}
    (hi : Inv env data.numLoadDimensions (Occurs data) s) (h : iteration env s = .ok s') :
    s'.best = s.best ∨
    (∃ cand, Accepted data cand ∧ cand.isFeasible = true ∧ (s.best.isFeasible = true → objective cand < objective s.best) ∧
      (s'.best = cand ∨
        ∃ st ce, ce.Valid ∧ s'.best = (env.search st cand ce true).2 ∧ s'.best.isFeasible = true ∧
          env.params.exhaustiveOnBest = true)) := by
  obtain ⟨ce, pm', hce, hpm', rfl⟩ := iteration_ok h
  have h1 := hi.restart
  have hbest : (restart env s).best = s.best := by simp only [restart]; split <;> rfl
  have hcv : ce.Valid := by
    obtain ⟨ce', h2, h3⟩ := h1.pm.evaluator
    rw [hce] at h2; cases h2; exact h3
  have hcand := hs.keeps (restart env s).searchState (restart env s).curr ce false h1.curr
  dsimp only
  generalize env.search (restart env s).searchState (restart env s).curr ce false = call at hcand hpm'
  have hcost : ∀ a b : Solution, Occurs data a → Occurs data b → ce.cost a < ce.cost b →
      a.isFeasible = true ∧ (b.isFeasible = true → objective a < objective b) := by
    intro a b ha hb hlt
    rw [ha.1.cost hn hcv, hb.1.cost hn hcv] at hlt
    have h2 := ha.2
    have h3 := hb.2
    cases hfa : a.isFeasible <;> cases hfb : b.isFeasible <;> simp [hfa, hfb] at hlt ⊢ <;> omega
  have hb := hi.best
  rw [← hbest] at hb ⊢
  generalize hs2 : ({ restart env s with costEval := ce, searchState := call.1, pm := pm' } : IlsState σ τ) = s2
  have hce2 : s2.costEval = ce := by rw [← hs2]
  have hb2 : s2.best = (restart env s).best := by rw [← hs2]
  rw [(accept_best env _ _).1]
  rcases updateBest_cases env s2 call.2 with ⟨_, h⟩ | ⟨hlt, _, h⟩ | ⟨hlt, hex, hf, h⟩ | ⟨hlt, _, _, h⟩ <;> rw [h]
  · left; exact hb2
  · right
    rw [hce2, hb2] at hlt
    exact ⟨call.2, hcand.1, (hcost _ _ hcand hb hlt).1, (hcost _ _ hcand hb hlt).2, .inl rfl⟩
  · right
    rw [hce2, hb2] at hlt
    exact ⟨call.2, hcand.1, (hcost _ _ hcand hb hlt).1, (hcost _ _ hcand hb hlt).2, .inr ⟨_, _, hce2 ▸ hcv, rfl, hf, hex⟩⟩
  · right
    rw [hce2, hb2] at hlt
    exact ⟨call.2, hcand.1, (hcost _ _ hcand hb hlt).1, (hcost _ _ hcand hb hlt).2, .inl rfl⟩

theorem Spec.Later.inv {data : ProblemData} (hn : ∀ g ∈ data.groups, g.clients.Nodup)
    {env : IlsEnv σ τ} (hs : SearchOk data env) {s s' : IlsState σ τ} (h : Later env s s')
    (hi : Inv env data.numLoadDimensions (Occurs data) s) :
    Inv env data.numLoadDimensions (Occurs data) s' := by
  induction h with
  | refl => exact hi
  | step _ h ih =>
    rename_i s1 s2 _
    have h1 : Inv env data.numLoadDimensions (Occurs data)
        { s1 with stopState := (env.stop s1.stopState (s1.costEval.cost s1.best)).1 } :=
      ⟨ih.pm, ih.ce, ih.best, ih.curr, ih.hist⟩
    obtain ⟨s3, h2, h3⟩ := h1.iteration (fun x hx => hx.1.dims hn) hs.keeps
    rw [h] at h2; cases h2; exact h3

/-- **C28.** Once the incumbent is feasible it stays feasible. -/
theorem C28_feasible_kept (data : ProblemData) (hn : ∀ g ∈ data.groups, g.clients.Nodup)
    (env : IlsEnv σ τ) (pm : PenaltyManager) (ss : σ) (ts : τ) (cs : Bool)
    (hs : SearchOk data env) (hpm : PmOk env.R data.numLoadDimensions pm) (s s' : IlsState σ τ)
    (hr : Reachable env pm ss ts cs s) (hl : Later env s s') (hf : s.best.isFeasible = true) :
    s'.best.isFeasible = true := by
  have hi := hr.inv (fun x hx => hx.1.dims hn) hpm (P := Occurs data) ⟨hs.init, hs.fits_init⟩ hs.keeps
  induction hl with
  | refl => exact hf
  | step hl h ih =>
    rename_i s1 s2
    have h1 := hl.inv hn hs hi
    have h2 : Inv env data.numLoadDimensions (Occurs data)
        { s1 with stopState := (env.stop s1.stopState (s1.costEval.cost s1.best)).1 } :=
      ⟨h1.pm, h1.ce, h1.best, h1.curr, h1.hist⟩
    rcases iteration_best hn hs h2 h with h3 | ⟨cand, _, hc, _, h3 | ⟨_, _, _, _, h3, _⟩⟩
    · rw [h3]; exact ih
    · rw [h3]; exact hc
    · exact h3

/-- **C28.** The incumbent never gets worse: a later incumbent is feasible and costs no more than any earlier
feasible one, provided exhaustive search does not make feasible solutions costlier (as is the case for
`LocalSearch`, see C25). -/
theorem C28_never_worse (data : ProblemData) (hn : ∀ g ∈ data.groups, g.clients.Nodup)
    (env : IlsEnv σ τ) (pm : PenaltyManager) (ss : σ) (ts : τ) (cs : Bool)
    (hs : SearchOk data env) (hw : NeverWorse data env)
    (hpm : PmOk env.R data.numLoadDimensions pm) (s s' : IlsState σ τ)
    (hr : Reachable env pm ss ts cs s) (hl : Later env s s') (hf : s.best.isFeasible = true) :
    s'.best.isFeasible = true ∧ objective s'.best ≤ objective s.best := by
  have hi := hr.inv (fun x hx => hx.1.dims hn) hpm (P := Occurs data) ⟨hs.init, hs.fits_init⟩ hs.keeps
  induction hl with
  | refl => exact ⟨hf, Int.le_refl _⟩
  | step hl h ih =>
    rename_i s1 s2
    have h1 := hl.inv hn hs hi
    have h2 : Inv env data.numLoadDimensions (Occurs data)
        { s1 with stopState := (env.stop s1.stopState (s1.costEval.cost s1.best)).1 } :=
      ⟨h1.pm, h1.ce, h1.best, h1.curr, h1.hist⟩
    rcases iteration_best hn hs h2 h with h3 | ⟨cand, hacc, hc, hlt, h3 | ⟨st, ce, hcv, h3, h4, _⟩⟩
    · rw [h3]; exact ih
    · rw [h3]
      have := hlt ih.1
      dsimp only at this
      exact ⟨hc, by omega⟩
    · refine ⟨h4, ?_⟩
      have := hlt ih.1
      have h5 := hw st cand ce hacc hcv hc (by rw [← h3]; exact h4)
      rw [← h3] at h5
      dsimp only at this
      omega

/-- **C28.** If exhaustive search is not used, the incumbent never gets worse, whatever the search method. -/
theorem C28_never_worse_without_exhaustive (data : ProblemData) (hn : ∀ g ∈ data.groups, g.clients.Nodup)
    (env : IlsEnv σ τ) (pm : PenaltyManager) (ss : σ) (ts : τ) (cs : Bool)
    (hs : SearchOk data env) (hx : env.params.exhaustiveOnBest = false)
    (hpm : PmOk env.R data.numLoadDimensions pm) (s s' : IlsState σ τ)
    (hr : Reachable env pm ss ts cs s) (hl : Later env s s') (hf : s.best.isFeasible = true) :
    s'.best.isFeasible = true ∧ objective s'.best ≤ objective s.best := by
  have hi := hr.inv (fun x hx => hx.1.dims hn) hpm (P := Occurs data) ⟨hs.init, hs.fits_init⟩ hs.keeps
  induction hl with
  | refl => exact ⟨hf, Int.le_refl _⟩
  | step hl h ih =>
    rename_i s1 s2
    have h1 := hl.inv hn hs hi
    have h2 : Inv env data.numLoadDimensions (Occurs data)
        { s1 with stopState := (env.stop s1.stopState (s1.costEval.cost s1.best)).1 } :=
      ⟨h1.pm, h1.ce, h1.best, h1.curr, h1.hist⟩
    rcases iteration_best hn hs h2 h with h3 | ⟨cand, _, hc, hlt, h3 | ⟨st, ce, _, _, _, h4⟩⟩
    · rw [h3]; exact ih
    · rw [h3]
      have := hlt ih.1
      dsimp only at this
      exact ⟨hc, by omega⟩
    · rw [hx] at h4; cases h4

theorem Spec.Later.of_reachable {env : IlsEnv σ τ} {pm : PenaltyManager} {ss : σ} {ts : τ} {cs : Bool}
    {s : IlsState σ τ} (h : Reachable env pm ss ts cs s) :
    ∃ s0, start env pm ss ts cs = .ok s0 ∧ Later env s0 s := by
  induction h with
  | start h => exact ⟨_, h, .refl _⟩
  | step _ _ h ih =>
    obtain ⟨s0, h1, h2⟩ := ih
    exact ⟨s0, h1, h2.step h⟩

/-- **C28.** What `run` returns: an accepted solution, and if the initial solution is feasible, a feasible
solution that costs no more than it. -/
theorem C28_result (data : ProblemData) (hn : ∀ g ∈ data.groups, g.clients.Nodup)
    (env : IlsEnv σ τ) (pm : PenaltyManager) (ss : σ) (ts : τ) (cs : Bool) (fuel : Nat) (res : Result)
    (hs : SearchOk data env) (hw : NeverWorse data env)
    (hpm : PmOk env.R data.numLoadDimensions pm) (h : run env pm ss ts cs fuel = .ok (some res)) :
    Accepted data res.best ∧
    (env.init.isFeasible = true →
      res.best.isFeasible = true ∧ objective res.best ≤ objective env.init) := by
  obtain ⟨s, hr, _, hb, _, _⟩ := run_some h
  have hi := hr.inv (fun x hx => hx.1.dims hn) hpm (P := Occurs data) ⟨hs.init, hs.fits_init⟩ hs.keeps
  rw [hb]
  refine ⟨hi.best.1, fun hf => ?_⟩
  obtain ⟨s0, h0, hl⟩ := Later.of_reachable hr
  have hb0 : s0.best = env.init := by
    simp only [start] at h0
    split at h0
    · cases h0
    · cases h0; rfl
  have := C28_never_worse data hn env pm ss ts cs hs hw hpm s0 s (.start h0) hl (by rw [hb0]; exact hf)
  rwa [hb0] at this

/-! ### Examples, and what happens without the assumption on exhaustive search -/

namespace Demo

/-- Two optional clients with prizes 10 and 100. -/
def small : ProblemData :=
  { locations := [⟨0, 0, ""⟩, ⟨1, 0, ""⟩]
    clients := [⟨1, [1], [0], 0, 0, 50, 0, 10, false, none, ""⟩, ⟨1, [1], [0], 0, 0, 50, 0, 100, false, none, ""⟩]
    depots := [⟨0, 0, 1000, 0, ""⟩]
    vehicleTypes := [
      { numAvailable := 2, startDepot := 0, endDepot := 0, capacity := [10], twEarly := 0
        twLate := 900, shiftDuration := 60, maxDistance := 40, fixedCost := 0
        unitDistanceCost := 1, unitDurationCost := 0, profile := 0, startLate := 100
        initialLoad := [0], reloadDepots := [], maxReloads := 0, maxOvertime := 0
        unitOvertimeCost := 0, maxDuration := 60, name := "" }]
    dists := [⟨2, 2, [0, 1, 1, 0]⟩]
    durs := [⟨2, 2, [0, 1, 1, 0]⟩]
    groups := []
    shipments := [] }

example : ProblemData.make small = .ok small := by decide

/-- The solution visiting the given clients in one route (or none). -/
def visiting (clients : List Nat) : Solution :=
  let routes := if clients = [] then [] else [Route.build small (clients.map client) 0]
  match Solution.make small routes with
  | .ok s => s
  | .error _ => { routes := [] }

theorem accepted_nil : Accepted small (visiting []) :=
  ⟨[], [], ⟨rfl, by simp, by simp, by decide⟩, by decide⟩

theorem accepted_zero : Accepted small (visiting [0]) :=
  ⟨[(0, [client 0])], [Route.build small [client 0] 0],
    ⟨by decide, by decide, by decide, by decide⟩, by decide⟩

theorem accepted_one : Accepted small (visiting [1]) :=
  ⟨[(0, [client 1])], [Route.build small [client 1] 0],
    ⟨by decide, by decide, by decide, by decide⟩, by decide⟩

example : (visiting []).isFeasible ∧ (visiting [0]).isFeasible ∧ (visiting [1]).isFeasible := by decide

/-- A search method that finds the better solution, and whose exhaustive mode applies `ex`. -/
def env (ex : Solution → Solution) (exhaustive : Bool) : IlsEnv Unit Criterion :=
  { R := .exact
    params := { historyLength := 2, exhaustiveOnBest := exhaustive }
    search := fun _ x _ e => ((), if e then ex x else visiting [1])
    stop := Criterion.call
    init := visiting [0]
    clock := fun n => n }

theorem fits_one : objective (visiting [1]) ≤ 9223372036854775807 := by decide

theorem fits_zero : objective (visiting [0]) ≤ 9223372036854775807 := by decide

theorem searchOk (ex : Solution → Solution) (b : Bool) (h : ∀ x, Accepted small x → Accepted small (ex x))
    (hf : ∀ x, Accepted small x → objective (ex x) ≤ 9223372036854775807) :
    SearchOk small (env ex b) := by
  refine ⟨accepted_zero, ?_, fits_zero, ?_⟩
  · intro st x ce e hx
    simp only [env]
    cases e
    · exact accepted_one
    · exact h x hx
  · intro st x ce e hx
    simp only [env]
    cases e
    · exact fits_one
    · exact hf x hx

theorem pmOk : PmOk .exact 1 (.make ([20], 6, 6) Demo.params) :=
  PmOk.make Demo.params_valid Demo.params_floats

/-- An exhaustive mode that keeps solutions that fit. -/
def keep (x : Solution) : Solution := if objective x ≤ 1000 then x else visiting [1]

end Demo

/-- A search method that meets the assumptions of the theorems above. -/
example : SearchOk Demo.small (Demo.env Demo.keep true) ∧
    NeverWorse Demo.small (Demo.env Demo.keep true) := by
  constructor
  · apply Demo.searchOk
    · intro x hx
      unfold Demo.keep
      split
      · exact hx
      · exact Demo.accepted_one
    · intro x _
      unfold Demo.keep
      split
      · omega
      · exact Demo.fits_one
  · intro st x ce _ _ hx hf
    show objective (Demo.keep x) ≤ objective x
    unfold Demo.keep
    split
    · exact Int.le_refl _
    · have : objective (Demo.visiting [1]) ≤ 1000 := by decide
      omega

/-- **C28**, what is false without the assumption: a search method whose exhaustive mode returns a feasible but
costlier solution makes `run` return a solution that is worse than the initial solution, because the
new incumbent's cost is not compared (`IteratedLocalSearch.py` 249-251). -/
theorem C28_negation :
    ∃ (data : ProblemData) (env : IlsEnv Unit Criterion) (pm : PenaltyManager) (res : Result),
      SearchOk data env ∧ PmOk env.R data.numLoadDimensions pm ∧
      run env pm () (.maxIterations 1 0) true 2 = .ok (some res) ∧
      env.init.isFeasible = true ∧ res.best.isFeasible = true ∧
      objective env.init < objective res.best := by
  have h1 : SearchOk Demo.small (Demo.env (fun _ => Demo.visiting []) true) :=
    Demo.searchOk _ _ (fun _ _ => Demo.accepted_nil) (fun _ _ => by decide)
  obtain ⟨res, hres, hb⟩ : ∃ res, run (Demo.env (fun _ => Demo.visiting []) true)
      (.make ([20], 6, 6) Demo.params) () (.maxIterations 1 0) true 2 = .ok (some res) ∧
      res.best = Demo.visiting [] := by
    have : (match run (Demo.env (fun _ => Demo.visiting []) true)
      (.make ([20], 6, 6) Demo.params) () (.maxIterations 1 0) true 2 with
      | .ok (some res) => decide (res.best = Demo.visiting [])
      | _ => false) = true := by decide +kernel
    split at this
    · rename_i res hres
      exact ⟨res, hres, by simpa using this⟩
    · cases this
  refine ⟨_, _, _, res, h1, Demo.pmOk, hres, ?_, ?_, ?_⟩
  · show (Demo.visiting [0]).isFeasible = true
    decide
  · rw [hb]; decide
  · rw [hb]
    show objective (Demo.visiting [0]) < objective (Demo.visiting [])
    decide

end PyVRP
