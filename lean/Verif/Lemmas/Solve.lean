import Verif.Model.Solve
import Verif.Lemmas.IlsState
import Verif.Props.C18
import Verif.Props.C25
import Verif.Props.C28
import Verif.Props.C40
import Verif.Props.C46
/-!
# Lemmas about `solve`
-/
namespace PyVRP
open Spec

namespace Spec

/-- Parameters that the constructors of the parameter classes accept. The penalty bounds are doubles; there
are fewer than `SIZE_MAX` possible numbers of perturbations; and `operators` holds operators that exist. -/
structure GoodParams (R : Rounding) (params : SolveParams) : Prop where
  ils : params.ils.check = none
  penalty : params.penalty.check = none
  minFloat : R.rnd params.penalty.minPenalty = params.penalty.minPenalty
  maxFloat : R.rnd params.penalty.maxPenalty = params.penalty.maxPenalty
  targetFloat : R.rnd params.penalty.targetFeasible = params.penalty.targetFeasible
  neighbourhood : params.neighbourhood.make = .ok params.neighbourhood
  perturbation : params.perturbation.make = .ok params.perturbation
  range : params.perturbation.maxPerturbations - params.perturbation.minPerturbations < SIZE_MAX
  operators : ∀ op, Operator.binary op ∈ params.operators → op.Valid

end Spec

namespace Solve
variable {σ τ : Type} {data : ProblemData} {R : Rounding} {params : SolveParams}

theorem computeNeighbours_complete (fl : Rat → Rat) (data : ProblemData) (p : NeighbourhoodParams) :
    CompleteNeighbours data (Neighbourhood.computeNeighbours fl data p) := by
  obtain ⟨h1, h2⟩ := C40_shape_partial fl data p
  refine ⟨?_, fun a ha => ?_, fun entry he b hb => ((h2 entry.1 entry.2 he).2.2 b hb).1⟩
  · rw [h1]
    unfold allTasks
    refine List.nodup_append.2 ⟨?_, ?_, ?_⟩
    · exact List.Pairwise.map _ (fun a b h => by simpa using h) List.nodup_range
    · exact List.Pairwise.map _ (fun a b h => by simpa using h) List.nodup_range
    · intro a ha b hb
      simp only [List.mem_map] at ha hb
      obtain ⟨i, -, rfl⟩ := ha
      obtain ⟨j, -, rfl⟩ := hb
      simp
  · rw [h1]; exact ha

theorem addOperators_history {ls : LocalSearch} (h : SearchHistory data ls) :
    ∀ (ops : List Operator), (∀ op, Operator.binary op ∈ ops → op.Valid) →
      SearchHistory data (addOperators data ops ls) := by
  intro ops
  induction ops generalizing ls with
  | nil => intro _; exact h
  | cons op ops ih =>
    intro hv
    unfold addOperators
    rw [List.foldl_cons]
    apply ih
    · split
      · cases op with
        | unary op => exact .addUnary op h
        | binary op => exact .addBinary op (hv op (by simp)) h
      · exact h
    · exact fun o ho => hv o (by simp [ho])

theorem makeSearch_spec (hp : GoodParams R params) :
    ∃ ls, makeSearch R data params = .ok ls ∧ SearchHistory data ls := by
  have hm : ManagerHistory params.perturbation (PerturbationManager.new params.perturbation) :=
    .new hp.perturbation
  obtain ⟨sp, hs⟩ := C40_accepted R.rnd data params.neighbourhood
  unfold makeSearch LocalSearch.make
  rw [hs]
  refine ⟨_, rfl, addOperators_history ?_ _ hp.operators⟩
  refine .new (computeNeighbours_complete R.rnd data params.neighbourhood) hm hp.range ?_
  unfold LocalSearch.make
  rw [hs]

theorem makePenalties_ok (hp : GoodParams R params) :
    PmOk R data.numLoadDimensions (makePenalties R data params) := by
  have h := PmOk.make (R := R) (params := params.penalty)
    (initial := params.penalty.midpointPenalties R data) ((C31_params _).1 hp.penalty)
    ⟨hp.minFloat, hp.maxFloat, hp.targetFloat, fun p hp => by
      rw [List.eq_of_mem_replicate hp]; exact R.idem _, R.idem _, R.idem _⟩
  have e : (params.penalty.midpointPenalties R data).1.length = data.numLoadDimensions := by
    simp [PenaltyParams.midpointPenalties]
  rw [e] at h
  exact h

theorem numAvailable_pos (hg : GoodData data) : ∀ v ∈ data.vehicleTypes, 0 < v.numAvailable := by
  intro v hv
  obtain ⟨args, ha⟩ := hg.vehicles v hv
  rw [(C36_vehicle_fields args v ha).1]
  exact ((C36_vehicle_accepts args).1.1 ⟨v, ha⟩).available

/-- The costs of solutions are bounded from below. -/
theorem cost_bounded (hg : GoodData data) (hn : ∀ g ∈ data.groups, g.clients.Nodup) :
    ∃ L, ∀ x (ce : CostEvaluator), Accepted data x → ce.Valid → L ≤ ce.cost x := by
  have hv : CostEvaluator.Valid ⟨[], fun _ => 0, fun _ => 0⟩ := ⟨by simp, ⟨by simp, by simp⟩, ⟨by simp, by simp⟩⟩
  obtain ⟨L, hL⟩ := planCost_bounded data ⟨[], fun _ => 0, fun _ => 0⟩
  refine ⟨min L MAX, fun x ce hx hce => ?_⟩
  rw [hx.cost hn hce]
  split
  · rename_i hf
    obtain ⟨plan, routes, hb, hm⟩ := hx
    obtain ⟨s, -, hs, -, -, hc⟩ := load_result hg hn hb hm (SSol.new_clean data)
    have h1 := hL _ ⟨s, hs⟩
    rw [← hc, ((C16_cost data plan routes x hb hn hm _ hv).1 hf).2,
      ((C16_cost data plan routes x hb hn hm _ hv).1 hf).1] at h1
    unfold objective
    omega
  · unfold MAX; omega

/-- Calls of the search method, as `LocalSearch.run` sees them. -/
theorem call_eq (next : σ → Nat × σ) (ce : CostEvaluator) (ls : LocalSearch) (rng : σ) (sol : Solution)
    (ex : Bool) (rounds : Nat) :
    ls.call next data ce rng sol ex rounds
      = match (ls.shuffle next rng).1.run data ce sol ex rounds with
        | .error e => .error e
        | .ok none => .ok none
        | .ok (some (sol', ls')) => .ok (some (sol', ls', (ls.shuffle next rng).2)) := rfl

section general
variable (hg : GoodData data) (hrel : ∀ v ∈ data.vehicleTypes, v.maxReloads ≤ SIZE_MAX)
  (hn : ∀ g ∈ data.groups, g.clients.Nodup) (hfit : FitsMemory data)
include hg hrel hn hfit

theorem call_valid (next : σ → Nat × σ) {ls : LocalSearch} (h : SearchHistory data ls) (rng : σ)
    {sol : Solution} (hsol : Accepted data sol) (ce : CostEvaluator) (ex : Bool) (rounds : Nat) :
    ls.call next data ce rng sol ex rounds = .ok none
    ∨ ∃ sol' ls' rng', ls.call next data ce rng sol ex rounds = .ok (some (sol', ls', rng'))
      ∧ Accepted data sol' ∧ sol'.isComplete = true ∧ SearchHistory data ls' := by
  rw [call_eq]
  rcases C46_result data hg hrel hn hfit _ (h.shuffle next rng) sol hsol ce ex rounds with
    e | ⟨sol', ls', e, h1, h2, h3⟩
  · rw [e]; exact .inl rfl
  · rw [e]; exact .inr ⟨sol', ls', _, rfl, h1, h2, h3⟩

/-- What a call keeps: states that are not the result of an error. -/
def Fine (data : ProblemData) (st : Except Failure (LocalSearch × σ)) : Prop :=
  (∃ ls rng, st = .ok (ls, rng) ∧ SearchHistory data ls) ∨ st = .error .unfinished

/-- The solutions that occur: the initial one, and complete ones. -/
def Seen (data : ProblemData) (init x : Solution) : Prop :=
  Accepted data x ∧ (x = init ∨ x.isComplete = true)

theorem settles_fine (next : σ → Nat × σ) (init : Solution) (rounds : Nat) :
    Ils.Settles data.numLoadDimensions (Seen data init) (Fine data) (fun _ _ _ => True)
      (fun _ => searchMethod next data rounds) := by
  intro st x ce ex hst hx hv hl
  rcases hst with ⟨ls, rng, rfl, h⟩ | rfl
  · rcases call_valid hg hrel hn hfit next h rng hx.1 ce ex rounds with e | ⟨sol', ls', rng', e, h1, h2, h3⟩
    · refine ⟨0, .error .unfinished, x, fun _ _ => ?_, .inr rfl, hx, fun _ => trivial⟩
      unfold searchMethod; dsimp only; rw [e]
    · refine ⟨0, .ok (ls', rng'), sol', fun _ _ => ?_, .inl ⟨_, _, rfl, h3⟩, ⟨h1, .inr h2⟩, fun _ => trivial⟩
      unfold searchMethod; dsimp only; rw [e]
  · exact ⟨0, .error .unfinished, x, fun _ _ => rfl, .inr rfl, hx, fun _ => trivial⟩

/-- Running the algorithm: it does not raise. -/
theorem runAlgorithm_valid (next : σ → Nat × σ) {stop : τ → Int → τ × Bool} {ts : τ} {clock : Nat → Int}
    (hclock : ∀ i j, i ≤ j → clock i ≤ clock j) {init : Solution} (hi : Accepted data init)
    {pm : PenaltyManager} (hpm : PmOk R data.numLoadDimensions pm) {ls : LocalSearch}
    (hls : SearchHistory data ls) (rng : σ) (cs : Bool) (fuel rounds : Nat) :
    runAlgorithm (env next R data params stop clock init rounds) pm ls rng ts cs fuel = .ok none
    ∨ ∃ res, runAlgorithm (env next R data params stop clock init rounds) pm ls rng ts cs fuel = .ok (some res)
      ∧ Seen data init res.best := by
  obtain ⟨s, e, h, -, -, -⟩ := Ils.InvQ.start (env := env next R data params stop clock init rounds)
    (P := Seen data init) (Q := Fine data) hpm ⟨hi, .inl rfl⟩ (ss := .ok (ls, rng)) (.inl ⟨_, _, rfl, hls⟩) ts cs
  have hd : ∀ x, Seen data init x → x.excessLoad.length = data.numLoadDimensions := fun x hx => hx.1.dims hn
  obtain ⟨F, s', b, hF, h', -⟩ := Ils.InvQ.loop (base := env next R data params stop clock init rounds)
    (T := fun _ _ => True) hd (settles_fine hg hrel hn hfit next init rounds) (fun _ => trivial)
    (fun _ _ _ _ _ => trivial) (fun _ _ _ _ => trivial) fuel h
  have hl : Ils.loop (env next R data params stop clock init rounds) fuel s = .ok (s', b) := hF F (Nat.le_refl _)
  unfold runAlgorithm
  rw [e]
  dsimp only
  rw [hl]
  dsimp only
  rcases h'.state with ⟨ls', rng', hs, -⟩ | hs
  · rw [hs]
    dsimp only
    cases b with
    | false => exact .inl rfl
    | true =>
      obtain ⟨res, e1, e2, -⟩ := h'.finish (env := env next R data params stop clock init rounds) hclock
      rw [e1]
      exact .inr ⟨res, rfl, by rw [e2]; exact h'.best⟩
  · rw [hs]; exact .inl rfl

/-- The initial solution. -/
theorem initialSolution_valid (next : σ → Nat × σ) {pm : PenaltyManager}
    (hpm : PmOk R data.numLoadDimensions pm) {ls : LocalSearch}
    (hls : SearchHistory data ls) (rng : σ) (initial : Option Solution)
    (hinit : ∀ s, initial = some s → Accepted data s) (rounds : Nat) :
    initialSolution next R data pm ls rng initial rounds = .ok none
    ∨ ∃ init ls' rng', initialSolution next R data pm ls rng initial rounds = .ok (some (init, ls', rng'))
      ∧ Accepted data init ∧ (initial = some init ∨ init.isComplete = true) ∧ SearchHistory data ls' := by
  cases initial with
  | some s => exact .inr ⟨s, ls, rng, rfl, hinit s rfl, .inl rfl, hls⟩
  | none =>
    have hd : Consistent data := ((C37_accepts_exactly_consistent data data).1 hg.made).2
    obtain ⟨plan, routes, sol, e, hb, -, hm, -, -⟩ := C18_random_valid_complete next rng data hd hn
      (numAvailable_pos hg) hrel (by
        obtain ⟨v, hv⟩ := List.exists_mem_of_ne_nil _ hd.hasVehicle
        have := hfit v hv
        dsimp only [ProblemData.numClients, ProblemData.numShipments] at this
        omega)
    obtain ⟨ce, hce, -, -⟩ := hpm.maxEvaluator
    unfold initialSolution
    dsimp only
    rw [e]
    dsimp only
    rw [hce]
    dsimp only
    rcases call_valid hg hrel hn hfit next hls (Solution.randomPlan next data rng).2.2
      (⟨plan, routes, hb, hm⟩ : Accepted data sol) ce true rounds with e | ⟨sol', ls', rng', e, h1, h2, h3⟩
    · exact .inl e
    · exact .inr ⟨sol', ls', rng', e, h1, .inr h2, h3⟩

end general

section moderate
variable {B : Nat} (hg : GoodData data) (hB : Moderate data B)
  (hrel : ∀ v ∈ data.vehicleTypes, v.maxReloads ≤ SIZE_MAX)
  (hn : ∀ g ∈ data.groups, g.clients.Nodup)
include hg hB hrel hn

theorem call_settles (next : σ → Nat × σ) {ls : LocalSearch} (h : SearchHistory data ls) (rng : σ)
    {sol : Solution} (hsol : Accepted data sol) {ce : CostEvaluator} (hv : ce.Valid)
    (hl : ce.loadPenalties.length = data.numLoadDimensions) (ex : Bool) :
    ∃ F sol' ls' rng', (∀ rounds, F ≤ rounds → ls.call next data ce rng sol ex rounds
        = .ok (some (sol', ls', rng')))
      ∧ Accepted data sol' ∧ sol'.isComplete = true ∧ SearchHistory data ls'
      ∧ (ex = true → sol.isComplete = true → ce.penalisedCost sol' ≤ ce.penalisedCost sol) := by
  obtain ⟨F, st, sol', ls', hF, -, h1, h2, -, h4⟩ := C25_cost_partial data ce ⟨hg, hv, hl⟩ B hB hrel hn _
    (h.shuffle next rng) sol hsol ex
  refine ⟨F, sol', ls', (ls.shuffle next rng).2, fun rounds hr => ?_, h1, h2, ?_, h4⟩
  · rw [call_eq, hF rounds hr]
  · exact .run ce ex F (h.shuffle next rng) hsol (hF F (Nat.le_refl _))

/-- The search method returned. -/
def Done (data : ProblemData) (st : Except Failure (LocalSearch × σ)) : Prop :=
  ∃ ls rng, st = .ok (ls, rng) ∧ SearchHistory data ls

theorem settles_done (next : σ → Nat × σ) (init : Solution) :
    Ils.Settles data.numLoadDimensions (Seen data init) (Done data)
      (fun ce x y => x.isComplete = true → ce.penalisedCost y ≤ ce.penalisedCost x)
      (searchMethod next data) := by
  rintro st x ce ex ⟨ls, rng, rfl, h⟩ hx hv hl
  obtain ⟨F, sol', ls', rng', hF, h1, h2, h3, h4⟩ := call_settles hg hB hrel hn next h rng hx.1 hv hl ex
  refine ⟨F, .ok (ls', rng'), sol', fun n hn' => ?_, ⟨_, _, rfl, h3⟩, ⟨h1, .inr h2⟩, h4⟩
  unfold searchMethod
  dsimp only
  rw [hF n hn']

/-- A feasible solution is replaced by a feasible one that is not worse only. -/
def NotWorse (x y : Solution) : Prop :=
  x.isFeasible = true → objective x ≤ MAX → y.isFeasible = true ∧ objective y ≤ objective x

omit hg hB hrel in
theorem change_notWorse (init x y : Solution) (hx : Seen data init x)
    (h : Ils.Change data.numLoadDimensions (Seen data init)
      (fun ce x y => x.isComplete = true → ce.penalisedCost y ≤ ce.penalisedCost x) x y) : NotWorse x y := by
  intro hf hm
  rcases h with rfl | ⟨ce, cand, hc, hv, -, hlt, h⟩
  · exact ⟨hf, Int.le_refl _⟩
  · have e1 := hx.1.cost hn hv
    have e2 := hc.1.cost hn hv
    rw [hf, if_pos rfl] at e1
    unfold MAX at hm
    have hcf : cand.isFeasible = true := by
      cases hcf : cand.isFeasible
      · rw [hcf] at e2; simp only [Bool.false_eq_true, if_false] at e2; omega
      · rfl
    rw [hcf, if_pos rfl] at e2
    rcases h with rfl | ⟨hyf, hy, hle⟩
    · exact ⟨hcf, by omega⟩
    · refine ⟨hyf, ?_⟩
      have e3 := hy.1.cost hn hv
      rw [hyf, if_pos rfl] at e3
      have hcomp : cand.isComplete = true := by
        unfold Solution.isFeasible at hcf; simp at hcf; grind
      have := hle hcomp
      obtain ⟨p1, r1, b1, m1⟩ := hc.1
      obtain ⟨p2, r2, b2, m2⟩ := hy.1
      have c1 := ((C16_cost data p1 r1 cand b1 hn m1 ce hv).1 hcf).2
      have c2 := ((C16_cost data p2 r2 y b2 hn m2 ce hv).1 hyf).2
      omega

/-- Running the algorithm: it returns. -/
theorem runAlgorithm_stops (next : σ → Nat × σ) {stop : τ → Int → τ × Bool} {ts : τ}
    (hstop : ∀ least, Stops stop least ts) {clock : Nat → Int}
    (hclock : ∀ i j, i ≤ j → clock i ≤ clock j) {init : Solution} (hi : Accepted data init)
    {pm : PenaltyManager} (hpm : PmOk R data.numLoadDimensions pm) {ls : LocalSearch}
    (hls : SearchHistory data ls) (rng : σ) (cs : Bool) :
    ∃ F res, (∀ fuel rounds, F ≤ fuel → F ≤ rounds →
        runAlgorithm (env next R data params stop clock init rounds) pm ls rng ts cs fuel = .ok (some res))
      ∧ Seen data init res.best ∧ NotWorse init res.best := by
  obtain ⟨s, e, h, hb, hts, -⟩ := Ils.InvQ.start (env := env next R data params stop clock init 0)
    (P := Seen data init) (Q := Done data) hpm ⟨hi, .inl rfl⟩ (ss := .ok (ls, rng)) ⟨_, _, rfl, hls⟩ ts cs
  have hd : ∀ x, Seen data init x → x.excessLoad.length = data.numLoadDimensions := fun x hx => hx.1.dims hn
  obtain ⟨L, hL⟩ := cost_bounded hg hn
  obtain ⟨F, f, s', hF, h', hT⟩ := Ils.InvQ.loop_stops (base := env next R data params stop clock init 0)
    (T := NotWorse) (least := L) hd (settles_done hg hB hrel hn next init)
    (fun x hf _ => ⟨hf, Int.le_refl _⟩)
    (fun x y z h1 h2 hf hm => by
      obtain ⟨a1, a2⟩ := h1 hf hm
      obtain ⟨b1, b2⟩ := h2 a1 (by omega)
      exact ⟨b1, by omega⟩)
    (change_notWorse hn init) (fun x ce hx hv => hL x ce hx.1 hv) (hstop L) hts h
  obtain ⟨res, e1, e2, -⟩ := h'.finish (env := env next R data params stop clock init 0) hclock
  obtain ⟨ls', rng', hs, -⟩ := h'.state
  have hb' : s.best = init := hb
  refine ⟨max F f, res, fun fuel rounds hf hr => ?_, by rw [e2]; exact h'.best, by rw [e2, ← hb']; exact hT⟩
  have hl : Ils.loop (env next R data params stop clock init rounds) f s = .ok (s', true) :=
    hF rounds (by omega)
  have hl2 := Ils.loop_mono hl (fuel' := fuel) (by omega)
  have e' : Ils.start (env next R data params stop clock init rounds) pm (.ok (ls, rng)) ts cs = .ok s := e
  have e1' : Ils.finish (env next R data params stop clock init rounds) s' = .ok res := e1
  unfold runAlgorithm
  rw [e']
  dsimp only
  rw [hl2]
  dsimp only
  rw [hs]
  dsimp only
  rw [if_pos rfl, e1']

theorem initialSolution_settles (next : σ → Nat × σ) {pm : PenaltyManager}
    (hpm : PmOk R data.numLoadDimensions pm) {ls : LocalSearch}
    (hls : SearchHistory data ls) (rng : σ) (initial : Option Solution)
    (hinit : ∀ s, initial = some s → Accepted data s) :
    ∃ F init ls' rng', (∀ rounds, F ≤ rounds →
        initialSolution next R data pm ls rng initial rounds = .ok (some (init, ls', rng')))
      ∧ Accepted data init ∧ (initial = some init ∨ (initial = none ∧ init.isComplete = true))
      ∧ SearchHistory data ls' := by
  cases initial with
  | some s => exact ⟨0, s, ls, rng, fun _ _ => rfl, hinit s rfl, .inl rfl, hls⟩
  | none =>
    have hd : Consistent data := ((C37_accepts_exactly_consistent data data).1 hg.made).2
    obtain ⟨plan, routes, sol, e, hb, -, hm, -, -⟩ := C18_random_valid_complete next rng data hd hn
      (numAvailable_pos hg) hrel (by
        obtain ⟨v, hv⟩ := List.exists_mem_of_ne_nil _ hd.hasVehicle
        have := hB.fits v hv
        dsimp only [ProblemData.numClients, ProblemData.numShipments] at this
        omega)
    obtain ⟨ce, hce, hv, hl⟩ := hpm.maxEvaluator
    obtain ⟨F, sol', ls', rng', hF, h1, h2, h3, -⟩ := call_settles hg hB hrel hn next hls
      (Solution.randomPlan next data rng).2.2 (⟨plan, routes, hb, hm⟩ : Accepted data sol) hv hl true
    refine ⟨F, sol', ls', rng', fun rounds hr => ?_, h1, .inr ⟨rfl, h2⟩, h3⟩
    unfold initialSolution
    dsimp only
    rw [e]
    dsimp only
    rw [hce]
    exact hF rounds hr

end moderate
end Solve
end PyVRP
