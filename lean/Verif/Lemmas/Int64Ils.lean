import Verif.Lemmas.Int64Solve
/-!
# The iterated local search does not overflow
-/
namespace PyVRP
open Spec PenaltyManager

namespace Spec

/-- No penalty is larger than `M` per unit, if all penalties are at most `maxPenalty`. Products with a
penalty are computed in floating point, so that `M` must be a little larger than `maxPenalty`. -/
def PenaltiesBelow (R : Rounding) (maxPenalty : Rat) (M : Nat) : Prop :=
  ∀ x : Int, 0 ≤ x → floatPenalty R maxPenalty x ≤ M * x

end Spec

theorem rnd_nonneg (R : Rounding) {x : Rat} (h : 0 ≤ x) : 0 ≤ R.rnd x := by
  have := R.mono h
  rwa [R.zero] at this

theorem truncRat_mono {a b : Rat} (ha : 0 ≤ a) (hab : a ≤ b) : truncRat a ≤ truncRat b := by
  unfold truncRat
  rw [if_pos ha, if_pos (by grind)]
  exact Rat.floor_monotone hab

/-- If rounding increases a number by at most a factor `1 + e`, and this twice times the penalty is at most
`M`, then the penalties are below `M`. -/
theorem Spec.PenaltiesBelow.of_error {R : Rounding} {p : Rat} {M : Nat} (e : Rat) (he : 0 ≤ e) (hp : 0 ≤ p)
    (hR : ∀ x, 0 ≤ x → R.rnd x ≤ (1 + e) * x) (hM : (1 + e) * (1 + e) * p ≤ M) : PenaltiesBelow R p M := by
  intro x hx
  have hx' : (0 : Rat) ≤ (x : Rat) := by exact_mod_cast hx
  have h1 := hR x hx'
  have h0 := rnd_nonneg R hx'
  have h2 : R.rnd x * p ≤ (1 + e) * x * p := Rat.mul_le_mul_of_nonneg_right h1 hp
  have h3 := hR (R.rnd x * p) (Rat.mul_nonneg h0 hp)
  have h4 : (1 + e) * (R.rnd x * p) ≤ (1 + e) * ((1 + e) * x * p) :=
    Rat.mul_le_mul_of_nonneg_left h2 (by grind)
  have h5 : (1 + e) * (1 + e) * p * x ≤ M * x := Rat.mul_le_mul_of_nonneg_right hM hx'
  have h6 : R.rnd (R.rnd x * p) ≤ ((M * x : Int) : Rat) := by
    rw [Rat.intCast_mul, Rat.intCast_natCast]
    grind
  have h7 := truncRat_mono (rnd_nonneg R (Rat.mul_nonneg h0 hp)) h6
  unfold floatPenalty
  have h8 : truncRat ((M * x : Int) : Rat) = M * x := by
    unfold truncRat
    rw [Rat.floor_intCast, Rat.ceil_intCast, ite_self]
  omega

theorem floatPenalty_le (R : Rounding) {p q : Rat} (hp : 0 ≤ p) (hpq : p ≤ q) {x : Int} (hx : 0 ≤ x) :
    0 ≤ floatPenalty R p x ∧ floatPenalty R p x ≤ floatPenalty R q x := by
  have hx' : (0 : Rat) ≤ (x : Rat) := by exact_mod_cast hx
  have h0 := rnd_nonneg R hx'
  have h1 := rnd_nonneg R (Rat.mul_nonneg h0 hp)
  refine ⟨?_, truncRat_mono h1 (R.mono (Rat.mul_le_mul_of_nonneg_left hpq h0))⟩
  have := truncRat_mono (Rat.le_refl) h1
  unfold floatPenalty
  have e : truncRat 0 = 0 := by decide +kernel
  omega

namespace Checked64
variable {data : ProblemData} {B M n : Nat} {R : Rounding}

theorem evaluator_small {q : Rat} (hq : PenaltiesBelow R q M) (ps : List Rat)
    (hl : ps.length = data.numLoadDimensions + 2) (h0 : ∀ p ∈ ps, 0 ≤ p ∧ p ≤ q) :
    ∃ ce, evaluatorOf R ps = .ok ce ∧ ce.Valid ∧ SmallPenalties data ce M := by
  obtain ⟨ce, h1, h2, h3, h4⟩ := evaluatorOf_ok R ps (by omega) (fun p hp => (h0 p hp).1)
  have key : ∀ f ∈ ps.map (floatPenalty R), ∀ x : Int, 0 ≤ x → 0 ≤ f x ∧ f x ≤ M * x := by
    intro f hf x hx
    obtain ⟨p, hp, rfl⟩ := List.mem_map.1 hf
    have k1 := floatPenalty_le R (h0 p hp).1 (h0 p hp).2 hx
    have k2 := hq x hx
    exact ⟨k1.1, by omega⟩
  rw [← h4] at key
  exact ⟨ce, h1, h2, by omega, fun f hf => key f (by simp [hf]), key _ (by simp), key _ (by simp)⟩

theorem evaluator_of {pm : PenaltyManager} (h : PmOk R data.numLoadDimensions pm)
    (hq : PenaltiesBelow R pm.params.maxPenalty M) :
    ∃ ce, pm.costEvaluator R = .ok ce ∧ ce.Valid ∧ SmallPenalties data ce M := by
  refine evaluator_small hq _ h.len (fun p hp => ?_)
  obtain ⟨i, hi, rfl⟩ := List.mem_iff_getElem.1 hp
  obtain ⟨s, h1, h2⟩ := h.range i (by rw [← h.len]; exact hi)
  have h3 := slotAt_penalty h1
  rw [List.getElem?_eq_getElem hi, Option.some_inj] at h3
  rw [h3]
  have := h.valid.min
  exact ⟨by have := h2.1; grind, h2.2.1⟩

theorem maxEvaluator_of {pm : PenaltyManager} (h : PmOk R data.numLoadDimensions pm)
    (hq : PenaltiesBelow R pm.params.maxPenalty M) :
    ∃ ce, pm.maxCostEvaluator R = .ok ce ∧ ce.Valid ∧ SmallPenalties data ce M := by
  refine evaluator_small hq _ (by rw [List.length_map]; exact h.len) (fun p hp => ?_)
  obtain ⟨_, _, rfl⟩ := List.mem_map.1 hp
  have := h.valid.min
  have := h.valid.max
  exact ⟨by grind, Rat.le_refl⟩

theorem register_params {pm pm' : PenaltyManager} (h : PmOk R data.numLoadDimensions pm) {sol : Solution}
    (hd : sol.excessLoad.length = data.numLoadDimensions) (hr : pm.register R sol = .ok pm') :
    pm'.params = pm.params := by
  obtain ⟨pm'', h1, hp, -⟩ := register_ok R pm sol h.wf (by simp [violations, hd, h.len])
  rw [h1] at hr
  cases hr
  exact hp

section ils
variable {σ τ : Type} {search : Method σ} {env : IlsEnv σ τ} {s : IlsState σ τ} {cand : Solution}

/-- The costs of a solution fit. -/
def Priced (ce : CostEvaluator) (sol : Solution) : Prop :=
  I64.penalisedCost ce sol = some (ce.penalisedCost sol) ∧ I64.cost ce sol = some (ce.cost sol)

theorem updateBest_eq (h1 : Priced s.costEval cand) (h2 : Priced s.costEval s.best)
    (h3 : search s.searchState cand s.costEval true = some (env.search s.searchState cand s.costEval true)) :
    updateBest search env s cand = some (Ils.updateBest env s cand) := by
  unfold updateBest Ils.updateBest
  dsimp only
  rw [h1.2, Option.bind_eq_bind, Option.bind_some, h2.2, Option.bind_eq_bind, Option.bind_some]
  split
  · split
    · rw [h3, Option.bind_some]
      cases hf : (env.search s.searchState cand s.costEval true).2.isFeasible <;> simp
    · rfl
  · rfl

theorem accept_eq (h1 : Priced s.costEval cand) (h2 : Priced s.costEval s.curr)
    (h3 : Priced s.costEval env.init) (h4 : ∀ x, some x ∈ s.history.buffer → Priced s.costEval x) :
    accept env s cand = some (Ils.accept env s cand) := by
  unfold accept Ils.accept
  simp only [Option.bind_eq_bind]
  rw [h1.1, Option.bind_some, h2.1, Option.bind_some, h3.1, Option.bind_some]
  cases hp : s.history.peek with
  | none => rfl
  | some l =>
    have hl : Priced s.costEval l := by
      refine h4 l ?_
      unfold RingBuffer.peek at hp
      cases hb : s.history.buffer[s.history.idx % s.history.maxlen]? with
      | none => rw [hb] at hp; cases hp
      | some o =>
        rw [hb] at hp
        change o = some l at hp
        subst hp
        exact List.mem_of_getElem? hb
    dsimp only
    rw [hl.1, Option.bind_some]
    rfl

theorem collect_eq (st : Statistics) {x y z : Solution} {ce : CostEvaluator} (h1 : Priced ce x)
    (h2 : Priced ce y) (h3 : Priced ce z) (now : Int) :
    collect st x y z ce now = some (st.collect x y z ce now) := by
  unfold collect Statistics.collect
  split
  · rfl
  · simp only [Option.bind_eq_bind]
    rw [h1.1, Option.bind_some, h2.1, Option.bind_some, h3.1, Option.bind_some]
    rfl

end ils

section solve
variable {σ τ : Type} {params : SolveParams} (hS : Setting data B M n) (next : σ → Nat × σ)
include hS

theorem searchMethod_eq (rounds : Nat) {st : Except Solve.Failure (LocalSearch × σ)}
    (hst : Solve.Fine data st) {x : Solution} (hx : Accepted data x) {ce : CostEvaluator} (hv : ce.Valid)
    (hp : SmallPenalties data ce M) (ex : Bool) :
    searchMethod next data rounds st x ce ex = some (Solve.searchMethod next data rounds st x ce ex) := by
  rcases hst with ⟨ls, rng, rfl, h⟩ | rfl
  · unfold searchMethod Solve.searchMethod
    dsimp only
    rw [call_eq hS next hv hp h rng hx, Option.bind_eq_bind, Option.bind_some]
    generalize LocalSearch.call next data ce ls rng x ex rounds = r
    rcases r with e | _ | ⟨s, l, g⟩ <;> rfl
  · rfl

/-- The invariant of the loop. -/
structure LoopOk (R : Rounding) (data : ProblemData) (M : Nat) (q : Rat) (init : Solution)
    (s : IlsState (Except Solve.Failure (LocalSearch × σ)) τ) : Prop where
  inv : Ils.InvQ R data.numLoadDimensions (Solve.Seen data init) (Solve.Fine data) s
  small : SmallPenalties data s.costEval M
  max : s.pm.params.maxPenalty = q

variable {stop : τ → Int → τ × Bool} {clock : Nat → Int} {init : Solution} {rounds : Nat} {q : Rat}

omit hS in
theorem accept_fields (env : IlsEnv (Except Solve.Failure (LocalSearch × σ)) τ)
    (s : IlsState (Except Solve.Failure (LocalSearch × σ)) τ) (cand : Solution) :
    (Ils.accept env s cand).costEval = s.costEval ∧ (Ils.accept env s cand).pm = s.pm
      ∧ (Ils.accept env s cand).best = s.best := ⟨rfl, rfl, rfl⟩

omit hS in
theorem updateBest_fields (env : IlsEnv (Except Solve.Failure (LocalSearch × σ)) τ)
    (s : IlsState (Except Solve.Failure (LocalSearch × σ)) τ) (cand : Solution) :
    (Ils.updateBest env s cand).1.costEval = s.costEval ∧ (Ils.updateBest env s cand).1.pm = s.pm := by
  unfold Ils.updateBest
  dsimp only
  split
  · split
    · split <;> exact ⟨rfl, rfl⟩
    · exact ⟨rfl, rfl⟩
  · exact ⟨rfl, rfl⟩

theorem iteration_eq (hq : PenaltiesBelow R q M) (hi : Accepted data init)
    {s : IlsState (Except Solve.Failure (LocalSearch × σ)) τ} (h : LoopOk R data M q init s) :
    iteration (searchMethod next data rounds) (Solve.env next R data params stop clock init rounds) s
        = some (Ils.iteration (Solve.env next R data params stop clock init rounds) s)
    ∧ ∃ s', Ils.iteration (Solve.env next R data params stop clock init rounds) s = .ok s'
      ∧ LoopOk R data M q init s' := by
  generalize henv : Solve.env next R data params stop clock init rounds = env
  have hR : env.R = R := by rw [← henv]; rfl
  have hI : env.init = init := by rw [← henv]; rfl
  have hse : env.search = Solve.searchMethod next data rounds := by rw [← henv]; rfl
  have hd : ∀ x, Solve.Seen data init x → x.excessLoad.length = data.numLoadDimensions :=
    fun x hx => hx.1.dims hS.groups
  have hk : Ils.Settles data.numLoadDimensions (Solve.Seen data init) (Solve.Fine data) (fun _ _ _ => True)
      (fun _ => env.search) := by
    rw [hse]; exact Solve.settles_fine hS.good hS.reloads hS.groups hS.memory next init rounds
  have hfam : ∀ m, Ils.family env (fun _ => env.search) m = env := fun _ => rfl
  have hmax : (Ils.restart env s).pm.params.maxPenalty = q := by
    rw [← h.max]
    unfold Ils.restart
    dsimp only
    split <;> rfl
  obtain ⟨h1, -, -, -⟩ := h.inv.restart (env := env)
  obtain ⟨ce, hc, hv, hp⟩ := evaluator_of (M := M) (data := data) h1.pm (by rw [hmax]; exact hq)
  have priced : ∀ x, Solve.Seen data init x → Priced ce x := fun x hx => cost_eq hS hp hx.1
  have hsm : ∀ st x ex, Solve.Fine data st → Solve.Seen data init x →
      searchMethod next data rounds st x ce ex = some (env.search st x ce ex) := by
    intro st x ex h1 h2
    rw [hse]
    exact searchMethod_eq hS next rounds h1 h2.1 hv hp ex
  obtain ⟨F1, st1, y, hF1, hQ, hP, -⟩ := hk (Ils.restart env s).searchState (Ils.restart env s).curr ce false
    h1.state h1.curr hv hp.dims
  have e1 : env.search (Ils.restart env s).searchState (Ils.restart env s).curr ce false = (st1, y) :=
    hF1 F1 (Nat.le_refl _)
  obtain ⟨pm, hr, hpm⟩ := h1.pm.register y (hd y hP)
  have hpar := register_params h1.pm (hd y hP) hr
  have h2 : Ils.InvQ R data.numLoadDimensions (Solve.Seen data init) (Solve.Fine data)
      { Ils.restart env s with costEval := ce, searchState := st1, pm } :=
    ⟨hpm, hv, h1.best, h1.curr, h1.hist, hQ, h1.reads⟩
  obtain ⟨F2, s3, cand, hF2, h3, hcand, -, -, -⟩ := h2.updateBest (base := env) hk hv hp.dims hP
  have e3 : Ils.updateBest env { Ils.restart env s with costEval := ce, searchState := st1, pm } y = (s3, cand) :=
    hF2 F2 (Nat.le_refl _)
  have hf3 := updateBest_fields env { Ils.restart env s with costEval := ce, searchState := st1, pm } y
  rw [e3] at hf3
  have hce : s3.costEval = ce := hf3.1
  have h4 := h3.accept (env := env) hcand
  have e4 : Checked64.updateBest (searchMethod next data rounds) env
      { Ils.restart env s with costEval := ce, searchState := st1, pm } y = some (s3, cand) := by
    rw [updateBest_eq (env := env) (priced y hP) (priced _ h1.best) (hsm _ _ _ hQ hP), e3]
  have e5 : Checked64.accept env s3 cand = some (Ils.accept env s3 cand) := by
    refine accept_eq ?_ ?_ ?_ ?_
    · rw [hce]; exact priced _ hcand
    · rw [hce]; exact priced _ h3.curr
    · rw [hce, hI]; exact priced _ ⟨hi, .inl rfl⟩
    · intro x hx; rw [hce]; exact priced _ (h3.hist x hx)
  have hce4 : (Ils.accept env s3 cand).costEval = ce := hce
  have e6 : ∀ now, collect (Ils.accept env s3 cand).stats (Ils.accept env s3 cand).curr cand
      (Ils.accept env s3 cand).best (Ils.accept env s3 cand).costEval now
      = some ((Ils.accept env s3 cand).stats.collect (Ils.accept env s3 cand).curr cand
        (Ils.accept env s3 cand).best (Ils.accept env s3 cand).costEval now) := by
    intro now
    refine collect_eq _ ?_ ?_ ?_ now
    · rw [hce4]; exact priced _ h4.curr
    · rw [hce4]; exact priced _ hcand
    · rw [hce4]; exact priced _ h4.best
  have hit : Ils.iteration env s = .ok (Ils.finishIteration env (Ils.accept env s3 cand) cand) := by
    unfold Ils.iteration
    simp only [hR, hc, e1, hr, e3]
    rfl
  refine ⟨?_, _, hit, ?_, ?_, ?_⟩
  · rw [hit]
    unfold iteration
    simp only [hR, hc, hsm _ _ _ h1.state h1.curr, e1, Option.bind_eq_bind, Option.bind_some, hr, e4, e5, e6]
    rfl
  · refine ⟨h4.pm, h4.ce, h4.best, h4.curr, h4.hist, h4.state, ?_⟩
    show 2 ≤ if _ then _ else _
    have := h4.reads
    split
    · exact Nat.le_succ_of_le this
    · exact this
  · show SmallPenalties data (Ils.accept env s3 cand).costEval M
    rw [hce4]; exact hp
  · show s3.pm.params.maxPenalty = q
    rw [hf3.2]
    show pm.params.maxPenalty = q
    rw [hpar, hmax]

theorem loop_eq (hq : PenaltiesBelow R q M) (hi : Accepted data init) : ∀ (fuel : Nat)
    {s : IlsState (Except Solve.Failure (LocalSearch × σ)) τ}, LoopOk R data M q init s →
    loop (searchMethod next data rounds) (Solve.env next R data params stop clock init rounds) fuel s
      = some (Ils.loop (Solve.env next R data params stop clock init rounds) fuel s)
  | 0, _, _ => rfl
  | fuel + 1, s, h => by
    have h0 : LoopOk R data M q init { s with stopState := (stop s.stopState (s.costEval.cost s.best)).1 } :=
      ⟨⟨h.inv.pm, h.inv.ce, h.inv.best, h.inv.curr, h.inv.hist, h.inv.state, h.inv.reads⟩, h.small, h.max⟩
    obtain ⟨k1, s', k2, k3⟩ := iteration_eq (params := params) (stop := stop) (clock := clock) (rounds := rounds)
      hS next hq hi h0
    have hc := (cost_eq hS h.small h.inv.best.1).2
    unfold loop Ils.loop
    simp only [Option.bind_eq_bind]
    rw [hc, Option.bind_some]
    have ih := loop_eq hq hi fuel k3
    rw [show stop s.stopState = (Solve.env next R data params stop clock init rounds).stop s.stopState from rfl] at k1 k2
    clear h0
    generalize Solve.env next R data params stop clock init rounds = env at k1 k2 ih ⊢
    by_cases hans : (env.stop s.stopState (s.costEval.cost s.best)).2 = true
    · rw [if_pos hans, if_pos hans]
      rfl
    · rw [if_neg hans, if_neg hans, k1, Option.bind_some, k2]
      exact ih

theorem initialSolution_eq {pm : PenaltyManager} (hpm : PmOk R data.numLoadDimensions pm)
    (hq : PenaltiesBelow R pm.params.maxPenalty M) {ls : LocalSearch} (hls : SearchHistory data ls) (rng : σ)
    (initial : Option Solution) (rounds : Nat) :
    initialSolution next data R pm ls rng initial rounds
      = some (Solve.initialSolution next R data pm ls rng initial rounds) := by
  cases initial with
  | some s => rfl
  | none =>
    obtain ⟨h1, sol, h2, h3⟩ := makeRandom_eq hS next rng
    obtain ⟨ce, hce, hv, hp⟩ := maxEvaluator_of (data := data) hpm hq
    unfold initialSolution Solve.initialSolution
    dsimp only
    rw [h1, Option.bind_eq_bind, Option.bind_some, h2]
    dsimp only
    rw [hce]
    exact call_eq hS next hv hp hls _ h3 true rounds

theorem runAlgorithm_eq (hq : PenaltiesBelow R q M) (hi : Accepted data init) {pm : PenaltyManager}
    (hpm : PmOk R data.numLoadDimensions pm) (hmax : pm.params.maxPenalty = q) {ls : LocalSearch}
    (hls : SearchHistory data ls) (rng : σ) (ts : τ) (cs : Bool) (fuel : Nat) :
    runAlgorithm next data rounds (Solve.env next R data params stop clock init rounds) pm ls rng ts cs fuel
      = some (Solve.runAlgorithm (Solve.env next R data params stop clock init rounds) pm ls rng ts cs fuel) := by
  obtain ⟨s, e, h, -, -, -⟩ := Ils.InvQ.start (env := Solve.env next R data params stop clock init rounds)
    (P := Solve.Seen data init) (Q := Solve.Fine data) hpm ⟨hi, .inl rfl⟩ (ss := .ok (ls, rng))
    (.inl ⟨_, _, rfl, hls⟩) ts cs
  obtain ⟨ce, hce, -, hp⟩ := evaluator_of (data := data) hpm (by rw [hmax]; exact hq)
  have hs : s.costEval = ce ∧ s.pm = pm := by
    unfold Ils.start at e
    split at e
    · cases e
    · rename_i ce' hce'
      have : ce' = ce := by
        have h' : pm.costEvaluator R = .ok ce' := hce'
        rw [hce] at h'
        cases h'; rfl
      cases e
      exact ⟨this, rfl⟩
  have hok : LoopOk R data M q init s := ⟨h, by rw [hs.1]; exact hp, by rw [hs.2]; exact hmax⟩
  unfold runAlgorithm Solve.runAlgorithm
  rw [e]
  dsimp only
  rw [loop_eq hS next hq hi fuel hok, Option.bind_eq_bind, Option.bind_some]
  generalize Ils.loop _ fuel s = r
  rcases r with er | ⟨s', done⟩
  · rfl
  · dsimp only
    rcases s'.searchState with (er | _) | _
    · rfl
    · rfl
    · dsimp only
      cases done with
      | false => rfl
      | true =>
        rw [if_pos rfl, if_pos rfl]
        generalize Ils.finish _ s' = r
        cases r <;> rfl

end solve
end Checked64
end PyVRP
