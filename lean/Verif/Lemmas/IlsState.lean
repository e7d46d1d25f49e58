import Verif.Lemmas.Ils
/-!
# Invariants of the iterated local search, for a search method whose state matters

The search method may depend on a number `n`, such as the number of rounds that it may use. Its calls are
assumed to give the same result for all large `n`; then so do iterations and the loop.
-/
namespace PyVRP
open Spec PenaltyManager

theorem PmOk.evaluatorLength {R : Rounding} {dims : Nat} {pm : PenaltyManager} (h : PmOk R dims pm) :
    ∃ ce, pm.costEvaluator R = .ok ce ∧ ce.Valid ∧ ce.loadPenalties.length = dims := by
  obtain ⟨ce, hc, hv, hl, _⟩ := evaluatorOf_ok R pm.penalties (by have := h.len; omega) (fun p hp => by
    obtain ⟨i, hi, rfl⟩ := List.mem_iff_getElem.1 hp
    obtain ⟨s, h1, h2⟩ := h.range i (by rw [← h.len]; exact hi)
    have h3 := slotAt_penalty h1
    rw [List.getElem?_eq_getElem hi, Option.some_inj] at h3
    rw [h3]
    have := h.valid.min
    have := h2.1
    grind)
  exact ⟨ce, hc, hv, by have := h.len; omega⟩

theorem PmOk.maxEvaluator {R : Rounding} {dims : Nat} {pm : PenaltyManager} (h : PmOk R dims pm) :
    ∃ ce, pm.maxCostEvaluator R = .ok ce ∧ ce.Valid ∧ ce.loadPenalties.length = dims := by
  obtain ⟨ce, hc, hv, hl, _⟩ := evaluatorOf_ok R (pm.penalties.map (fun _ => pm.params.maxPenalty))
    (by have := h.len; rw [List.length_map]; omega) (fun p hp => by
      obtain ⟨_, _, rfl⟩ := List.mem_map.1 hp
      have := h.valid.min; have := h.valid.max
      grind)
  exact ⟨ce, hc, hv, by have := h.len; rw [List.length_map] at hl; omega⟩

namespace Ils
variable {σ τ : Type}

/-- All solutions that occur satisfy `P`, and the state of the search method satisfies `Q`. -/
structure InvQ (R : Rounding) (dims : Nat) (P : Solution → Prop) (Q : σ → Prop) (s : IlsState σ τ) : Prop where
  pm : PmOk R dims s.pm
  ce : s.costEval.Valid
  best : P s.best
  curr : P s.curr
  hist : ∀ x, some x ∈ s.history.buffer → P x
  state : Q s.searchState
  reads : 2 ≤ s.reads

/-- How the best solution changes in an iteration, where `E` describes calls of the exhaustive search. -/
def Change (dims : Nat) (P : Solution → Prop) (E : CostEvaluator → Solution → Solution → Prop)
    (best best' : Solution) : Prop :=
  best' = best ∨ ∃ ce cand, P cand ∧ ce.Valid ∧ ce.loadPenalties.length = dims ∧ ce.cost cand < ce.cost best
    ∧ (best' = cand ∨ (best'.isFeasible = true ∧ P best' ∧ E ce cand best'))

/-- What is asked of the search method: for large `n` its result does not depend on `n`. -/
def Settles (dims : Nat) (P : Solution → Prop) (Q : σ → Prop)
    (E : CostEvaluator → Solution → Solution → Prop)
    (search : Nat → σ → Solution → CostEvaluator → Bool → σ × Solution) : Prop :=
  ∀ st x ce ex, Q st → P x → ce.Valid → ce.loadPenalties.length = dims →
    ∃ F st' y, (∀ n, F ≤ n → search n st x ce ex = (st', y)) ∧ Q st' ∧ P y ∧ (ex = true → E ce x y)

variable {R : Rounding} {dims : Nat} {P : Solution → Prop} {Q : σ → Prop}
  {E : CostEvaluator → Solution → Solution → Prop}

theorem InvQ.start {env : IlsEnv σ τ} {pm : PenaltyManager} (hpm : PmOk env.R dims pm) (hi : P env.init)
    {ss : σ} (hs : Q ss) (ts : τ) (cs : Bool) :
    ∃ s, Ils.start env pm ss ts cs = .ok s ∧ InvQ env.R dims P Q s ∧ s.best = env.init ∧ s.stopState = ts
      ∧ s.iters = 0 := by
  obtain ⟨ce, hc, hv⟩ := hpm.evaluator
  simp only [Ils.start, hc]
  refine ⟨_, rfl, ⟨hpm, hv, hi, hi, ?_, hs, Nat.le_refl _⟩, rfl, rfl, rfl⟩
  intro x hx
  simp [RingBuffer.make, List.mem_replicate] at hx

theorem InvQ.restart {env : IlsEnv σ τ} {s : IlsState σ τ} (h : InvQ R dims P Q s) :
    InvQ R dims P Q (Ils.restart env s) ∧ (Ils.restart env s).best = s.best
      ∧ (Ils.restart env s).stopState = s.stopState ∧ (Ils.restart env s).iters = s.iters + 1 := by
  unfold Ils.restart
  dsimp only
  split
  · refine ⟨⟨h.pm, h.ce, h.best, h.best, ?_, h.state, h.reads⟩, rfl, rfl, rfl⟩
    intro x hx
    simp [RingBuffer.clear, List.mem_replicate] at hx
  · exact ⟨⟨h.pm, h.ce, h.best, h.curr, h.hist, h.state, h.reads⟩, rfl, rfl, rfl⟩

theorem InvQ.accept {env : IlsEnv σ τ} {s : IlsState σ τ} (h : InvQ R dims P Q s) {cand : Solution}
    (hc : P cand) : InvQ R dims P Q (Ils.accept env s cand) := by
  unfold Ils.accept
  dsimp only
  have h1 : ∀ (c : Prop) [Decidable c] (a b : Int), P (if c then (cand, a) else (s.curr, b)).1 := by
    intro c _ a b; split
    · exact hc
    · exact h.curr
  have key : ∀ (c : Prop) [Decidable c] (v x : Solution), P v →
      some x ∈ (if c then s.history.append v else s.history.skip).buffer → P x := by
    intro c _ v x hv hx
    split at hx
    · rcases List.mem_or_eq_of_mem_set hx with hx | hx
      · exact h.hist x hx
      · cases hx; exact hv
    · exact h.hist x hx
  exact ⟨h.pm, h.ce, h.best, h1 _ _ _, fun x hx => key _ _ x (h1 _ _ _) hx, h.state, h.reads⟩

/-- The environment with the search method for `n`. -/
def family (base : IlsEnv σ τ) (search : Nat → σ → Solution → CostEvaluator → Bool → σ × Solution) (n : Nat) :
    IlsEnv σ τ := { base with search := search n }

variable {base : IlsEnv σ τ} {search : Nat → σ → Solution → CostEvaluator → Bool → σ × Solution}

theorem InvQ.updateBest (hk : Settles dims P Q E search) {s : IlsState σ τ} (h : InvQ R dims P Q s)
    (hv : s.costEval.Valid) (hl : s.costEval.loadPenalties.length = dims) {cand : Solution} (hc : P cand) :
    ∃ F s' cand', (∀ n, F ≤ n → Ils.updateBest (family base search n) s cand = (s', cand'))
      ∧ InvQ R dims P Q s' ∧ P cand' ∧ Change dims P E s.best s'.best
      ∧ s'.stopState = s.stopState ∧ s'.iters = s.iters := by
  by_cases hlt : s.costEval.cost cand < s.costEval.cost s.best
  · by_cases hx : base.params.exhaustiveOnBest = true
    · obtain ⟨F, st', y, hF, hQ, hP, hE⟩ := hk s.searchState cand s.costEval true h.state hc hv hl
      by_cases hf : y.isFeasible = true
      · refine ⟨F, { s with itersNoImprovement := 0, best := y, searchState := st'
                            events := s.events ++ [.onBest y] }, y, fun n hn => ?_,
          ⟨h.pm, h.ce, hP, h.curr, h.hist, hQ, h.reads⟩, hP,
          .inr ⟨s.costEval, cand, hc, hv, hl, hlt, .inr ⟨hf, hP, hE rfl⟩⟩, rfl, rfl⟩
        unfold Ils.updateBest family
        simp only [hlt, if_true, hx, hF n hn, hf]
      · refine ⟨F, { s with itersNoImprovement := 0, best := cand, searchState := st'
                            events := s.events ++ [.onBest cand] }, y, fun n hn => ?_,
          ⟨h.pm, h.ce, hc, h.curr, h.hist, hQ, h.reads⟩, hP,
          .inr ⟨s.costEval, cand, hc, hv, hl, hlt, .inl rfl⟩, rfl, rfl⟩
        unfold Ils.updateBest family
        simp [hlt, hx, hF n hn, hf]
    · refine ⟨0, { s with itersNoImprovement := 0, best := cand, events := s.events ++ [.onBest cand] }, cand,
        fun n _ => ?_, ⟨h.pm, h.ce, hc, h.curr, h.hist, h.state, h.reads⟩, hc,
        .inr ⟨s.costEval, cand, hc, hv, hl, hlt, .inl rfl⟩, rfl, rfl⟩
      unfold Ils.updateBest family
      simp [hlt, hx]
  · refine ⟨0, { s with itersNoImprovement := s.itersNoImprovement + 1 }, cand, fun n _ => ?_,
      ⟨h.pm, h.ce, h.best, h.curr, h.hist, h.state, h.reads⟩, hc, .inl rfl, rfl, rfl⟩
    unfold Ils.updateBest
    simp [hlt]

/-- The end of an iteration, which only collects statistics. -/
def finishIteration (env : IlsEnv σ τ) (s : IlsState σ τ) (cand : Solution) : IlsState σ τ :=
  { s with
    stats := s.stats.collect s.curr cand s.best s.costEval (env.clock s.reads)
    reads := if s.stats.collectStats then s.reads + 1 else s.reads
    events := s.events ++ [.onIteration s.curr cand s.best s.costEval] }

theorem InvQ.iteration (hd : ∀ x, P x → x.excessLoad.length = dims) (hk : Settles dims P Q E search)
    {s : IlsState σ τ} (h : InvQ base.R dims P Q s) :
    ∃ F s', (∀ n, F ≤ n → Ils.iteration (family base search n) s = .ok s')
      ∧ InvQ base.R dims P Q s' ∧ Change dims P E s.best s'.best
      ∧ s'.stopState = s.stopState ∧ s'.iters = s.iters + 1 := by
  obtain ⟨h1, hb, ht, hi⟩ := h.restart (env := base)
  obtain ⟨ce, hc, hv, hl⟩ := h1.pm.evaluatorLength
  obtain ⟨F1, st1, y, hF1, hQ, hP, -⟩ := hk (Ils.restart base s).searchState (Ils.restart base s).curr ce false
    h1.state h1.curr hv hl
  obtain ⟨pm, hp, hpm⟩ := h1.pm.register y (hd y hP)
  have h2 : InvQ base.R dims P Q { Ils.restart base s with costEval := ce, searchState := st1, pm } :=
    ⟨hpm, hv, h1.best, h1.curr, h1.hist, hQ, h1.reads⟩
  obtain ⟨F2, s3, cand, hF2, h3, hcand, hch, ht3, hi3⟩ := h2.updateBest (base := base) hk hv hl hP
  have h4 := h3.accept (env := base) hcand
  refine ⟨max F1 F2, finishIteration base (Ils.accept base s3 cand) cand, fun n hn => ?_, ?_⟩
  · have e2 := hF1 n (by omega)
    have e3 := hF2 n (by omega)
    have e4 : (family base search n).search (Ils.restart base s).searchState (Ils.restart base s).curr ce false
        = (st1, y) := e2
    have e1 : Ils.restart (family base search n) s = Ils.restart base s := rfl
    have e5 : costEvaluator (family base search n).R (Ils.restart base s).pm = .ok ce := hc
    have e6 : register (family base search n).R (Ils.restart base s).pm y = .ok pm := hp
    unfold Ils.iteration
    simp only [e1, e5, e4, e6]
    simp only [] at e3
    rw [e3]
    rfl
  · have ha := accept_best base s3 cand
    refine ⟨⟨h4.pm, h4.ce, h4.best, h4.curr, h4.hist, h4.state, ?_⟩, ?_, ?_, ?_⟩
    · show 2 ≤ if _ then _ else _
      have := h4.reads
      split
      · exact Nat.le_succ_of_le this
      · exact this
    · show Change dims P E s.best (Ils.accept base s3 cand).best
      rw [ha.1, ← hb]; exact hch
    · exact ht3.trans ht
    · exact hi3.trans hi

/-- The stopping criterion answers `True` eventually, whatever costs it is given that are not below
`least`. -/
inductive _root_.PyVRP.Spec.Stops (stop : τ → Int → τ × Bool) (least : Int) : τ → Prop where
  | mk (ts : τ) (h : ∀ cost, least ≤ cost → (stop ts cost).2 = false → Stops stop least (stop ts cost).1) :
      Stops stop least ts

theorem InvQ.loop (hd : ∀ x, P x → x.excessLoad.length = dims) (hk : Settles dims P Q E search)
    {T : Solution → Solution → Prop} (hT : ∀ x, T x x) (hT' : ∀ x y z, T x y → T y z → T x z)
    (hE : ∀ x y, P x → Change dims P E x y → T x y) :
    ∀ (fuel : Nat) {s : IlsState σ τ}, InvQ base.R dims P Q s →
      ∃ F s' b, (∀ n, F ≤ n → Ils.loop (family base search n) fuel s = .ok (s', b))
        ∧ InvQ base.R dims P Q s' ∧ T s.best s'.best
  | 0, s, h => ⟨0, s, false, fun _ _ => rfl, h, hT _⟩
  | fuel + 1, s, h => by
    have h0 : InvQ base.R dims P Q { s with stopState := (base.stop s.stopState (s.costEval.cost s.best)).1 } :=
      ⟨h.pm, h.ce, h.best, h.curr, h.hist, h.state, h.reads⟩
    by_cases hs : (base.stop s.stopState (s.costEval.cost s.best)).2 = true
    · refine ⟨0, _, true, fun n _ => ?_, h0, hT _⟩
      unfold Ils.loop family
      simp only [hs, if_true]
    · obtain ⟨F1, s1, hF1, h1, hch, ht, hi⟩ := h0.iteration hd hk
      obtain ⟨F2, s2, b, hF2, h2, hT2⟩ := InvQ.loop hd hk hT hT' hE fuel h1
      refine ⟨max F1 F2, s2, b, fun n hn => ?_, h2, hT' _ _ _ (hE _ _ h.best hch) hT2⟩
      · unfold Ils.loop
        dsimp only
        have hs' : ((family base search n).stop s.stopState (s.costEval.cost s.best)).2 = false := by
          show (base.stop s.stopState (s.costEval.cost s.best)).2 = false
          simpa using hs
        simp only [hs', Bool.false_eq_true, if_false]
        have e1 := hF1 n (by omega)
        show (match Ils.iteration (family base search n)
          { s with stopState := (base.stop s.stopState (s.costEval.cost s.best)).1 } with
          | .error e => _
          | .ok s' => _) = _
        rw [e1]
        exact hF2 n (by omega)

theorem InvQ.loop_stops {least : Int} (hd : ∀ x, P x → x.excessLoad.length = dims) (hk : Settles dims P Q E search)
    {T : Solution → Solution → Prop} (hT : ∀ x, T x x) (hT' : ∀ x y z, T x y → T y z → T x z)
    (hE : ∀ x y, P x → Change dims P E x y → T x y)
    (hcost : ∀ x (ce : CostEvaluator), P x → ce.Valid → least ≤ ce.cost x) {ts : τ} (hts : Stops base.stop least ts) :
    ∀ {s : IlsState σ τ}, s.stopState = ts → InvQ base.R dims P Q s →
      ∃ F fuel s', (∀ n, F ≤ n → Ils.loop (family base search n) fuel s = .ok (s', true))
        ∧ InvQ base.R dims P Q s' ∧ T s.best s'.best := by
  induction hts with
  | mk ts hts ih =>
    intro s hst h
    subst hst
    have h0 : InvQ base.R dims P Q { s with stopState := (base.stop s.stopState (s.costEval.cost s.best)).1 } :=
      ⟨h.pm, h.ce, h.best, h.curr, h.hist, h.state, h.reads⟩
    by_cases hs : (base.stop s.stopState (s.costEval.cost s.best)).2 = true
    · refine ⟨0, 1, _, fun n _ => ?_, h0, hT _⟩
      unfold Ils.loop family
      simp only [hs, if_true]
    · obtain ⟨F1, s1, hF1, h1, hch, ht, hi⟩ := h0.iteration hd hk
      have hpos := hcost s.best s.costEval h.best h.ce
      obtain ⟨F2, fuel, s2, hF2, h2, hT2⟩ := ih (s.costEval.cost s.best) hpos
        (by simpa using hs) ht h1
      refine ⟨max F1 F2, fuel + 1, s2, fun n hn => ?_, h2, hT' _ _ _ (hE _ _ h.best hch) hT2⟩
      unfold Ils.loop
      dsimp only
      have hs' : ((family base search n).stop s.stopState (s.costEval.cost s.best)).2 = false := by
        show (base.stop s.stopState (s.costEval.cost s.best)).2 = false
        simpa using hs
      simp only [hs', Bool.false_eq_true, if_false]
      have e1 := hF1 n (by omega)
      show (match Ils.iteration (family base search n)
        { s with stopState := (base.stop s.stopState (s.costEval.cost s.best)).1 } with
        | .error e => _
        | .ok s' => _) = _
      rw [e1]
      exact hF2 n (by omega)

/-- More fuel does not change a finished loop. -/
theorem loop_mono {env : IlsEnv σ τ} : ∀ {fuel : Nat} {s s' : IlsState σ τ},
    Ils.loop env fuel s = .ok (s', true) → ∀ {fuel' : Nat}, fuel ≤ fuel' →
    Ils.loop env fuel' s = .ok (s', true)
  | 0, s, s', h, fuel', hf => by unfold Ils.loop at h; injection h with h; injection h with h1 h2; cases h2
  | fuel + 1, s, s', h, fuel', hf => by
    obtain ⟨k, rfl⟩ : ∃ k, fuel' = k + 1 := ⟨fuel' - 1, by omega⟩
    unfold Ils.loop at h ⊢
    dsimp only at h ⊢
    split
    · rename_i hs; rw [if_pos hs] at h; exact h
    · rename_i hs
      rw [if_neg hs] at h
      split at h
      · cases h
      · exact loop_mono h (by omega)

theorem iteration_stopState {env : IlsEnv σ τ} {s s' : IlsState σ τ} (h : Ils.iteration env s = .ok s') :
    s'.stopState = s.stopState ∧ s'.iters = s.iters + 1 := by
  obtain ⟨ce, pm, -, -, rfl⟩ := iteration_ok h
  have hr : (Ils.restart env s).stopState = s.stopState ∧ (Ils.restart env s).iters = s.iters + 1 := by
    unfold Ils.restart
    dsimp only
    split <;> exact ⟨rfl, rfl⟩
  have hu : ∀ (s : IlsState σ τ) (cand : Solution), (Ils.updateBest env s cand).1.stopState = s.stopState
      ∧ (Ils.updateBest env s cand).1.iters = s.iters := by
    intro s cand
    unfold Ils.updateBest
    dsimp only
    split
    · split
      · split <;> exact ⟨rfl, rfl⟩
      · exact ⟨rfl, rfl⟩
    · exact ⟨rfl, rfl⟩
  dsimp only
  rw [(accept_best env _ _).2.2.2.2.1, (accept_best env _ _).2.2.2.2.2.1, (hu _ _).1, (hu _ _).2]
  exact hr

/-- The number of iterations with `MaxIterations`. -/
theorem loop_maxIterations {env : IlsEnv σ Criterion} (hstop : env.stop = Criterion.call) {n : Nat} :
    ∀ {fuel k : Nat} {s s' : IlsState σ Criterion}, s.stopState = .maxIterations n k → k ≤ n →
      Ils.loop env fuel s = .ok (s', true) → s'.iters = s.iters + (n - k)
  | 0, k, s, s', _, _, h => by unfold Ils.loop at h; injection h with h; injection h with h1 h2; cases h2
  | fuel + 1, k, s, s', hs, hk, h => by
    have hc : env.stop s.stopState (s.costEval.cost s.best)
        = (.maxIterations n (k + 1), decide (((k + 1 : Nat) : Int) > n)) := by
      rw [hstop, hs]; unfold Criterion.call; rfl
    simp only [Ils.loop, hc] at h
    by_cases hlt : ((k + 1 : Nat) : Int) > n
    · rw [if_pos (by simpa using hlt)] at h
      injection h with h; injection h with h1 h2
      subst h1
      dsimp only
      omega
    · rw [if_neg (by simpa using hlt)] at h
      split at h
      · cases h
      · rename_i s1 e
        have h1 := iteration_stopState e
        have := loop_maxIterations hstop (k := k + 1) h1.1 (by omega) h
        rw [h1.2] at this
        dsimp only at this
        omega

theorem InvQ.finish {env : IlsEnv σ τ} {s : IlsState σ τ} (h : InvQ R dims P Q s)
    (hclock : ∀ i j, i ≤ j → env.clock i ≤ env.clock j) :
    ∃ res, Ils.finish env s = .ok res ∧ res.best = s.best ∧ res.numIterations = s.iters := by
  unfold Ils.finish Result.make
  rw [if_neg (by omega), if_neg (by have := hclock 1 s.reads (by have := h.reads; omega); omega)]
  exact ⟨_, rfl, rfl, rfl⟩

end Ils
end PyVRP
