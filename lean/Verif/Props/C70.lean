import Verif.Model.PlotResult
import Verif.Props.C29
import Verif.Props.C69
/-!
# C70: the plots of results and of instances
-/
namespace PyVRP
open Spec Ils

variable {σ τ : Type}

namespace Plot

theorem insertBy_perm {α : Type} (le : α → α → Bool) (a : α) : ∀ l, (insertBy le a l).Perm (a :: l)
  | [] => List.Perm.refl _
  | b :: l => by
    unfold insertBy
    split
    · exact List.Perm.refl _
    · exact ((insertBy_perm le a l).cons b).trans (List.Perm.swap a b l)

theorem sortBy_perm {α : Type} (le : α → α → Bool) : ∀ l, (sortBy le l).Perm l
  | [] => List.Perm.refl _
  | a :: l => (insertBy_perm le a (sortBy le l)).trans ((sortBy_perm le l).cons a)

theorem insertBy_sorted {α : Type} {le : α → α → Bool} (htrans : ∀ a b c, le a b = true → le b c = true → le a c = true)
    (htotal : ∀ a b, le a b = true ∨ le b a = true) (a : α) : ∀ l, l.Pairwise (fun a b => le a b = true) →
    (insertBy le a l).Pairwise (fun a b => le a b = true)
  | [], _ => by simp [insertBy]
  | b :: l, h => by
    unfold insertBy
    rw [List.pairwise_cons] at h
    split
    · rename_i hab
      refine List.pairwise_cons.2 ⟨fun c hc => ?_, List.pairwise_cons.2 h⟩
      rcases List.mem_cons.1 hc with rfl | hc
      · exact hab
      · exact htrans a b c hab (h.1 c hc)
    · rename_i hab
      refine List.pairwise_cons.2 ⟨fun c hc => ?_, insertBy_sorted htrans htotal a l h.2⟩
      rcases List.mem_cons.1 ((insertBy_perm le a l).mem_iff.1 hc) with rfl | hc
      · rcases htotal c b with h1 | h1
        · exact absurd h1 hab
        · exact h1
      · exact h.1 c hc

theorem sortBy_sorted {α : Type} {le : α → α → Bool} (htrans : ∀ a b c, le a b = true → le b c = true → le a c = true)
    (htotal : ∀ a b, le a b = true ∨ le b a = true) : ∀ l, (sortBy le l).Pairwise (fun a b => le a b = true)
  | [] => List.Pairwise.nil
  | a :: l => insertBy_sorted htrans htotal a _ (sortBy_sorted htrans htotal l)

theorem line_ok {x y : List Int} (h : x.length = y.length) : line x y = .ok (x.zip y) := by
  simp [line, h]

theorem iterations_length (res : Result) : (iterations res).length = res.numIterations.toNat := by
  simp [iterations]

theorem zip_get {res : Result} {f : Datum → Int} {skip i : Nat} {d : Datum}
    (hd : res.stats.data[skip + i]? = some d) (hi : skip + i < res.numIterations.toNat) :
    (((iterations res).drop skip).zip ((res.stats.data.map f).drop skip))[i]? = some (((skip + i + 1 : Nat) : Int), f d) := by
  rw [List.getElem?_zip_eq_some]
  constructor
  · simp only [List.getElem?_drop, iterations, List.getElem?_map, List.getElem?_range hi, Option.map_some, Option.some.injEq]
    omega
  · simp [List.getElem?_drop, hd]

theorem objectives_eq {res : Result} {skip : Nat} (numToSkip : Option Nat)
    (hlen : res.stats.data.length = res.numIterations.toNat) (hskip : numToSkip.getD (res.numIterations.toNat / 20) = skip) :
    objectives res numToSkip = .ok
      { current := ((iterations res).drop skip).zip ((res.stats.data.map (·.currentCost)).drop skip)
        candidate := ((iterations res).drop skip).zip ((res.stats.data.map (·.candidateCost)).drop skip)
        best := ((iterations res).drop skip).zip ((res.stats.data.map (·.bestCost)).drop skip) } := by
  have hx := iterations_length res
  have hl : ∀ f : Datum → Int, line ((iterations res).drop skip) ((res.stats.data.map f).drop skip)
      = .ok (((iterations res).drop skip).zip ((res.stats.data.map f).drop skip)) :=
    fun f => line_ok (by simp [hx, hlen])
  cases numToSkip <;> simp only [Option.getD_none, Option.getD_some] at hskip <;> subst hskip <;>
    simp only [objectives, hl]

end Plot

/-- **C70.** The objectives of a run that collected statistics: the lines have a point for each iteration that is not
skipped, at the iteration's number, and with the costs recorded for that iteration. The
first twentieth is skipped if nothing else is asked for. -/
theorem C70_objectives (env : IlsEnv σ τ) (pm : PenaltyManager) (ss : σ) (ts : τ) (fuel : Nat) (res : Result)
    (h : run env pm ss ts true fuel = .ok (some res)) (numToSkip : Option Nat) :
    let n := res.numIterations.toNat
    let skip := numToSkip.getD (n / 20)
    ∃ p, Plot.objectives res numToSkip = .ok p
      ∧ res.stats.data.length = n
      ∧ p.current.length = n - skip ∧ p.candidate.length = n - skip ∧ p.best.length = n - skip
      ∧ ∀ i d, res.stats.data[skip + i]? = some d →
        p.current[i]? = some (((skip + i + 1 : Nat) : Int), d.currentCost)
        ∧ p.candidate[i]? = some (((skip + i + 1 : Nat) : Int), d.candidateCost)
        ∧ p.best[i]? = some (((skip + i + 1 : Nat) : Int), d.bestCost) := by
  intro n skip
  obtain ⟨s, hr, -, -, hs, hi⟩ := run_some h
  obtain ⟨-, h2, -⟩ := C42_one_datum_per_iteration env pm ss ts true s hr
  have hlen : res.stats.data.length = n := by
    rw [hs, (h2 rfl).2.1]; simp only [n, hi]; omega
  have heq := Plot.objectives_eq (skip := skip) (res := res) numToSkip hlen rfl
  refine ⟨_, heq, hlen, ?_, ?_, ?_, fun i d hd => ?_⟩
  · simp [Plot.iterations_length, hlen, n]
  · simp [Plot.iterations_length, hlen, n]
  · simp [Plot.iterations_length, hlen, n]
  · have hlt : skip + i < n := by
      rw [← hlen]
      exact (List.getElem?_eq_some_iff.1 hd).1
    exact ⟨Plot.zip_get hd hlt, Plot.zip_get hd hlt, Plot.zip_get hd hlt⟩

/-- The last datum of a run is about the incumbent. -/
theorem Plot.last_datum {env : IlsEnv σ τ} {pm : PenaltyManager} {ss : σ} {ts : τ} {s : IlsState σ τ}
    (h : Reachable env pm ss ts true s) (hit : 0 < s.iters) :
    ∃ d, s.stats.data.getLast? = some d ∧ d.bestCost = s.costEval.penalisedCost s.best
      ∧ d.bestFeas = s.best.isFeasible := by
  have hdat := ((C42_one_datum_per_iteration env pm ss ts true s h).2.1 rfl).1
  cases h with
  | start h =>
    simp only [start] at h
    split at h
    · cases h
    · cases h; simp at hit
  | step _ _ h =>
    have key : ∃ evs curr cand, s.events = evs ++ [.onIteration curr cand s.best s.costEval] := by
      clear hdat hit
      obtain ⟨ce, pm', _, _, he⟩ := iteration_ok h
      subst he
      exact ⟨_, _, _, rfl⟩
    obtain ⟨evs, curr, cand, he⟩ := key
    rw [hdat, he, List.filterMap_append]
    exact ⟨_, List.getLast?_concat, rfl, rfl⟩

/-- **C70.** If the best solution is feasible, the line of best objectives ends, at the last iteration, at the cost
of the result. -/
theorem C70_best_line (data : ProblemData) (hn : ∀ g ∈ data.groups, g.clients.Nodup) (env : IlsEnv σ τ)
    (pm : PenaltyManager) (ss : σ) (ts : τ) (fuel : Nat) (res : Result)
    (hs : SearchOk data env) (hpm : PmOk env.R data.numLoadDimensions pm)
    (h : run env pm ss ts true fuel = .ok (some res)) (numToSkip : Option Nat)
    (hskip : numToSkip.getD (res.numIterations.toNat / 20) < res.numIterations.toNat)
    (hf : res.best.isFeasible = true) :
    ∃ p cost, Plot.objectives res numToSkip = .ok p ∧ res.cost = some cost
      ∧ p.best.getLast? = some (res.numIterations, cost) := by
  obtain ⟨p, hp, hlen, -, -, hpl, hpt⟩ := C70_objectives env pm ss ts fuel res h numToSkip
  obtain ⟨s, hr, -, hb, hst, hi⟩ := run_some h
  have hinv := hr.inv (fun x hx => hx.1.dims hn) hpm (P := Occurs data) ⟨hs.init, hs.fits_init⟩ hs.keeps
  obtain ⟨d, hd, hdc, -⟩ := Plot.last_datum hr (by omega)
  have hacc : Accepted data res.best := hb ▸ hinv.best.1
  refine ⟨p, objective res.best, hp, ?_, ?_⟩
  · rw [(C42_result_cost data hn res hacc).2, if_pos hf]
  · have hcost : d.bestCost = objective res.best := by
      rw [hdc, ← hb]
      have h1 := hacc.cost hn hinv.ce
      rw [if_pos hf] at h1
      rw [← h1]
      simp [CostEvaluator.cost, hf]
    rw [List.getLast?_eq_getElem?, ← hst] at hd
    rw [hlen] at hd
    generalize numToSkip.getD (res.numIterations.toNat / 20) = skip at *
    have h2 := (hpt (res.numIterations.toNat - skip - 1) d
      (by rw [← hd]; congr 1; omega)).2.2
    rw [List.getLast?_eq_getElem?, hpl, h2, hcost]
    congr 2
    omega

/-- **C70.** The cost of a feasible result, which is where the line of best objectives ends, is within the limits of the
vertical axis, with the default factors and with all others that are around one. -/
theorem C70_limits (data : ProblemData) (hn : ∀ g ∈ data.groups, g.clients.Nodup) (res : Result)
    (ha : Accepted data res.best) (adjust : Rat × Rat) (hadj : adjust.1 ≤ 1 ∧ 1 ≤ adjust.2) :
    (res.best.isFeasible = true → 0 ≤ objective res.best →
      ∃ lo hi, Plot.ylim res adjust = some (lo, hi) ∧ lo ≤ (objective res.best : Rat) ∧ (objective res.best : Rat) ≤ hi)
    ∧ (res.best.isFeasible = false → Plot.ylim res adjust = none) := by
  obtain ⟨h1, h2⟩ := C42_result_cost data hn res ha
  constructor
  · intro hf h0
    have h4 : Plot.ylim res adjust
        = some ((objective res.best : Rat) * adjust.1, (objective res.best : Rat) * adjust.2) := by
      simp only [Plot.ylim, h1, h2, hf, if_true]
    refine ⟨_, _, h4, ?_, ?_⟩
    all_goals
      have h3 : (0 : Rat) ≤ (objective res.best : Rat) := by
        have : ((0 : Int) : Rat) ≤ (objective res.best : Rat) := Rat.intCast_le_intCast.2 h0
        simpa using this
      clear h4
      generalize (objective res.best : Rat) = x at *
    · have := Rat.mul_nonneg h3 (show 0 ≤ 1 - adjust.1 by grind)
      grind
    · have := Rat.mul_nonneg h3 (show 0 ≤ adjust.2 - 1 by grind)
      grind
  · intro hf
    simp [Plot.ylim, h1, hf]

example : ((99 / 100 : Rat), (105 / 100 : Rat)).1 ≤ 1 ∧ 1 ≤ ((99 / 100 : Rat), (105 / 100 : Rat)).2
    ∧ 0 ≤ objective (Demo.visiting [1]) ∧ (Demo.visiting [1]).isFeasible = true := by decide +kernel

/-- One datum and a later one: the best solution stays feasible and does not get costlier. -/
def Plot.NoWorse (a b : Datum) : Prop := a.bestFeas = true → b.bestFeas = true ∧ b.bestCost ≤ a.bestCost

/-- The data of a run, and its incumbent. -/
theorem Plot.data_noWorse (data : ProblemData) (hn : ∀ g ∈ data.groups, g.clients.Nodup) (env : IlsEnv σ τ)
    (pm : PenaltyManager) (ss : σ) (ts : τ) (hs : SearchOk data env) (hw : NeverWorse data env)
    (hpm : PmOk env.R data.numLoadDimensions pm) (s : IlsState σ τ) (h : Reachable env pm ss ts true s) :
    s.stats.data.Pairwise Plot.NoWorse
    ∧ ∀ d ∈ s.stats.data, d.bestFeas = true → s.best.isFeasible = true ∧ objective s.best ≤ d.bestCost := by
  induction h with
  | start h =>
    simp only [start] at h
    split at h
    · cases h
    · cases h; simp [Statistics.make]
  | step hr hstop h ih =>
    rename_i s1 s2
    have hr2 := hr.step hstop h
    have hi2 := hr2.inv (fun x hx => hx.1.dims hn) hpm (P := Occurs data) ⟨hs.init, hs.fits_init⟩ hs.keeps
    have hlater := C28_never_worse data hn env pm ss ts true hs hw hpm s1 s2 hr ((Later.refl s1).step h)
    have hcost : s2.best.isFeasible = true → s2.costEval.penalisedCost s2.best = objective s2.best := by
      intro hf
      have h1 := hi2.best.1.cost hn hi2.ce
      rw [if_pos hf] at h1
      rw [← h1]
      simp [CostEvaluator.cost, hf]
    have hdata : ∃ d, s2.stats.data = s1.stats.data ++ [d] ∧ d.bestCost = s2.costEval.penalisedCost s2.best
        ∧ d.bestFeas = s2.best.isFeasible := by
      obtain ⟨d, hd, hc, hf⟩ := Plot.last_datum hr2 (by rw [(iteration_iters h).1]; omega)
      obtain ⟨d1, l1, -⟩ := (C42_one_datum_per_iteration env pm ss ts true s1 hr).2.1 rfl
      obtain ⟨d2, l2, -⟩ := (C42_one_datum_per_iteration env pm ss ts true s2 hr2).2.1 rfl
      have hev : ∃ rest, s2.events = s1.events ++ rest := by
        have h3 := (C29_restart env pm ss ts true s1 s2 hr h).2
        by_cases hc : (withoutImprovement s1.events : Int) = env.params.numItersNoImprovement
        · obtain ⟨rest, h4, -⟩ := h3.1 hc
          exact ⟨_, h4⟩
        · obtain ⟨rest, h4, -⟩ := h3.2 hc
          exact ⟨_, h4⟩
      obtain ⟨rest, hrest⟩ := hev
      rw [hrest, List.filterMap_append, ← d1] at d2
      have hlen : (rest.filterMap datumOf).length = 1 := by
        have h5 := congrArg List.length d2
        rw [List.length_append, l1, l2, (iteration_iters h).1] at h5
        dsimp only at h5
        omega
      obtain ⟨e, he⟩ := List.length_eq_one_iff.1 hlen
      rw [he] at d2
      rw [d2, List.getLast?_concat, Option.some.injEq] at hd
      subst hd
      exact ⟨_, d2, hc, hf⟩
    obtain ⟨d, hd, hc, hf⟩ := hdata
    rw [hd]
    have hold : ∀ e ∈ s1.stats.data, e.bestFeas = true → s2.best.isFeasible = true ∧ objective s2.best ≤ e.bestCost := by
      intro e he hef
      have h1 := ih.2 e he hef
      have h2 := hlater h1.1
      exact ⟨h2.1, by omega⟩
    constructor
    · rw [List.pairwise_append]
      refine ⟨ih.1, List.pairwise_singleton _ _, fun a ha b hb haf => ?_⟩
      rw [List.mem_singleton] at hb
      subst hb
      have h1 := hold a ha haf
      rw [hf, hc, hcost h1.1]
      exact h1
    · intro e he hef
      rcases List.mem_append.1 he with he | he
      · exact hold e he hef
      · rw [List.mem_singleton] at he
        subst he
        rw [hf] at hef
        rw [hc, hcost hef]
        exact ⟨hef, Int.le_refl _⟩

/-- **C70.** Along the line of best objectives, from a feasible best solution on, the costs do not increase, if
exhaustive search does not make feasible solutions costlier (as is the case for `LocalSearch`, see C25). -/
theorem C70_best_line_decreases (data : ProblemData) (hn : ∀ g ∈ data.groups, g.clients.Nodup) (env : IlsEnv σ τ)
    (pm : PenaltyManager) (ss : σ) (ts : τ) (fuel : Nat) (res : Result)
    (hs : SearchOk data env) (hw : NeverWorse data env) (hpm : PmOk env.R data.numLoadDimensions pm)
    (h : run env pm ss ts true fuel = .ok (some res)) (numToSkip : Option Nat) (p : Plot.Objectives)
    (hp : Plot.objectives res numToSkip = .ok p) (i j : Nat) (hij : i ≤ j) (a b : Int × Int)
    (hi : p.best[i]? = some a) (hj : p.best[j]? = some b) :
    ∃ da db, res.stats.data[a.1.toNat - 1]? = some da ∧ res.stats.data[b.1.toNat - 1]? = some db
      ∧ da.bestCost = a.2 ∧ db.bestCost = b.2
      ∧ (da.bestFeas = true → db.bestFeas = true ∧ b.2 ≤ a.2) := by
  obtain ⟨p', hp', hlen, -, -, hpl, hpt⟩ := C70_objectives env pm ss ts fuel res h numToSkip
  rw [hp] at hp'; cases hp'
  obtain ⟨s, hr, -, hb, hst, hit⟩ := run_some h
  have hpw := (Plot.data_noWorse data hn env pm ss ts hs hw hpm s hr).1
  rw [← hst] at hpw
  generalize numToSkip.getD (res.numIterations.toNat / 20) = skip at *
  have point : ∀ (k : Nat) (q : Int × Int), p.best[k]? = some q →
      ∃ d, res.stats.data[skip + k]? = some d ∧ q = (((skip + k + 1 : Nat) : Int), d.bestCost) := by
    intro k q hq
    have hk := (List.getElem?_eq_some_iff.1 hq).1
    have hk2 : skip + k < res.stats.data.length := by omega
    refine ⟨_, List.getElem?_eq_getElem hk2, ?_⟩
    have h3 := (hpt k _ (List.getElem?_eq_getElem hk2)).2.2
    rw [hq] at h3
    exact Option.some.inj h3
  obtain ⟨da, h1, rfl⟩ := point i a hi
  obtain ⟨db, h2, rfl⟩ := point j b hj
  refine ⟨da, db, h1, h2, rfl, rfl, fun hf => ?_⟩
  rcases Nat.lt_or_eq_of_le hij with hlt | rfl
  · obtain ⟨k1, rfl⟩ := List.getElem?_eq_some_iff.1 h1
    obtain ⟨k2, rfl⟩ := List.getElem?_eq_some_iff.1 h2
    exact List.pairwise_iff_getElem.1 hpw _ _ k1 k2 (by omega) hf
  · rw [h1] at h2; cases h2
    exact ⟨hf, Int.le_refl _⟩

/-- **C70.** The runtimes of a run that collected statistics: one point for each iteration. -/
theorem C70_runtimes (env : IlsEnv σ τ) (pm : PenaltyManager) (ss : σ) (ts : τ) (fuel : Nat) (res : Result)
    (h : run env pm ss ts true fuel = .ok (some res)) :
    ∃ p, Plot.runtimes res = .ok p ∧ p.length = res.numIterations.toNat
      ∧ p.map (·.2) = res.stats.runtimes
      ∧ ∀ i q, p[i]? = some q → q.1 = ((i + 1 : Nat) : Int) := by
  obtain ⟨s, hr, -, -, hs, hi⟩ := run_some h
  obtain ⟨-, h2, -⟩ := C42_one_datum_per_iteration env pm ss ts true s hr
  have hlen : (Plot.iterations res).length = res.stats.runtimes.length := by
    rw [Plot.iterations_length, hs, (h2 rfl).2.2.1, hi]; omega
  refine ⟨_, Plot.line_ok hlen, ?_, ?_, fun i q hq => ?_⟩
  · rw [List.length_zip, ← hlen, Plot.iterations_length]; omega
  · exact List.map_snd_zip (by omega)
  · have h1 := (List.getElem?_zip_eq_some.1 hq).1
    simp only [Plot.iterations, List.getElem?_map] at h1
    cases hr : (List.range res.numIterations.toNat)[i]? with
    | none => rw [hr] at h1; cases h1
    | some j =>
      rw [hr] at h1
      obtain ⟨hj1, hj2⟩ := List.getElem?_eq_some_iff.1 hr
      simp only [List.getElem_range] at hj2
      simp only [Option.map_some, Option.some.injEq] at h1
      omega

/-- The sum of the squared vertical distances of the points to the line with slope `b` and intercept `c`. -/
def Spec.squaredError (p : List (Int × Int)) (b c : Rat) : Rat :=
  (p.map (fun q => ((q.2 : Rat) - (b * (q.1 : Rat) + c)) * ((q.2 : Rat) - (b * (q.1 : Rat) + c)))).sum

namespace Plot

/-- The squared error in terms of sums. -/
theorem squaredError_eq (b c : Rat) : ∀ p, squaredError p b c =
    sums (fun q => q.2 * q.2) p + b * b * sums (fun q => q.1 * q.1) p + ((p.length : Int) : Rat) * c * c
      - 2 * b * sums (fun q => q.1 * q.2) p - 2 * c * sums (fun q => q.2) p + 2 * b * c * sums (fun q => q.1) p
  | [] => by simp [squaredError, sums]; grind
  | q :: p => by
    have ih := squaredError_eq b c p
    simp only [squaredError, sums, List.map_cons, List.sum_cons, List.length_cons, Rat.intCast_mul, Int.natCast_add, Rat.intCast_add] at ih ⊢
    rw [ih]
    simp only [Int.natCast_one, Rat.intCast_one] 
    grind

theorem quad_nonneg (b c : Rat) : ∀ p : List (Int × Int), 0 ≤
    b * b * sums (fun q => q.1 * q.1) p + ((p.length : Int) : Rat) * c * c + 2 * b * c * sums (fun q => q.1) p
  | [] => by simp [sums]; grind
  | q :: p => by
    have ih := quad_nonneg b c p
    simp only [sums, List.map_cons, List.sum_cons, List.length_cons, Rat.intCast_mul, Int.natCast_add, Rat.intCast_add] at ih ⊢
    simp only [Int.natCast_one, Rat.intCast_one]
    have h : 0 ≤ (b * (q.1 : Rat) + c) * (b * (q.1 : Rat) + c) := by
      generalize b * (q.1 : Rat) + c = z
      rcases Rat.le_total (a := 0) (b := z) with hz | hz
      · exact Rat.mul_nonneg hz hz
      · have h1 : 0 ≤ -z := by grind
        have h2 := Rat.mul_nonneg h1 h1
        grind
    grind

theorem least_squares {x y : List Int} (h0 : (((x.zip y).length : Int) : Rat) ≠ 0)
    (hD : (((x.zip y).length : Int) : Rat) * sums (fun q => q.1 * q.1) (x.zip y)
      - sums (fun q => q.1) (x.zip y) * sums (fun q => q.1) (x.zip y) ≠ 0) (b c : Rat) :
    squaredError (x.zip y) (polyfit x y).1 (polyfit x y).2 ≤ squaredError (x.zip y) b c := by
  have hq := quad_nonneg (b - (polyfit x y).1) (c - (polyfit x y).2) (x.zip y)
  rw [squaredError_eq, squaredError_eq]
  have h1 : (polyfit x y).1 * ((((x.zip y).length : Int) : Rat) * sums (fun q => q.1 * q.1) (x.zip y)
      - sums (fun q => q.1) (x.zip y) * sums (fun q => q.1) (x.zip y))
      = (((x.zip y).length : Int) : Rat) * sums (fun q => q.1 * q.2) (x.zip y)
        - sums (fun q => q.1) (x.zip y) * sums (fun q => q.2) (x.zip y) := by
    exact Rat.div_mul_cancel hD
  have h2 : (polyfit x y).2 * (((x.zip y).length : Int) : Rat)
      = sums (fun q => q.2) (x.zip y) - (polyfit x y).1 * sums (fun q => q.1) (x.zip y) := by
    exact Rat.div_mul_cancel h0
  generalize (polyfit x y).1 = b0 at *
  generalize (polyfit x y).2 = c0 at *
  generalize (((x.zip y).length : Int) : Rat) = n at *
  generalize sums (fun q => q.1) (x.zip y) = sx at *
  generalize sums (fun q => q.2) (x.zip y) = sy at *
  generalize sums (fun q => q.1 * q.1) (x.zip y) = sxx at *
  generalize sums (fun q => q.1 * q.2) (x.zip y) = sxy at *
  generalize sums (fun q => q.2 * q.2) (x.zip y) = syy at *
  have h3 : b0 * sxx + c0 * sx = sxy := by
    have h4 : n * (b0 * sxx + c0 * sx) = n * sxy := by grind
    grind
  have h5 : sy = c0 * n + b0 * sx := by grind
  clear h1 h2 hD h0
  subst h3 h5
  have h6 : syy + b * b * sxx + n * c * c - 2 * b * (b0 * sxx + c0 * sx) - 2 * c * (c0 * n + b0 * sx) + 2 * b * c * sx
      = (syy + b0 * b0 * sxx + n * c0 * c0 - 2 * b0 * (b0 * sxx + c0 * sx) - 2 * c0 * (c0 * n + b0 * sx)
          + 2 * b0 * c0 * sx)
        + ((b - b0) * (b - b0) * sxx + n * (c - c0) * (c - c0) + 2 * (b - b0) * (c - c0) * sx) := by grind
  rw [h6]
  generalize (b - b0) * (b - b0) * sxx + n * (c - c0) * (c - c0) + 2 * (b - b0) * (c - c0) * sx = z at hq
  grind

/-- The sums of the first numbers and of their squares. -/
theorem sums_range (f : Nat → Int) (n : Nat) :
    2 * sums (fun q => q.1) ((List.range n).map (fun (i : Nat) => (1 + (i : Int), f i))) = ((n : Int) : Rat) * (((n : Int) : Rat) + 1)
    ∧ 6 * sums (fun q => q.1 * q.1) ((List.range n).map (fun (i : Nat) => (1 + (i : Int), f i)))
      = ((n : Int) : Rat) * (((n : Int) : Rat) + 1) * (2 * ((n : Int) : Rat) + 1) := by
  induction n with
  | zero => simp [sums]
  | succ n ih =>
    simp only [sums, List.range_succ, List.map_append, List.sum_append, List.map_cons, List.map_nil, List.sum_cons,
      List.sum_nil, Int.natCast_add, Rat.intCast_add, Rat.intCast_mul, Int.natCast_one, Rat.intCast_one] at ih ⊢
    constructor <;> grind

theorem range_spread {n : Nat} (h : 1 < n) (f : Nat → Int) :
    ((n : Int) : Rat) * sums (fun q => q.1 * q.1) ((List.range n).map (fun (i : Nat) => (1 + (i : Int), f i)))
      - sums (fun q => q.1) ((List.range n).map (fun (i : Nat) => (1 + (i : Int), f i)))
        * sums (fun q => q.1) ((List.range n).map (fun (i : Nat) => (1 + (i : Int), f i))) ≠ 0 := by
  obtain ⟨h1, h2⟩ := sums_range f n
  have h3 : (1 : Rat) < ((n : Int) : Rat) := by
    have : ((1 : Int) : Rat) < ((n : Int) : Rat) := Rat.intCast_lt_intCast.2 (by omega)
    simpa using this
  generalize ((n : Int) : Rat) = m at *
  generalize sums (fun q => q.1) _ = sx at *
  generalize sums (fun q => q.1 * q.1) _ = sxx at *
  intro h4
  have h5 : m * (m * ((m + 1) * (m - 1))) = 0 := by grind
  have h6 : 0 < (m + 1) * (m - 1) := Rat.mul_pos (by grind) (by grind)
  have h7 : 0 < m * (m * ((m + 1) * (m - 1))) := Rat.mul_pos (by grind) (Rat.mul_pos (by grind) h6)
  grind

theorem zip_iterations {res : Result} (h : res.stats.runtimes.length = res.numIterations.toNat) :
    (iterations res).zip res.stats.runtimes
      = (List.range res.numIterations.toNat).map (fun (i : Nat) => (1 + (i : Int), res.stats.runtimes.getD i 0)) := by
  apply List.ext_getElem
  · simp [iterations_length, h]
  · intro i h1 h2
    have h3 : i < res.stats.runtimes.length := by simpa [h] using h2
    simp [iterations, List.getElem?_eq_getElem h3]

end Plot

/-- **C70 (partial).** The trend line of the runtimes of a run of more than one iteration: its heights are those, at the
iterations, of the line that fits the runtimes best. Missing: they are to be drawn at the iterations. They are
drawn one iteration too early. -/
theorem C70_trend_partial (env : IlsEnv σ τ) (pm : PenaltyManager) (ss : σ) (ts : τ) (fuel : Nat) (res : Result)
    (h : run env pm ss ts true fuel = .ok (some res)) (hit : 1 < res.numIterations) :
    ∃ p b c, Plot.runtimes res = .ok p
      ∧ (∀ b' c', squaredError p b c ≤ squaredError p b' c')
      ∧ (Plot.trend res).length = res.numIterations.toNat
      ∧ ∀ i : Nat, i < res.numIterations.toNat →
        (Plot.trend res)[i]? = some ((i : Int), b * ((i + 1 : Int) : Rat) + c) := by
  obtain ⟨s, hr, -, -, hs, hi⟩ := run_some h
  obtain ⟨-, h2, -⟩ := C42_one_datum_per_iteration env pm ss ts true s hr
  have hlen : res.stats.runtimes.length = res.numIterations.toNat := by
    rw [hs, (h2 rfl).2.2.1, hi]; omega
  have hz := Plot.zip_iterations hlen
  have hzl : ((Plot.iterations res).zip res.stats.runtimes).length = res.numIterations.toNat := by simp [hz]
  refine ⟨_, (Plot.polyfit (Plot.iterations res) res.stats.runtimes).1,
    (Plot.polyfit (Plot.iterations res) res.stats.runtimes).2,
    Plot.line_ok (by rw [Plot.iterations_length, hlen]), fun b' c' => Plot.least_squares ?_ ?_ b' c', ?_, fun i hlt => ?_⟩
  · rw [hzl]
    intro h0
    have : ((res.numIterations.toNat : Int) : Rat) = ((0 : Int) : Rat) := by simpa using h0
    rw [Rat.intCast_inj] at this
    omega
  · rw [hzl, hz]
    exact Plot.range_spread (by omega) _
  · simp [Plot.trend, hit, Plot.iterations_length]
  · have : (1 : Int) + i = i + 1 := by omega
    simp [Plot.trend, hit, Plot.iterations, hlt, this]

/-- **C70.** No trend line is drawn if there is at most one iteration. -/
theorem C70_no_trend (res : Result) (h : res.numIterations ≤ 1) : Plot.trend res = [] := by
  unfold Plot.trend
  rw [if_neg (by omega)]

namespace Demo

/-- A clock with which the iterations take 1, 2 and 3. -/
def slowing : IlsEnv Unit Criterion :=
  { Demo.env Demo.keep true with clock := fun n => [0, 0, 1, 3, 6, 6].getD n 6 }

end Demo

/-- **C70 (finding).** The trend line is not where it should be: with runtimes 1, 2 and 3 in iterations 1, 2 and 3,
which are on a line, no point of the trend line is on that line. -/
theorem C70_trend_negation : ∃ (res : Result) (p : List (Int × Int)),
    run Demo.slowing (.make ([20], 6, 6) Demo.params) () (.maxIterations 3 0) true 4 = .ok (some res)
    ∧ Plot.runtimes res = .ok p ∧ squaredError p 1 0 = 0
    ∧ (Plot.trend res).length = 3 ∧ ∀ q ∈ Plot.trend res, q.2 ≠ 1 * (q.1 : Rat) + 0 := by
  have key : (match run Demo.slowing (.make ([20], 6, 6) Demo.params) () (.maxIterations 3 0) true 4 with
      | .ok (some res) => (match Plot.runtimes res with
        | .ok p => decide (squaredError p 1 0 = 0) && decide ((Plot.trend res).length = 3)
            && decide (∀ q ∈ Plot.trend res, q.2 ≠ 1 * (q.1 : Rat) + 0)
        | .error _ => false)
      | _ => false) = true := by decide +kernel
  split at key
  · rename_i res hres
    split at key
    · rename_i p hp
      simp only [Bool.and_eq_true, decide_eq_true_eq] at key
      exact ⟨res, p, hres, hp, key.1.1, key.1.2, key.2⟩
    · cases key
  · cases key

/-- **C70.** The result of a run that collected statistics can be plotted, and shows its best solution (see C69). -/
theorem C70_result (data : ProblemData) (hn : ∀ g ∈ data.groups, g.clients.Nodup) (env : IlsEnv σ τ)
    (pm : PenaltyManager) (ss : σ) (ts : τ) (fuel : Nat) (res : Result)
    (h : run env pm ss ts true fuel = .ok (some res)) (ha : Accepted data res.best) :
    ∃ o r d, Plot.result data res = .ok (o, r, d) ∧ Plot.objectives res = .ok o ∧ Plot.runtimes res = .ok r
      ∧ Plot.solution data res.best = .ok d := by
  obtain ⟨o, ho, -⟩ := C70_objectives env pm ss ts fuel res h none
  obtain ⟨r, hr, -⟩ := C70_runtimes env pm ss ts fuel res h
  obtain ⟨plan, routes, hb, hm⟩ := ha
  obtain ⟨d, hd, -⟩ := C69_solution data plan routes res.best hb hn hm false
  exact ⟨o, r, d, by simp only [Plot.result, ho, hr, hd], ho, hr, hd⟩

/-- **C70 (finding).** The result of a run that did not collect statistics can be plotted only if there was no
iteration. -/
theorem C70_without_statistics (data : ProblemData) (env : IlsEnv σ τ) (pm : PenaltyManager) (ss : σ) (ts : τ)
    (fuel : Nat) (res : Result) (h : run env pm ss ts false fuel = .ok (some res)) (hit : 0 < res.numIterations) :
    (∃ msg, Plot.objectives res = .error (.invalidArgument msg))
    ∧ (∃ msg, Plot.runtimes res = .error (.invalidArgument msg))
    ∧ ∃ msg, Plot.result data res = .error (.invalidArgument msg) := by
  obtain ⟨s, hr, -, -, hs, hi⟩ := run_some h
  obtain ⟨-, -, h2⟩ := C42_one_datum_per_iteration env pm ss ts false s hr
  have hd : res.stats.data = [] := by rw [hs]; exact (h2 rfl).1
  have hrt : res.stats.runtimes = [] := by rw [hs]; exact (h2 rfl).2.1
  have hx := Plot.iterations_length res
  have ho : Plot.objectives res = .error (.invalidArgument "x and y must have same first dimension") := by
    have : ((Plot.iterations res).drop (res.numIterations.toNat / 20)).length ≠ 0 := by
      rw [List.length_drop, hx]; omega
    simp only [Plot.objectives, hd, List.map_nil, List.drop_nil, Plot.line, List.length_nil, this, ne_eq,
      not_false_eq_true, if_true]
  have hne : (Plot.iterations res).length ≠ 0 := by rw [hx]; omega
  have hr' : Plot.runtimes res = .error (.invalidArgument "x and y must have same first dimension") := by
    simp only [Plot.runtimes, hrt, Plot.line, List.length_nil, hne, ne_eq, not_false_eq_true, if_true]
  exact ⟨⟨_, ho⟩, ⟨_, hr'⟩, ⟨_, by simp only [Plot.result, ho]; rfl⟩⟩

/-- **C70.** The time windows of the clients are shown as bars, one for each client, from opening to closing time and
sorted by opening time and then by closing time. It raises if there is no client. -/
theorem C70_time_windows (data : ProblemData) :
    (data.clients ≠ [] → ∃ bars, Plot.timeWindows data = .ok bars
      ∧ (bars.map fun b => (b.bottom, b.bottom + b.height)).Perm (data.clients.map fun c => (c.twEarly, c.twLate))
      ∧ bars.Pairwise fun a b => a.bottom < b.bottom ∨ a.bottom = b.bottom ∧ a.height ≤ b.height)
    ∧ (data.clients = [] → ∃ msg, Plot.timeWindows data = .error (.outOfRange msg)) := by
  refine ⟨fun hne => ?_, fun he => ⟨_, by simp only [Plot.timeWindows, he]; rfl⟩⟩
  cases hc : data.clients with
  | nil => exact absurd hc hne
  | cons c cs =>
    refine ⟨_, by simp only [Plot.timeWindows, hc]; rfl, ?_, ?_⟩
    · rw [List.map_map]
      refine List.Perm.trans ?_ (Plot.sortBy_perm (fun a b => decide (a.1 < b.1) || (decide (a.1 = b.1) && decide (a.2 ≤ b.2)))
        ((c :: cs).map fun c => (c.twEarly, c.twLate)))
      refine List.Perm.of_eq ?_
      conv => rhs; rw [← List.map_id (Plot.sortBy _ _)]
      refine List.map_congr_left fun w _ => ?_
      simp only [Function.comp, id]
      ext <;> simp <;> omega
    · rw [List.pairwise_map]
      refine (Plot.sortBy_sorted ?_ ?_ _).imp ?_
      · intro a b c h1 h2
        simp only [Bool.or_eq_true, Bool.and_eq_true, decide_eq_true_eq] at *
        omega
      · intro a b
        simp only [Bool.or_eq_true, Bool.and_eq_true, decide_eq_true_eq]
        omega
      · intro a b h1
        simp only [Bool.or_eq_true, Bool.and_eq_true, decide_eq_true_eq] at *
        omega

/-- **C70.** The delivery amounts of the clients are shown as bars of increasing height. It raises exactly if the load
dimension does not exist. -/
theorem C70_demands (data : ProblemData) (dim : Nat) :
    (dim < data.numLoadDimensions → ∃ bars, Plot.demands data dim = .ok bars
      ∧ bars.Perm (data.clients.map fun c => c.delivery.getD dim 0) ∧ bars.Pairwise (· ≤ ·))
    ∧ (data.numLoadDimensions ≤ dim → ∃ msg, Plot.demands data dim = .error (.invalidArgument msg)) := by
  refine ⟨fun h => ?_, fun h => ⟨_, by simp only [Plot.demands, ge_iff_le, h, if_true]; rfl⟩⟩
  have hn : ¬ data.numLoadDimensions ≤ dim := by omega
  refine ⟨_, by simp only [Plot.demands, ge_iff_le, hn, if_false]; rfl, Plot.sortBy_perm _ _, ?_⟩
  refine (Plot.sortBy_sorted ?_ ?_ _).imp ?_
  · intro a b c h1 h2
    simp only [decide_eq_true_eq] at *
    omega
  · intro a b
    simp only [decide_eq_true_eq]
    omega
  · intro a b h1
    simpa using h1

/-- **C70.** An instance can be plotted exactly if it has clients and load dimensions. Then the map shows all depots,
clients, pickups and deliveries where they are. (`_partial` because other instances cannot be
plotted: see `C70_instance_negation`.) -/
theorem C70_instance_partial (data : ProblemData) :
    ((∃ p, Plot.instance_ data = .ok p) ↔ data.clients ≠ [] ∧ 0 < data.numLoadDimensions)
    ∧ ∀ tw d m, Plot.instance_ data = .ok (tw, d, m) → Plot.timeWindows data = .ok tw ∧ Plot.demands data 0 = .ok d
      ∧ m.depots = (List.range data.depots.length).map (fun i => onMap data ⟨.depot, i⟩)
      ∧ m.clients = (List.range data.clients.length).map (fun i => onMap data ⟨.client, i⟩)
      ∧ m.pickups = (List.range data.shipments.length).map (fun i => onMap data ⟨.pickup, i⟩)
      ∧ m.deliveries = (List.range data.shipments.length).map (fun i => onMap data ⟨.delivery, i⟩) := by
  obtain ⟨t1, t2⟩ := C70_time_windows data
  obtain ⟨d1, d2⟩ := C70_demands data 0
  constructor
  · constructor
    · rintro ⟨p, hp⟩
      constructor
      · intro hc
        obtain ⟨m, hm⟩ := t2 hc
        simp only [Plot.instance_, hm] at hp
        cases hp
      · refine Classical.byContradiction fun hz => ?_
        obtain ⟨m, hm⟩ := d2 (by omega)
        simp only [Plot.instance_, hm] at hp
        split at hp <;> cases hp
    · rintro ⟨hc, hz⟩
      obtain ⟨tw, htw, -⟩ := t1 hc
      obtain ⟨d, hd, -⟩ := d1 hz
      exact ⟨_, by simp only [Plot.instance_, htw, hd]; rfl⟩
  · intro tw d m h
    simp only [Plot.instance_] at h
    split at h
    · cases h
    · rename_i tw' htw
      split at h
      · cases h
      · rename_i d' hd
        cases h
        refine ⟨htw, hd, ?_, ?_, ?_, ?_⟩ <;>
        · refine List.ext_getElem (by simp [Plot.coordinates]) fun i h1 h2 => ?_
          simp only [Plot.coordinates, List.length_map] at h1
          simp [Plot.coordinates, Plot.point, onMap, place, ProblemData.depot, ProblemData.client,
            ProblemData.shipment, List.getElem?_eq_getElem h1]

namespace C70

/-- Shipments only. -/
def shipmentsOnly : ProblemData := { Demo.data with clients := [], groups := [] }

/-- No load dimensions. -/
def noLoads : ProblemData :=
  { Demo.data with
    clients := Demo.data.clients.map fun c => { c with delivery := [], pickup := [] }
    shipments := Demo.data.shipments.map fun s => { s with amount := [] }
    vehicleTypes := Demo.data.vehicleTypes.map fun v => { v with capacity := [], initialLoad := [] } }

end C70

/-- **C70 (finding).** Instances that have shipments only, or no load dimensions, are valid, but plotting
them raises. -/
theorem C70_instance_negation :
    (ProblemData.make C70.shipmentsOnly = .ok C70.shipmentsOnly
      ∧ ∃ msg, Plot.instance_ C70.shipmentsOnly = .error (.outOfRange msg))
    ∧ (ProblemData.make C70.noLoads = .ok C70.noLoads
      ∧ ∃ msg, Plot.instance_ C70.noLoads = .error (.invalidArgument msg)) :=
  ⟨⟨by decide, _, rfl⟩, ⟨by decide, _, rfl⟩⟩

/-! ## Concrete cases -/

/-- A run of three iterations, with statistics and without. -/
example : (match run (Demo.env Demo.keep true) (.make ([20], 6, 6) Demo.params) () (.maxIterations 3 0) true 4 with
    | .ok (some res) => (match Plot.objectives res (some 1) with
      | .ok p => p.best == [(2, 12), (3, 12)]
      | .error _ => false)
    | _ => false) = true := by decide +kernel

/-- A run that meets the assumptions of `C70_best_line` and `C70_best_line_decreases` (its search method is shown to
do so in C28). -/
example : PmOk (Demo.env Demo.keep true).R Demo.small.numLoadDimensions (.make ([20], 6, 6) Demo.params)
    ∧ (match run (Demo.env Demo.keep true) (.make ([20], 6, 6) Demo.params) () (.maxIterations 3 0) true 4 with
      | .ok (some res) => res.best.isFeasible && decide (res.numIterations.toNat / 20 < res.numIterations.toNat)
          && res.cost == some 12
      | _ => false) = true := ⟨Demo.pmOk, by decide +kernel⟩

example : (match run (Demo.env Demo.keep true) (.make ([20], 6, 6) Demo.params) () (.maxIterations 3 0) false 4 with
    | .ok (some res) => decide (0 < res.numIterations)
    | _ => false) = true := by decide +kernel

example : Plot.timeWindows Demo.data = .ok [⟨0, 50⟩, ⟨0, 500⟩, ⟨0, 500⟩, ⟨0, 500⟩, ⟨30, 30⟩]
    ∧ Plot.demands Demo.data = .ok [1, 2, 2, 3, 4] := by decide

end PyVRP
