import Verif.Lemmas.CliFile
/-!
# C56: the command line
-/
namespace PyVRP
open Spec

namespace Spec

/-- A limit that may be given. -/
def LimitOk : Cli.Limit → Prop
  | .finite n => 0 ≤ n
  | .inf => True
  | .nan => True

/-- What the command line reports is true: `best` is the solution that was found.
- It is complete, and "OK" and the cost say whether it is feasible and what it costs.
- The solution file, if one was asked for, says the cost and can be read. What is read is the solution
  found, up to the order of its routes, so that it is just as feasible and costs the same.
- The statistics file, if one was asked for, can be read, and has as many lines as there were iterations. The
  last of them has the feasibility and, if feasible, the cost that is reported. -/
structure Reported (data : ProblemData) (readFloat : Csv.Text → Option Int) (args : Cli.Args) (name : String)
    (best : Solution) (out : Cli.Output) : Prop where
  name : out.name = name
  accepted : Accepted data best
  complete : best.isComplete = true
  ok : out.ok = if best.isFeasible then "Y" else "N"
  cost : out.cost = if best.isFeasible then some (objective best) else none
  sol : args.solDir = true → ∃ file s, out.sol = some file ∧ SolutionFile.read data file = .ok s
    ∧ Solution.eq best s = true ∧ s.isComplete = true ∧ s.isFeasible = best.isFeasible
    ∧ objective s = objective best
    ∧ ∃ routes, file = routes ++ "Cost: ".toList ++ (match out.cost with
      | some c => Csv.showInt c
      | none => "inf".toList) ++ ['\n']
  noSol : args.solDir = false → out.sol = none
  stats : args.statsDir = true → ∀ now, ∃ file st, out.stats = some file
    ∧ Statistics.fromCsv readFloat ',' file now = some st ∧ (st.data.length : Int) = out.iterations
    ∧ ∀ d, st.data.getLast? = some d →
      d.bestFeas = best.isFeasible ∧ (best.isFeasible = true → d.bestCost = objective best)
  noStats : args.statsDir = false → out.stats = none
  iterations : 0 ≤ out.iterations ∧ ∀ n, args.maxIterations = .finite n →
    out.iterations ≤ if args.perClient then n * data.numClients else n

end Spec

/-- Permuting routes changes neither completeness nor feasibility nor the objective. -/
theorem permuted_same {data : ProblemData} {plan1 plan2 : RoutePlan} {routes1 routes2 : List Route}
    {s1 s2 : Solution} (hb1 : Built data plan1 routes1) (hb2 : Built data plan2 routes2)
    (hn : ∀ g ∈ data.groups, g.clients.Nodup)
    (h1 : Solution.make data routes1 = .ok s1) (h2 : Solution.make data routes2 = .ok s2)
    (hp : plan1.Perm plan2) :
    s2.isComplete = s1.isComplete ∧ s2.isFeasible = s1.isFeasible ∧ objective s2 = objective s1 := by
  have hpr := Spec.Built.perm hb1 hb2 hp
  obtain ⟨_, _, f1, f2, _, _, _, _, f3⟩ := C17_fields hb1 hb2 hn h1 h2 hp
  obtain ⟨-, -, -, -, -, -, -, -, a, -⟩ := C15_totals data plan1 routes1 s1 hb1 hn h1
  obtain ⟨-, -, -, -, -, -, -, -, b, -⟩ := C15_totals data plan2 routes2 s2 hb2 hn h2
  have f4 : s1.fixedVehicleCost = s2.fixedVehicleCost := by
    rw [a, b]; exact Solution.perm_sum (hpr.map _)
  have hvis : ∀ x, x ∈ visited plan1 ↔ x ∈ visited plan2 := by
    intro x
    unfold visited
    constructor
    · intro h
      simp only [List.mem_flatMap] at h ⊢
      grind [List.Perm.mem_iff]
    · intro h
      simp only [List.mem_flatMap] at h ⊢
      grind [List.Perm.mem_iff]
  have hc : s2.isComplete = true ↔ s1.isComplete = true := by
    rw [(C14_missing data plan1 routes1 s1 hb1 hn h1).2.2.2, (C14_missing data plan2 routes2 s2 hb2 hn h2).2.2.2]
    simp only [hvis]
  have hf : s2.isFeasible = true ↔ s1.isFeasible = true := by
    rw [C14_feasible_iff data plan1 routes1 s1 hb1 hn h1, C14_feasible_iff data plan2 routes2 s2 hb2 hn h2, hc]
    simp only [hpr.mem_iff]
  refine ⟨Bool.eq_iff_iff.2 hc, Bool.eq_iff_iff.2 hf, ?_⟩
  unfold objective
  rw [f1, f2, f3, f4]

namespace Cli

theorem costText_chars (c : Option Int) : '\n' ∉ costText c ∧ 'R' ∉ costText c := by
  have hd : ∀ n, '\n' ∉ decimal n ∧ 'R' ∉ decimal n := fun n =>
    ⟨Py.not_mem_decimal (by decide) n, Py.not_mem_decimal (by decide) n⟩
  unfold costText
  split
  · unfold Csv.showInt
    split
    · have := hd (Int.natAbs ‹Int›)
      simp [this.1, this.2]
    · exact hd _
  · decide +kernel

theorem write_cost {data : ProblemData} {s : Solution} {cost file : Csv.Text}
    (h : SolutionFile.write data s cost = .ok file) :
    ∃ routes, file = routes ++ "Cost: ".toList ++ cost ++ ['\n'] := by
  unfold SolutionFile.write at h
  split at h
  · injection h with h
    refine ⟨SolutionFile.plainLines data 1 s.routes, ?_⟩
    rw [← h, SolutionFile.costLine]; simp only [List.append_assoc]
  · dsimp only at h
    split at h
    · cases h
    · rename_i lines _
      injection h with h
      refine ⟨(lines.map (· ++ ['\n'])).flatten, ?_⟩
      rw [← h, SolutionFile.costLine]; simp only [List.append_assoc]

theorem scaled_ok {args : Args} {l : Limit} (h : LimitOk l) (n : Nat) : LimitOk (scaled args n l) := by
  unfold scaled
  split
  · unfold Limit.times
    cases l with
    | finite k => exact Int.mul_nonneg h (Int.natCast_nonneg n)
    | inf => dsimp only; split <;> trivial
    | nan => trivial
  · exact h

theorem criterion_ok {make : Int → Except Error Criterion} (hm : ∀ n, 0 ≤ n → ∃ c, make n = .ok c) {l : Limit}
    (h : LimitOk l) : ∃ c, criterion make l = .ok c ∧ (∀ n, l = .finite n → ∃ c', make n = .ok c' ∧ c = some c') := by
  unfold criterion
  cases l with
  | finite n =>
    obtain ⟨c, hc⟩ := hm n h
    dsimp only
    rw [hc]
    exact ⟨_, rfl, fun m hmn => by cases hmn; exact ⟨c, hc, rfl⟩⟩
  | inf => exact ⟨_, rfl, fun m hmn => by cases hmn⟩
  | nan => exact ⟨_, rfl, fun m hmn => by cases hmn⟩

/-- The criteria that have a number as their limit are there. -/
theorem stopping_ok {args : Args} (h1 : LimitOk args.maxRuntime) (h2 : LimitOk args.maxIterations)
    (h3 : LimitOk args.noImprovement) (n : Nat) (clock : Nat → Int) :
    ∃ cs, stopping args n clock = .ok (.multipleCriteria cs)
      ∧ (∀ k, scaled args n args.maxRuntime = .finite k → Criterion.maxRuntime k none clock 0 ∈ cs)
      ∧ (∀ k, scaled args n args.maxIterations = .finite k → Criterion.maxIterations k 0 ∈ cs)
      ∧ (∀ k, scaled args n args.noImprovement = .finite k → Criterion.noImprovement k none 0 ∈ cs) := by
  have m1 : ∀ k : Int, 0 ≤ k → Criterion.makeMaxRuntime k clock = .ok (.maxRuntime k none clock 0) := by
    intro k hk; unfold Criterion.makeMaxRuntime; rw [if_neg (by omega)]
  have m2 : ∀ k : Int, 0 ≤ k → Criterion.makeMaxIterations k = .ok (.maxIterations k 0) := by
    intro k hk; unfold Criterion.makeMaxIterations; rw [if_neg (by omega)]
  have m3 : ∀ k : Int, 0 ≤ k → Criterion.makeNoImprovement k = .ok (.noImprovement k none 0) := by
    intro k hk; unfold Criterion.makeNoImprovement; rw [if_neg (by omega)]
  obtain ⟨c1, e1, f1⟩ := criterion_ok (make := (Criterion.makeMaxRuntime · clock)) (fun k hk => ⟨_, m1 k hk⟩)
    (scaled_ok (args := args) h1 n)
  obtain ⟨c2, e2, f2⟩ := criterion_ok (make := Criterion.makeMaxIterations) (fun k hk => ⟨_, m2 k hk⟩)
    (scaled_ok (args := args) h2 n)
  obtain ⟨c3, e3, f3⟩ := criterion_ok (make := Criterion.makeNoImprovement) (fun k hk => ⟨_, m3 k hk⟩)
    (scaled_ok (args := args) h3 n)
  have g1 := scaled_ok (args := args) h1 n
  have g2 := scaled_ok (args := args) h2 n
  have g3 := scaled_ok (args := args) h3 n
  unfold stopping
  rw [e1]; dsimp only
  rw [e2]; dsimp only
  rw [e3]
  refine ⟨_, rfl, fun k hk => ?_, fun k hk => ?_, fun k hk => ?_⟩
  · obtain ⟨c', hc, rfl⟩ := f1 k hk
    rw [hk] at g1
    have hc : Criterion.makeMaxRuntime k clock = .ok c' := hc
    rw [m1 k g1] at hc
    injection hc with hc
    simp [hc]
  · obtain ⟨c', hc, rfl⟩ := f2 k hk
    rw [hk] at g2
    rw [m2 k g2] at hc
    injection hc with hc
    simp [hc]
  · obtain ⟨c', hc, rfl⟩ := f3 k hk
    rw [hk] at g3
    rw [m3 k g3] at hc
    injection hc with hc
    simp [hc]

/-- What is reported about a result. -/
theorem report_ok {R : Rat → Rat} (h0 : R 0 = 0) {inst : Vrplib} {data : ProblemData} {w : Bool}
    (h : Read.build R inst = .ok (data, w)) (hp : File.PickupsOk inst)
    {showFloat : Int → Csv.Text} {readFloat : Csv.Text → Option Int} (hft : FloatText showFloat readFloat)
    {F : Rounding} {params : SolveParams} {args : Args} (name : String)
    (hn : ∀ g ∈ data.groups, g.clients.Nodup) {cs : List Criterion}
    (hcs : ∀ k, scaled args data.numClients args.maxIterations = .finite k → Criterion.maxIterations k 0 ∈ cs)
    (hli : LimitOk args.maxIterations) {clock : Nat → Int} {fuel rounds : Nat} {res : Result}
    (hs : Solve.solveSeed F data params (.multipleCriteria cs) clock args.seed args.statsDir none fuel rounds
      = .ok (some res)) (ha : Accepted data res.best) (hcm : res.best.isComplete = true) :
    ∃ out, report showFloat data args name res = .ok out ∧ Reported data readFloat args name res.best out := by
  obtain ⟨env, pm, ss, s, r1, r2, r3, r4, r5⟩ := Solve.solve_ok hs
  obtain ⟨plan, routes, hb, hm⟩ := ha
  have ha : Accepted data res.best := ⟨plan, routes, hb, hm⟩
  have hcost := (C42_result_cost data hn res ha).2
  obtain ⟨q1, q2⟩ := costText_chars res.cost
  obtain ⟨file, s', w1, w2, w3, plan', routes', w4, w5, w6⟩ :=
    C52_solutions_read_back R h0 inst data w h hp plan routes hb res.best hm (costText res.cost) q1 q2
  obtain ⟨p1, p2, p3⟩ := permuted_same hb w4 hn hm w5 w6
  obtain ⟨tail, wc⟩ := write_cost w1
  obtain ⟨csv, hcsv⟩ := C42_csv_written showFloat ',' .minimal (by decide) res.stats
  have hiter : ∀ n, args.maxIterations = .finite n →
      res.numIterations ≤ if args.perClient then n * data.numClients else n := by
    intro n hnl
    have e : scaled args data.numClients args.maxIterations
        = .finite (if args.perClient then n * data.numClients else n) := by
      unfold scaled
      rw [hnl]
      cases args.perClient <;> rfl
    have hpos : 0 ≤ (if args.perClient then n * (data.numClients : Int) else n) := by
      have := scaled_ok (args := args) hli data.numClients
      rw [e] at this
      exact this
    rw [r5]
    exact (Ils.limited r1 hpos (hcs _ e) r2).1
  have hstats : args.statsDir = true → ∀ now, ∃ st, Statistics.fromCsv readFloat ',' csv now = some st
      ∧ (st.data.length : Int) = res.numIterations
      ∧ ∀ d, st.data.getLast? = some d →
        d.bestFeas = res.best.isFeasible ∧ (res.best.isFeasible = true → d.bestCost = objective res.best) := by
    intro hsd now
    rw [hsd] at r2
    obtain ⟨k1, k2⟩ := C42_run_complete env pm ss _ s r2
    obtain ⟨-, k3, -⟩ := C42_one_datum_per_iteration env pm ss _ true s r2
    obtain ⟨-, k4, -⟩ := k3 rfl
    rw [← r4] at k1 k2
    obtain ⟨st, e1, e2⟩ := C42_csv_round_trip hft (delim := ',') (by simp [Delimiter]) .minimal res.stats k1 k2 hcsv now
    have hd : st.data = res.stats.data := by
      unfold Statistics.eq at e2
      simp only [Bool.and_eq_true, beq_iff_eq] at e2
      grind
    refine ⟨st, e1, by rw [hd, r4, k4, r5], fun d hdl => ?_⟩
    rw [hd, r4] at hdl
    have hi : s.iters ≠ 0 := by
      intro h0
      rw [h0] at k4
      rw [List.length_eq_zero_iff.1 k4] at hdl
      cases hdl
    obtain ⟨d', d1, d2, d3⟩ := Ils.last_datum r2 hi
    rw [hdl] at d1
    injection d1 with d1
    subst d1
    rw [r3]
    refine ⟨d2, fun hf => ?_⟩
    rw [r3] at hm
    have := (C16_cost data plan routes s.best hb hn hm s.costEval (Ils.reachable_valid r2)).1 hf
    rw [d3, this.2, this.1]
    rfl
  have e1 : statsFile showFloat args res = .ok (if args.statsDir then some csv else none) := by
    unfold statsFile
    rw [hcsv]
    cases args.statsDir <;> rfl
  have e2 : solutionFile data args res = .ok (if args.solDir then some file else none) := by
    unfold solutionFile
    rw [w1]
    cases args.solDir <;> rfl
  unfold report
  rw [e1]; dsimp only
  rw [e2]
  refine ⟨_, rfl, rfl, ha, hcm, rfl, hcost, fun hsd => ?_, fun hsd => ?_, fun hsd now => ?_, fun hsd => ?_, ?_, ?_⟩
  · refine ⟨file, s', by simp [hsd], w2, w3, p1.trans hcm, p2, p3, tail, ?_⟩
    rw [wc]
    dsimp only
    cases res.cost <;> rfl
  · simp [hsd]
  · obtain ⟨st, x1, x2, x3⟩ := hstats hsd now
    exact ⟨csv, st, by simp [hsd], x1, x2, x3⟩
  · simp [hsd]
  · show 0 ≤ res.numIterations
    rw [r5]; omega
  · exact hiter

end Cli

/-- **C56.** Solving an instance file from the command line does not raise, for a file that can be read and
has sensible numbers, and for limits that are not negative. What it reports is true, and the files it writes
can be read and agree with the report. Here `fuel` and `rounds` are arbitrary: whenever the command ends,
it does so with enough of them. -/
theorem C56_reported (F : Rounding) (showFloat : Int → Csv.Text) (readFloat : Csv.Text → Option Int)
    (hft : FloatText showFloat readFloat) (params : SolveParams) (hparams : GoodParams F params)
    (args : Cli.Args) (hl1 : LimitOk args.maxRuntime) (hl2 : LimitOk args.maxIterations)
    (hl3 : LimitOk args.noImprovement) (name : String) (inst : Vrplib) (R : Rat → Rat)
    (hR : Read.roundFunc args.roundFunc = some R) (data : ProblemData) (w : Bool)
    (hread : Read.build R inst = .ok (data, w)) (hr : File.InRange R inst) (hp : File.PickupsOk inst)
    (hfit : FitsMemory data) (stopClock clock : Nat → Int) (hclock : ∀ i j, i ≤ j → clock i ≤ clock j)
    (fuel rounds : Nat) :
    Cli.run F showFloat params args name inst stopClock clock fuel rounds = .ok none
    ∨ ∃ out best, Cli.run F showFloat params args name inst stopClock clock fuel rounds = .ok (some out)
      ∧ Reported data readFloat args name best out := by
  have h0 := (C52_rounding args.roundFunc).1 R hR
  obtain ⟨hg, hrel, hn⟩ := Read.build_good h0 hread hr hp
  obtain ⟨cs, e1, _, e2, _⟩ := Cli.stopping_ok hl1 hl2 hl3 data.numClients stopClock
  unfold Cli.run Read.read
  rw [hR]; dsimp only
  rw [hread]; dsimp only
  rw [e1]; dsimp only
  rcases C47_valid data hg hrel hn hfit F params hparams Rng.next (Rng.ofSeed args.seed) Criterion.call
    (.multipleCriteria cs) clock hclock args.statsDir none (by intro s hs; cases hs) fuel rounds with
    h | ⟨res, h, h1, h2⟩
  · left
    have h : Solve.solveSeed F data params (.multipleCriteria cs) clock args.seed args.statsDir none fuel rounds
      = .ok none := h
    rw [h]
  · right
    have h : Solve.solveSeed F data params (.multipleCriteria cs) clock args.seed args.statsDir none fuel rounds
      = .ok (some res) := h
    have h2 : res.best.isComplete = true := by
      rcases h2 with h2 | h2
      · exact h2
      · cases h2
    obtain ⟨out, h3, h4⟩ := Cli.report_ok h0 hread hp hft name hn e2 hl2 h h1 h2
    rw [h]; dsimp only
    rw [h3]
    exact ⟨out, res.best, rfl, h4⟩

/-- **C56 (returns).** With at least one limit that is reached, and numbers in the file that are not too
large, the command ends. (`_partial` because it need not end for every file: see `C47`. A limit on the time is
reached if time goes on. With a limit per client, the limits are those for all clients.) -/
theorem C56_returns_partial (F : Rounding) (showFloat : Int → Csv.Text) (readFloat : Csv.Text → Option Int)
    (hft : FloatText showFloat readFloat) (params : SolveParams) (hparams : GoodParams F params)
    (args : Cli.Args) (hl1 : LimitOk args.maxRuntime) (hl2 : LimitOk args.maxIterations)
    (hl3 : LimitOk args.noImprovement) (name : String) (inst : Vrplib) (R : Rat → Rat)
    (hR : Read.roundFunc args.roundFunc = some R) (data : ProblemData) (w : Bool)
    (hread : Read.build R inst = .ok (data, w)) (hr : File.InRange R inst) (hp : File.PickupsOk inst)
    (B : Nat) (hB : Moderate data B) (stopClock clock : Nat → Int) (hclock : ∀ i j, i ≤ j → clock i ≤ clock j)
    (hlim : (∃ n, args.maxIterations = .finite n) ∨ (∃ n, args.noImprovement = .finite n)
      ∨ ∃ n m, args.maxRuntime = .finite n
        ∧ (if args.perClient then n * data.numClients else n) < stopClock m - stopClock 0) :
    ∃ enough out best, (∀ fuel rounds, enough ≤ fuel → enough ≤ rounds →
        Cli.run F showFloat params args name inst stopClock clock fuel rounds = .ok (some out))
      ∧ Reported data readFloat args name best out := by
  have h0 := (C52_rounding args.roundFunc).1 R hR
  obtain ⟨hg, hrel, hn⟩ := Read.build_good h0 hread hr hp
  obtain ⟨cs, e1, et, e2, en⟩ := Cli.stopping_ok hl1 hl2 hl3 data.numClients stopClock
  have hsc : ∀ l n, l = .finite n → Cli.scaled args data.numClients l
      = .finite (if args.perClient then n * data.numClients else n) := by
    intro l n hl
    unfold Cli.scaled
    rw [hl]
    cases args.perClient <;> rfl
  have hpos : ∀ l n, LimitOk l → l = .finite n → 0 ≤ (if args.perClient then n * (data.numClients : Int) else n) := by
    intro l n ho hl
    have := Cli.scaled_ok (args := args) ho data.numClients
    rw [hsc l n hl] at this
    exact this
  have hstop : ∀ least, Stops Criterion.call least (.multipleCriteria cs) := by
    intro least
    obtain ⟨s1, s2, s3, s4⟩ := C47_criteria least
    have hcs : ∀ c, c ∈ cs → Criterion.makeMultipleCriteria cs = .ok (.multipleCriteria cs) := by
      intro c hc
      unfold Criterion.makeMultipleCriteria
      rw [if_neg (by intro h; rw [List.length_eq_zero_iff.1 h] at hc; cases hc)]
    rcases hlim with ⟨n, hnl⟩ | ⟨n, hnl⟩ | ⟨n, m, hnl, hm⟩
    · have hmem := e2 _ (hsc _ n hnl)
      refine s4 cs _ _ (hcs _ hmem) hmem (s1 (if args.perClient then n * data.numClients else n) _ ?_)
      unfold Criterion.makeMaxIterations
      rw [if_neg (by have := hpos _ n hl2 hnl; omega)]
    · have hmem := en _ (hsc _ n hnl)
      refine s4 cs _ _ (hcs _ hmem) hmem (s2 (if args.perClient then n * data.numClients else n) _ ?_)
      unfold Criterion.makeNoImprovement
      rw [if_neg (by have := hpos _ n hl3 hnl; omega)]
    · have hmem := et _ (hsc _ n hnl)
      refine s4 cs _ _ (hcs _ hmem) hmem (s3 (if args.perClient then n * data.numClients else n) stopClock _ ⟨m, hm⟩ ?_)
      unfold Criterion.makeMaxRuntime
      rw [if_neg (by have := hpos _ n hl1 hnl; omega)]
  obtain ⟨enough, res, h, h1, h2, -⟩ := C47_returns_partial data hg B hB hrel hn F params hparams Rng.next
    (Rng.ofSeed args.seed) Criterion.call (.multipleCriteria cs) hstop clock hclock args.statsDir none
    (by intro s hs; cases hs)
  have h : ∀ fuel rounds, enough ≤ fuel → enough ≤ rounds →
      Solve.solveSeed F data params (.multipleCriteria cs) clock args.seed args.statsDir none fuel rounds
        = .ok (some res) := h
  have h2 : res.best.isComplete = true := by
    rcases h2 with h2 | h2
    · exact h2
    · cases h2
  obtain ⟨out, h3, h4⟩ := Cli.report_ok h0 hread hp hft name hn e2 hl2
    (h enough enough (Nat.le_refl _) (Nat.le_refl _)) h1 h2
  refine ⟨enough, out, res.best, fun fuel rounds hf hro => ?_, h4⟩
  unfold Cli.run Read.read
  rw [hR]; dsimp only
  rw [hread]; dsimp only
  rw [e1]; dsimp only
  rw [h fuel rounds hf hro]; dsimp only
  rw [h3]

/-- **C56.** A negative limit is rejected, once the file has been read. -/
theorem C56_negative_limit (F : Rounding) (showFloat : Int → Csv.Text) (params : SolveParams) (args : Cli.Args)
    (hpc : args.perClient = false) (name : String) (inst : Vrplib) (stopClock clock : Nat → Int)
    (fuel rounds : Nat) (n : Int) (hn : n < 0)
    (h : args.maxRuntime = .finite n ∨ args.maxIterations = .finite n ∨ args.noImprovement = .finite n) :
    ∃ e, Cli.run F showFloat params args name inst stopClock clock fuel rounds = .error e := by
  have m1 : ∃ e, Criterion.makeMaxRuntime n stopClock = .error e := by
    unfold Criterion.makeMaxRuntime; rw [if_pos hn]; exact ⟨_, rfl⟩
  have m2 : ∃ e, Criterion.makeMaxIterations n = .error e := by
    unfold Criterion.makeMaxIterations; rw [if_pos hn]; exact ⟨_, rfl⟩
  have m3 : ∃ e, Criterion.makeNoImprovement n = .error e := by
    unfold Criterion.makeNoImprovement; rw [if_pos hn]; exact ⟨_, rfl⟩
  obtain ⟨x1, m1⟩ := m1
  obtain ⟨x2, m2⟩ := m2
  obtain ⟨x3, m3⟩ := m3
  have hs : ∀ k, ∃ e, Cli.stopping args k stopClock = .error e := by
    intro k
    have hsc : ∀ l, Cli.scaled args k l = l := by
      intro l; unfold Cli.scaled; rw [hpc]; rfl
    unfold Cli.stopping
    simp only [hsc]
    rcases h with h | h | h
    · rw [h]; simp only [Cli.criterion, m1]; exact ⟨_, rfl⟩
    · rw [h]
      cases Cli.criterion (Criterion.makeMaxRuntime · stopClock) args.maxRuntime with
      | error e => exact ⟨_, rfl⟩
      | ok c => simp only [Cli.criterion, m2]; exact ⟨_, rfl⟩
    · rw [h]
      cases Cli.criterion (Criterion.makeMaxRuntime · stopClock) args.maxRuntime with
      | error e => exact ⟨_, rfl⟩
      | ok c =>
        cases Cli.criterion Criterion.makeMaxIterations args.maxIterations with
        | error e => exact ⟨_, rfl⟩
        | ok c => simp only [Cli.criterion, m3]; exact ⟨_, rfl⟩
  unfold Cli.run
  split
  · exact ⟨_, rfl⟩
  · rename_i data _ _
    obtain ⟨e, he⟩ := hs data.numClients
    rw [he]
    exact ⟨e, rfl⟩

/-- **C56 (finding).** A limit per client counts clients, but not shipments. For a file with shipments
only, a limit on iterations, whatever it is, means that no iteration is done. -/
theorem C56_no_iterations_for_shipments (data : ProblemData) (readFloat : Csv.Text → Option Int)
    (args : Cli.Args) (name : String) (best : Solution) (out : Cli.Output)
    (h : Reported data readFloat args name best out) (hpc : args.perClient = true) (n : Int)
    (hn : args.maxIterations = .finite n) (hc : data.numClients = 0) : out.iterations = 0 := by
  obtain ⟨h1, h2⟩ := h.iterations
  have := h2 n hn
  rw [hpc, hc] at this
  simp only [if_true, Int.natCast_zero, Int.mul_zero] at this
  omega

/-! ## The table -/

namespace Spec

/-- A line cut into columns of the given widths, with two characters between them. -/
def columns : List Nat → List Char → List (List Char)
  | [], _ => []
  | w :: ws, line => line.take w :: columns ws (line.drop (w + 2))

end Spec

namespace Cli

theorem widen_length (row : List Csv.Text) : ∀ lens, (widen lens row).length = lens.length := by
  induction row with
  | nil => intro lens; cases lens <;> rfl
  | cons c cs ih =>
    intro lens
    cases lens with
    | nil => rfl
    | cons n ns => simp only [widen, List.length_cons, ih ns]

theorem widen_ge (row : List Csv.Text) : ∀ (lens : List Nat) (i : Nat),
    lens.getD i 0 ≤ (widen lens row).getD i 0 := by
  induction row with
  | nil => intro lens i; cases lens <;> exact Nat.le_refl _
  | cons c cs ih =>
    intro lens i
    cases lens with
    | nil => exact Nat.le_refl _
    | cons n ns =>
      cases i with
      | zero => simp only [widen, List.getD_cons_zero]; omega
      | succ i => simp only [widen, List.getD_cons_succ]; exact ih ns i

theorem widen_cell (row : List Csv.Text) : ∀ (lens : List Nat) (i : Nat) (c : Csv.Text),
    row[i]? = some c → i < lens.length → c.length ≤ (widen lens row).getD i 0 := by
  induction row with
  | nil => intro lens i c h; cases h
  | cons d cs ih =>
    intro lens i c h hi
    cases lens with
    | nil => cases hi
    | cons n ns =>
      cases i with
      | zero =>
        simp only [List.getElem?_cons_zero, Option.some.injEq] at h
        subst h
        simp only [widen, List.getD_cons_zero]; omega
      | succ i =>
        simp only [List.getElem?_cons_succ] at h
        simp only [List.length_cons] at hi
        simp only [widen, List.getD_cons_succ]
        exact ih ns i c h (by omega)

theorem foldl_widen (rows : List (List Csv.Text)) : ∀ lens : List Nat,
    (rows.foldl widen lens).length = lens.length
    ∧ (∀ i, lens.getD i 0 ≤ (rows.foldl widen lens).getD i 0)
    ∧ ∀ row ∈ rows, ∀ i c, row[i]? = some c → i < lens.length → c.length ≤ (rows.foldl widen lens).getD i 0 := by
  induction rows with
  | nil => intro lens; exact ⟨rfl, fun _ => Nat.le_refl _, by intro r hr; cases hr⟩
  | cons r rs ih =>
    intro lens
    obtain ⟨h1, h2, h3⟩ := ih (widen lens r)
    refine ⟨h1.trans (widen_length r lens), fun i => Nat.le_trans (widen_ge r lens i) (h2 i), ?_⟩
    intro row hrow i c hc hi
    rcases List.mem_cons.1 hrow with rfl | hrow
    · exact Nat.le_trans (widen_cell _ _ _ _ hc hi) (h2 i)
    · exact h3 row hrow i c hc (by rw [widen_length]; exact hi)

/-- Cutting a line that was joined of pieces of the right widths. -/
theorem columns_join : ∀ (lens : List Nat) (pieces : List Csv.Text),
    pieces.map List.length = lens →
    columns lens (Py.join [' ', ' '] pieces) = pieces
    ∧ (Py.join [' ', ' '] pieces).length = lens.sum + 2 * (lens.length - 1)
  | [], pieces, h => by
    rw [List.map_eq_nil_iff] at h
    subst h
    exact ⟨rfl, rfl⟩
  | w :: ws, [], h => by cases h
  | w :: ws, p :: ps, h => by
    simp only [List.map_cons, List.cons.injEq] at h
    obtain ⟨hw, hs⟩ := h
    obtain ⟨h1, h2⟩ := columns_join ws ps hs
    cases ps with
    | nil =>
      subst hw
      rw [List.map_nil] at hs
      subst hs
      constructor
      · simp only [Py.join, columns, List.take_length]
      · simp only [Py.join, List.sum_cons, List.sum_nil, List.length_cons, List.length_nil]; omega
    | cons q qs =>
      subst hw
      have hne : ws.length ≠ 0 := by rw [← hs]; simp
      constructor
      · simp only [Py.join, columns] at h1 ⊢
        rw [List.append_assoc, List.take_left, ← List.drop_drop, List.drop_left]
        simp only [List.cons_append, List.nil_append, List.drop_succ_cons, List.drop_zero]
        rw [h1]
      · simp only [Py.join, List.length_append, List.length_cons, List.length_nil, List.sum_cons] at h2 ⊢
        rw [h2]; omega

theorem zipWith_pad {pad : Nat → Csv.Text → Csv.Text}
    (hpad : ∀ n t, t.length ≤ n → (pad n t).length = n) : ∀ (lens : List Nat) (cells : List Csv.Text),
    cells.length = lens.length → (∀ i c, cells[i]? = some c → c.length ≤ lens.getD i 0) →
    (List.zipWith pad lens cells).map List.length = lens
  | [], [], _, _ => rfl
  | [], _ :: _, h, _ => by cases h
  | _ :: _, [], h, _ => by cases h
  | w :: ws, c :: cs, h, hc => by
    simp only [List.zipWith_cons_cons, List.map_cons]
    rw [hpad w c (hc 0 c rfl), zipWith_pad hpad ws cs (by simpa using h) (fun i d hd => hc (i + 1) d hd)]

theorem padLeft_length (n : Nat) (t : Csv.Text) (h : t.length ≤ n) : (padLeft n t).length = n := by
  unfold padLeft; simp only [List.length_append, List.length_replicate]; omega

theorem padRight_length (n : Nat) (t : Csv.Text) (h : t.length ≤ n) : (padRight n t).length = n := by
  unfold padRight; simp only [List.length_append, List.length_replicate]; omega

end Cli

/-- **C56 (table).** The table of several instances lines up: there are widths such that every line has the
same length, and cut at these widths the first line has the headers, followed by blanks, the second has
dashes, and the others have the cells of the rows, in order, each preceded by blanks. -/
theorem C56_table (headers : List Csv.Text) (rows : List (List Csv.Text))
    (hrows : ∀ row ∈ rows, row.length = headers.length) :
    ∃ (ws : List Nat) (first second : Csv.Text) (lines : List Csv.Text),
      Cli.tabulate headers rows = Py.join ['\n'] (first :: second :: lines)
      ∧ ws.length = headers.length ∧ lines.length = rows.length
      ∧ (∀ line ∈ first :: second :: lines, line.length = ws.sum + 2 * (ws.length - 1))
      ∧ (∀ (i : Nat) h, headers[i]? = some h → ∃ k, (columns ws first)[i]? = some (h ++ List.replicate k ' '))
      ∧ (∀ (i : Nat) w, ws[i]? = some w → (columns ws second)[i]? = some (List.replicate w '-'))
      ∧ ∀ (j : Nat) row line, rows[j]? = some row → lines[j]? = some line →
          ∀ (i : Nat) c, row[i]? = some c → ∃ k, (columns ws line)[i]? = some (List.replicate k ' ' ++ c) := by
  obtain ⟨w1, w2, w3⟩ := Cli.foldl_widen rows (headers.map List.length)
  have w1 : (Cli.widths headers rows).length = headers.length := by
    unfold Cli.widths; rw [w1, List.length_map]
  have hh : ∀ i c, headers[i]? = some c → c.length ≤ (Cli.widths headers rows).getD i 0 := by
    intro i c hc
    refine Nat.le_trans ?_ (w2 i)
    rw [List.getD_eq_getElem?_getD, List.getElem?_map, hc]
    exact Nat.le_refl _
  have hr : ∀ row ∈ rows, ∀ i c, row[i]? = some c → c.length ≤ (Cli.widths headers rows).getD i 0 := by
    intro row hrow i c hc
    refine w3 row hrow i c hc ?_
    rw [List.length_map, ← hrows row hrow]
    exact (List.getElem?_eq_some_iff.1 hc).1
  have c1 := Cli.columns_join _ _ (Cli.zipWith_pad Cli.padRight_length _ headers w1.symm hh)
  have c2 := Cli.columns_join (Cli.widths headers rows) ((Cli.widths headers rows).map (List.replicate · '-'))
    (by rw [List.map_map]; conv => rhs; rw [← List.map_id (Cli.widths headers rows)]
        apply List.map_congr_left; intro a _; simp)
  have c3 : ∀ row ∈ rows, _ := fun row hrow => Cli.columns_join _ _
    (Cli.zipWith_pad Cli.padLeft_length (Cli.widths headers rows) row ((hrows row hrow).trans w1.symm) (hr row hrow))
  refine ⟨Cli.widths headers rows, _, _, _, rfl, w1, List.length_map .., ?_, ?_, ?_, ?_⟩
  · intro line hl
    rcases List.mem_cons.1 hl with rfl | hl
    · exact c1.2
    rcases List.mem_cons.1 hl with rfl | hl
    · exact c2.2
    obtain ⟨row, hrow, rfl⟩ := List.mem_map.1 hl
    exact (c3 row hrow).2
  · intro i h hi
    have hlt : i < (Cli.widths headers rows).length := by
      rw [w1]; exact (List.getElem?_eq_some_iff.1 hi).1
    unfold Cli.tableLine
    rw [c1.1, List.getElem?_zipWith, hi, List.getElem?_eq_getElem hlt]
    exact ⟨_, rfl⟩
  · intro i w hi
    rw [c2.1, List.getElem?_map, hi]
    rfl
  · intro j row line hj hl i c hi
    rw [List.getElem?_map, hj] at hl
    have hrow := List.mem_of_getElem? hj
    cases hl
    have hlt : i < (Cli.widths headers rows).length := by
      rw [w1, ← hrows row hrow]; exact (List.getElem?_eq_some_iff.1 hi).1
    unfold Cli.tableLine
    rw [(c3 row hrow).1, List.getElem?_zipWith, hi, List.getElem?_eq_getElem hlt]
    exact ⟨_, rfl⟩

/-! ## Examples -/

namespace Demo

theorem okSmall_inRange : File.InRange id okSmall where
  windows := by
    intro loc
    rcases (by omega : loc = 0 ∨ loc = 1 ∨ loc = 2 ∨ loc = 3 ∨ loc = 4 ∨ 5 ≤ loc) with
      rfl | rfl | rfl | rfl | rfl | h
    · decide +kernel
    · decide +kernel
    · decide +kernel
    · decide +kernel
    · decide +kernel
    · have : File.window id okSmall loc = File.window id okSmall 5 := by
        unfold File.window okSmall
        simp only [List.getD_eq_getElem?_getD]
        rw [List.getElem?_eq_none (by simpa using h), List.getElem?_eq_none (by simp)]
      rw [this]; decide +kernel
  releases := by intro loc; exact (by decide +kernel : Read.trunc (id (0 : Rat)) ≤ HALF)
  weights := by decide +kernel

theorem okSmall_moderate : Moderate (dataOf okSmall).1 (2 ^ 44) where
  pos := by decide
  times := by
    intro a ha
    have h : ∀ a ∈ allActivities (dataOf okSmall).1, earliest (dataOf okSmall).1 a ≤ (2 ^ 44 : Nat)
      ∧ released (dataOf okSmall).1 a ≤ (2 ^ 44 : Nat) ∧ serviceTime (dataOf okSmall).1 a ≤ (2 ^ 44 : Nat) := by
      decide +kernel
    exact h a (mem_allActivities ha)
  vehicles := by decide +kernel
  durations := by decide +kernel
  distances := by decide +kernel
  total := by decide +kernel
  releases := .inl (by decide +kernel)

/-- `pyvrp OkSmall.txt --max_iterations 10 --per_client --stats_dir … --sol_dir …` -/
def okArgs (seed : BitVec 32) : Cli.Args :=
  { seed, maxIterations := .finite 10, perClient := true, statsDir := true, solDir := true }

/-- The command ends for the first file of `C52`, with any seed, and reports a solution that can be read. There
are at most 30 iterations for its three clients. -/
example (seed : BitVec 32) : ∃ enough out file s, (∀ fuel rounds, enough ≤ fuel → enough ≤ rounds →
      Cli.run .exact Csv.showInt {} (okArgs seed) "OkSmall" okSmall (fun i => i) (fun i => i) fuel rounds
        = .ok (some out))
    ∧ out.sol = some file ∧ SolutionFile.read (dataOf okSmall).1 file = .ok s ∧ s.isComplete = true
    ∧ (out.ok = "Y" ↔ s.isFeasible = true) ∧ out.iterations ≤ 30 := by
  obtain ⟨enough, out, best, h1, h2⟩ := C56_returns_partial .exact Csv.showInt Csv.readInt C42.intText {}
    defaultParams_good (okArgs seed) trivial (by decide : (0 : Int) ≤ 10) trivial "OkSmall" okSmall id rfl
    (dataOf okSmall).1 (dataOf okSmall).2 okSmall_ok okSmall_inRange (by intro rows h; cases h) _ okSmall_moderate
    (fun i => i) (fun i => i) (fun i j h => Int.ofNat_le.2 h) (.inl ⟨10, rfl⟩)
  obtain ⟨file, s, e1, e2, e3, e4, e5, -⟩ := h2.sol rfl
  refine ⟨enough, out, file, s, h1, e1, e2, e4, ?_, ?_⟩
  · rw [h2.ok, e5]
    cases best.isFeasible <;> decide
  · have := h2.iterations.2 10 rfl
    have hn : (dataOf okSmall).1.numClients = 3 := by decide +kernel
    rw [hn] at this
    exact this

set_option maxRecDepth 100000 in
/-- A run on a small file, and what it writes. -/
example : (match Cli.run .exact Csv.showInt {} { seed := 42, maxIterations := .finite 1, statsDir := true, solDir := true }
      "half" { half with unitDistanceCost := none } (fun i => i) (fun i => i) 10 20 with
    | .ok (some out) => some (out.ok, out.cost, out.iterations, out.sol.map String.ofList)
    | _ => none) = some ("Y", some 20, 1, some "Route #1: 1\nCost: 20\n") := by decide +kernel

/-- The table of two instances. -/
example : String.ofList (Cli.tabulate ["Instance".toList, "OK".toList, "Obj.".toList]
      [["A-n32".toList, "Y".toList, "784".toList], ["RC208-long".toList, "N".toList, "inf".toList]])
    = "Instance    OK  Obj.\n----------  --  ----\n     A-n32   Y   784\nRC208-long   N   inf" := by
  decide +kernel

/-- A negative limit. -/
example : ∃ e, Cli.run .exact Csv.showInt {} { seed := 42, noImprovement := .finite (-1) } "OkSmall" okSmall
    (fun i => i) (fun i => i) 10 20 = .error e :=
  C56_negative_limit _ _ _ _ rfl _ _ _ _ _ _ (-1) (by decide) (.inr (.inr rfl))

/-- A file with shipments only has no clients. -/
example : (dataOf smallShipments).1.numClients = 0 ∧ (dataOf smallShipments).1.numShipments = 2 := by
  decide +kernel

end Demo
end PyVRP
