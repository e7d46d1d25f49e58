import Verif.Model.SearchStatistics
import Verif.Lemmas.LocalResult
import Verif.Props.C25
/-!
# Statistics of the local search: what counting leaves alone, and what the counts add up to
-/
namespace PyVRP
open Spec

variable {data : ProblemData} {ce : CostEvaluator}

namespace Counted

/-! ## Counting changes nothing else -/

theorem findUnary_eq (sol : SSol) (u : Activity) : ∀ (ops : List UnaryOp) (stats : List OpStats),
    (findUnary data ce sol u ops stats).2 = LState.findUnary data ce sol u ops
  | [], _ => rfl
  | op :: rest, stats => by
    unfold findUnary LState.findUnary
    dsimp only
    split
    · rfl
    · exact findUnary_eq sol u rest stats.tail

theorem applyUnaryOps_eq (ops : List UnaryOp) (c : Counts) (st : LState) (u : Activity) :
    (applyUnaryOps data ce ops c st u).map (·.2) = LState.applyUnaryOps data ce ops st u := by
  unfold applyUnaryOps LState.applyUnaryOps
  dsimp only
  rw [← findUnary_eq st.sol u ops c.unary]
  cases (findUnary data ce st.sol u ops c.unary).2 with
  | none => rfl
  | some p =>
    obtain ⟨op, verdict⟩ := p
    dsimp only
    cases op.apply data (LState.markIf st (st.sol.place u)).sol u verdict.move with
    | error e => rfl
    | ok sol =>
      dsimp only
      cases st.sol.place u with
      | some node => rfl
      | none =>
        dsimp only
        cases sol.place u <;> rfl

theorem findBinary_eq (sol : SSol) (u : Activity) (v : NodeRef) :
    ∀ (ops : List (BinaryOp × Cache)) (stats : List OpStats),
    (findBinary data ce sol u v ops stats).2 = LState.findBinary data ce sol u v ops
  | [], _ => rfl
  | (op, cache) :: rest, stats => by
    unfold findBinary LState.findBinary
    dsimp only
    split
    · rfl
    · rw [← findBinary_eq sol u v rest stats.tail]

theorem applyBinaryOps_eq (c : Counts) (st : LState) (u : Activity) (v : NodeRef) :
    (applyBinaryOps data ce c st u v).map (·.2) = LState.applyBinaryOps data ce st u v := by
  unfold applyBinaryOps LState.applyBinaryOps
  dsimp only
  rw [← findBinary_eq st.sol u v st.binary c.binary]
  obtain ⟨stats, binary, found⟩ := findBinary data ce st.sol u v st.binary c.binary
  dsimp only
  cases found with
  | none => rfl
  | some p =>
    obtain ⟨op, verdict⟩ := p
    dsimp only
    cases st.sol.find v with
    | none => rfl
    | some rV =>
      dsimp only
      generalize op.apply data _ u v verdict.move = r
      cases r <;> rfl

theorem testNeighbour_eq (lastTest : Int) (c : Counts) (st : LState) (u v : Activity) :
    (testNeighbour data ce lastTest c st u v).map (·.2) = LState.testNeighbour data ce lastTest st u v := by
  unfold testNeighbour LState.testNeighbour
  cases st.sol.place v with
  | none => rfl
  | some p =>
    obtain ⟨idx, pos⟩ := p
    dsimp only
    split
    · rw [← applyBinaryOps_eq c st u (.task v)]
      cases applyBinaryOps data ce c st u (.task v) with
      | error e => rfl
      | ok r =>
        obtain ⟨c1, st1, b⟩ := r
        cases b with
        | true => rfl
        | false =>
          dsimp only [Except.map]
          by_cases hs : ((st1.sol.route idx).node (pos - 1)).isStartDepot = true
          · rw [if_pos hs, if_pos hs, ← applyBinaryOps_eq c1 st1 u (.start idx)]
            cases applyBinaryOps data ce c1 st1 u (.start idx) <;> rfl
          · rw [if_neg hs, if_neg hs]
    · rfl

theorem testNeighbours_eq (lastTest : Int) (u : Activity) : ∀ (vs : List Activity) (c : Counts)
    (st : LState),
    (testNeighbours data ce lastTest u c st vs).map (·.2) = LState.testNeighbours data ce lastTest u st vs
  | [], _, _ => rfl
  | v :: vs, c, st => by
    unfold testNeighbours LState.testNeighbours
    rw [← testNeighbour_eq lastTest c st u v]
    cases testNeighbour data ce lastTest c st u v with
    | error e => rfl
    | ok r => exact testNeighbours_eq lastTest u vs r.1 r.2

theorem applyEmptyRouteMoves_eq (u : Activity) : ∀ (order : List (Nat × Nat)) (c : Counts) (st : LState),
    (applyEmptyRouteMoves data ce u c st order).map (·.2) = LState.applyEmptyRouteMoves data ce u st order
  | [], _, _ => rfl
  | (t, offset) :: order, c, st => by
    unfold applyEmptyRouteMoves LState.applyEmptyRouteMoves
    cases st.sol.firstEmpty data t offset with
    | none => exact applyEmptyRouteMoves_eq u order c st
    | some idx =>
      dsimp only
      rw [← applyBinaryOps_eq c st u (.start idx)]
      cases applyBinaryOps data ce c st u (.start idx) with
      | error e => rfl
      | ok r =>
        obtain ⟨c1, st1, b⟩ := r
        cases b with
        | true => rfl
        | false => exact applyEmptyRouteMoves_eq u order c1 st1

theorem testActivity_eq (ops : List UnaryOp) (c : Counts) (st : LState) (u : Activity) :
    (testActivity data ce ops c st u).map (·.2) = LState.testActivity data ce ops st u := by
  unfold testActivity LState.testActivity
  split
  · rfl
  · dsimp only
    generalize st.lastTest.getD _ 0 = lastTest
    generalize st.lastTest.set _ _ = tests
    rw [← applyUnaryOps_eq ops c { st with lastTest := tests } u]
    cases applyUnaryOps data ce ops c { st with lastTest := tests } u with
    | error e => rfl
    | ok r =>
      obtain ⟨c1, st1, b⟩ := r
      dsimp only [Except.map]
      cases st1.space.neighboursOf u with
      | error e => rfl
      | ok ns =>
        dsimp only
        rw [← testNeighbours_eq lastTest u ns c1 st1]
        cases testNeighbours data ce lastTest u c1 st1 ns with
        | error e => rfl
        | ok r => exact applyEmptyRouteMoves_eq u _ r.1 r.2

theorem testAll_eq (ops : List UnaryOp) : ∀ (us : List Activity) (c : Counts) (st : LState),
    (testAll data ce ops c st us).map (·.2) = LState.testAll data ce ops st us
  | [], _, _ => rfl
  | u :: us, c, st => by
    unfold testAll LState.testAll
    rw [← testActivity_eq ops c st u]
    cases testActivity data ce ops c st u with
    | error e => rfl
    | ok r => exact testAll_eq ops us r.1 r.2

theorem searchLoop_eq (ops : List UnaryOp) : ∀ (fuel : Nat) (c : Counts) (st : LState),
    (searchLoop data ce ops fuel c st).map (Option.map (·.2)) = LState.searchLoop data ce ops fuel st
  | 0, c, st => by
    unfold searchLoop LState.searchLoop
    split <;> rfl
  | fuel + 1, c, st => by
    unfold searchLoop LState.searchLoop
    split
    · rfl
    · rw [← testAll_eq ops _ c]
      cases testAll data ce ops c { st with completed := true } st.space.activityOrder with
      | error e => rfl
      | ok r => exact searchLoop_eq ops fuel r.1 r.2

theorem search_eq (ops : List UnaryOp) (fuel : Nat) (c : Counts) (st : LState) :
    (search data ce ops fuel c st).map (Option.map (·.2)) = LState.search data ce ops fuel st := by
  unfold search LState.search
  split
  · rfl
  · exact searchLoop_eq ops fuel c _

theorem run_eq (ls : LocalSearch) (solution : Solution) (exhaustive : Bool) (fuel : Nat) :
    (run data ce ls solution exhaustive fuel).map (Option.map (fun r => (r.1, r.2.1)))
      = ls.run data ce solution exhaustive fuel := by
  unfold run LocalSearch.run
  cases ls.prepare data ce solution exhaustive with
  | error e => rfl
  | ok st =>
    dsimp only
    rw [← search_eq ls.unaryOps fuel (Counts.init ls.unaryOps ls.binaryOps) st]
    cases search data ce ls.unaryOps fuel (Counts.init ls.unaryOps ls.binaryOps) st with
    | error e => rfl
    | ok r =>
      cases r with
      | none => rfl
      | some p =>
        dsimp only [Except.map, Option.map]
        cases p.2.sol.unload data <;> rfl

/-! ## What the counts add up to -/

end Counted

/-- The first operator has been evaluated `k` times, and each other one as often as the one before it
without being applied. -/
def Spec.Chained : Nat → List OpStats → Prop
  | _, [] => True
  | k, s :: rest => s.evaluations = k ∧ s.applications ≤ k ∧ Chained (k - s.applications) rest

theorem Spec.Chained.le : ∀ {stats : List OpStats} {k : Nat}, Chained k stats → ∀ s ∈ stats,
    s.applications ≤ s.evaluations ∧ s.evaluations ≤ k
  | [], _, _, s, hs => by cases hs
  | t :: rest, k, ⟨h1, h2, h3⟩, s, hs => by
    rcases List.mem_cons.1 hs with rfl | hs
    · exact ⟨by omega, by omega⟩
    · have := Spec.Chained.le h3 s hs
      exact ⟨this.1, by omega⟩

theorem Spec.Chained.sum_le {stats : List OpStats} {k : Nat} (h : Chained k stats) :
    (stats.map (·.evaluations)).sum ≤ k * stats.length := by
  have hle := fun s hs => (h.le s hs).2
  clear h
  induction stats with
  | nil => simp
  | cons s rest ih =>
    have h1 := hle s (by simp)
    have h2 := ih (fun t ht => hle t (by simp [ht]))
    rw [List.map_cons, List.sum_cons, List.length_cons, Nat.mul_add, Nat.mul_one]
    omega

theorem Spec.Chained.init {α : Type} : ∀ (ops : List α), Chained 0 (ops.map (fun _ => ({} : OpStats)))
  | [] => trivial
  | _ :: ops => ⟨rfl, Nat.le_refl _, Spec.Chained.init ops⟩

/-- The number of applications. -/
def Spec.applied (stats : List OpStats) : Nat := (stats.map (·.applications)).sum

theorem applied_cons (s : OpStats) (rest : List OpStats) :
    applied (s :: rest) = s.applications + applied rest := by
  unfold applied; rw [List.map_cons, List.sum_cons]

theorem applied_init {α : Type} (ops : List α) : applied (ops.map (fun _ => ({} : OpStats))) = 0 := by
  induction ops with
  | nil => rfl
  | cons op ops ih => rw [List.map_cons, applied_cons, ih]

namespace Counted

theorem findUnary_counts (sol : SSol) (u : Activity) : ∀ (ops : List UnaryOp) (stats : List OpStats)
    (k : Nat), Chained k stats → stats.length = ops.length →
    Chained (k + 1) (findUnary data ce sol u ops stats).1
    ∧ (findUnary data ce sol u ops stats).1.length = ops.length
    ∧ applied (findUnary data ce sol u ops stats).1
      = applied stats + (if (findUnary data ce sol u ops stats).2.isSome then 1 else 0)
  | [], [], k, _, _ => ⟨trivial, rfl, rfl⟩
  | [], _ :: _, _, _, hl => by cases hl
  | _ :: _, [], _, _, hl => by cases hl
  | op :: ops, s :: stats, k, ⟨h1, h2, h3⟩, hl => by
    have hl : stats.length = ops.length := by simpa using hl
    unfold findUnary
    dsimp only [List.headD, List.tail]
    split
    · refine ⟨⟨by dsimp only; omega, by dsimp only; omega, ?_⟩, by simp [hl], ?_⟩
      · dsimp only
        rwa [Nat.add_sub_add_right]
      · rw [applied_cons, applied_cons]; dsimp only [Option.isSome]; rw [if_pos rfl]; omega
    · obtain ⟨i1, i2, i3⟩ := findUnary_counts sol u ops stats _ h3 hl
      refine ⟨⟨by dsimp only; omega, by dsimp only; omega, ?_⟩, by simp [i2], ?_⟩
      · dsimp only
        rwa [Nat.sub_add_comm h2]
      · rw [applied_cons, applied_cons, i3]; dsimp only; omega

theorem findBinary_counts (sol : SSol) (u : Activity) (v : NodeRef) :
    ∀ (ops : List (BinaryOp × Cache)) (stats : List OpStats)
    (k : Nat), Chained k stats → stats.length = ops.length →
    Chained (k + 1) (findBinary data ce sol u v ops stats).1
    ∧ (findBinary data ce sol u v ops stats).1.length = ops.length
    ∧ (findBinary data ce sol u v ops stats).2.1.length = ops.length
    ∧ applied (findBinary data ce sol u v ops stats).1
      = applied stats + (if (findBinary data ce sol u v ops stats).2.2.isSome then 1 else 0)
  | [], [], k, _, _ => ⟨trivial, rfl, rfl, rfl⟩
  | [], _ :: _, _, _, hl => by cases hl
  | _ :: _, [], _, _, hl => by cases hl
  | (op, cache) :: ops, s :: stats, k, ⟨h1, h2, h3⟩, hl => by
    have hl : stats.length = ops.length := by simpa using hl
    unfold findBinary
    dsimp only [List.headD, List.tail]
    split
    · refine ⟨⟨by dsimp only; omega, by dsimp only; omega, ?_⟩, by simp [hl], rfl, ?_⟩
      · dsimp only
        rwa [Nat.add_sub_add_right]
      · rw [applied_cons, applied_cons]; dsimp only [Option.isSome]; rw [if_pos rfl]; omega
    · obtain ⟨i1, i2, i3, i4⟩ := findBinary_counts sol u v ops stats _ h3 hl
      refine ⟨⟨by dsimp only; omega, by dsimp only; omega, ?_⟩, by simp [i2], by simp [i3], ?_⟩
      · dsimp only
        rwa [Nat.sub_add_comm h2]
      · rw [applied_cons, applied_cons, i4]; dsimp only; exact (Nat.add_assoc _ _ _).symm

/-- After `k` tests of an activity, and `l` tests of an activity with a node: the counts, in a search that
began with `base` updates. -/
structure Tally (nU nB base k l : Nat) (c : Counts) (st : LState) : Prop where
  unary : Chained k c.unary
  binary : Chained l c.binary
  lenU : c.unary.length = nU
  lenB : c.binary.length = nB
  ops : st.binary.length = nB
  num : st.numUpdates = base + (applied c.unary + applied c.binary)

theorem update_binary (st : LState) (u : Option Nat) (v : Nat) :
    (LState.update data st u v).binary.length = st.binary.length := by
  unfold LState.update
  dsimp only
  cases u with
  | none => split <;> simp [LState.updateRoute]
  | some u => split <;> simp [LState.updateRoute]

theorem markIf_binary (st : LState) (node : Option (Nat × Nat)) :
    (LState.markIf st node).binary = st.binary := by cases node <;> rfl

theorem Tally.of {nU nB base k l : Nat} {c : Counts} {st st' : LState} (h : Tally nU nB base k l c st)
    (e1 : st'.binary.length = st.binary.length) (e2 : st'.numUpdates = st.numUpdates) :
    Tally nU nB base k l c st' := ⟨h.unary, h.binary, h.lenU, h.lenB, e1.trans h.ops, e2.trans h.num⟩

theorem applyUnaryOps_tally {ops : List UnaryOp} {nB base k l : Nat} {c c' : Counts} {st st' : LState}
    {u : Activity} {b : Bool} (h : Tally ops.length nB base k l c st)
    (e : applyUnaryOps data ce ops c st u = .ok (c', st', b)) :
    Tally ops.length nB base (k + 1) l c' st' := by
  obtain ⟨i1, i2, i3⟩ := findUnary_counts (data := data) (ce := ce) st.sol u ops c.unary k h.unary h.lenU
  have h4 := h.num
  unfold applyUnaryOps at e
  dsimp only at e
  generalize hf : findUnary data ce st.sol u ops c.unary = f at e i1 i2 i3
  obtain ⟨stats, found⟩ := f
  dsimp only at e i1 i2 i3
  split at e
  · rw [if_neg (by simp)] at i3
    cases e
    exact ⟨i1, h.binary, i2, h.lenB, h.ops, by dsimp only; omega⟩
  · rw [Option.isSome_some, if_pos rfl] at i3
    split at e
    · cases e
    · split at e
      · cases e
        refine ⟨i1, h.binary, i2, h.lenB, ?_, ?_⟩
        · rw [update_binary]; dsimp only; rw [markIf_binary]; exact h.ops
        · rw [LState.update_numUpdates]; dsimp only; rw [LState.markIf_numUpdates]; omega
      · split at e
        · cases e
        · cases e
          refine ⟨i1, h.binary, i2, h.lenB, ?_, ?_⟩
          · rw [update_binary]; exact (congrArg _ (markIf_binary st _)).trans h.ops
          · rw [LState.update_numUpdates]
            refine (congrArg (· + 1) (LState.markIf_numUpdates st _)).trans ?_
            dsimp only; omega

theorem applyBinaryOps_tally {nU nB base k l : Nat} {c c' : Counts} {st st' : LState}
    {u : Activity} {v : NodeRef} {b : Bool} (h : Tally nU nB base k l c st)
    (e : applyBinaryOps data ce c st u v = .ok (c', st', b)) :
    Tally nU nB base k (l + 1) c' st' := by
  obtain ⟨i1, i2, i3, i4⟩ :=
    findBinary_counts (data := data) (ce := ce) st.sol u v st.binary c.binary l h.binary (h.lenB.trans h.ops.symm)
  have h4 := h.num
  unfold applyBinaryOps at e
  dsimp only at e
  generalize hf : findBinary data ce st.sol u v st.binary c.binary = f at e i1 i2 i3 i4
  obtain ⟨stats, binary, found⟩ := f
  dsimp only at e i1 i2 i3 i4
  split at e
  · rw [if_neg (by simp)] at i4
    cases e
    exact ⟨h.unary, i1, h.lenU, i2.trans h.ops, i3.trans h.ops, by dsimp only; omega⟩
  · rw [Option.isSome_some, if_pos rfl] at i4
    split at e
    · cases e
    · split at e
      · cases e
      · cases e
        refine ⟨h.unary, i1, h.lenU, i2.trans h.ops, ?_, ?_⟩
        · rw [update_binary]
          exact (congrArg _ (markIf_binary { st with binary := binary } _)).trans (i3.trans h.ops)
        · rw [LState.update_numUpdates]
          refine (congrArg (· + 1) (LState.markIf_numUpdates { st with binary := binary } _)).trans ?_
          dsimp only; omega

theorem testNeighbour_tally {nU nB base k l : Nat} {lastTest : Int} {c c' : Counts} {st st' : LState}
    {u v : Activity} (h : Tally nU nB base k l c st)
    (e : testNeighbour data ce lastTest c st u v = .ok (c', st')) :
    ∃ l', l' ≤ l + 2 ∧ Tally nU nB base k l' c' st' := by
  unfold testNeighbour at e
  split at e
  · cases e; exact ⟨l, by omega, h⟩
  · split at e
    · split at e
      · cases e
      · rename_i h1; cases e; exact ⟨l + 1, by omega, applyBinaryOps_tally h h1⟩
      · rename_i h1
        split at e
        · split at e
          · cases e
          · rename_i h2; cases e
            exact ⟨l + 2, by omega, applyBinaryOps_tally (applyBinaryOps_tally h h1) h2⟩
        · cases e; exact ⟨l + 1, by omega, applyBinaryOps_tally h h1⟩
    · cases e; exact ⟨l, by omega, h⟩

theorem testNeighbours_tally {nU nB base k : Nat} {lastTest : Int} {u : Activity} : ∀ (vs : List Activity)
    {l : Nat} {c c' : Counts} {st st' : LState}, Tally nU nB base k l c st →
    testNeighbours data ce lastTest u c st vs = .ok (c', st') →
    ∃ l', l' ≤ l + 2 * vs.length ∧ Tally nU nB base k l' c' st'
  | [], l, c, c', st, st', h, e => by cases e; exact ⟨l, by simp, h⟩
  | v :: vs, l, c, c', st, st', h, e => by
    unfold testNeighbours at e
    split at e
    · cases e
    · rename_i c1 st1 h1
      obtain ⟨l1, k1, t1⟩ := testNeighbour_tally h h1
      obtain ⟨l2, k2, t2⟩ := testNeighbours_tally vs t1 e
      exact ⟨l2, by rw [List.length_cons]; omega, t2⟩

theorem applyEmptyRouteMoves_tally {nU nB base k : Nat} {u : Activity} : ∀ (order : List (Nat × Nat))
    {l : Nat} {c c' : Counts} {st st' : LState}, Tally nU nB base k l c st →
    applyEmptyRouteMoves data ce u c st order = .ok (c', st') →
    ∃ l', l' ≤ l + order.length ∧ Tally nU nB base k l' c' st'
  | [], l, c, c', st, st', h, e => by cases e; exact ⟨l, by simp, h⟩
  | (t, offset) :: order, l, c, c', st, st', h, e => by
    unfold applyEmptyRouteMoves at e
    rw [List.length_cons]
    split at e
    · obtain ⟨l2, k2, t2⟩ := applyEmptyRouteMoves_tally order h e
      exact ⟨l2, by omega, t2⟩
    · split at e
      · cases e
      · rename_i h1; cases e; exact ⟨l + 1, by omega, applyBinaryOps_tally h h1⟩
      · rename_i h1
        obtain ⟨l2, k2, t2⟩ := applyEmptyRouteMoves_tally order (applyBinaryOps_tally h h1) e
        exact ⟨l2, by omega, t2⟩

theorem testActivity_tally {ops : List UnaryOp} {nB base k l M T : Nat} {c c' : Counts} {st st' : LState}
    {u : Activity} (h : Tally ops.length nB base k l c st) {plan : List (List Activity)}
    (ok : LState.Ok data ce plan st) (hd : Consistent data) (hu : u ∈ allTasks data)
    (hM : ∀ ns, st.space.neighboursOf u = .ok ns → ns.length ≤ M) (hT : st.space.vehTypeOrder.length ≤ T)
    (e : testActivity data ce ops c st u = .ok (c', st')) :
    ∃ l', l' ≤ l + (2 * M + T)
      ∧ Tally ops.length nB base (k + (if st.space.isPromising u = true then 1 else 0)) l' c' st' := by
  unfold testActivity at e
  split at e
  · rename_i hp
    cases e
    have hp : st.space.isPromising u = false := by simpa using hp
    rw [hp]
    exact ⟨l, by omega, h⟩
  · rename_i hp
    have hp : st.space.isPromising u = true := by simpa using hp
    rw [if_pos hp]
    dsimp only at e
    generalize st.lastTest.getD (LState.testIdx data u) 0 = lastTest at e
    generalize st.lastTest.set (LState.testIdx data u) st.numUpdates = tests at e
    have ok0 : LState.Ok data ce plan { st with lastTest := tests } :=
      ⟨ok.sol, ok.exclusive, ok.space, ok.self, ok.caches⟩
    have h0 : Tally ops.length nB base k l c { st with lastTest := tests } := h.of rfl rfl
    split at e
    · cases e
    · rename_i c1 st1 b h1
      have t1 := applyUnaryOps_tally h0 h1
      obtain ⟨plan1, st1', b', e1, p1, -, -⟩ := LState.applyUnaryOps_spec ok0 hd ops hu
      have e1' := applyUnaryOps_eq (data := data) (ce := ce) ops c { st with lastTest := tests } u
      rw [h1, e1] at e1'
      injection e1' with e1'
      injection e1' with e2 e3
      subst e2
      split at e
      · cases e
      · rename_i ns hns
        have hlen : ns.length ≤ M := by
          apply hM
          rw [← hns]
          unfold SearchSpace.neighboursOf
          rw [p1.grows.neighbours]
        split at e
        · cases e
        · rename_i c2 st2 h2
          obtain ⟨l2, k2, t2⟩ := testNeighbours_tally ns t1 h2
          obtain ⟨plan2, st2', e2, p2⟩ := LState.testNeighbours_spec hd lastTest hu ns
            (p1.ok.self u ns hns) p1.ok
          have e2' := testNeighbours_eq (data := data) (ce := ce) lastTest u ns c1 st1
          rw [h2, e2] at e2'
          injection e2' with e2'
          dsimp only at e2'
          subst e2'
          obtain ⟨l3, k3, t3⟩ := applyEmptyRouteMoves_tally _ t2 e
          have : st2.space.vehTypeOrder.length ≤ T := by
            rw [p2.grows.types, p1.grows.types]; exact hT
          exact ⟨l3, by omega, t3⟩

theorem testAll_tally {ops : List UnaryOp} {nB base M T : Nat} (hd : Consistent data) :
    ∀ (us : List Activity), (∀ u ∈ us, u ∈ allTasks data) → ∀ {k l : Nat} {c c' : Counts}
    {st st' : LState} {plan : List (List Activity)}, Tally ops.length nB base k l c st →
    LState.Ok data ce plan st →
    (∀ u ∈ us, ∀ ns, st.space.neighboursOf u = .ok ns → ns.length ≤ M) →
    st.space.vehTypeOrder.length ≤ T →
    testAll data ce ops c st us = .ok (c', st') →
    ∃ k' l', k ≤ k' ∧ k' ≤ k + us.length ∧ l' ≤ l + us.length * (2 * M + T)
      ∧ ((∀ u ∈ us, st.space.isPromising u = true) → k' = k + us.length)
      ∧ Tally ops.length nB base k' l' c' st'
  | [], _, k, l, c, c', st, st', plan, h, ok, hM, hT, e => by
    cases e; exact ⟨k, l, by omega, by simp, by simp, fun _ => rfl, h⟩
  | u :: us, hu, k, l, c, c', st, st', plan, h, ok, hM, hT, e => by
    unfold testAll at e
    split at e
    · cases e
    · rename_i c1 st1 h1
      obtain ⟨l1, k1, t1⟩ := testActivity_tally h ok hd (hu u (by simp)) (hM u (by simp)) hT h1
      obtain ⟨plan1, st1', e1, p1⟩ := LState.testActivity_spec ok hd ops (hu u (by simp))
      have e1' := testActivity_eq (data := data) (ce := ce) ops c st u
      rw [h1, e1] at e1'
      injection e1' with e1'
      dsimp only at e1'
      subst e1'
      have hN : ∀ a, st1.space.neighboursOf a = st.space.neighboursOf a := by
        intro a; unfold SearchSpace.neighboursOf; rw [p1.grows.neighbours]
      obtain ⟨k2, l2, b1, b2, b3, b4, t2⟩ := testAll_tally hd us (fun v hv => hu v (by simp [hv])) t1 p1.ok
        (fun v hv ns hns => hM v (by simp [hv]) ns (by rw [← hN]; exact hns))
        (by rw [p1.grows.types]; exact hT) e
      have hb : (if st.space.isPromising u = true then 1 else 0) ≤ 1 := by split <;> omega
      refine ⟨k2, l2, by omega, by rw [List.length_cons]; omega, ?_, fun hp => ?_, t2⟩
      · rw [List.length_cons, Nat.add_mul, Nat.one_mul]; omega
      · have := b4 (fun v hv => p1.grows.kept v (allTasks_task (hu v (by simp [hv]))) (hp v (by simp [hv])))
        rw [if_pos (hp u (by simp))] at this
        rw [List.length_cons]; omega

/-- The outer loop: all rounds but the last have made a move. -/
theorem searchLoop_tally {ops : List UnaryOp} {nB base M T : Nat} (hd : Consistent data) :
    ∀ (fuel : Nat) {k l : Nat} {c c' : Counts}
    {st st' : LState} {plan : List (List Activity)}, Tally ops.length nB base k l c st →
    LState.Ok data ce plan st → st.completed = false →
    (∀ u ∈ allTasks data, ∀ ns, st.space.neighboursOf u = .ok ns → ns.length ≤ M) →
    st.space.vehTypeOrder.length ≤ T →
    searchLoop data ce ops fuel c st = .ok (some (c', st')) →
    ∃ rounds k' l', 1 ≤ rounds ∧ rounds ≤ st'.numUpdates - st.numUpdates + 1
      ∧ st.numUpdates ≤ st'.numUpdates
      ∧ k' ≤ k + rounds * (allTasks data).length
      ∧ l' ≤ l + rounds * ((allTasks data).length * (2 * M + T))
      ∧ ((∀ u ∈ allTasks data, st.space.isPromising u = true) → k' = k + rounds * (allTasks data).length)
      ∧ Tally ops.length nB base k' l' c' st'
  | 0, k, l, c, c', st, st', plan, h, ok, hc, hM, hT, e => by
    unfold searchLoop at e
    rw [hc] at e
    cases e
  | fuel + 1, k, l, c, c', st, st', plan, h, ok, hc, hM, hT, e => by
    unfold searchLoop at e
    rw [hc] at e
    simp only [Bool.false_eq_true, if_false] at e
    split at e
    · cases e
    · rename_i c1 st1 h1
      have hmem : ∀ u ∈ st.space.activityOrder, u ∈ allTasks data := fun a ha => ok.space.order.mem_iff.1 ha
      have hlen : st.space.activityOrder.length = (allTasks data).length := ok.space.order.length_eq
      have ok0 : LState.Ok data ce plan { st with completed := true } :=
        ⟨ok.sol, ok.exclusive, ok.space, ok.self, ok.caches⟩
      obtain ⟨k1, l1, b1, b2, b3, b4, t1⟩ := testAll_tally (M := M) (T := T) hd st.space.activityOrder hmem
        (h.of (st' := { st with completed := true }) rfl rfl) ok0 (fun u hu => hM u (hmem u hu)) hT h1
      rw [hlen] at b2 b3 b4
      obtain ⟨plan1, st1', e1, ok1, g1, n, -, hn, hcn⟩ := LState.round_spec (ce := ce) hd ops ok
      have e1' := testAll_eq (data := data) (ce := ce) ops st.space.activityOrder c { st with completed := true }
      rw [h1, e1] at e1'
      injection e1' with e1'
      dsimp only at e1'
      subst e1'
      have hall : (∀ u ∈ allTasks data, st.space.isPromising u = true) →
          k1 = k + (allTasks data).length := fun hp => b4 (fun u hu => hp u (hmem u hu))
      cases hc1 : st1.completed with
      | true =>
        have : searchLoop data ce ops fuel c1 st1 = .ok (some (c1, st1)) := by
          cases fuel <;> (unfold searchLoop; rw [hc1]; rfl)
        rw [this] at e
        cases e
        exact ⟨1, k1, l1, by omega, by omega, by omega, by omega, by omega, fun hp => by
          have := hall hp; omega, t1⟩
      | false =>
        have hn0 : n ≠ 0 := fun h0 => by rw [hcn.2 h0] at hc1; cases hc1
        have hN : ∀ a, st1.space.neighboursOf a = st.space.neighboursOf a := by
          intro a; unfold SearchSpace.neighboursOf; rw [g1.neighbours]
        obtain ⟨r, k2, l2, d1, d2, d3, d4, d5, d6, t2⟩ := searchLoop_tally (M := M) (T := T) hd fuel t1 ok1 hc1
          (fun u hu ns hns => hM u hu ns (by rw [← hN]; exact hns)) (by rw [g1.types]; exact hT) e
        refine ⟨r + 1, k2, l2, by omega, by omega, by omega, ?_, ?_, fun hp => ?_, t2⟩
        · rw [Nat.add_mul, Nat.one_mul]; omega
        · rw [Nat.add_mul, Nat.one_mul]; omega
        · have h3 := d6 (fun u hu => g1.kept u (allTasks_task hu) (hp u hu))
          have h4 := hall hp
          rw [Nat.add_mul, Nat.one_mul]; omega

end Counted

/-! ## Repairs -/

/-- Whether an activity is in a route. -/
def Spec.present (s : SSol) (a : Activity) : Bool :=
  s.routes.any (fun r => r.nodes.any (fun node => decide (node.activity = a)))

theorem present_iff {plan : List (List Activity)} {s : SSol} (h : SSol.Holds data plan s) {a : Activity}
    (ha : a.type ≠ .depot) : present s a = true ↔ Visited plan a := by
  have hmem : ∀ i, i < data.numVehicles →
      ((s.route i).nodes.any (fun node => decide (node.activity = a)) = true ↔ a ∈ plan.getD i []) := by
    intro i hi
    have h1 := h.visits i hi
    have h2 : (s.route i).nodes.map (·.activity)
        = fullActs (data.vehicleType (s.route i).vehicleType) (plan.getD i []) := by
      rw [h1]; exact SRoute.canon_activities _ _
    have h3 : (s.route i).nodes.any (fun node => decide (node.activity = a)) = true
        ↔ a ∈ (s.route i).nodes.map (·.activity) := by
      simp only [List.any_eq_true, decide_eq_true_eq, List.mem_map]
    rw [h3, h2, fullActs]
    simp only [List.mem_append, List.mem_cons, List.not_mem_nil, or_false]
    constructor
    · rintro ((rfl | h) | rfl)
      · exact absurd rfl ha
      · exact h
      · exact absurd rfl ha
    · exact fun h => .inl (.inr h)
  unfold present Visited
  rw [List.any_eq_true]
  have hlen := h.sized.routes
  constructor
  · rintro ⟨r, hr, ha'⟩
    obtain ⟨i, hi, rfl⟩ := List.mem_iff_getElem.1 hr
    refine ⟨i, (hmem i (by omega)).1 ?_⟩
    unfold SSol.route
    rw [List.getD_eq_getElem?_getD, List.getElem?_eq_getElem hi]
    exact ha'
  · rintro ⟨i, hi⟩
    have hil : i < data.numVehicles := h.lt_of_mem hi
    refine ⟨s.route i, ?_, (hmem i hil).2 hi⟩
    unfold SSol.route
    rw [List.getD_eq_getElem?_getD, List.getElem?_eq_getElem (by omega)]
    exact List.getElem_mem _

namespace LState

theorem insertClient_numUpdates {st st' : LState} {k : Nat} (h : insertClient data ce st k = .ok st') :
    st'.numUpdates = st.numUpdates + 1 := by
  unfold insertClient at h
  split at h
  · cases h
  · split at h
    · cases h
    · dsimp only at h
      split at h
      · cases h
      · cases h; exact update_numUpdates _ _ _

theorem insertShipment_numUpdates {st st' : LState} {k : Nat}
    (h : insertShipment data ce st k = .ok st') : st'.numUpdates = st.numUpdates + 1 := by
  unfold insertShipment at h
  split at h
  · cases h
  · split at h
    · dsimp only at h
      split at h
      · cases h; exact update_numUpdates _ _ _
      · cases h
    · cases h

/-- Either nothing is repaired, or there is one update, and just that client or shipment is inserted or
removed. -/
structure Repair (data : ProblemData) (a : Activity) (st st' : LState) : Prop where
  num : st'.numUpdates = st.numUpdates + (if present st'.sol a = present st.sol a then 0 else 1)
  rest : ∀ b ∈ allTasks data, b ≠ a → present st'.sol b = present st.sol b

theorem Repair.refl (a : Activity) (st : LState) : Repair data a st st :=
  ⟨by rw [if_pos rfl, Nat.add_zero], fun _ _ _ => rfl⟩

theorem present_congr {plan plan' : List (List Activity)} {s s' : SSol} (h : SSol.Holds data plan s)
    (h' : SSol.Holds data plan' s') {a : Activity} (ha : a.type ≠ .depot) :
    present s' a = present s a ↔ (Visited plan' a ↔ Visited plan a) := by
  rw [Bool.eq_iff_iff, present_iff h ha, present_iff h' ha]

theorem allTasks_type {b : Activity} (hb : b ∈ allTasks data) : b.type ≠ .depot ∧ b.type ≠ .delivery := by
  rcases BinaryOp.mem_allTasks hb with ⟨h, -⟩ | ⟨h, -⟩ <;> (rw [h]; simp)

theorem repair_counts (hd : Consistent data) (hnv : 0 < data.numVehicles)
    {done : List Activity} {plan : List (List Activity)}
    {st st' : LState} {counts counts' : List Nat} (h : Repaired data ce done plan st counts) {a : Activity}
    (ha : a ∈ allTasks data) (e : repair data ce st counts a = .ok (st', counts')) :
    Repair data a st st' := by
  have hold := h.sound.sol.clean.1
  have insC : ∀ {k : Nat} {st1 : LState}, k < data.numClients → ¬ Visited plan ⟨.client, k⟩ →
      insertClient data ce st k = .ok st1 → Repair data ⟨.client, k⟩ st st1 := by
    intro k st1 hk hn e1
    obtain ⟨plan', st2, e2, hs, -, hv⟩ := insertClient_ok h.sound hnv hk hn
    rw [e1] at e2
    cases e2
    refine ⟨?_, fun b hb hne => ?_⟩
    · rw [insertClient_numUpdates e1, if_neg]
      rw [present_congr hold hs.sol.clean.1 (by simp), hv _ (by simp)]
      intro h'
      exact hn (h'.1 (.inr rfl))
    · rw [present_congr hold hs.sol.clean.1 (allTasks_type hb).1, hv _ (allTasks_type hb).1]
      exact ⟨fun h => h.resolve_right hne, .inl⟩
  obtain ⟨ty, k⟩ := a
  rcases BinaryOp.mem_allTasks ha with ⟨rfl, hk⟩ | ⟨rfl, hk⟩
  · dsimp only at hk
    have hvis := place_isNone hold (a := ⟨.client, k⟩) (by simp)
    unfold repair at e
    dsimp only at e
    split at e
    · rename_i hcond
      rw [Bool.and_eq_true, hvis] at hcond
      split at e
      · cases e
      · rename_i e1
        cases e
        exact insC hk hcond.1 e1
    · split at e
      · cases e; exact .refl _ _
      · rename_i g hgrp
        have hgl := group_lt hd hk hgrp
        obtain ⟨hkg, hkr, -⟩ := mem_group hd hk hgrp
        unfold repairGroup at e
        split at e
        · rename_i hz
          rw [Bool.and_eq_true, beq_iff_eq] at hz
          split at e
          · cases e
          · rename_i e1
            cases e
            refine insC hk (fun hv => ?_) e1
            have h1 := h.tally g hgl
            rw [hz.2] at h1
            have h2 : 0 < (data.group g).clients.countP (fun c => visits plan ⟨.client, c⟩) :=
              List.countP_pos_iff.2 ⟨k, hkg, visits_true hv⟩
            omega
        · split at e
          · cases e; exact .refl _ _
          · rename_i idx pos hp
            split at e
            · have hv : Visited plan ⟨.client, k⟩ := by
                rcases Classical.em (Visited plan ⟨.client, k⟩) with hv | hv
                · exact hv
                · rw [hp] at hvis; exact absurd (hvis.2 hv) (by simp)
              obtain ⟨plan', hs, -, hv'⟩ := removeClient_ok h.sound hp
              cases e
              refine ⟨?_, fun b hb hne => ?_⟩
              · rw [if_neg]
                · rw [update_numUpdates]; rfl
                · rw [present_congr hold hs.sol.clean.1 (by simp), hv' _ (by simp)]
                  intro h'
                  exact (h'.2 hv).2 rfl
              · rw [present_congr hold hs.sol.clean.1 (allTasks_type hb).1, hv' _ (allTasks_type hb).1]
                exact ⟨fun h => h.1, fun h => ⟨h, hne⟩⟩
            · cases e; exact .refl _ _
  · dsimp only at hk
    have hvis := place_isNone hold (a := ⟨.pickup, k⟩) (by simp)
    unfold repair at e
    dsimp only at e
    split at e
    · rename_i hcond
      rw [Bool.and_eq_true, hvis] at hcond
      split at e
      · cases e
      · rename_i e1
        obtain ⟨plan', st2, e2, hs, -, hv⟩ := insertShipment_ok h.sound hnv hk hcond.1
        rw [e1] at e2
        cases e2
        cases e
        refine ⟨?_, fun b hb hne => ?_⟩
        · rw [insertShipment_numUpdates e1, if_neg]
          rw [present_congr hold hs.sol.clean.1 (by simp), hv _ (by simp)]
          intro h'
          exact hcond.1 (h'.1 (.inr (.inl rfl)))
        · rw [present_congr hold hs.sol.clean.1 (allTasks_type hb).1, hv _ (allTasks_type hb).1]
          refine ⟨fun h => ?_, .inl⟩
          rcases h with h | h | h
          · exact h
          · exact absurd h hne
          · rw [h] at hb; exact absurd rfl (allTasks_type hb).2
    · cases e; exact .refl _ _

theorem repairAll_counts (hd : Consistent data) (hnv : 0 < data.numVehicles)
    (hgn : ∀ g ∈ data.groups, g.clients.Nodup) : ∀ (todo done : List Activity)
    (plan : List (List Activity)) {st st' : LState} {counts counts' : List Nat},
    (∀ a ∈ todo, a ∈ allTasks data) → todo.Nodup → Repaired data ce done plan st counts →
    repairAll data ce st counts todo = .ok (st', counts') →
    st'.numUpdates = st.numUpdates + todo.countP (fun a => present st'.sol a != present st.sol a)
    ∧ ∀ b ∈ allTasks data, b ∉ todo → present st'.sol b = present st.sol b
  | [], done, plan, st, st', counts, counts', _, _, h, e => by
    cases e; exact ⟨rfl, fun _ _ _ => rfl⟩
  | a :: todo, done, plan, st, st', counts, counts', ha, hnd, h, e => by
    rw [List.nodup_cons] at hnd
    obtain ⟨plan1, st1, c1, e1, r1, -⟩ := repair_spec hd hnv hgn h (ha a (by simp))
    have hr := repair_counts hd hnv h (ha a (by simp)) e1
    unfold repairAll at e
    rw [e1] at e
    dsimp only at e
    obtain ⟨i1, i2⟩ := repairAll_counts hd hnv hgn todo (done ++ [a]) plan1
      (fun b hb => ha b (by simp [hb])) hnd.2 r1 e
    have ea := i2 a (ha a (by simp)) hnd.1
    refine ⟨?_, fun b hb hn => ?_⟩
    · rw [i1, hr.num, List.countP_cons, ea]
      have : todo.countP (fun b => present st'.sol b != present st1.sol b)
          = todo.countP (fun b => present st'.sol b != present st.sol b) := by
        apply List.countP_congr
        intro b hb
        rw [hr.rest b (ha b (by simp [hb])) (fun h => hnd.1 (h ▸ hb))]
      rw [this]
      by_cases hp : present st1.sol a = present st.sol a
      · rw [if_pos hp, if_neg (by simp [hp])]; omega
      · rw [if_neg hp, if_pos (by simpa using hp)]; omega
    · rw [List.mem_cons, not_or] at hn
      rw [i2 b hb hn.2, hr.rest b hb hn.1]

/-- The updates are those clients and shipments that are inserted or removed. -/
theorem ensureStructuralFeasibility_counts (hd : Consistent data) (hnv : 0 < data.numVehicles)
    (hgn : ∀ g ∈ data.groups, g.clients.Nodup) {plan : List (List Activity)} {st st' : LState}
    (h : Sound data ce plan st) (e : ensureStructuralFeasibility data ce st = .ok st') :
    st'.numUpdates = st.numUpdates
      + (allTasks data).countP (fun a => present st'.sol a != present st.sol a) := by
  obtain ⟨h1, h2⟩ := groupCounts_spec h.sol.clean.1
  have h0 : Repaired data ce [] plan st (groupCounts data st.sol) :=
    ⟨h, h1, h2, by simp, by simp, by simp, by simp⟩
  unfold ensureStructuralFeasibility at e
  split at e
  · cases e
  · rename_i st1 counts e1
    cases e
    rw [(repairAll_counts hd hnv hgn st.space.activityOrder [] plan
      (fun a ha => h.space.order.mem_iff.1 ha) (h.space.order.nodup_iff.2 (allTasks_nodup data)) h0 e1).1,
      h.space.order.countP_eq]

end LState
end PyVRP
