import Verif.Model.LocalSearch
import Verif.Props.C43
/-!
# The local search: counters

The search does the same from two states that differ by a constant in all counters, except perhaps for
routes that have not changed since all was tested. So, if rounds of the search lead to the state in
which it was, except for such a difference, then it never stops.
-/
namespace PyVRP
namespace LState

variable {data : ProblemData} {ce : CostEvaluator}

/-- The same state, with larger counters, except for those of routes that have not changed since
update `m`. -/
def shift (k m : Nat) (st : LState) : LState :=
  { st with
    lastTest := st.lastTest.map (· + (k : Int))
    lastUpdate := st.lastUpdate.map (fun x => if x ≤ (m : Int) then x else x + (k : Int))
    numUpdates := st.numUpdates + k }

theorem updateRoute_shift (k : Nat) {m : Nat} {st : LState} (hm : m < st.numUpdates) (idx : Nat) :
    updateRoute data (shift k m st) idx = shift k m (updateRoute data st idx) := by
  unfold updateRoute shift
  have h1 : ¬ ((st.numUpdates : Int) ≤ (m : Int)) := by omega
  simp only [List.map_set, if_neg h1]
  simp

theorem update_shift (k : Nat) {m : Nat} {st : LState} (hm : m ≤ st.numUpdates) (u : Option Nat) (v : Nat) :
    update data (shift k m st) u v = shift k m (update data st u v) := by
  have h0 : ∀ st : LState, { shift k m st with numUpdates := (shift k m st).numUpdates + 1, completed := false }
      = shift k m { st with numUpdates := st.numUpdates + 1, completed := false } := by
    intro st; unfold shift; simp; omega
  unfold update
  dsimp only
  rw [h0]
  generalize hst : ({ st with numUpdates := st.numUpdates + 1, completed := false } : LState) = st1
  have h1 : m < st1.numUpdates := by rw [← hst]; exact Nat.lt_succ_of_le hm
  cases u with
  | none => rw [updateRoute_shift k h1]; split <;> rfl
  | some u =>
    dsimp only
    rw [updateRoute_shift k h1, updateRoute_shift k (st := updateRoute data st1 u) h1]
    split <;> rfl

theorem mark_shift (k m : Nat) (st : LState) (node : Nat × Nat) :
    mark (shift k m st) node = shift k m (mark st node) := rfl

theorem markIf_shift (k m : Nat) (st : LState) (node : Option (Nat × Nat)) :
    markIf (shift k m st) node = shift k m (markIf st node) := by cases node <;> rfl

/-- What the moves do not change. -/
def Kept (st st' : LState) : Prop :=
  st'.lastTest = st.lastTest ∧ st'.space.activityOrder = st.space.activityOrder
    ∧ st.numUpdates ≤ st'.numUpdates

theorem Kept.refl (st : LState) : Kept st st := ⟨rfl, rfl, Nat.le_refl _⟩

theorem Kept.trans {st st' st'' : LState} (h : Kept st st') (h' : Kept st' st'') : Kept st st'' :=
  ⟨h'.1.trans h.1, h'.2.1.trans h.2.1, Nat.le_trans h.2.2 h'.2.2⟩

theorem mark_kept (st : LState) (node : Nat × Nat) : Kept st (mark st node) :=
  ⟨rfl, (SearchSpace.markPromisingNode_rest _ _ _).1, Nat.le_refl _⟩

theorem markIf_kept (st : LState) (node : Option (Nat × Nat)) : Kept st (markIf st node) := by
  cases node
  · exact Kept.refl _
  · exact mark_kept _ _

theorem update_kept (st : LState) (u : Option Nat) (v : Nat) : Kept st (update data st u v) := by
  unfold update
  dsimp only
  cases u <;> simp only <;> split <;> exact ⟨rfl, rfl, Nat.le_succ _⟩

/-- What is done to the result. -/
def shiftPair (k m : Nat) (p : LState × Bool) : LState × Bool := (shift k m p.1, p.2)

theorem applyUnaryOps_shift (k : Nat) {m : Nat} (ops : List UnaryOp) {st : LState}
    (hm : m ≤ st.numUpdates) (u : Activity) :
    applyUnaryOps data ce ops (shift k m st) u
      = (applyUnaryOps data ce ops st u).map (shiftPair k m) := by
  have hs : ∀ (st : LState) (sol : SSol), { shift k m st with sol := sol } = shift k m { st with sol := sol } :=
    fun _ _ => rfl
  have hsol : ∀ st : LState, (shift k m st).sol = st.sol := fun _ => rfl
  unfold applyUnaryOps
  rw [hsol]
  cases hf : findUnary data ce st.sol u ops with
  | none => rfl
  | some p =>
    obtain ⟨op, verdict⟩ := p
    dsimp only
    rw [markIf_shift, hsol]
    cases ha : op.apply data (markIf st (st.sol.place u)).sol u verdict.move with
    | error e => rfl
    | ok sol =>
      dsimp only
      rw [hs]
      cases hp : st.sol.place u with
      | some node =>
        dsimp only
        rw [update_shift k (m := m) (st := { markIf st (some node) with sol := sol }) hm]; rfl
      | none =>
        dsimp only
        cases hq : sol.place u with
        | none => rfl
        | some node => dsimp only; rw [mark_shift, update_shift k (m := m) (st := mark { markIf st none with sol := sol } node) hm]; rfl

theorem applyUnaryOps_kept {ops : List UnaryOp} {st : LState} {u : Activity} {r : LState × Bool}
    (h : applyUnaryOps data ce ops st u = .ok r) : Kept st r.1 := by
  unfold applyUnaryOps at h
  split at h
  · cases h; exact Kept.refl _
  · dsimp only at h
    split at h
    · cases h
    · split at h
      · cases h
        refine Kept.trans ?_ (update_kept _ _ _)
        exact markIf_kept st _
      · split at h
        · cases h
        · cases h
          refine Kept.trans ?_ (update_kept _ _ _)
          refine Kept.trans ?_ (mark_kept _ _)
          exact markIf_kept st _

theorem applyBinaryOps_shift (k : Nat) {m : Nat} {st : LState} (hm : m ≤ st.numUpdates) (u : Activity) (v : NodeRef) :
    applyBinaryOps data ce (shift k m st) u v
      = (applyBinaryOps data ce st u v).map (shiftPair k m) := by
  have hs : ∀ (st : LState) (sol : SSol), { shift k m st with sol := sol } = shift k m { st with sol := sol } :=
    fun _ _ => rfl
  have hb : ∀ (st : LState) (b : List (BinaryOp × Cache)),
      LState.mk st.sol (shift k m st).space b (shift k m st).lastTest (shift k m st).lastUpdate
        (shift k m st).numUpdates (shift k m st).completed = shift k m { st with binary := b } := fun _ _ => rfl
  have hsol : ∀ st : LState, (shift k m st).sol = st.sol := fun _ => rfl
  have hbin : ∀ st : LState, (shift k m st).binary = st.binary := fun _ => rfl
  unfold applyBinaryOps
  rw [hsol, hbin]
  generalize findBinary data ce st.sol u v st.binary = bf
  obtain ⟨b, found⟩ := bf
  dsimp only
  rw [hb]
  cases found with
  | none => rfl
  | some p =>
    obtain ⟨op, verdict⟩ := p
    dsimp only
    cases hf : st.sol.find v with
    | none => rfl
    | some rV =>
      dsimp only
      rw [markIf_shift, mark_shift, hsol]
      cases ha : op.apply data (mark (markIf { st with binary := b } (st.sol.place u)) rV).sol u v
        verdict.move with
      | error e => rfl
      | ok sol =>
        dsimp only
        rw [hs, update_shift k (m := m)]
        · rfl
        · exact Nat.le_trans hm ((markIf_kept { st with binary := b } (st.sol.place u)).2.2)

theorem applyBinaryOps_kept {st : LState} {u : Activity} {v : NodeRef} {r : LState × Bool}
    (h : applyBinaryOps data ce st u v = .ok r) : Kept st r.1 := by
  unfold applyBinaryOps at h
  dsimp only at h
  split at h
  · cases h; exact ⟨rfl, rfl, Nat.le_refl _⟩
  · split at h
    · cases h
    · split at h
      · cases h
      · cases h
        refine Kept.trans ?_ (update_kept _ _ _)
        have h1 := markIf_kept { st with binary := (findBinary data ce st.sol u v st.binary).1 }
          (st.sol.place u)
        rename_i node _ _ _ _
        have h2 := h1.trans (mark_kept _ node)
        exact h2

theorem updateOf_shift (k m : Nat) (st : LState) (node : Option (Nat × Nat)) {t : Int}
    (ht : (m : Int) ≤ t) :
    decide (updateOf (shift k m st) node > t + k) = decide (updateOf st node > t) := by
  apply decide_eq_decide.2
  cases node with
  | none => unfold updateOf; simp only; omega
  | some p =>
    unfold updateOf shift
    simp only [List.getD_eq_getElem?_getD, List.getElem?_map]
    cases st.lastUpdate[p.1]? with
    | none => simp; omega
    | some x => simp only [Option.map_some, Option.getD_some]; split <;> omega

theorem testNeighbour_shift (k : Nat) {m : Nat} {t : Int} (ht : (m : Int) ≤ t) {st : LState}
    (hm : m ≤ st.numUpdates) (u v : Activity) :
    testNeighbour data ce (t + k) (shift k m st) u v
      = (testNeighbour data ce t st u v).map (shift k m) := by
  have hsol : ∀ st : LState, (shift k m st).sol = st.sol := fun _ => rfl
  unfold testNeighbour
  rw [hsol]
  cases hp : st.sol.place v with
  | none => rfl
  | some node =>
    obtain ⟨idx, pos⟩ := node
    dsimp only
    rw [updateOf_shift k m st _ ht, updateOf_shift k m st _ ht]
    split
    · rw [applyBinaryOps_shift k hm]
      cases ha : applyBinaryOps data ce st u (.task v) with
      | error e => rfl
      | ok r =>
        obtain ⟨st1, b⟩ := r
        cases b with
        | true => rfl
        | false =>
          simp only [Except.map, shiftPair, hsol]
          split
          · rw [applyBinaryOps_shift k (Nat.le_trans hm (applyBinaryOps_kept ha).2.2)]
            cases hb : applyBinaryOps data ce st1 u (.start idx) with
            | error e => rfl
            | ok r => rfl
          · rfl
    · rfl

theorem testNeighbour_kept {t : Int} {st st' : LState} {u v : Activity}
    (h : testNeighbour data ce t st u v = .ok st') : Kept st st' := by
  unfold testNeighbour at h
  split at h
  · cases h; exact Kept.refl _
  · split at h
    · split at h
      · cases h
      · rename_i h1
        cases h
        exact applyBinaryOps_kept h1
      · rename_i h1
        split at h
        · split at h
          · cases h
          · rename_i h2
            cases h
            exact Kept.trans (applyBinaryOps_kept h1) (applyBinaryOps_kept h2)
        · cases h
          exact applyBinaryOps_kept h1
    · cases h; exact Kept.refl _

theorem testNeighbours_shift (k : Nat) {m : Nat} {t : Int} (ht : (m : Int) ≤ t) (u : Activity) :
    ∀ (l : List Activity) (st : LState), m ≤ st.numUpdates → testNeighbours data ce (t + k) u (shift k m st) l
      = (testNeighbours data ce t u st l).map (shift k m)
  | [], st, _ => rfl
  | v :: rest, st, hm => by
    unfold testNeighbours
    rw [testNeighbour_shift k ht hm]
    cases h : testNeighbour data ce t st u v with
    | error e => rfl
    | ok st1 =>
      exact testNeighbours_shift k ht u rest st1 (Nat.le_trans hm (testNeighbour_kept h).2.2)

theorem testNeighbours_kept {t : Int} {u : Activity} : ∀ {l : List Activity} {st st' : LState},
    testNeighbours data ce t u st l = .ok st' → Kept st st'
  | [], st, st', h => by cases h; exact Kept.refl _
  | v :: rest, st, st', h => by
    unfold testNeighbours at h
    split at h
    · cases h
    · rename_i h1
      exact Kept.trans (testNeighbour_kept h1) (testNeighbours_kept h)

theorem applyEmptyRouteMoves_shift (k : Nat) {m : Nat} (u : Activity) :
    ∀ (l : List (Nat × Nat)) (st : LState), m ≤ st.numUpdates →
    applyEmptyRouteMoves data ce u (shift k m st) l
      = (applyEmptyRouteMoves data ce u st l).map (shift k m)
  | [], st, _ => rfl
  | (vehType, offset) :: rest, st, hm => by
    have hsol : ∀ st : LState, (shift k m st).sol = st.sol := fun _ => rfl
    unfold applyEmptyRouteMoves
    rw [hsol]
    cases hf : st.sol.firstEmpty data vehType offset with
    | none => exact applyEmptyRouteMoves_shift k u rest st hm
    | some idx =>
      dsimp only
      rw [applyBinaryOps_shift k hm]
      cases ha : applyBinaryOps data ce st u (.start idx) with
      | error e => rfl
      | ok r =>
        obtain ⟨st1, b⟩ := r
        cases b with
        | true => rfl
        | false =>
          exact applyEmptyRouteMoves_shift k u rest st1 (Nat.le_trans hm (applyBinaryOps_kept ha).2.2)

theorem applyEmptyRouteMoves_kept {u : Activity} : ∀ {l : List (Nat × Nat)} {st st' : LState},
    applyEmptyRouteMoves data ce u st l = .ok st' → Kept st st'
  | [], st, st', h => by cases h; exact Kept.refl _
  | (vehType, offset) :: rest, st, st', h => by
    unfold applyEmptyRouteMoves at h
    split at h
    · exact applyEmptyRouteMoves_kept h
    · split at h
      · cases h
      · rename_i h1
        cases h
        exact applyBinaryOps_kept h1
      · rename_i h1
        exact Kept.trans (applyBinaryOps_kept h1) (applyEmptyRouteMoves_kept h)

/-- All has been tested, after update `m`. -/
structure Tested (m : Nat) (order : List Activity) (n : Nat) (st : LState) : Prop where
  length : st.lastTest.length = n
  tested : ∀ x ∈ st.lastTest, (m : Int) ≤ x
  updates : m ≤ st.numUpdates
  order : st.space.activityOrder = order

theorem testActivity_shift (k : Nat) {m : Nat} (ops : List UnaryOp) {order : List Activity} {n : Nat} {st : LState} (ht : Tested m order n st)
    {u : Activity} (hu : testIdx data u < n) :
    testActivity data ce ops (shift k m st) u = (testActivity data ce ops st u).map (shift k m) := by
  have hspace : ∀ st : LState, (shift k m st).space = st.space := fun _ => rfl
  unfold testActivity
  rw [hspace]
  split
  · rfl
  · dsimp only
    have hlt : testIdx data u < st.lastTest.length := by rw [ht.length]; exact hu
    have h1 : (shift k m st).lastTest.getD (testIdx data u) 0
        = st.lastTest.getD (testIdx data u) 0 + (k : Int) := by
      unfold shift
      simp [List.getElem?_eq_getElem hlt]
    have h2 : LState.mk (shift k m st).sol st.space (shift k m st).binary
          ((shift k m st).lastTest.set (testIdx data u) ((shift k m st).numUpdates : Int))
          (shift k m st).lastUpdate (shift k m st).numUpdates (shift k m st).completed
        = shift k m { st with lastTest := st.lastTest.set (testIdx data u) (st.numUpdates : Int) } := by
      unfold shift
      simp [List.map_set]
    have h3 : (m : Int) ≤ st.lastTest.getD (testIdx data u) 0 := by
      refine ht.tested _ ?_
      rw [List.getD_eq_getElem?_getD, List.getElem?_eq_getElem hlt]
      exact List.getElem_mem hlt
    rw [h1, h2]
    have hm : m ≤ ({ st with lastTest := st.lastTest.set (testIdx data u) (st.numUpdates : Int) } : LState).numUpdates :=
      ht.updates
    generalize ({ st with lastTest := st.lastTest.set (testIdx data u) (st.numUpdates : Int) } : LState) = st1 at hm ⊢
    rw [applyUnaryOps_shift k ops hm]
    cases ha : applyUnaryOps data ce ops st1 u with
    | error e => rfl
    | ok r =>
      obtain ⟨st2, b⟩ := r
      simp only [Except.map, shiftPair, hspace]
      cases hn : st2.space.neighboursOf u with
      | error e => rfl
      | ok ns =>
        dsimp only
        have hm2 := Nat.le_trans hm (applyUnaryOps_kept ha).2.2
        rw [testNeighbours_shift k h3 _ _ _ hm2]
        cases htn : testNeighbours data ce (st.lastTest.getD (testIdx data u) 0) u st2 ns with
        | error e => rfl
        | ok st3 =>
          simp only [Except.map, hspace]
          rw [applyEmptyRouteMoves_shift k _ _ _ (Nat.le_trans hm2 (testNeighbours_kept htn).2.2)]
          rfl

theorem testActivity_tested {m : Nat} {ops : List UnaryOp} {order : List Activity} {n : Nat} {st st' : LState} (ht : Tested m order n st)
    {u : Activity} (h : testActivity data ce ops st u = .ok st') : Tested m order n st' := by
  unfold testActivity at h
  split at h
  · cases h; exact ht
  · dsimp only at h
    split at h
    · cases h
    · rename_i h1
      split at h
      · cases h
      · split at h
        · cases h
        · rename_i h2
          have e := ((applyUnaryOps_kept h1).trans (testNeighbours_kept h2)).trans
            (applyEmptyRouteMoves_kept h)
          refine ⟨by rw [e.1]; simpa using ht.length, fun x hx => ?_, Nat.le_trans ht.updates e.2.2, by rw [e.2.1]; exact ht.order⟩
          rw [e.1] at hx
          rcases List.mem_or_eq_of_mem_set hx with hx | rfl
          · exact ht.tested x hx
          · have := ht.updates; omega

theorem testAll_shift (k : Nat) {m : Nat} (ops : List UnaryOp) {order : List Activity} {n : Nat} : ∀ (l : List Activity) (st : LState),
    Tested m order n st → (∀ u ∈ l, testIdx data u < n) →
    testAll data ce ops (shift k m st) l = (testAll data ce ops st l).map (shift k m)
  | [], st, _, _ => rfl
  | u :: rest, st, ht, hl => by
    unfold testAll
    rw [testActivity_shift k ops ht (hl u (by simp))]
    cases h : testActivity data ce ops st u with
    | error e => rfl
    | ok st1 =>
      exact testAll_shift k ops rest st1 (testActivity_tested ht h) (fun v hv => hl v (by simp [hv]))

theorem testAll_tested {m : Nat} {ops : List UnaryOp} {order : List Activity} {n : Nat} : ∀ {l : List Activity} {st st' : LState},
    Tested m order n st → testAll data ce ops st l = .ok st' → Tested m order n st'
  | [], st, st', ht, h => by cases h; exact ht
  | u :: rest, st, st', ht, h => by
    unfold testAll at h
    split at h
    · cases h
    · rename_i h1
      exact testAll_tested (testActivity_tested ht h1) h

/-! ## Rounds -/

/-- The state after so many rounds, if the search does not stop before or then. -/
def rounds (data : ProblemData) (ce : CostEvaluator) (ops : List UnaryOp) : Nat → LState → Option LState
  | 0, st => if st.completed then none else some st
  | fuel + 1, st =>
    if st.completed then none
    else
      match testAll data ce ops { st with completed := true } st.space.activityOrder with
      | .error _ => none
      | .ok st => rounds data ce ops fuel st

theorem rounds_searchLoop {ops : List UnaryOp} : ∀ {n : Nat} {st st' : LState},
    rounds data ce ops n st = some st' → searchLoop data ce ops n st = .ok none
  | 0, st, st', h => by
    unfold rounds at h
    unfold searchLoop
    split at h
    · cases h
    · rename_i hc; rw [if_neg hc]
  | n + 1, st, st', h => by
    unfold rounds at h
    unfold searchLoop
    split at h
    · cases h
    · rename_i hc
      rw [if_neg hc]
      split at h
      · cases h
      · rename_i st1 h1
        rw [h1]
        exact rounds_searchLoop h

theorem rounds_add {ops : List UnaryOp} (m : Nat) : ∀ (n : Nat) (st : LState),
    rounds data ce ops (n + m) st = (rounds data ce ops n st).bind (rounds data ce ops m)
  | 0, st => by
    rw [Nat.zero_add]
    conv => rhs; unfold rounds
    cases hc : st.completed with
    | false => rfl
    | true =>
      cases m <;> simp [rounds, hc]
  | n + 1, st => by
    rw [Nat.add_right_comm]
    unfold rounds
    split
    · rfl
    · split
      · rfl
      · exact rounds_add m n _

theorem rounds_le {ops : List UnaryOp} {n m : Nat} (hnm : n ≤ m) {st st' : LState}
    (h : rounds data ce ops m st = some st') : ∃ st1, rounds data ce ops n st = some st1 := by
  obtain ⟨d, rfl⟩ := Nat.exists_eq_add_of_le hnm
  rw [rounds_add] at h
  cases hr : rounds data ce ops n st with
  | none => rw [hr] at h; cases h
  | some st1 => exact ⟨st1, rfl⟩

theorem rounds_tested {b : Nat} {ops : List UnaryOp} {order : List Activity} {n : Nat} : ∀ {m : Nat} {st st' : LState}, Tested b order n st →
    rounds data ce ops m st = some st' → Tested b order n st'
  | 0, st, st', ht, h => by
    unfold rounds at h
    split at h
    · cases h
    · cases h; exact ht
  | m + 1, st, st', ht, h => by
    unfold rounds at h
    split at h
    · cases h
    · split at h
      · cases h
      · rename_i h1
        refine rounds_tested (testAll_tested ?_ h1) h
        exact ⟨ht.length, ht.tested, ht.updates, ht.order⟩

theorem rounds_shift (k : Nat) {b : Nat} {ops : List UnaryOp} {order : List Activity} {n : Nat}
    (hu : ∀ u ∈ order, testIdx data u < n) : ∀ (m : Nat) (st : LState), Tested b order n st →
    rounds data ce ops m (shift k b st) = (rounds data ce ops m st).map (shift k b)
  | 0, st, ht => by
    have hc : (shift k b st).completed = st.completed := rfl
    unfold rounds
    rw [hc]
    split <;> rfl
  | m + 1, st, ht => by
    have hc : (shift k b st).completed = st.completed := rfl
    unfold rounds
    rw [hc]
    split
    · rfl
    · have e := testAll_shift (data := data) (ce := ce) k ops (order := order) (n := n)
        st.space.activityOrder { st with completed := true } ⟨ht.length, ht.tested, ht.updates, ht.order⟩
        (fun u hu' => hu u (by rw [← ht.order]; exact hu'))
      rw [show testAll data ce ops { shift k b st with completed := true } (shift k b st).space.activityOrder
        = _ from e]
      cases h : testAll data ce ops { st with completed := true } st.space.activityOrder with
      | error e => rfl
      | ok st1 =>
        refine rounds_shift k hu m st1 (testAll_tested ?_ h)
        exact ⟨ht.length, ht.tested, ht.updates, ht.order⟩

/-- **A search that comes back to where it was never stops.** -/
theorem searchLoop_never_stops {ops : List UnaryOp} {order : List Activity} {n : Nat}
    (hu : ∀ u ∈ order, testIdx data u < n) {b m p k : Nat} (hp : 0 < p) {st st1 : LState}
    (h1 : rounds data ce ops m st = some st1) (ht : Tested b order n st1)
    (h2 : rounds data ce ops p st1 = some (shift k b st1)) (fuel : Nat) :
    searchLoop data ce ops fuel st = .ok none := by
  have hcyc : ∀ (c : Nat) (st1 : LState), Tested b order n st1 →
      rounds data ce ops p st1 = some (shift k b st1) → ∃ st2, rounds data ce ops (c * p) st1 = some st2 := by
    intro c
    induction c with
    | zero =>
      intro st1 _ h
      exact rounds_le (by omega) h
    | succ c ih =>
      intro st1 ht h
      rw [Nat.succ_mul, Nat.add_comm, rounds_add, h]
      refine ih (shift k b st1) (rounds_tested ht h) ?_
      rw [rounds_shift k hu p st1 ht, h]
      rfl
  obtain ⟨st2, h3⟩ := hcyc fuel st1 ht h2
  have h4 : rounds data ce ops (m + fuel * p) st = some st2 := by
    rw [rounds_add, h1]; exact h3
  have h5 : fuel ≤ m + fuel * p := Nat.le_trans (Nat.le_mul_of_pos_right fuel hp) (by omega)
  obtain ⟨st3, h6⟩ := rounds_le h5 h4
  exact rounds_searchLoop h6

end LState
end PyVRP
