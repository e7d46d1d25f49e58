import Verif.Lemmas.CheckedLoop
import Verif.Lemmas.Prepared
/-!
# The arrays of the state in which the local search starts have the right sizes
-/
namespace PyVRP.Checked
open Spec

variable {data : ProblemData} {ce : CostEvaluator}

theorem insertClient_sized {st st' : LState} (h : Sized data st) {c : Nat}
    (e : LState.insertClient data ce st c = .ok st') : Sized data st' := by
  unfold LState.insertClient at e
  split at e
  · cases e
  · split at e
    · cases e
    · dsimp only at e
      split at e
      · cases e
      · injection e with e
        rw [← e]
        exact ((h.sol _).update _ _).mark _

theorem insertShipment_sized {st st' : LState} (h : Sized data st) {c : Nat}
    (e : LState.insertShipment data ce st c = .ok st') : Sized data st' := by
  unfold LState.insertShipment at e
  split at e
  · cases e
  · split at e
    · dsimp only at e
      split at e
      · injection e with e
        rw [← e]
        exact (((h.sol _).update _ _).mark _).mark _
      · cases e
    · cases e

theorem repairGroup_sized {st st' : LState} (h : Sized data st) {counts counts' : List Nat}
    {c g : Nat} (e : LState.repairGroup data ce st counts c g = .ok (st', counts')) : Sized data st' := by
  unfold LState.repairGroup at e
  split at e
  · split at e
    · cases e
    · rename_i h1
      injection e with e; injection e with e e2
      rw [← e]
      exact insertClient_sized h h1
  · split at e
    · injection e with e; injection e with e e2
      rw [← e]; exact h
    · split at e
      · dsimp only at e
        injection e with e; injection e with e e2
        rw [← e]
        exact ((h.mark _).sol _).update _ _
      · injection e with e; injection e with e e2
        rw [← e]; exact h

theorem repair_sized {st st' : LState} (h : Sized data st) {counts counts' : List Nat}
    {a : Activity} (e : LState.repair data ce st counts a = .ok (st', counts')) : Sized data st' := by
  unfold LState.repair at e
  split at e
  · split at e
    · split at e
      · cases e
      · rename_i h1
        injection e with e; injection e with e e2
        rw [← e]
        exact insertClient_sized h h1
    · split at e
      · injection e with e; injection e with e e2
        rw [← e]; exact h
      · exact repairGroup_sized h e
  · split at e
    · split at e
      · cases e
      · rename_i h1
        injection e with e; injection e with e e2
        rw [← e]
        exact insertShipment_sized h h1
    · injection e with e; injection e with e e2
      rw [← e]; exact h
  · injection e with e; injection e with e e2
    rw [← e]; exact h

theorem repairAll_sized : ∀ (as : List Activity) {st st' : LState} {counts counts' : List Nat},
    Sized data st → LState.repairAll data ce st counts as = .ok (st', counts') → Sized data st'
  | [], st, st', counts, counts', h, e => by
    injection e with e; injection e with e e2
    rw [← e]; exact h
  | a :: as, st, st', counts, counts', h, e => by
    unfold LState.repairAll at e
    split at e
    · cases e
    · rename_i h1
      exact repairAll_sized as (repair_sized h h1) e

theorem prepare_sized {ls : LocalSearch} {sol : Solution} {exhaustive : Bool} {st : LState}
    (e : ls.prepare data ce sol exhaustive = .ok st) : Sized data st := by
  unfold LocalSearch.prepare at e
  split at e
  · cases e
  · dsimp only at e
    rename_i s hs
    have h0 : ∀ s' sp, Sized data { ls.start data s with sol := s', space := sp } := by
      intro s' sp
      refine ⟨by simp [LocalSearch.start], by simp [LocalSearch.start], fun p hp => ?_⟩
      simp only [LocalSearch.start, List.mem_map] at hp
      obtain ⟨op, -, rfl⟩ := hp
      simp [BinaryOp.init]
    split at e
    · cases e
    · unfold LState.ensureStructuralFeasibility at e
      split at e
      · cases e
      · rename_i h1
        injection e with e
        rw [← e]
        exact repairAll_sized _ (h0 _ _) h1

end PyVRP.Checked
