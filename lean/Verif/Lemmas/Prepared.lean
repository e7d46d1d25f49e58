import Verif.Lemmas.LocalResult
import Verif.Lemmas.Optimal
/-!
# The state in which the local search starts, and the state in which it stops
-/
namespace PyVRP
open Spec

variable {data : ProblemData} {ce : CostEvaluator}

namespace LState

/-- Nothing has been tested. -/
structure Untested (data : ProblemData) (ops : List BinaryOp) (st : LState) : Prop where
  stamps : Stamps data st
  tests : st.lastTest = List.replicate (data.numClients + data.numShipments) (-1)
  ops : st.binary.map (·.1) = ops
  completed : st.completed = false

variable {ops : List BinaryOp}

theorem Untested.sol {st : LState} (h : Untested data ops st) (s : SSol) :
    Untested data ops { st with sol := s } :=
  ⟨⟨h.stamps.length, h.stamps.range⟩, h.tests, h.ops, h.completed⟩

theorem Untested.mark {st : LState} (h : Untested data ops st) (node : Nat × Nat) :
    Untested data ops (mark st node) :=
  ⟨⟨h.stamps.length, h.stamps.range⟩, h.tests, h.ops, h.completed⟩

theorem Untested.update {st : LState} (h : Untested data ops st) (u : Option Nat) (v : Nat) :
    Untested data ops (update data st u v) := by
  obtain ⟨h1, h2, h3, h4⟩ := update_stamps (data := data) st u v
  obtain ⟨-, r2, r3⟩ := update_rest (data := data) st u v
  refine ⟨⟨h1.trans h.stamps.length, fun k hk => ?_⟩, h3.trans h.tests, h2.trans h.ops, r3⟩
  rw [h4 k (by rw [h.stamps.length]; exact hk), r2]
  have := h.stamps.range k hk
  split <;> omega

theorem insertClient_untested {st st' : LState} (h : Untested data ops st) {c : Nat}
    (e : insertClient data ce st c = .ok st') : Untested data ops st' := by
  unfold insertClient at e
  split at e
  · cases e
  · split at e
    · cases e
    · dsimp only at e
      split at e
      · cases e
      · injection e with e
        rw [← e]
        exact ((h.sol _).update _ _).mark _

theorem insertShipment_untested {st st' : LState} (h : Untested data ops st) {c : Nat}
    (e : insertShipment data ce st c = .ok st') : Untested data ops st' := by
  unfold insertShipment at e
  split at e
  · cases e
  · split at e
    · dsimp only at e
      split at e
      · injection e with e
        rw [← e]
        exact (((h.sol _).update _ _).mark _).mark _
      · cases e
    · cases e

theorem repairGroup_untested {st st' : LState} (h : Untested data ops st) {counts counts' : List Nat}
    {c g : Nat} (e : repairGroup data ce st counts c g = .ok (st', counts')) : Untested data ops st' := by
  unfold repairGroup at e
  split at e
  · split at e
    · cases e
    · rename_i h1
      injection e with e; injection e with e e2
      rw [← e]
      exact insertClient_untested h h1
  · split at e
    · injection e with e; injection e with e e2
      rw [← e]; exact h
    · split at e
      · dsimp only at e
        injection e with e; injection e with e e2
        rw [← e]
        exact ((h.mark _).sol _).update _ _
      · injection e with e; injection e with e e2
        rw [← e]; exact h

theorem repair_untested {st st' : LState} (h : Untested data ops st) {counts counts' : List Nat}
    {a : Activity} (e : repair data ce st counts a = .ok (st', counts')) : Untested data ops st' := by
  unfold repair at e
  split at e
  · split at e
    · split at e
      · cases e
      · rename_i h1
        injection e with e; injection e with e e2
        rw [← e]
        exact insertClient_untested h h1
    · split at e
      · injection e with e; injection e with e e2
        rw [← e]; exact h
      · exact repairGroup_untested h e
  · split at e
    · split at e
      · cases e
      · rename_i h1
        injection e with e; injection e with e e2
        rw [← e]
        exact insertShipment_untested h h1
    · injection e with e; injection e with e e2
      rw [← e]; exact h
  · injection e with e; injection e with e e2
    rw [← e]; exact h

theorem repairAll_untested : ∀ (as : List Activity) {st st' : LState} {counts counts' : List Nat},
    Untested data ops st → repairAll data ce st counts as = .ok (st', counts') → Untested data ops st'
  | [], st, st', counts, counts', h, e => by
    injection e with e; injection e with e e2
    rw [← e]; exact h
  | a :: as, st, st', counts, counts', h, e => by
    unfold repairAll at e
    split at e
    · cases e
    · rename_i h1
      exact repairAll_untested as (repair_untested h h1) e

theorem Untested.settled {plan : List (List Activity)} {st : LState} (h : Untested data ops st)
    (ok : Ok data ce plan st) :
    (∀ u ∈ allTasks data, st.lastTest.getD (testIdx data u) 0 = -1) ∧ Settled data ce st := by
  have h1 : ∀ u ∈ allTasks data, st.lastTest.getD (testIdx data u) 0 = -1 := by
    intro u hu
    have := testIdx_lt hu
    rw [h.tests, List.getD_eq_getElem?_getD, List.getElem?_replicate, if_pos this]
    rfl
  refine ⟨h1, h.stamps, by rw [h.tests, List.length_replicate], fun u hu => ?_, ?_⟩
  · rw [h1 u hu]; omega
  · intro u hu ns _ v _ i p j q hp hq hi hj
    rw [h1 u hu] at hi
    have := h.stamps.range i (place_le ok.sol.clean.1 hp).1
    omega

end LState

namespace LocalSearch

theorem prepare_untested {ls : LocalSearch} {sol : Solution} {exhaustive : Bool} {st : LState}
    (e : ls.prepare data ce sol exhaustive = .ok st) : LState.Untested data ls.binaryOps st := by
  unfold prepare at e
  split at e
  · cases e
  · dsimp only at e
    rename_i s hs
    have h0 : ∀ s' sp, LState.Untested data ls.binaryOps
        { ls.start data s with sol := s', space := sp } := by
      intro s' sp
      refine ⟨⟨by simp [start], fun k hk => ?_⟩, rfl, by simp [start, Function.comp_def], rfl⟩
      simp [start, List.getElem?_replicate, hk]
    split at e
    · cases e
    · unfold LState.ensureStructuralFeasibility at e
      split at e
      · cases e
      · rename_i h1
        injection e with e
        rw [← e]
        exact LState.repairAll_untested _ (h0 _ _) h1

/-- **What holds when a search has stopped.** -/
theorem search_optimal (hg : GoodData data) (hnv : 0 < data.numVehicles)
    (hn : ∀ g ∈ data.groups, g.clients.Nodup) {ls : LocalSearch} (h : ls.Ready data)
    {sol : Solution} (hsol : Accepted data sol) {exhaustive : Bool} {fuel : Nat} {st st' : LState}
    (e : ls.prepare data ce sol exhaustive = .ok st)
    (e2 : LState.search data ce ls.unaryOps fuel st = .ok (some st')) :
    ∃ plan plan', LState.Ok data ce plan st ∧ LState.Run data ce plan st plan' st'
      ∧ (∀ a, st'.space.neighboursOf a = ls.space.neighboursOf a)
      ∧ st'.space.vehTypeOrder = ls.space.vehTypeOrder
      ∧ (exhaustive = true → sol.isComplete = true → ce.penalisedCost sol = planCost data ce plan)
      ∧ (exhaustive = true → ∀ u ∈ allTasks data,
        (∀ op ∈ ls.unaryOps, (op.evaluate data ce st'.sol u).apply = false)
        ∧ LState.NoEmpty data ce ls.binaryOps st'.sol u ls.space.vehTypeOrder
        ∧ ((∃ node, st'.sol.place u = some node) ∨ st'.numUpdates = st.numUpdates →
          ∀ ns, ls.space.neighboursOf u = .ok ns →
          LState.QuietAll data ce ls.binaryOps st'.sol u ns)) := by
  have hd : Consistent data := ((C37_accepts_exactly_consistent data data).1 hg.made).2
  obtain ⟨plan, st0, e0, ok, -, hcost, hN, hT, hP⟩ := prepare_spec hg hnv hn h hsol ce exhaustive
  rw [e] at e0
  injection e0 with e0
  subst e0
  have hunt := prepare_untested e
  obtain ⟨htest, ht⟩ := hunt.settled ok
  unfold LState.search at e2
  split at e2
  · rename_i hemp
    injection e2 with e2; injection e2 with e2
    subst e2
    simp only [Bool.and_eq_true, List.isEmpty_iff] at hemp
    have hb : ls.binaryOps = [] := by rw [← hunt.ops, hemp.2]; rfl
    refine ⟨plan, plan, ok, .refl ok, hN, hT, hcost, fun _ u hu => ⟨?_, ?_, ?_⟩⟩
    · rw [hemp.1]; simp
    · rw [hb]; intro p hp idx hidx op hop; cases hop
    · rw [hb]
      intro _ ns hns v hv j q hq
      exact ⟨fun op hop => (by cases hop), fun _ op hop => (by cases hop)⟩
  · have hst : ({ st with completed := false } : LState) = st := by
      have := hunt.completed
      cases st; simp_all
    rw [hst] at e2
    obtain ⟨plan', run, hops, hopt⟩ := LState.searchLoop_optimal hd ls.unaryOps fuel ok ht hunt.completed e2
    have hN' : ∀ a, st'.space.neighboursOf a = ls.space.neighboursOf a := fun a =>
      (LState.neighboursOf_grows run.grows a).trans (hN a)
    refine ⟨plan, plan', ok, run, hN', run.grows.types.trans hT, hcost, fun he u hu => ?_⟩
    have ho := hopt u hu (hP he u hu)
    refine ⟨ho.unary, ?_, ?_⟩
    · have := ho.empty
      rw [hops, hunt.ops, run.grows.types, hT] at this
      exact this
    · rintro (hpl | hnum) ns hns
      · have := ho.neighbours hpl ns ((hN' u).trans hns)
        rw [hops, hunt.ops] at this
        exact this
      · obtain ⟨es, hq⟩ := LState.searchLoop_fresh hd ls.unaryOps ok hunt.stamps
          (fun u hu => by rw [htest u hu]; decide) hunt.completed e2 hnum
        have := hq u hu (hP he u hu) ns ((hN u).trans hns)
        rw [hunt.ops, ← es] at this
        exact this

end LocalSearch

/-- All vehicle types are tried. -/
theorem Spec.SearchHistory.types (hg : GoodData data) (hnv : 0 < data.numVehicles)
    (hn : ∀ g ∈ data.groups, g.clients.Nodup) {ls : LocalSearch} (h : SearchHistory data ls) :
    ls.space.vehTypeOrder.Perm ((List.range data.vehicleTypes.length).map
      (fun vt => (vt, vehiclesBefore data vt))) := by
  induction h with
  | new hns hm hr h =>
    unfold LocalSearch.make at h
    split at h
    · cases h
    · rename_i space hs
      injection h with h
      subst h
      exact (C43_orders data space _ _ (.new hs)).2
  | addUnary op _ ih => exact ih
  | addBinary op _ _ ih => exact ih
  | setNeighbours hns _ hs ih =>
    unfold LocalSearch.setNeighbours at hs
    split at hs
    · cases hs
    · rename_i h1
      injection hs with hs
      subst hs
      obtain ⟨-, -, rfl⟩ := SearchSpace.setNeighbours_ok.1 h1
      exact ih
  | shuffle next rng _ ih => exact (shuffle_perm next _ _).trans ih
  | @run ls ls' sol sol' ce exhaustive fuel h hsol hr ih =>
    have hready := h.ready hg hnv hn
    unfold LocalSearch.run at hr
    split at hr
    · cases hr
    · rename_i e
      split at hr
      · cases hr
      · cases hr
      · rename_i e2
        obtain ⟨-, -, -, -, -, ht, -⟩ := LocalSearch.search_optimal hg hnv hn hready hsol e e2
        split at hr
        · cases hr
        · injection hr with hr; injection hr with hr; injection hr with h3 h4
          subst h4
          rw [show ({ ls with space := _, sol := _ } : LocalSearch).space.vehTypeOrder = _ from ht]
          exact ih

end PyVRP
