import Verif.Lemmas.SearchLoop
/-!
# What has been tested when the local search stops
-/
namespace PyVRP
open Spec
open SSol (used ofActs_empty At RefOk CleanBut)

variable {data : ProblemData} {ce : CostEvaluator}

/-! ## Evaluations depend on the routes of the two nodes -/

/-- Where an activity is depends on its route only. -/
theorem SearchOk.place_congr {plan plan' : List (List Activity)} {s s' : SSol} (h : SearchOk data plan s)
    (h' : SearchOk data plan' s') {a : Activity} {i p : Nat} (hp : s'.place a = some (i, p))
    (he : plan'.getD i [] = plan.getD i []) : s.place a = some (i, p) := by
  obtain ⟨hi, hnd, xs, ys, e, rfl⟩ := h'.clean.1.place_some hp
  exact h.clean.1.place hi hnd (by rw [← he]; exact e)

namespace BinaryOp

/-- Caches that are up to date do not matter. -/
theorem evaluate_cache {op : BinaryOp} {s : SSol} {cache cache' : Cache}
    (h : op.CacheOk data ce s cache) (h' : op.CacheOk data ce s cache') {u : Activity}
    (hu : u ∈ allTasks data) (v : NodeRef) :
    (op.evaluate data ce s cache u v).1 = (op.evaluate data ce s cache' u v).1 := by
  have key : ∀ (idx : Nat) (x : Int) (node : Nat × Nat), s.place u = some node →
      op.cacheIdx data u = some idx → op.fresh data ce s u = x →
      cache.lookup idx x = cache'.lookup idx x := by
    intro idx x node hp hi hx
    subst hx
    rw [lookup_fresh h hu hp hi, lookup_fresh h' hu hp hi]
  cases op <;> simp only [BinaryOp.evaluate]
  case relocate n =>
    unfold Relocate.evaluate
    split
    · rename_i i p j q hp hv
      dsimp only
      split
      · rfl
      · split
        · rfl
        · split
          · rw [key _ _ _ hp (relocate_cacheIdx hu n) (by simp only [fresh, hp])]
          · rfl
    · rfl
  case relocateWithDepot =>
    unfold RelocateWithDepot.evaluate
    split
    · rename_i i p j q hp hv
      dsimp only
      split
      · rfl
      · rename_i hf
        simp only [Bool.or_eq_true, not_or, Bool.not_eq_true, Bool.not_eq_false'] at hf
        have hty := client_of_flag hf.1.1
        split
        · rfl
        · split
          · rfl
          · split
            · rfl
            · split
              · rfl
              · rw [key u.idx _ _ hp (by simp [cacheIdx, hty]) (by simp only [fresh, hp])]
    · rfl
  case relocateAlternative =>
    unfold RelocateAlternative.evaluate
    split
    · rename_i i p j q hp hv
      dsimp only
      split
      · rfl
      · rename_i hf
        simp only [Bool.or_eq_true, not_or, Bool.not_eq_true, Bool.not_eq_false'] at hf
        have hty := client_of_flag hf.1.1
        split
        · rfl
        · split
          · split <;> rfl
          · rw [key u.idx _ _ hp (by simp [cacheIdx, hty]) (by simp only [fresh, hp])]
    · rfl
  case relocateShipment =>
    unfold RelocateShipment.evaluate
    split
    · rename_i i p k d j q hp hpd hv
      split
      · rfl
      · rename_i hf
        simp only [Bool.or_eq_true, not_or, Bool.not_eq_true, Bool.not_eq_false'] at hf
        have hty := pickup_of_flag hf.1
        dsimp only
        rw [key u.idx _ _ hp (by simp [cacheIdx, hty]) (by simp only [fresh, hp, hpd])]
    · rfl

/-- If `U` is in a route, the evaluation depends on the routes of the two nodes only. -/
theorem evaluate_congr (op : BinaryOp) {s s' : SSol} (cache : Cache) {u : Activity} {v : NodeRef}
    {i p j q : Nat} (hp : s.place u = some (i, p)) (hp' : s'.place u = some (i, p))
    (hv : s.find v = some (j, q)) (hv' : s'.find v = some (j, q)) (hi : s'.route i = s.route i)
    (hj : s'.route j = s.route j)
    (hd : s'.place ⟨.delivery, u.idx⟩ = s.place ⟨.delivery, u.idx⟩) :
    op.evaluate data ce s' cache u v = op.evaluate data ce s cache u v := by
  cases op <;> simp only [BinaryOp.evaluate, Relocate.evaluate, Swap.evaluate, SwapTails.evaluate,
    RelocateWithDepot.evaluate, RelocateAlternative.evaluate, InsertOptionalClient.evaluate,
    ReplaceOptionalClient.evaluate, InsertOptionalShipment.evaluate, ReplaceOptionalShipment.evaluate,
    RelocateShipment.evaluate, hp, hp', hv, hv', hi, hj, hd]
  split
  · rename_i h1 _ h3
    cases h1
    cases h3
    rw [hi, hj]
  · rfl

end BinaryOp

namespace LState

/-! ## Pairs without moves -/

/-- None of these operators would apply a move to these nodes. -/
def Silent (data : ProblemData) (ce : CostEvaluator) (ops : List BinaryOp) (s : SSol) (u : Activity)
    (v : NodeRef) : Prop :=
  ∀ op ∈ ops, (op.evaluate data ce s (op.init data) u v).1.apply = false

theorem findBinary_none {s : SSol} {u : Activity} {v : NodeRef} (hu : u ∈ allTasks data) :
    ∀ {binary : List (BinaryOp × Cache)}, CachesOk data ce s binary →
    (findBinary data ce s u v binary).2 = none → Silent data ce (binary.map (·.1)) s u v
  | [], _, _ => fun op hop => by cases hop
  | (op, cache) :: rest, hc, h => by
    unfold findBinary at h
    dsimp only at h
    split at h
    · cases h
    · rename_i hap
      have ih := findBinary_none hu (fun p hp => hc p (by simp [hp])) h
      intro op' hop
      rcases List.mem_cons.1 hop with rfl | hop
      · have h0 := (hc (op', cache) (by simp)).2
        rw [← BinaryOp.evaluate_cache h0 (BinaryOp.init_ok _ data ce s) hu v]
        simpa using hap
      · exact ih op' hop

theorem findUnary_none {s : SSol} {u : Activity} : ∀ {ops : List UnaryOp},
    findUnary data ce s u ops = none → ∀ op ∈ ops, (op.evaluate data ce s u).apply = false
  | [], _ => fun op hop => by cases hop
  | op :: rest, h => by
    unfold findUnary at h
    dsimp only at h
    split at h
    · cases h
    · rename_i hap
      have ih := findUnary_none h
      intro op' hop
      rcases List.mem_cons.1 hop with rfl | hop
      · simpa using hap
      · exact ih op' hop

theorem applyUnaryOps_no {st st' : LState} {u : Activity} {ops : List UnaryOp}
    (h : applyUnaryOps data ce ops st u = .ok (st', false)) :
    st' = st ∧ ∀ op ∈ ops, (op.evaluate data ce st.sol u).apply = false := by
  unfold applyUnaryOps at h
  split at h
  · rename_i hf
    injection h with h; injection h with h h1
    exact ⟨h.symm, findUnary_none hf⟩
  · dsimp only at h
    split at h
    · cases h
    · split at h
      · injection h with h; injection h with h h1; cases h1
      · split at h
        · cases h
        · injection h with h; injection h with h h1; cases h1

theorem applyBinaryOps_no {plan : List (List Activity)} {st st' : LState} (h : Ok data ce plan st)
    {u : Activity} (hu : u ∈ allTasks data) {v : NodeRef}
    (e : applyBinaryOps data ce st u v = .ok (st', false)) :
    st'.sol = st.sol ∧ Silent data ce (st.binary.map (·.1)) st.sol u v := by
  unfold applyBinaryOps at e
  dsimp only at e
  split at e
  · rename_i hf
    injection e with e; injection e with e h1
    subst e
    exact ⟨rfl, findBinary_none hu h.caches hf⟩
  · split at e
    · cases e
    · split at e
      · cases e
      · injection e with e; injection e with e h1; cases h1

/-- After a move, the route of `V` carries a new stamp. -/
theorem applyBinaryOps_yes {st st' : LState} (hs : Stamps data st)
    {u : Activity} {v : NodeRef} {j q : Nat} (hv : st.sol.find v = some (j, q))
    (hj : j < data.numVehicles) (e : applyBinaryOps data ce st u v = .ok (st', true)) :
    st.numUpdates < st'.lastUpdate.getD j 0 := by
  unfold applyBinaryOps at e
  dsimp only at e
  split at e
  · cases e
  · rw [hv] at e
    dsimp only at e
    split at e
    · cases e
    · rename_i s' _
      injection e with e; injection e with e h1
      subst e
      generalize hb : (findBinary data ce st.sol u v st.binary).1 = binary
      have hr := markIf_rest { st with binary := binary } (st.sol.place u)
      obtain ⟨-, -, -, h4⟩ := update_stamps (data := data)
        { mark (markIf { st with binary := binary } (st.sol.place u)) (j, q) with sol := s' }
        ((st.sol.place u).map (·.1)) j
      have e1 : (mark (markIf { st with binary := binary } (st.sol.place u)) (j, q)).lastUpdate
        = st.lastUpdate := hr.2.2.2.2
      have e2 : (mark (markIf { st with binary := binary } (st.sol.place u)) (j, q)).numUpdates
        = st.numUpdates := hr.2.2.1
      rw [h4 j (by rw [e1, hs.length]; exact hj), if_pos (.inr rfl), e2]
      omega

/-! ## Tests leave the times of the other tests -/

theorem markIf_lastTest (st : LState) (node : Option (Nat × Nat)) :
    (markIf st node).lastTest = st.lastTest := by cases node <;> rfl

theorem applyUnaryOps_lastTest {st st' : LState} {u : Activity} {ops : List UnaryOp} {b : Bool}
    (h : applyUnaryOps data ce ops st u = .ok (st', b)) : st'.lastTest = st.lastTest := by
  unfold applyUnaryOps at h
  split at h
  · injection h with h; injection h with h h1; rw [← h]
  · dsimp only at h
    split at h
    · cases h
    · split at h
      · injection h with h; injection h with h h1; subst h
        rw [(update_stamps _ _ _).2.2.1]; exact markIf_lastTest _ _
      · split at h
        · cases h
        · injection h with h; injection h with h h1; subst h
          rw [(update_stamps _ _ _).2.2.1]; exact markIf_lastTest _ _

theorem applyBinaryOps_lastTest {st st' : LState} {u : Activity} {v : NodeRef} {b : Bool}
    (h : applyBinaryOps data ce st u v = .ok (st', b)) : st'.lastTest = st.lastTest := by
  unfold applyBinaryOps at h
  dsimp only at h
  split at h
  · injection h with h; injection h with h h1; rw [← h]
  · split at h
    · cases h
    · split at h
      · cases h
      · injection h with h; injection h with h h1; subst h
        rw [(update_stamps _ _ _).2.2.1]; exact markIf_lastTest _ _

theorem testNeighbour_lastTest {st st' : LState} {u v : Activity} {t : Int}
    (h : testNeighbour data ce t st u v = .ok st') : st'.lastTest = st.lastTest := by
  unfold testNeighbour at h
  split at h
  · injection h with h; rw [h]
  · split at h
    · split at h
      · cases h
      · rename_i h1; injection h with h; rw [← h]; exact applyBinaryOps_lastTest h1
      · rename_i h1
        have e1 := applyBinaryOps_lastTest h1
        split at h
        · split at h
          · cases h
          · rename_i h2; injection h with h; rw [← h, applyBinaryOps_lastTest h2, e1]
        · injection h with h; rw [← h, e1]
    · injection h with h; rw [h]

theorem testNeighbours_lastTest {u : Activity} {t : Int} : ∀ (vs : List Activity) {st st' : LState},
    testNeighbours data ce t u st vs = .ok st' → st'.lastTest = st.lastTest
  | [], st, st', h => by injection h with h; rw [h]
  | v :: vs, st, st', h => by
    unfold testNeighbours at h
    split at h
    · cases h
    · rename_i h1
      rw [testNeighbours_lastTest vs h, testNeighbour_lastTest h1]

theorem applyEmptyRouteMoves_lastTest {u : Activity} : ∀ (order : List (Nat × Nat)) {st st' : LState},
    applyEmptyRouteMoves data ce u st order = .ok st' → st'.lastTest = st.lastTest
  | [], st, st', h => by injection h with h; rw [h]
  | (t, offset) :: order, st, st', h => by
    unfold applyEmptyRouteMoves at h
    split at h
    · exact applyEmptyRouteMoves_lastTest order h
    · split at h
      · cases h
      · rename_i h1; injection h with h; rw [← h]; exact applyBinaryOps_lastTest h1
      · rename_i h1
        rw [applyEmptyRouteMoves_lastTest order h, applyBinaryOps_lastTest h1]

/-! ## The invariant -/

/-- If the routes of `u` and `v` have not changed since `n`, there is no move for them. -/
def QuietIf (data : ProblemData) (ce : CostEvaluator) (st : LState) (n : Int) (u v : Activity) : Prop :=
  ∀ i p j q, st.sol.place u = some (i, p) → st.sol.place v = some (j, q) →
    st.lastUpdate.getD i 0 ≤ n → st.lastUpdate.getD j 0 ≤ n →
    Silent data ce (st.binary.map (·.1)) st.sol u (.task v)
    ∧ (((st.sol.route j).node (q - 1)).isStartDepot = true →
      Silent data ce (st.binary.map (·.1)) st.sol u (.start j))

/-- The same routes have the same moves. -/
theorem Silent.congr {plan plan' : List (List Activity)} {s s' : SSol} {ops : List BinaryOp}
    {u : Activity} (hu : u ∈ allTasks data) {v : NodeRef} (h : SearchOk data plan s)
    (h' : SearchOk data plan' s') {i p j q : Nat} (hp : s'.place u = some (i, p))
    (hv : s.find v = some (j, q)) (hv' : s'.find v = some (j, q)) (hj : j < data.numVehicles)
    (ei : plan'.getD i [] = plan.getD i []) (ej : plan'.getD j [] = plan.getD j [])
    (hs : Silent data ce ops s u v) : Silent data ce ops s' u v := by
  have hi := (place_le h'.clean.1 hp).1
  have hpu := h.place_congr h' hp ei
  intro op hop
  by_cases hty : u.type = .pickup
  · -- the delivery is in the same route
    obtain ⟨hi', hnd, xs, ys, e, rfl⟩ := h'.clean.1.place_some hp
    have hmem : u ∈ plan'.getD i [] := by rw [e]; simp
    obtain ⟨ty, k⟩ := u
    dsimp only at hty
    subst hty
    obtain ⟨as, ms, bs, hsplit, -, -⟩ := (h'.routes i hi).shipment_split (k := k) (.inl hmem)
    have e1 : plan'.getD i [] = (as ++ pickupOf k :: ms) ++ deliveryOf k :: bs := by rw [hsplit]; simp
    have hd' := h'.clean.1.place hi (a := ⟨.delivery, k⟩) (by simp) e1
    have hd := h.place_congr h' hd' ei
    have := BinaryOp.evaluate_congr (data := data) (ce := ce) op (op.init data) hpu hp hv hv'
      (by rw [h.route hi, h'.route hi, ei]) (by rw [h.route hj, h'.route hj, ej]) (by rw [hd, hd'])
    rw [this]
    exact hs op hop
  · -- no operator looks at a delivery
    have hcl : u.isPickup = false := by
      cases hf : u.isPickup with
      | false => rfl
      | true => exact absurd (BinaryOp.pickup_of_flag hf) hty
    cases op
    case relocateShipment =>
      simp only [BinaryOp.evaluate, RelocateShipment.evaluate, hcl]
      split <;> simp [Verdict.no]
    all_goals
      have := hs _ hop
      simp only [BinaryOp.evaluate, Relocate.evaluate, Swap.evaluate, SwapTails.evaluate,
        RelocateWithDepot.evaluate, RelocateAlternative.evaluate, InsertOptionalClient.evaluate,
        ReplaceOptionalClient.evaluate, InsertOptionalShipment.evaluate, ReplaceOptionalShipment.evaluate,
        hp, hpu, hv, hv', h.route hi, h'.route hi, h.route hj, h'.route hj, ei, ej] at this ⊢
      try exact this

theorem QuietIf.progress {plan plan' : List (List Activity)} {st st' : LState} {n : Int} {u v : Activity}
    (hu : u ∈ allTasks data) (h : Ok data ce plan st) (hs : Stamps data st) (hn : n ≤ st.numUpdates)
    (p : Progress data ce plan st plan' st') (q : QuietIf data ce st n u v) :
    QuietIf data ce st' n u v := by
  intro i pu j pv hpu hpv hi hj
  have hil := (place_le p.ok.sol.clean.1 hpu).1
  have hjl := (place_le p.ok.sol.clean.1 hpv).1
  obtain ⟨ei1, ei2⟩ := (p.change.routes hs i hil).resolve_right (by omega)
  obtain ⟨ej1, ej2⟩ := (p.change.routes hs j hjl).resolve_right (by omega)
  have hpu0 := h.sol.place_congr p.ok.sol hpu ei2
  have hpv0 := h.sol.place_congr p.ok.sol hpv ej2
  obtain ⟨q1, q2⟩ := q i pu j pv hpu0 hpv0 (by omega) (by omega)
  rw [p.change.ops]
  refine ⟨q1.congr hu h.sol p.ok.sol hpu hpv0 hpv hjl ei2 ej2, fun hst => ?_⟩
  refine (q2 ?_).congr hu h.sol p.ok.sol (v := .start j) hpu rfl rfl hjl ei2 ej2
  rw [h.sol.route hjl, ← ej2, ← p.ok.sol.route hjl]
  exact hst

/-- Testing a pair. -/
theorem testNeighbour_quiet {plan plan' : List (List Activity)} {st st' : LState} (h : Ok data ce plan st)
    (hs : Stamps data st) {t n : Int} (hn : n ≤ st.numUpdates) {u : Activity}
    (hu : u ∈ allTasks data) {v : Activity}
    (q : QuietIf data ce st t u v) (hd : Consistent data) (hvu : v ≠ u)
    (p : Progress data ce plan st plan' st')
    (e : testNeighbour data ce t st u v = .ok st') : QuietIf data ce st' n u v := by
  unfold testNeighbour at e
  split at e
  · rename_i hv
    injection e with e
    subst e
    intro i pu j pv _ hpv
    rw [hv] at hpv; cases hpv
  · rename_i idx pos hv
    have hidx := (place_le h.sol.clean.1 hv).1
    -- a move stamps the route of `v`
    have moved : ∀ {plan1 plan2 : List (List Activity)} {st1 st2 : LState} (w : NodeRef),
        Ok data ce plan1 st1 → Stamps data st1 → st1.sol = st.sol → st.numUpdates ≤ st1.numUpdates →
        Progress data ce plan1 st1 plan2 st2 → (∃ q, st1.sol.find w = some (idx, q)) →
        applyBinaryOps data ce st1 u w = .ok (st2, true) → QuietIf data ce st2 n u v := by
      intro plan1 plan2 st1 st2 w h1 hs1 es hle p1 ⟨qw, hw⟩ e1 i pu j pv hpu hpv hi hj
      have hjl := (place_le p1.ok.sol.clean.1 hpv).1
      obtain ⟨-, ej2⟩ := (p1.change.routes hs1 j hjl).resolve_right (by omega)
      have hpv0 := h1.sol.place_congr p1.ok.sol hpv ej2
      rw [es, hv] at hpv0
      injection hpv0 with hpv0; injection hpv0 with e3 e4
      subst e3
      have := applyBinaryOps_yes hs1 hw hidx e1
      omega
    split at e
    · obtain ⟨plan1, st1, b, e1, p1, k1, -⟩ := applyBinaryOps_spec h hd hu (v := .task v) trivial
        (by simpa using hvu)
      rw [e1] at e
      cases b with
      | true =>
        injection e with e
        subst e
        exact moved (.task v) h hs rfl (Nat.le_refl _) p1 ⟨pos, hv⟩ e1
      | false =>
        obtain ⟨es, hsil⟩ := applyBinaryOps_no h hu e1
        have hle : st.numUpdates ≤ st1.numUpdates := by
          obtain ⟨m, -, hm, -⟩ := p1.steps; omega
        dsimp only at e
        split at e
        · rename_i hst
          obtain ⟨plan2, st2, b, e2, p2, k2, -⟩ := applyBinaryOps_spec p1.ok hd hu (v := .start idx) hidx
            (by simp)
          rw [e2] at e
          cases b with
          | true =>
            injection e with e
            subst e
            exact moved _ p1.ok (p1.change.stamps hs) es hle p2 ⟨0, rfl⟩ e2
          | false =>
            injection e with e
            subst e
            obtain ⟨es2, hsil2⟩ := applyBinaryOps_no p1.ok hu e2
            intro i pu j pv hpu hpv _ _
            rw [es2, es, hv] at hpv
            injection hpv with hpv; injection hpv with e3 e4
            subst e3
            rw [p2.change.ops, p1.change.ops, es2, es]
            rw [p1.change.ops, es] at hsil2
            exact ⟨hsil, fun _ => hsil2⟩
        · rename_i hst
          injection e with e
          subst e
          intro i pu j pv hpu hpv _ _
          rw [es, hv] at hpv
          injection hpv with hpv; injection hpv with e3 e4
          subst e3 e4
          rw [p1.change.ops, es]
          rw [es] at hst
          exact ⟨hsil, fun h => absurd h hst⟩
    · rename_i hcond
      injection e with e
      subst e
      intro i pu j pv hpu hpv _ _
      rw [hpu] at hcond
      have e2 := hpv
      rw [hv] at e2
      injection e2 with e2; injection e2 with e3 e4
      subst e3 e4
      simp [updateOf] at hcond
      refine q i pu idx pos hpu hv ?_ ?_ <;> rw [List.getD_eq_getElem?_getD] <;> omega

theorem Progress.le {plan plan' : List (List Activity)} {st st' : LState}
    (p : Progress data ce plan st plan' st') : st.numUpdates ≤ st'.numUpdates := by
  obtain ⟨m, -, hm, -⟩ := p.steps; omega

/-- Testing all neighbours. -/
theorem testNeighbours_quiet (hd : Consistent data) {t n : Int} {u : Activity}
    (hu : u ∈ allTasks data) : ∀ (vs : List Activity), u ∉ vs → ∀ {plan : List (List Activity)}
    {st st' : LState}, Ok data ce plan st → Stamps data st → t ≤ st.numUpdates → n ≤ st.numUpdates →
    (∀ v ∈ vs, QuietIf data ce st t u v) → testNeighbours data ce t u st vs = .ok st' →
    ∀ v ∈ vs, QuietIf data ce st' n u v
  | [], _, plan, st, st', _, _, _, _, _, _ => by simp
  | v :: vs, hnm, plan, st, st', h, hs, ht, hn, q, e => by
    rw [List.mem_cons, not_or] at hnm
    have hvu : v ≠ u := fun h => hnm.1 h.symm
    obtain ⟨plan1, st1, e1, p1⟩ := testNeighbour_spec h hd t hu (v := v) hvu
    obtain ⟨plan2, st2, e2, p2⟩ := testNeighbours_spec hd t hu vs hnm.2 p1.ok
    unfold testNeighbours at e
    rw [e1] at e
    dsimp only at e
    rw [e2] at e
    injection e with e
    subst e
    have hle := p1.le
    intro w hw
    rcases List.mem_cons.1 hw with rfl | hw
    · have := testNeighbour_quiet h hs hn hu (q w (by simp)) hd hvu p1 e1
      exact this.progress hu p1.ok (p1.change.stamps hs) (by omega) p2
    · exact testNeighbours_quiet hd hu vs hnm.2 p1.ok (p1.change.stamps hs) (by omega) (by omega)
        (fun w hw => (q w (by simp [hw])).progress hu h hs ht p1) e2 w hw

/-- What is known of each activity since its last test. -/
structure Settled (data : ProblemData) (ce : CostEvaluator) (st : LState) : Prop where
  stamps : Stamps data st
  length : st.lastTest.length = data.numClients + data.numShipments
  past : ∀ u ∈ allTasks data, st.lastTest.getD (testIdx data u) 0 ≤ st.numUpdates
  quiet : ∀ u ∈ allTasks data, ∀ ns, st.space.neighboursOf u = .ok ns → ∀ v ∈ ns,
    QuietIf data ce st (st.lastTest.getD (testIdx data u) 0) u v

theorem testIdx_lt {u : Activity} (hu : u ∈ allTasks data) :
    testIdx data u < data.numClients + data.numShipments := by
  obtain ⟨ty, k⟩ := u
  rcases BinaryOp.mem_allTasks hu with ⟨rfl, h⟩ | ⟨rfl, h⟩ <;>
    simp [testIdx, Activity.isClient] <;> dsimp only at h <;> omega

theorem testIdx_inj {a b : Activity} (ha : a ∈ allTasks data) (hb : b ∈ allTasks data)
    (h : testIdx data a = testIdx data b) : a = b := by
  obtain ⟨ta, ia⟩ := a
  obtain ⟨tb, ib⟩ := b
  rcases BinaryOp.mem_allTasks ha with ⟨k1, k2⟩ | ⟨k1, k2⟩ <;>
    rcases BinaryOp.mem_allTasks hb with ⟨k3, k4⟩ | ⟨k3, k4⟩ <;>
    dsimp only at k1 k2 k3 k4 <;> subst k1 <;> subst k3 <;>
    simp [testIdx, Activity.isClient] at h ⊢ <;> omega

theorem neighboursOf_grows {sp sp' : SearchSpace} (h : SearchSpace.Grows data sp sp') (u : Activity) :
    sp'.neighboursOf u = sp.neighboursOf u := by
  unfold SearchSpace.neighboursOf; rw [h.neighbours]

/-- Nothing in a stretch of the search without moves changes. -/
theorem Progress.still {plan plan' : List (List Activity)} {st st' : LState}
    (p : Progress data ce plan st plan' st') (hc : st'.completed = true) :
    st.completed = true ∧ plan' = plan ∧ st'.sol = st.sol ∧ st'.numUpdates = st.numUpdates := by
  obtain ⟨m, h1, h2, h3, h4⟩ := p.steps
  have hm : m = 0 := by
    rcases Decidable.em (m = 0) with h0 | h0
    · exact h0
    · rw [h4 h0] at hc; cases hc
  subst hm
  have e : plan' = plan ∧ st'.sol = st.sol := by
    generalize st'.sol = s at h1 ⊢
    cases h1
    exact ⟨rfl, rfl⟩
  exact ⟨by rw [← h3 rfl]; exact hc, e.1, e.2, h2⟩

/-- No move to the start of an empty vehicle. -/
def NoEmpty (data : ProblemData) (ce : CostEvaluator) (ops : List BinaryOp) (s : SSol) (u : Activity)
    (order : List (Nat × Nat)) : Prop :=
  ∀ p ∈ order, ∀ idx, s.firstEmpty data p.1 p.2 = some idx → Silent data ce ops s u (.start idx)

theorem applyEmptyRouteMoves_quiet (hd : Consistent data) {u : Activity}
    (hu : u ∈ allTasks data) : ∀ (order : List (Nat × Nat)),
    (∀ p ∈ order, p.1 < data.numVehicleTypes ∧ p.2 = vehiclesBefore data p.1) →
    ∀ {plan : List (List Activity)} {st st' : LState}, Ok data ce plan st →
    applyEmptyRouteMoves data ce u st order = .ok st' → st'.completed = true →
    NoEmpty data ce (st.binary.map (·.1)) st.sol u order
  | [], _, plan, st, st', _, _, _ => fun p hp => by cases hp
  | (t, offset) :: order, ho, plan, st, st', h, e, hc => by
    have h0 := ho (t, offset) (by simp)
    have hrest := fun p hp => ho p (List.mem_cons_of_mem _ hp)
    unfold applyEmptyRouteMoves at e
    split at e
    · rename_i hf
      have ih := applyEmptyRouteMoves_quiet hd hu order hrest h e hc
      intro p hp idx hi
      rcases List.mem_cons.1 hp with rfl | hp
      · rw [hf] at hi; cases hi
      · exact ih p hp idx hi
    · rename_i idx hf
      obtain ⟨plan1, st1, b, e1, p1, -, k2⟩ := applyBinaryOps_spec h hd hu (v := .start idx)
        (SSol.firstEmpty_lt h0.1 h0.2 hf).1 (by simp)
      rw [e1] at e
      cases b with
      | true =>
        injection e with e
        subst e
        rw [k2 rfl] at hc
        cases hc
      | false =>
        dsimp only at e
        have ih := applyEmptyRouteMoves_quiet hd hu order hrest p1.ok e hc
        obtain ⟨es, hsil⟩ := applyBinaryOps_no h hu e1
        rw [p1.change.ops, es] at ih
        intro p hp idx' hi
        rcases List.mem_cons.1 hp with rfl | hp
        · rw [hf] at hi; injection hi with hi; subst hi; exact hsil
        · exact ih p hp idx' hi

/-- What was found about an activity in a round without moves. -/
structure Calm (data : ProblemData) (ce : CostEvaluator) (ops : List UnaryOp) (st : LState)
    (u : Activity) : Prop where
  tested : st.lastTest.getD (testIdx data u) 0 = st.numUpdates
  unary : ∀ op ∈ ops, (op.evaluate data ce st.sol u).apply = false
  empty : NoEmpty data ce (st.binary.map (·.1)) st.sol u st.space.vehTypeOrder

theorem testActivity_settled {plan : List (List Activity)} {st : LState} (h : Ok data ce plan st)
    (ht : Settled data ce st)
    (hd : Consistent data) (ops : List UnaryOp) {u : Activity} (hu : u ∈ allTasks data) :
    ∃ plan' st', testActivity data ce ops st u = .ok st' ∧ Progress data ce plan st plan' st'
      ∧ Settled data ce st' ∧ (st'.completed = true →
        (st.space.isPromising u = true → Calm data ce ops st' u)
        ∧ ∀ w ∈ allTasks data, Calm data ce ops st w → Calm data ce ops st' w) := by
  unfold testActivity
  split
  · rename_i hpr
    refine ⟨plan, st, rfl, .refl h, ht, fun _ => ⟨fun hp => ?_, fun _ _ h => h⟩⟩
    rw [hp] at hpr; cases hpr
  · dsimp only
    have hl := testIdx_lt hu
    obtain ⟨hst, hlen, hpast, hq⟩ := ht
    generalize hlt : st.lastTest.getD (testIdx data u) 0 = lastTest
    generalize htests : st.lastTest.set (testIdx data u) st.numUpdates = tests
    have h0 : Progress data ce plan st plan { st with lastTest := tests } :=
      ⟨⟨h.sol, h.exclusive, h.space, h.self, h.caches⟩, SearchSpace.Grows.refl _ _,
        .refl _ rfl rfl rfl, 0, .refl, rfl, fun _ => rfl, fun h => absurd rfl h⟩
    have hs0 := h0.change.stamps hst
    obtain ⟨plan1, st1, b, e1, p1, k1, k2⟩ := applyUnaryOps_spec h0.ok hd ops hu
    have t1 := applyUnaryOps_lastTest e1
    rw [e1]
    dsimp only
    obtain ⟨ns, hns, -⟩ := p1.ok.space.neighbours u hu
    rw [hns]
    dsimp only
    have hself := p1.ok.self u ns hns
    obtain ⟨plan2, st2, e2, p2⟩ := testNeighbours_spec hd lastTest hu ns hself p1.ok
    have t2 := testNeighbours_lastTest _ e2
    rw [e2]
    dsimp only
    obtain ⟨plan3, st3, e3, p3⟩ := applyEmptyRouteMoves_spec hd hu _ p2.ok.space.types p2.ok
    have t3 := applyEmptyRouteMoves_lastTest _ e3
    have pAll := h0.trans (p1.trans (p2.trans p3))
    have htest : st3.lastTest = tests := by rw [t3, t2, t1]
    have hself' : tests.getD (testIdx data u) 0 = st.numUpdates := by
      rw [← htests, List.getD_eq_getElem?_getD, List.getElem?_set_self (by omega)]; rfl
    have hother : ∀ w ∈ allTasks data, w ≠ u →
        tests.getD (testIdx data w) 0 = st.lastTest.getD (testIdx data w) 0 := by
      intro w hw hwu
      have : testIdx data u ≠ testIdx data w := fun he => hwu (testIdx_inj hw hu he.symm)
      rw [← htests, List.getD_eq_getElem?_getD, List.getElem?_set_ne this, ← List.getD_eq_getElem?_getD]
    have hle0 : st.numUpdates ≤ st1.numUpdates := p1.le
    have hle1 := p2.le
    have hle2 := p3.le
    refine ⟨plan3, st3, e3, pAll, ⟨pAll.change.stamps hst, ?_, ?_, ?_⟩, fun hc => ⟨fun _ => ?_, ?_⟩⟩
    · rw [htest, ← htests, List.length_set]; exact hlen
    · intro w hw
      rw [htest]
      by_cases hwu : w = u
      · rw [hwu, hself']; omega
      · rw [hother w hw hwu]; have := hpast w hw; omega
    · intro w hw ns' hns' v hv
      rw [htest]
      rw [neighboursOf_grows pAll.grows] at hns'
      by_cases hwu : w = u
      · subst hwu
        rw [hself']
        have hns0 := neighboursOf_grows p1.grows w
        rw [hns] at hns0
        have : ns' = ns := by
          have h3 : st.space.neighboursOf w = .ok ns := hns0.symm
          rw [h3] at hns'; injection hns' with h4; exact h4.symm
        subst this
        have hq0 : ∀ v ∈ ns', QuietIf data ce st1 lastTest w v := by
          intro v hv
          have := hq w hw ns' hns' v hv
          rw [hlt] at this
          have hp := hpast w hw
          rw [hlt] at hp
          exact this.progress hw h hst hp (h0.trans p1)
        have hp := hpast w hw
        rw [hlt] at hp
        have := testNeighbours_quiet hd (n := st.numUpdates) hw ns' hself p1.ok (p1.change.stamps hs0)
          (by omega) (by omega) hq0 e2 v hv
        exact this.progress hw p2.ok (p2.change.stamps (p1.change.stamps hs0)) (by omega) p3
      · rw [hother w hw hwu]
        exact (hq w hw ns' hns' v hv).progress hw h hst (hpast w hw) pAll
    · obtain ⟨c2, -, s3, n3⟩ := p3.still hc
      obtain ⟨c1, -, s2, n2⟩ := p2.still c2
      obtain ⟨c0, -, s1, n1⟩ := p1.still c1
      have hb : b = false := by
        cases b with
        | false => rfl
        | true => rw [k2 rfl] at c1; cases c1
      subst hb
      have hun := (applyUnaryOps_no e1).2
      refine ⟨?_, ?_, ?_⟩
      · rw [htest, hself', n3, n2, n1]
      · rw [s3, s2, s1]; exact hun
      · have := applyEmptyRouteMoves_quiet hd hu _ p2.ok.space.types p2.ok e3 hc
        rw [p3.change.ops, s3, p3.grows.types]
        exact this
    · intro w hw hcalm
      obtain ⟨-, -, s3, n3⟩ := pAll.still hc
      by_cases hwu : w = u
      · subst hwu
        refine ⟨by rw [htest, hself', n3], by rw [s3]; exact hcalm.unary, ?_⟩
        rw [pAll.change.ops, s3, pAll.grows.types]; exact hcalm.empty
      · refine ⟨by rw [htest, hother w hw hwu, n3]; exact hcalm.tested, by rw [s3]; exact hcalm.unary, ?_⟩
        rw [pAll.change.ops, s3, pAll.grows.types]; exact hcalm.empty

theorem testAll_settled (hd : Consistent data) (ops : List UnaryOp) : ∀ (us : List Activity),
    (∀ u ∈ us, u ∈ allTasks data) → ∀ {plan : List (List Activity)} {st : LState}, Ok data ce plan st →
    Settled data ce st →
    ∃ plan' st', testAll data ce ops st us = .ok st' ∧ Progress data ce plan st plan' st'
      ∧ Settled data ce st' ∧ (st'.completed = true →
        (∀ u ∈ us, st.space.isPromising u = true → Calm data ce ops st' u)
        ∧ ∀ w ∈ allTasks data, Calm data ce ops st w → Calm data ce ops st' w)
  | [], _, plan, st, h, ht => ⟨plan, st, rfl, .refl h, ht, fun _ => ⟨by simp, fun _ _ h => h⟩⟩
  | u :: us, hu, plan, st, h, ht => by
    obtain ⟨plan1, st1, e1, p1, t1, k1⟩ := testActivity_settled h ht hd ops (hu u (by simp))
    obtain ⟨plan2, st2, e2, p2, t2, k2⟩ := testAll_settled hd ops us (fun v hv => hu v (by simp [hv])) p1.ok t1
    refine ⟨plan2, st2, ?_, p1.trans p2, t2, fun hc => ?_⟩
    · unfold testAll
      rw [e1]
      exact e2
    · obtain ⟨a1, a2⟩ := k2 hc
      obtain ⟨b1, b2⟩ := k1 (p2.still hc).1
      refine ⟨fun w hw hp => ?_, fun w hw hcalm => a2 w hw (b2 w hw hcalm)⟩
      rcases List.mem_cons.1 hw with rfl | hw
      · exact a2 w (hu w (by simp)) (b1 hp)
      · exact a1 w hw (p1.grows.kept w (allTasks_task (hu w (by simp [hw]))) hp)

/-- What holds of an activity when the search has stopped. -/
structure Optimal (data : ProblemData) (ce : CostEvaluator) (ops : List UnaryOp) (st : LState)
    (u : Activity) : Prop where
  unary : ∀ op ∈ ops, (op.evaluate data ce st.sol u).apply = false
  empty : NoEmpty data ce (st.binary.map (·.1)) st.sol u st.space.vehTypeOrder
  neighbours : (∃ node, st.sol.place u = some node) → ∀ ns, st.space.neighboursOf u = .ok ns → ∀ v ∈ ns,
    ∀ j q, st.sol.place v = some (j, q) →
    Silent data ce (st.binary.map (·.1)) st.sol u (.task v)
    ∧ (((st.sol.route j).node (q - 1)).isStartDepot = true →
      Silent data ce (st.binary.map (·.1)) st.sol u (.start j))

theorem Settled.optimal {plan : List (List Activity)} {st : LState} (h : Ok data ce plan st)
    (ht : Settled data ce st) {ops : List UnaryOp}
    {u : Activity} (hu : u ∈ allTasks data) (hc : Calm data ce ops st u) : Optimal data ce ops st u := by
  refine ⟨hc.unary, hc.empty, ?_⟩
  rintro ⟨⟨i, p⟩, hp⟩ ns hns v hv j q hq
  have h1 := ht.stamps.range i (place_le h.sol.clean.1 hp).1
  have h2 := ht.stamps.range j (place_le h.sol.clean.1 hq).1
  have := ht.quiet u hu ns hns v hv i p j q hp hq
  rw [hc.tested] at this
  exact this h1.2 h2.2

/-- **When the loop stops** there are no moves left for the activities that it looks at. -/
theorem searchLoop_optimal (hd : Consistent data) (ops : List UnaryOp) : ∀ (fuel : Nat)
    {plan : List (List Activity)} {st st' : LState}, Ok data ce plan st → Settled data ce st →
    st.completed = false → searchLoop data ce ops fuel st = .ok (some st') →
    ∃ plan', Run data ce plan st plan' st' ∧ st'.binary.map (·.1) = st.binary.map (·.1)
      ∧ ∀ u ∈ allTasks data, st.space.isPromising u = true → Optimal data ce ops st' u
  | 0, plan, st, st', h, ht, hc, e => by
    unfold searchLoop at e
    rw [hc] at e
    cases e
  | fuel + 1, plan, st, st', h, ht, hc, e => by
    unfold searchLoop at e
    rw [hc] at e
    simp only [Bool.false_eq_true, if_false] at e
    have hok : Ok data ce plan { st with completed := true } :=
      ⟨h.sol, h.exclusive, h.space, h.self, h.caches⟩
    have htt : Settled data ce { st with completed := true } :=
      ⟨⟨ht.stamps.length, ht.stamps.range⟩, ht.length, ht.past, ht.quiet⟩
    obtain ⟨plan1, st1, e1, p1, t1, k1⟩ := testAll_settled hd ops st.space.activityOrder
      (fun a ha => h.space.order.mem_iff.1 ha) hok htt
    have hrun : Run data ce plan st plan1 st1 := by
      obtain ⟨m, m1, m2, -⟩ := p1.steps
      exact ⟨p1.ok, p1.grows, m, m1, m2⟩
    rw [e1] at e
    dsimp only at e
    cases hc1 : st1.completed with
    | true =>
      have : st' = st1 := by
        cases fuel <;> simp [searchLoop, hc1] at e <;> exact e.symm
      subst this
      refine ⟨plan1, hrun, p1.change.ops, fun u hu hp => ?_⟩
      exact t1.optimal p1.ok hu ((k1 hc1).1 u (h.space.order.mem_iff.2 hu) hp)
    | false =>
      obtain ⟨plan2, r2, o2, k2⟩ := searchLoop_optimal hd ops fuel p1.ok t1 hc1 e
      exact ⟨plan2, hrun.trans r2, o2.trans p1.change.ops,
        fun u hu hp => k2 u hu (p1.grows.kept u (allTasks_task hu) hp)⟩

/-! ## A first round without moves -/

/-- No move with any neighbour in a route. -/
def QuietAll (data : ProblemData) (ce : CostEvaluator) (ops : List BinaryOp) (s : SSol) (u : Activity)
    (vs : List Activity) : Prop :=
  ∀ v ∈ vs, ∀ j q, s.place v = some (j, q) →
    Silent data ce ops s u (.task v)
    ∧ (((s.route j).node (q - 1)).isStartDepot = true → Silent data ce ops s u (.start j))

theorem testNeighbour_fresh {plan : List (List Activity)} {st st' : LState} (h : Ok data ce plan st)
    (hs : Stamps data st) {t : Int} (ht : t < 0) {u : Activity}
    (hu : u ∈ allTasks data) {v : Activity} (hd : Consistent data) (hvu : v ≠ u)
    (e : testNeighbour data ce t st u v = .ok st') (hc : st'.completed = true) :
    QuietAll data ce (st.binary.map (·.1)) st.sol u [v] := by
  intro w hw j q hq
  rw [List.mem_singleton] at hw
  subst hw
  unfold testNeighbour at e
  rw [hq] at e
  dsimp only at e
  have hidx := (place_le h.sol.clean.1 hq).1
  have hcond : (decide (updateOf st (st.sol.place u) > t) || decide (updateOf st (some (j, q)) > t))
      = true := by
    have := hs.range j hidx
    have : updateOf st (some (j, q)) > t := by show st.lastUpdate.getD j 0 > t; omega
    simp [this]
  rw [if_pos hcond] at e
  obtain ⟨plan1, st1, b, e1, p1, k1, k2⟩ := applyBinaryOps_spec h hd hu (v := .task w) trivial
    (by simpa using hvu)
  rw [e1] at e
  cases b with
  | true =>
    injection e with e
    subst e
    rw [k2 rfl] at hc; cases hc
  | false =>
    obtain ⟨es, hsil⟩ := applyBinaryOps_no h hu e1
    dsimp only at e
    refine ⟨hsil, fun hst => ?_⟩
    rw [if_pos (by rw [es]; exact hst)] at e
    obtain ⟨plan2, st2, b, e2, p2, -, k4⟩ := applyBinaryOps_spec p1.ok hd hu (v := .start j) hidx
      (by simp)
    rw [e2] at e
    injection e with e
    subst e
    cases b with
    | true => rw [k4 rfl] at hc; cases hc
    | false =>
      have := (applyBinaryOps_no p1.ok hu e2).2
      rw [p1.change.ops, es] at this
      exact this

theorem testNeighbours_fresh (hd : Consistent data) {t : Int} (ht : t < 0) {u : Activity}
    (hu : u ∈ allTasks data) : ∀ (vs : List Activity), u ∉ vs → ∀ {plan : List (List Activity)}
    {st st' : LState}, Ok data ce plan st → Stamps data st →
    testNeighbours data ce t u st vs = .ok st' → st'.completed = true →
    QuietAll data ce (st.binary.map (·.1)) st.sol u vs
  | [], _, plan, st, st', _, _, _, _ => fun v hv => by cases hv
  | v :: vs, hnm, plan, st, st', h, hs, e, hc => by
    rw [List.mem_cons, not_or] at hnm
    have hvu : v ≠ u := fun h => hnm.1 h.symm
    obtain ⟨plan1, st1, e1, p1⟩ := testNeighbour_spec h hd t hu (v := v) hvu
    obtain ⟨plan2, st2, e2, p2⟩ := testNeighbours_spec hd t hu vs hnm.2 p1.ok
    unfold testNeighbours at e
    rw [e1] at e
    dsimp only at e
    rw [e2] at e
    injection e with e
    subst e
    have hc1 := (p2.still hc).1
    have es := (p1.still hc1).2.2.1
    have h1 := testNeighbour_fresh h hs ht hu hd hvu e1 hc1
    have h2 := testNeighbours_fresh hd ht hu vs hnm.2 p1.ok (p1.change.stamps hs) e2 hc
    rw [p1.change.ops, es] at h2
    intro w hw
    rcases List.mem_cons.1 hw with rfl | hw
    · exact h1 w (by simp)
    · exact h2 w hw

theorem testActivity_fresh {plan : List (List Activity)} {st st' : LState} (h : Ok data ce plan st)
    (hs : Stamps data st) (hd : Consistent data) (ops : List UnaryOp) {u : Activity}
    (hu : u ∈ allTasks data) (hpr : st.space.isPromising u = true)
    (ht : st.lastTest.getD (testIdx data u) 0 < 0)
    (e : testActivity data ce ops st u = .ok st') (hc : st'.completed = true)
    {ns : List Activity} (hns : st.space.neighboursOf u = .ok ns) :
    QuietAll data ce (st.binary.map (·.1)) st.sol u ns := by
  unfold testActivity at e
  rw [hpr] at e
  simp only [Bool.not_true, Bool.false_eq_true, if_false] at e
  generalize st.lastTest.getD (testIdx data u) 0 = lastTest at e ht
  generalize st.lastTest.set (testIdx data u) st.numUpdates = tests at e
  have h0 : Progress data ce plan st plan { st with lastTest := tests } :=
    ⟨⟨h.sol, h.exclusive, h.space, h.self, h.caches⟩, SearchSpace.Grows.refl _ _,
      .refl _ rfl rfl rfl, 0, .refl, rfl, fun _ => rfl, fun h => absurd rfl h⟩
  have hs0 := h0.change.stamps hs
  obtain ⟨plan1, st1, b, e1, p1, k1, k2⟩ := applyUnaryOps_spec h0.ok hd ops hu
  rw [e1] at e
  dsimp only at e
  have hns1 : st1.space.neighboursOf u = .ok ns := (neighboursOf_grows p1.grows u).trans hns
  rw [hns1] at e
  dsimp only at e
  have hself := p1.ok.self u ns hns1
  obtain ⟨plan2, st2, e2, p2⟩ := testNeighbours_spec hd lastTest hu ns hself p1.ok
  rw [e2] at e
  dsimp only at e
  obtain ⟨plan3, st3, e3, p3⟩ := applyEmptyRouteMoves_spec hd hu _ p2.ok.space.types p2.ok
  rw [e3] at e
  injection e with e
  subst e
  have c2 := (p3.still hc).1
  have c1 := (p2.still c2).1
  have s1 := (p1.still c1).2.2.1
  have := testNeighbours_fresh hd ht hu ns hself p1.ok (p1.change.stamps hs0) e2 c2
  rw [p1.change.ops, s1] at this
  exact this

theorem testActivity_lastTest {plan : List (List Activity)} {st st' : LState} (h : Ok data ce plan st)
    (hd : Consistent data) (ops : List UnaryOp) {u : Activity}
    (hu : u ∈ allTasks data) (e : testActivity data ce ops st u = .ok st') {w : Activity}
    (hw : w ∈ allTasks data) (hwu : w ≠ u) :
    st'.lastTest.getD (testIdx data w) 0 = st.lastTest.getD (testIdx data w) 0 := by
  unfold testActivity at e
  split at e
  · injection e with e; rw [e]
  · dsimp only at e
    split at e
    · cases e
    · rename_i h1
      have t1 := applyUnaryOps_lastTest h1
      split at e
      · cases e
      · split at e
        · cases e
        · rename_i h2
          rw [applyEmptyRouteMoves_lastTest _ e, testNeighbours_lastTest _ h2, t1]
          have : testIdx data u ≠ testIdx data w := fun he => hwu (testIdx_inj hw hu he.symm)
          rw [List.getD_eq_getElem?_getD, List.getElem?_set_ne this, ← List.getD_eq_getElem?_getD]

theorem testAll_fresh (hd : Consistent data) (ops : List UnaryOp) : ∀ (us : List Activity), us.Nodup →
    (∀ u ∈ us, u ∈ allTasks data) → ∀ {plan : List (List Activity)} {st st' : LState}, Ok data ce plan st →
    Stamps data st → (∀ u ∈ us, st.lastTest.getD (testIdx data u) 0 < 0) →
    testAll data ce ops st us = .ok st' → st'.completed = true →
    ∀ u ∈ us, st.space.isPromising u = true → ∀ ns, st.space.neighboursOf u = .ok ns →
      QuietAll data ce (st.binary.map (·.1)) st.sol u ns
  | [], _, _, plan, st, st', _, _, _, _, _ => fun u hu => by cases hu
  | u :: us, hnd, hu, plan, st, st', h, hs, ht, e, hc => by
    rw [List.nodup_cons] at hnd
    have hu0 := hu u (by simp)
    have hrest : ∀ v ∈ us, v ∈ allTasks data := fun v hv => hu v (by simp [hv])
    obtain ⟨plan1, st1, e1, p1⟩ := testActivity_spec h hd ops hu0
    obtain ⟨plan2, st2, e2, p2⟩ := testAll_spec hd ops us hrest p1.ok
    unfold testAll at e
    rw [e1] at e
    dsimp only at e
    rw [e2] at e
    injection e with e
    subst e
    have hc1 := (p2.still hc).1
    have s1 := (p1.still hc1).2.2.1
    have ih := testAll_fresh hd ops us hnd.2 hrest p1.ok (p1.change.stamps hs) (fun w hw => by
      rw [testActivity_lastTest h hd ops hu0 e1 (hrest w hw) (fun h => hnd.1 (h ▸ hw))]
      exact ht w (by simp [hw])) e2 hc
    rw [p1.change.ops, s1] at ih
    intro w hw hp ns hns
    rcases List.mem_cons.1 hw with rfl | hw
    · exact testActivity_fresh h hs hd ops hu0 hp (ht w (by simp)) e1 hc1 hns
    · exact ih w hw (p1.grows.kept w (allTasks_task (hrest w hw)) hp) ns
        ((neighboursOf_grows p1.grows w).trans hns)

/-- **A search without moves** has tested all pairs. -/
theorem searchLoop_fresh (hd : Consistent data) (ops : List UnaryOp) {fuel : Nat}
    {plan : List (List Activity)} {st st' : LState} (h : Ok data ce plan st) (hs : Stamps data st)
    (ht : ∀ u ∈ allTasks data, st.lastTest.getD (testIdx data u) 0 < 0) (hc : st.completed = false)
    (e : searchLoop data ce ops fuel st = .ok (some st')) (hn : st'.numUpdates = st.numUpdates) :
    st'.sol = st.sol ∧ ∀ u ∈ allTasks data, st.space.isPromising u = true →
      ∀ ns, st.space.neighboursOf u = .ok ns → QuietAll data ce (st.binary.map (·.1)) st.sol u ns := by
  cases fuel with
  | zero => unfold searchLoop at e; rw [hc] at e; cases e
  | succ fuel =>
    unfold searchLoop at e
    rw [hc] at e
    simp only [Bool.false_eq_true, if_false] at e
    have hok : Ok data ce plan { st with completed := true } :=
      ⟨h.sol, h.exclusive, h.space, h.self, h.caches⟩
    obtain ⟨plan1, st1, e1, p1⟩ := testAll_spec hd ops st.space.activityOrder
      (fun a ha => h.space.order.mem_iff.1 ha) hok
    rw [e1] at e
    dsimp only at e
    obtain ⟨r, e2, k2⟩ := searchLoop_spec (ce := ce) hd ops fuel p1.ok
    rw [e] at e2
    injection e2 with e2
    obtain ⟨-, plan2, run⟩ := k2 st' e2.symm
    obtain ⟨m, m1, m2, m3, m4⟩ := p1.steps
    obtain ⟨m', m5, m6⟩ := run.steps
    have hm : m = 0 := by
      have : ({ st with completed := true } : LState).numUpdates = st.numUpdates := rfl
      omega
    have hc1 : st1.completed = true := m3 hm
    have : st' = st1 := by
      cases fuel <;> simp [searchLoop, hc1] at e <;> exact e.symm
    subst this
    have hnd : st.space.activityOrder.Nodup := h.space.order.nodup_iff.2 (allTasks_nodup data)
    refine ⟨(p1.still hc1).2.2.1, fun u hu hp ns hns => ?_⟩
    exact testAll_fresh hd ops st.space.activityOrder hnd
      (fun a ha => h.space.order.mem_iff.1 ha) hok ⟨hs.length, hs.range⟩
      (fun w hw => ht w (h.space.order.mem_iff.1 hw)) e1 hc1 u (h.space.order.mem_iff.2 hu) hp ns hns

end LState
end PyVRP
