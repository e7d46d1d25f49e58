import Verif.Lemmas.Supports
/-!
# The local search without the operators that do not support the instance
-/
namespace PyVRP
open Spec
open SSol (At RefOk)

variable {data : ProblemData} {ce : CostEvaluator}

namespace LState

/-- The state without the caches of operators that do not support the instance. -/
def supported (data : ProblemData) (st : LState) : LState :=
  { st with binary := st.binary.filter (fun p => p.1.supports data) }

/-- The same for the outcome of an operation. -/
abbrev onlySupported (data : ProblemData) : Except Error LState → Except Error LState := Except.map (supported data)

theorem findUnary_filter (hd : Consistent data) {plan : List (List Activity)} {s : SSol}
    (h : SearchOk data plan s) {u : Activity} (hu : u ∈ allTasks data) : ∀ ops : List UnaryOp,
    findUnary data ce s u (ops.filter (·.supports data)) = findUnary data ce s u ops
  | [] => rfl
  | op :: rest => by
    have ih := findUnary_filter hd h hu rest
    rw [List.filter_cons]
    cases hs : op.supports data with
    | true =>
      rw [if_pos rfl]
      unfold findUnary
      dsimp only
      rw [ih]
    | false =>
      rw [if_neg (by simp), ih]
      conv => rhs; unfold findUnary
      dsimp only
      rw [if_neg (by rw [op.unsupported hd h hs hu]; simp)]

theorem findBinary_filter (hd : Consistent data) {plan : List (List Activity)} {s : SSol}
    (h : SearchOk data plan s) (hcomp : CompletePlan data plan) {u : Activity} (hu : u ∈ allTasks data)
    {v : NodeRef} (hv : RefOk data v) : ∀ binary : List (BinaryOp × Cache),
    findBinary data ce s u v (binary.filter (fun p => p.1.supports data))
      = ((findBinary data ce s u v binary).1.filter (fun p => p.1.supports data),
        (findBinary data ce s u v binary).2)
  | [] => rfl
  | (op, cache) :: rest => by
    have ih := findBinary_filter hd h hcomp hu hv rest
    rw [List.filter_cons]
    cases hs : op.supports data with
    | true =>
      rw [if_pos rfl]
      unfold findBinary
      dsimp only
      split
      · rw [List.filter_cons]; dsimp only; rw [if_pos hs]
      · rw [ih, List.filter_cons]; dsimp only; rw [if_pos hs]
    | false =>
      rw [if_neg (by simp), ih]
      have := op.unsupported (ce := ce) hd h hcomp hs hu hv cache
      conv => rhs; unfold findBinary
      dsimp only
      rw [if_neg (by rw [this]; simp), List.filter_cons]
      dsimp only
      rw [if_neg (by rw [hs]; simp)]

theorem updateRoute_supported (st : LState) (idx : Nat) :
    updateRoute data (supported data st) idx = supported data (updateRoute data st idx) := by
  unfold updateRoute supported
  dsimp only
  rw [List.filter_map]
  rfl

theorem update_supported (st : LState) (u : Option Nat) (v : Nat) :
    update data (supported data st) u v = supported data (update data st u v) := by
  have key : ∀ idx, updateRoute data { supported data st with
        numUpdates := st.numUpdates + 1, completed := false } idx
      = supported data (updateRoute data { st with numUpdates := st.numUpdates + 1, completed := false } idx) :=
    fun idx => updateRoute_supported { st with numUpdates := st.numUpdates + 1, completed := false } idx
  unfold update
  dsimp only
  cases u with
  | none =>
    rw [if_pos (by simp), if_pos (by simp)]
    exact key v
  | some u =>
    dsimp only
    rw [show (supported data st).numUpdates = st.numUpdates from rfl, key u]
    split
    · rw [updateRoute_supported]
    · rfl

theorem markIf_supported (st : LState) (node : Option (Nat × Nat)) :
    markIf (supported data st) node = supported data (markIf st node) := by
  cases node <;> rfl

theorem applyUnaryOps_supported (hd : Consistent data) {plan : List (List Activity)} {st : LState}
    (h : SearchOk data plan st.sol) (ops : List UnaryOp) {u : Activity} (hu : u ∈ allTasks data) :
    applyUnaryOps data ce (ops.filter (·.supports data)) (supported data st) u
      = (applyUnaryOps data ce ops st u).map (fun r => (supported data r.1, r.2)) := by
  unfold applyUnaryOps
  rw [show (supported data st).sol = st.sol from rfl, findUnary_filter hd h hu]
  cases findUnary data ce st.sol u ops with
  | none => rfl
  | some found =>
    obtain ⟨op, verdict⟩ := found
    dsimp only
    rw [markIf_supported, show (supported data (markIf st (st.sol.place u))).sol
      = (markIf st (st.sol.place u)).sol from rfl]
    cases op.apply data (markIf st (st.sol.place u)).sol u verdict.move with
    | error e => rfl
    | ok sol =>
      dsimp only
      cases hp : st.sol.place u with
      | none =>
        dsimp only
        cases sol.place u with
        | none => rfl
        | some node =>
          show Except.ok (update data (supported data (mark { markIf st none with sol := sol } node)) _ _, _) = _
          rw [update_supported]
          rfl
      | some node =>
        obtain ⟨idx, pos⟩ := node
        show Except.ok (update data (supported data { markIf st (some (idx, pos)) with sol := sol }) _ _, _) = _
        rw [update_supported]
        rfl

theorem applyBinaryOps_supported (hd : Consistent data) {plan : List (List Activity)} {st : LState}
    (h : SearchOk data plan st.sol) (hcomp : CompletePlan data plan) {u : Activity}
    (hu : u ∈ allTasks data) {v : NodeRef} (hv : RefOk data v) :
    applyBinaryOps data ce (supported data st) u v
      = (applyBinaryOps data ce st u v).map (fun r => (supported data r.1, r.2)) := by
  unfold applyBinaryOps
  rw [show (supported data st).sol = st.sol from rfl,
    show (supported data st).binary = st.binary.filter (fun p => p.1.supports data) from rfl,
    findBinary_filter hd h hcomp hu hv]
  generalize findBinary data ce st.sol u v st.binary = fb
  obtain ⟨binary, found⟩ := fb
  cases found with
  | none => rfl
  | some found =>
    obtain ⟨op, verdict⟩ := found
    dsimp only
    change (match st.sol.find v with
      | none => Except.error (Error.runtimeError "")
      | some (rV : Nat × Nat) =>
        match op.apply data (mark (markIf (supported data { st with binary := binary }) (st.sol.place u)) rV).sol
            u v verdict.move with
        | Except.error e => Except.error e
        | Except.ok sol =>
          Except.ok (update data { mark (markIf (supported data { st with binary := binary }) (st.sol.place u)) rV
            with sol := sol } ((st.sol.place u).map Prod.fst) rV.1, true)) = _
    cases hf : st.sol.find v with
    | none => rfl
    | some node =>
      dsimp only
      rw [markIf_supported]
      generalize hm : markIf { st with binary := binary } (st.sol.place u) = st1
      rw [show mark (supported data st1) node = supported data (mark st1 node) from rfl,
        show (supported data (mark st1 node)).sol = (mark st1 node).sol from rfl]
      cases op.apply data (mark st1 node).sol u v verdict.move with
      | error e => rfl
      | ok sol =>
        show Except.ok (update data (supported data { mark st1 node with sol := sol }) _ _, _) = _
        rw [update_supported]
        rfl

/-! ## The loops -/

/-- A state of the search in which everything required is visited. -/
structure Full (data : ProblemData) (ce : CostEvaluator) (plan : List (List Activity)) (st : LState) : Prop where
  ok : Ok data ce plan st
  complete : CompletePlan data plan

theorem Full.progress {plan plan' : List (List Activity)} {st st' : LState} (h : Full data ce plan st)
    (hp : Progress data ce plan st plan' st') : Full data ce plan' st' := by
  obtain ⟨n, h1, -⟩ := hp.steps
  exact ⟨hp.ok, h1.complete h.complete⟩

theorem testNeighbour_supported (hd : Consistent data) {plan : List (List Activity)} {st : LState}
    (h : Full data ce plan st) (lastTest : Int) {u : Activity} (hu : u ∈ allTasks data) {v : Activity}
    (hvu : v ≠ u) :
    testNeighbour data ce lastTest (supported data st) u v
      = onlySupported data (testNeighbour data ce lastTest st u v) := by
  unfold testNeighbour
  rw [show (supported data st).sol = st.sol from rfl]
  cases hp : st.sol.place v with
  | none => rfl
  | some ip =>
    obtain ⟨idx, pos⟩ := ip
    have hidx := (place_le h.ok.sol.clean.1 hp).1
    dsimp only
    have hup : ∀ x, updateOf (supported data st) x = updateOf st x := fun x => rfl
    rw [hup, hup]
    split
    · obtain ⟨plan1, st1, b, e1, p1, -, -⟩ := applyBinaryOps_spec h.ok hd hu (v := .task v) trivial
        (by simpa using hvu)
      rw [applyBinaryOps_supported hd h.ok.sol h.complete hu (v := .task v) trivial, e1]
      cases b with
      | true => rfl
      | false =>
        dsimp only [Except.map]
        rw [show (supported data st1).sol = st1.sol from rfl]
        split
        · have h1 := h.progress p1
          rw [applyBinaryOps_supported hd h1.ok.sol h1.complete hu (v := .start idx) hidx]
          cases applyBinaryOps data ce st1 u (.start idx) <;> rfl
        · rfl
    · rfl

theorem testNeighbours_supported (hd : Consistent data) (lastTest : Int) {u : Activity}
    (hu : u ∈ allTasks data) : ∀ (vs : List Activity), u ∉ vs →
    ∀ {plan : List (List Activity)} {st : LState}, Full data ce plan st →
    testNeighbours data ce lastTest u (supported data st) vs
      = onlySupported data (testNeighbours data ce lastTest u st vs)
  | [], _, plan, st, h => rfl
  | v :: vs, hn, plan, st, h => by
    rw [List.mem_cons, not_or] at hn
    have hvu : v ≠ u := fun h => hn.1 h.symm
    obtain ⟨plan1, st1, e1, p1⟩ := testNeighbour_spec h.ok hd lastTest hu hvu
    unfold testNeighbours
    rw [testNeighbour_supported hd h lastTest hu hvu, e1]
    exact testNeighbours_supported hd lastTest hu vs hn.2 (h.progress p1)

theorem applyEmptyRouteMoves_supported (hd : Consistent data) {u : Activity}
    (hu : u ∈ allTasks data) : ∀ (order : List (Nat × Nat)),
    (∀ p ∈ order, p.1 < data.numVehicleTypes ∧ p.2 = vehiclesBefore data p.1) →
    ∀ {plan : List (List Activity)} {st : LState}, Full data ce plan st →
    applyEmptyRouteMoves data ce u (supported data st) order
      = onlySupported data (applyEmptyRouteMoves data ce u st order)
  | [], _, plan, st, h => rfl
  | (t, offset) :: order, ho, plan, st, h => by
    have h0 := ho (t, offset) (by simp)
    have hrest := fun p hp => ho p (List.mem_cons_of_mem _ hp)
    unfold applyEmptyRouteMoves
    rw [show (supported data st).sol = st.sol from rfl]
    split
    · exact applyEmptyRouteMoves_supported hd hu order hrest h
    · rename_i idx hf
      have hidx := (SSol.firstEmpty_lt h0.1 h0.2 hf).1
      obtain ⟨plan1, st1, b, e1, p1, -, -⟩ := applyBinaryOps_spec h.ok hd hu (v := .start idx)
        hidx (by simp)
      rw [applyBinaryOps_supported hd h.ok.sol h.complete hu (v := .start idx) hidx, e1]
      cases b with
      | true => rfl
      | false => exact applyEmptyRouteMoves_supported hd hu order hrest (h.progress p1)

theorem testActivity_supported (hd : Consistent data) {plan : List (List Activity)} {st : LState}
    (h : Full data ce plan st) (ops : List UnaryOp) {u : Activity} (hu : u ∈ allTasks data) :
    testActivity data ce (ops.filter (·.supports data)) (supported data st) u
      = onlySupported data (testActivity data ce ops st u) := by
  unfold testActivity
  rw [show (supported data st).space = st.space from rfl]
  split
  · rfl
  · dsimp only
    rw [show (supported data st).lastTest = st.lastTest from rfl,
      show (supported data st).numUpdates = st.numUpdates from rfl]
    generalize st.lastTest.getD (testIdx data u) 0 = lastTest
    generalize st.lastTest.set (testIdx data u) st.numUpdates = tests
    have h0 : Full data ce plan { st with lastTest := tests } :=
      ⟨⟨h.ok.sol, h.ok.exclusive, h.ok.space, h.ok.self, h.ok.caches⟩, h.complete⟩
    obtain ⟨plan1, st1, b, e1, p1, -, -⟩ := applyUnaryOps_spec h0.ok hd ops hu
    have c1 := applyUnaryOps_supported (ce := ce) hd h0.ok.sol ops hu
    rw [e1] at c1 ⊢
    rw [show applyUnaryOps data ce (ops.filter (·.supports data))
      { sol := (supported data st).sol, space := st.space, binary := (supported data st).binary,
        lastTest := tests, lastUpdate := (supported data st).lastUpdate, numUpdates := st.numUpdates,
        completed := (supported data st).completed } u = _ from c1]
    dsimp only [Except.map]
    have h1 := h0.progress p1
    rw [show (supported data st1).space = st1.space from rfl]
    obtain ⟨ns, hns, -⟩ := p1.ok.space.neighbours u hu
    rw [hns]
    dsimp only
    have hself := p1.ok.self u ns hns
    obtain ⟨plan2, st2, e2, p2⟩ := testNeighbours_spec hd lastTest hu ns hself p1.ok
    have c2 := testNeighbours_supported hd lastTest hu ns hself h1
    rw [e2] at c2 ⊢
    rw [c2]
    exact applyEmptyRouteMoves_supported hd hu _ p2.ok.space.types (h1.progress p2)

theorem testAll_supported (hd : Consistent data) (ops : List UnaryOp) : ∀ (us : List Activity),
    (∀ u ∈ us, u ∈ allTasks data) → ∀ {plan : List (List Activity)} {st : LState}, Full data ce plan st →
    testAll data ce (ops.filter (·.supports data)) (supported data st) us
      = onlySupported data (testAll data ce ops st us)
  | [], _, plan, st, h => rfl
  | u :: us, hu, plan, st, h => by
    obtain ⟨plan1, st1, e1, p1⟩ := testActivity_spec h.ok hd ops (hu u (by simp))
    unfold testAll
    rw [testActivity_supported hd h ops (hu u (by simp)), e1]
    exact testAll_supported hd ops us (fun v hv => hu v (by simp [hv])) (h.progress p1)

theorem searchLoop_supported (hd : Consistent data) (ops : List UnaryOp) : ∀ (fuel : Nat)
    {plan : List (List Activity)} {st : LState}, Full data ce plan st →
    searchLoop data ce (ops.filter (·.supports data)) fuel (supported data st)
      = (searchLoop data ce ops fuel st).map (Option.map (supported data))
  | 0, plan, st, h => by
    unfold searchLoop
    rw [show (supported data st).completed = st.completed from rfl]
    split <;> rfl
  | fuel + 1, plan, st, h => by
    unfold searchLoop
    rw [show (supported data st).completed = st.completed from rfl]
    split
    · rfl
    · have h0 : Full data ce plan { st with completed := true } :=
        ⟨⟨h.ok.sol, h.ok.exclusive, h.ok.space, h.ok.self, h.ok.caches⟩, h.complete⟩
      have hus : ∀ u ∈ st.space.activityOrder, u ∈ allTasks data := fun u hu => h.ok.space.order.mem_iff.1 hu
      obtain ⟨plan1, st1, e1, p1⟩ := testAll_spec hd ops st.space.activityOrder hus h0.ok
      have c1 := testAll_supported hd ops st.space.activityOrder hus h0
      rw [e1] at c1 ⊢
      rw [show testAll data ce (ops.filter (·.supports data)) { supported data st with completed := true }
        (supported data st).space.activityOrder = _ from c1]
      exact searchLoop_supported hd ops fuel (h0.progress p1)

/-! ## Without any operator -/

/-- Nothing that is seen from outside has changed. -/
def Idle (st st' : LState) : Prop :=
  st'.sol = st.sol ∧ st'.space = st.space ∧ st'.completed = st.completed ∧ st'.binary = []

theorem Idle.trans {a b c : LState} (h : Idle a b) (h' : Idle b c) : Idle a c :=
  ⟨h'.1.trans h.1, h'.2.1.trans h.2.1, h'.2.2.1.trans h.2.2.1, h'.2.2.2⟩

theorem idle_refl {st : LState} (h : st.binary = []) : Idle st st := ⟨rfl, rfl, rfl, h⟩

theorem applyBinaryOps_idle {st : LState} (h : st.binary = []) (u : Activity) (v : NodeRef) :
    applyBinaryOps data ce st u v = .ok (st, false) := by
  unfold applyBinaryOps
  cases st
  cases h
  rfl

theorem testNeighbour_idle {st : LState} (h : st.binary = []) (lastTest : Int) (u v : Activity) :
    testNeighbour data ce lastTest st u v = .ok st := by
  unfold testNeighbour
  split
  · rfl
  · rw [applyBinaryOps_idle h]
    dsimp only
    split
    · rw [applyBinaryOps_idle h]
      split <;> rfl
    · rfl

theorem testNeighbours_idle {st : LState} (h : st.binary = []) (lastTest : Int) (u : Activity) :
    ∀ vs : List Activity, testNeighbours data ce lastTest u st vs = .ok st
  | [] => rfl
  | v :: vs => by
    unfold testNeighbours
    rw [testNeighbour_idle h]
    exact testNeighbours_idle h lastTest u vs

theorem applyEmptyRouteMoves_idle {st : LState} (h : st.binary = []) (u : Activity) :
    ∀ order : List (Nat × Nat), applyEmptyRouteMoves data ce u st order = .ok st
  | [] => rfl
  | (t, offset) :: order => by
    unfold applyEmptyRouteMoves
    split
    · exact applyEmptyRouteMoves_idle h u order
    · rw [applyBinaryOps_idle h]
      exact applyEmptyRouteMoves_idle h u order

theorem testActivity_idle {st st' : LState} (h : st.binary = []) {u : Activity}
    (he : testActivity data ce [] st u = .ok st') : Idle st st' := by
  unfold testActivity at he
  split at he
  · cases he; exact idle_refl h
  · dsimp only at he
    have h0 : ({ st with lastTest := st.lastTest.set (testIdx data u) st.numUpdates } : LState).binary = [] := h
    rw [show applyUnaryOps data ce [] { st with lastTest := st.lastTest.set (testIdx data u) st.numUpdates } u
      = .ok ({ st with lastTest := st.lastTest.set (testIdx data u) st.numUpdates }, false) from rfl] at he
    dsimp only at he
    split at he
    · cases he
    · rw [testNeighbours_idle h0] at he
      dsimp only at he
      rw [applyEmptyRouteMoves_idle h0] at he
      cases he
      exact ⟨rfl, rfl, rfl, h⟩

theorem testAll_idle : ∀ (us : List Activity) {st st' : LState}, st.binary = [] →
    testAll data ce [] st us = .ok st' → Idle st st'
  | [], st, st', h, he => by cases he; exact idle_refl h
  | u :: us, st, st', h, he => by
    unfold testAll at he
    split at he
    · cases he
    · rename_i st1 h1
      have i1 := testActivity_idle h h1
      exact i1.trans (testAll_idle us i1.2.2.2 he)

theorem searchLoop_completed (ops : List UnaryOp) {st : LState} (h : st.completed = true) :
    ∀ fuel, searchLoop data ce ops fuel st = .ok (some st)
  | 0 => by unfold searchLoop; rw [if_pos h]
  | fuel + 1 => by unfold searchLoop; rw [if_pos h]

/-- What is seen from outside. -/
def visible (st : LState) : SSol × SearchSpace := (st.sol, st.space)

theorem search_supported (hd : Consistent data) (ops : List UnaryOp) (fuel : Nat)
    {plan : List (List Activity)} {st : LState} (h : Full data ce plan st) :
    (search data ce (ops.filter (·.supports data)) (fuel + 1) (supported data st)).map (Option.map visible)
      = (search data ce ops (fuel + 1) st).map (Option.map visible) := by
  have h0 : Full data ce plan { st with completed := false } :=
    ⟨⟨h.ok.sol, h.ok.exclusive, h.ok.space, h.ok.self, h.ok.caches⟩, h.complete⟩
  have hl := searchLoop_supported (ce := ce) hd ops (fuel + 1) h0
  have hv : ∀ r : Except Error (Option LState),
      (r.map (Option.map (supported data))).map (Option.map visible) = r.map (Option.map visible) := by
    intro r
    cases r with
    | error e => rfl
    | ok r => cases r <;> rfl
  unfold search
  split
  · rename_i hf
    split
    · rfl
    · -- only operators that do not support the instance
      rw [Bool.and_eq_true, List.isEmpty_iff, List.isEmpty_iff] at hf
      have h1 : Full data ce plan { st with completed := true } :=
        ⟨⟨h.ok.sol, h.ok.exclusive, h.ok.space, h.ok.self, h.ok.caches⟩, h.complete⟩
      have hus : ∀ u ∈ st.space.activityOrder, u ∈ allTasks data := fun u hu => h.ok.space.order.mem_iff.1 hu
      obtain ⟨plan1, st1, e1, p1⟩ := testAll_spec hd ops st.space.activityOrder hus h1.ok
      have c1 := testAll_supported hd ops st.space.activityOrder hus h1
      rw [e1, hf.1] at c1
      have i1 := testAll_idle st.space.activityOrder (show (supported data { st with completed := true }).binary = []
        from hf.2) c1
      have hc : st1.completed = true := i1.2.2.1
      have hsol : st1.sol = st.sol := i1.1
      have hsp : st1.space = st.space := i1.2.1
      unfold searchLoop
      rw [if_neg (by simp)]
      dsimp only
      rw [e1]
      dsimp only
      rw [searchLoop_completed ops hc]
      show Except.ok (some (visible (supported data st))) = Except.ok (some (visible st1))
      unfold visible
      rw [hsol, hsp]
      rfl
  · rename_i hf
    have : ¬(ops.isEmpty && st.binary.isEmpty) = true := by
      intro he
      rw [Bool.and_eq_true, List.isEmpty_iff, List.isEmpty_iff] at he
      apply hf
      unfold supported
      rw [he.1, he.2]
      rfl
    rw [if_neg this]
    rw [← hv (searchLoop data ce ops (fuel + 1) { st with completed := false }), ← hl]
    rfl

/-! ## Inserting what is missing -/

theorem insertClient_supported (st : LState) (client : Nat) :
    insertClient data ce (supported data st) client = onlySupported data (insertClient data ce st client) := by
  unfold insertClient
  rw [show (supported data st).sol = st.sol from rfl, show (supported data st).space = st.space from rfl]
  cases st.sol.insertClient data ce st.space client true with
  | error e => rfl
  | ok r =>
    obtain ⟨sol, b⟩ := r
    dsimp only
    cases sol.place ⟨.client, client⟩ with
    | none => rfl
    | some node =>
      obtain ⟨idx, pos⟩ := node
      dsimp only
      have hu := update_supported (data := data) { st with sol := sol } (some idx) idx
      rw [show update data
          { sol := sol, space := st.space, binary := (supported data st).binary,
            lastTest := (supported data st).lastTest, lastUpdate := (supported data st).lastUpdate,
            numUpdates := (supported data st).numUpdates, completed := (supported data st).completed }
        (some idx) idx = _ from hu]
      generalize update data { st with sol := sol } (some idx) idx = st1
      rw [show (supported data st1).sol = st1.sol from rfl]
      cases st1.sol.place ⟨.client, client⟩ <;> rfl

theorem insertShipment_supported (st : LState) (shipment : Nat) :
    insertShipment data ce (supported data st) shipment
      = onlySupported data (insertShipment data ce st shipment) := by
  unfold insertShipment
  rw [show (supported data st).sol = st.sol from rfl, show (supported data st).space = st.space from rfl]
  cases st.sol.insertShipment data ce st.space shipment true with
  | error e => rfl
  | ok r =>
    obtain ⟨sol, b⟩ := r
    dsimp only
    cases sol.place ⟨.pickup, shipment⟩ with
    | none => rfl
    | some node =>
      cases sol.place ⟨.delivery, shipment⟩ with
      | none => rfl
      | some node' =>
        obtain ⟨idx, pos⟩ := node
        obtain ⟨idx', pos'⟩ := node'
        dsimp only
        have hu := update_supported (data := data) { st with sol := sol } (some idx) idx'
        rw [show update data
            { sol := sol, space := st.space, binary := (supported data st).binary,
              lastTest := (supported data st).lastTest, lastUpdate := (supported data st).lastUpdate,
              numUpdates := (supported data st).numUpdates, completed := (supported data st).completed }
          (some idx) idx' = _ from hu]
        generalize update data { st with sol := sol } (some idx) idx' = st1
        rw [show (supported data st1).sol = st1.sol from rfl]
        cases st1.sol.place ⟨.pickup, shipment⟩ with
        | none => rfl
        | some n1 => cases st1.sol.place ⟨.delivery, shipment⟩ <;> rfl

theorem repairGroup_supported (st : LState) (counts : List Nat) (client g : Nat) :
    repairGroup data ce (supported data st) counts client g
      = (repairGroup data ce st counts client g).map (fun r => (supported data r.1, r.2)) := by
  unfold repairGroup
  rw [insertClient_supported, show (supported data st).sol = st.sol from rfl]
  split
  · cases insertClient data ce st client <;> rfl
  · cases st.sol.place ⟨.client, client⟩ with
    | none => rfl
    | some node =>
      obtain ⟨idx, pos⟩ := node
      dsimp only
      split
      · have hu := update_supported (data := data)
          { mark st (idx, pos) with sol := (mark st (idx, pos)).sol.removeAt idx pos } (some idx) idx
        exact congrArg (fun x => Except.ok (x, counts.modify g (· - 1))) hu
      · rfl

theorem repair_supported (st : LState) (counts : List Nat) (a : Activity) :
    repair data ce (supported data st) counts a
      = (repair data ce st counts a).map (fun r => (supported data r.1, r.2)) := by
  unfold repair
  rw [show (supported data st).sol = st.sol from rfl]
  split
  · split
    · rw [insertClient_supported]
      cases insertClient data ce st a.idx <;> rfl
    · split
      · rfl
      · exact repairGroup_supported st counts a.idx _
  · split
    · rw [insertShipment_supported]
      cases insertShipment data ce st a.idx <;> rfl
    · rfl
  · rfl

theorem repairAll_supported : ∀ (as : List Activity) (st : LState) (counts : List Nat),
    repairAll data ce (supported data st) counts as
      = (repairAll data ce st counts as).map (fun r => (supported data r.1, r.2))
  | [], st, counts => rfl
  | a :: as, st, counts => by
    unfold repairAll
    rw [repair_supported]
    cases repair data ce st counts a with
    | error e => rfl
    | ok r => exact repairAll_supported as r.1 r.2

theorem ensureStructuralFeasibility_supported (st : LState) :
    ensureStructuralFeasibility data ce (supported data st)
      = onlySupported data (ensureStructuralFeasibility data ce st) := by
  unfold ensureStructuralFeasibility
  rw [show (supported data st).sol = st.sol from rfl, show (supported data st).space = st.space from rfl,
    repairAll_supported]
  cases repairAll data ce st (groupCounts data st.sol) st.space.activityOrder <;> rfl

end LState

namespace LocalSearch

/-- The local search with only the operators that support the instance. -/
def supported (data : ProblemData) (ls : LocalSearch) : LocalSearch :=
  { ls with
    unaryOps := ls.unaryOps.filter (·.supports data)
    binaryOps := ls.binaryOps.filter (·.supports data) }

theorem start_supported (ls : LocalSearch) (sol : SSol) :
    (ls.supported data).start data sol = LState.supported data (ls.start data sol) := by
  unfold start LState.supported supported
  dsimp only
  rw [List.filter_map]
  rfl

theorem prepare_supported (ls : LocalSearch) (sol : Solution) (exhaustive : Bool) :
    (ls.supported data).prepare data ce sol exhaustive
      = LState.onlySupported data (ls.prepare data ce sol exhaustive) := by
  unfold prepare
  rw [show (ls.supported data).sol = ls.sol from rfl, show (ls.supported data).manager = ls.manager from rfl]
  cases ls.sol.load data sol with
  | error e => rfl
  | ok s =>
    dsimp only
    rw [start_supported]
    rw [show (LState.supported data (ls.start data s)).sol = (ls.start data s).sol from rfl,
      show (LState.supported data (ls.start data s)).space = (ls.start data s).space from rfl]
    split
    · rfl
    · rename_i p _
      exact LState.ensureStructuralFeasibility_supported
        { ls.start data s with sol := p.sol, space := p.space }

theorem run_supported (hg : GoodData data) (hnv : 0 < data.numVehicles)
    (hn : ∀ g ∈ data.groups, g.clients.Nodup) {ls : LocalSearch} (h : ls.Ready data)
    {sol : Solution} (hsol : Accepted data sol) (exhaustive : Bool) (fuel : Nat) :
    (ls.supported data).run data ce sol exhaustive (fuel + 1)
      = (ls.run data ce sol exhaustive (fuel + 1)).map
          (Option.map (fun r => (r.1, r.2.supported data))) := by
  have hd : Consistent data := ((C37_accepts_exactly_consistent data data).1 hg.made).2
  obtain ⟨plan, st, e, hok, hcomp, -⟩ := prepare_spec hg hnv hn h hsol ce exhaustive
  have hs := LState.search_supported hd ls.unaryOps fuel (⟨hok, hcomp⟩ : LState.Full data ce plan st)
  unfold run
  rw [prepare_supported, e]
  dsimp only [Except.map, LState.onlySupported]
  rw [show (ls.supported data).unaryOps = ls.unaryOps.filter (·.supports data) from rfl]
  generalize LState.search data ce (ls.unaryOps.filter (·.supports data)) (fuel + 1)
    (LState.supported data st) = r at hs ⊢
  generalize LState.search data ce ls.unaryOps (fuel + 1) st = r' at hs ⊢
  cases r with
  | error e =>
    cases r' with
    | error e' => cases hs; rfl
    | ok r' => cases hs
  | ok r =>
    cases r' with
    | error e' => cases hs
    | ok r' =>
      cases r with
      | none =>
        cases r' with
        | none => rfl
        | some st' => cases hs
      | some s1 =>
        cases r' with
        | none => cases hs
        | some s2 =>
          have hv : LState.visible s1 = LState.visible s2 := by injection hs with hs; injection hs
          injection hv with h1 h2
          dsimp only
          rw [h1, h2]
          cases s2.sol.unload data <;> rfl

end LocalSearch
end PyVRP
