import Verif.Lemmas.CheckedAll
/-!
# No assertion fails in the local search
-/
namespace PyVRP.Checked
open Spec
open SSol (Holds CleanBut At RefOk)
open LState (Ok)

variable {data : ProblemData} {ce : CostEvaluator} {plan : List (List Activity)} {s : SSol}
  {I : List (List Activity) → Prop}

theorem evaluate_length (op : BinaryOp) (cache : Cache) (u : Activity) (v : NodeRef) :
    (op.evaluate data ce s cache u v).2.length = cache.length := by
  have hst : ∀ i c, (cache.store i c).length = cache.length := fun i c => List.length_set
  cases op <;> unfold BinaryOp.evaluate <;> dsimp only
  · unfold PyVRP.Relocate.evaluate; dsimp only; repeat' (split; try dsimp only)
    all_goals first | rfl | exact hst _ _
  · unfold PyVRP.RelocateWithDepot.evaluate; dsimp only; repeat' split
    all_goals first | rfl | exact hst _ _
  · unfold PyVRP.RelocateAlternative.evaluate; dsimp only; repeat' split
    all_goals first | rfl | exact hst _ _
  · unfold PyVRP.RelocateShipment.evaluate; dsimp only; repeat' split
    all_goals first | rfl | exact hst _ _

theorem findUnary_eq (hco : CostOk data ce) (hdist : DistancesOk data) (h : SearchOk data plan s)
    {u : Activity} (hu : u ∈ allTasks data) : ∀ ops : List UnaryOp,
    findUnary data ce s u ops = some (LState.findUnary data ce s u ops)
  | [] => rfl
  | op :: rest => by
    unfold findUnary LState.findUnary
    rw [evaluateUnary_eq op hco hdist h hu, Option.bind_eq_bind, Option.bind_some]
    dsimp only
    split
    · rfl
    · exact findUnary_eq hco hdist h hu rest

theorem findBinary_eq (hco : CostOk data ce) (hdist : DistancesOk data) (h : SearchOk data plan s)
    {u : Activity} (hu : u ∈ allTasks data) {v : NodeRef} (hv : RefOk data v) (hvu : v ≠ .task u)
    (hin : (s.find v).isSome = true) : ∀ binary : List (BinaryOp × Cache),
    (∀ p ∈ binary, p.1.Valid) → (∀ p ∈ binary, p.2.length = p.1.cacheSize data) →
    findBinary data ce s u v binary = some (LState.findBinary data ce s u v binary)
    ∧ ∀ p ∈ (LState.findBinary data ce s u v binary).1, p.2.length = p.1.cacheSize data
  | [], _, h2 => ⟨rfl, h2⟩
  | (op, cache) :: rest, h1, h2 => by
    have h0 : cache.length = op.cacheSize data := h2 (op, cache) (by simp)
    obtain ⟨i1, i2⟩ := findBinary_eq hco hdist h hu hv hvu hin rest (fun p hp => h1 p (by simp [hp]))
      (fun p hp => h2 p (by simp [hp]))
    have hlen := evaluate_length (data := data) (ce := ce) (s := s) op cache u v
    unfold findBinary LState.findBinary
    rw [evaluateBinary_eq op (h1 (op, cache) (by simp)) hco hdist h hu hv hvu hin h0, Option.bind_eq_bind,
      Option.bind_some]
    generalize op.evaluate data ce s cache u v = vc at hlen ⊢
    obtain ⟨verdict, cache'⟩ := vc
    dsimp only at hlen ⊢
    split
    · refine ⟨rfl, fun p hp => ?_⟩
      rcases List.mem_cons.1 hp with rfl | hp
      · exact hlen.trans h0
      · exact h2 p (by simp [hp])
    · rw [i1]
      refine ⟨rfl, fun p hp => ?_⟩
      rcases List.mem_cons.1 hp with rfl | hp
      · exact hlen.trans h0
      · exact i2 p hp

/-- Updating after a move, and the assertion about its cost. -/
theorem settle_move {plan' : List (List Activity)} {st : LState} (h : Ok data ce plan st) (hI : I plan)
    (he : Exact data ce I) (hd : Consistent data) (hdist : DistancesOk data) {D : Nat → Prop} {δ : Int} {s' : SSol}
    (hm : Moved data plan plan' D δ s') {cost : Int}
    (hcost : CostOk data ce → FitsOn data D plan' →
      cost = δ + routesCost data ce plan' - routesCost data ce plan)
    {u : Option Nat} {v : Nat} (hD : ∀ k, D k → u = some k ∨ k = v)
    (hu : ∀ i, u = some i → i < data.numVehicles) (hv : v < data.numVehicles)
    {st' : LState} (e1 : st'.sol = s') (e2 : st'.binary = st.binary) (hz : Sized data st') :
    (update data st' u v).bind (settle data ce (planCost data ce plan) cost)
      = some (.ok (LState.update data st' u v, true)) := by
  subst e1
  obtain ⟨plan'', hs, hok, -, -⟩ := LState.update_spec (ce := ce) (st := st') h.sol
    (by rw [e2]; exact h.caches) hm.but hm.routes hm.kept hD hu hv
  rw [update_eq hd hm.but hm.routes hz hu hv, Option.bind_some]
  exact settle_eq he.cost hdist hok (moved_cost hm hs hcost he hI)

theorem Sized.mark {st : LState} (h : Sized data st) (p : Nat × Nat) : Sized data (LState.mark st p) :=
  ⟨h.1, h.2, h.3⟩

theorem Sized.markIf {st : LState} (h : Sized data st) (p : Option (Nat × Nat)) :
    Sized data (LState.markIf st p) := by
  cases p
  · exact h
  · exact h.mark _

theorem Sized.sol {st : LState} (h : Sized data st) (s : SSol) : Sized data { st with sol := s } :=
  ⟨h.1, h.2, h.3⟩

theorem applyUnaryOps_eq {st : LState} (h : Ok data ce plan st) (hI : I plan)
    (he : Exact data ce I)
    (hd : Consistent data) (hdist : DistancesOk data) (hz : Sized data st) (ops : List UnaryOp)
    {u : Activity} (hu : u ∈ allTasks data) :
    applyUnaryOps data ce ops st u = some (LState.applyUnaryOps data ce ops st u)
    ∧ ∀ st' b, LState.applyUnaryOps data ce ops st u = .ok (st', b) → Sized data st' := by
  unfold applyUnaryOps LState.applyUnaryOps
  rw [findUnary_eq he.cost hdist h.sol hu, Option.bind_eq_bind, Option.bind_some]
  cases hf : LState.findUnary data ce st.sol u ops with
  | none => exact ⟨rfl, fun st' b e => by cases e; exact hz⟩
  | some found =>
    obtain ⟨op, verdict⟩ := found
    obtain ⟨rfl, hap⟩ := LState.findUnary_some hf
    obtain ⟨j, plan', δ, s', h1, h2, h3, h4, -⟩ := UnaryOp.outcome op ce hd h.sol hu hap
    obtain ⟨m1, m2, -⟩ := LState.markIf_rest st (st.sol.place u)
    have hg := LState.markIf_grows (u := u) h.sol.clean.1 h.sol.routes h.space.size
    have hz' := hz.markIf (st.sol.place u)
    have happ := applyUnary_eq (ce := ce) op h.sol hap
    rw [h1] at happ
    dsimp only
    rw [markIf_eq h.sol.clean.1 h.sol.routes h.space.size]
    simp only [Option.bind_eq_bind, Option.bind_some]
    rw [m1, solutionCost_eq he.cost hdist h.sol, Option.bind_some, happ, Option.bind_some, h1]
    dsimp only
    rcases h2 with ⟨p, hp⟩ | ⟨hp, ho⟩
    · rw [hp] at hg hz' ⊢
      dsimp only
      obtain ⟨hj, -⟩ := LState.place_le h.sol.clean.1 hp
      refine ⟨settle_move h hI he hd hdist h3 h4 (u := some j) (v := j)
        (st' := { LState.markIf st (some (j, p)) with sol := s' })
        (fun k hk => .inr hk) (fun i hi => by cases hi; exact hj) hj rfl
        (LState.markIf_rest st (some (j, p))).2.1 (hz'.sol s'), fun st' b e => ?_⟩
      cases e
      exact (hz'.sol s').update _ _
    · rw [hp] at hg hz' ⊢
      dsimp only
      have hud : u.type ≠ .depot := by
        rcases BinaryOp.mem_allTasks hu with ⟨h, -⟩ | ⟨h, -⟩ <;> rw [h] <;> simp
      have hmem := (h3.but.1.owner u hud j).1 ho
      obtain ⟨xs, ys, hxy⟩ := List.append_of_mem hmem
      have hj := h3.but.1.lt_of_mem hmem
      have hpl := h3.but.1.place hj hud hxy
      rw [hpl]
      dsimp only
      simp only [Option.bind_some]
      obtain ⟨hj, hq⟩ := LState.place_le h3.but.1 hpl
      rw [mark_eq (st := { LState.markIf st none with sol := s' }) h3.but.1 h3.routes
        (by rw [hg.size]; exact h.space.size) hj hq, Option.bind_some]
      refine ⟨settle_move h hI he hd hdist h3 h4 (u := some j) (v := j)
        (st' := LState.mark { LState.markIf st none with sol := s' } (j, xs.length + 1))
        (fun k hk => .inr hk) (fun i hi => by cases hi; exact hj) hj rfl rfl ((hz'.sol s').mark _),
        fun st' b e => ?_⟩
      cases e
      exact ((hz'.sol s').mark _).update _ _

theorem applyBinaryOps_eq {st : LState} (h : Ok data ce plan st) (hI : I plan)
    (he : Exact data ce I)
    (hd : Consistent data) (hdist : DistancesOk data) (hz : Sized data st) {u : Activity}
    (hu : u ∈ allTasks data) {v : NodeRef} (hv : RefOk data v) (hvu : v ≠ .task u)
    (hin : (st.sol.find v).isSome = true) :
    applyBinaryOps data ce st u v = some (LState.applyBinaryOps data ce st u v)
    ∧ ∀ st' b, LState.applyBinaryOps data ce st u v = .ok (st', b) → Sized data st' := by
  obtain ⟨f1, f2⟩ := LState.findBinary_spec (ce := ce) (s := st.sol) hu v h.caches
  obtain ⟨g1, g2⟩ := findBinary_eq he.cost hdist h.sol hu hv hvu hin st.binary
    (fun p hp => (h.caches p hp).1) hz.caches
  unfold applyBinaryOps LState.applyBinaryOps
  rw [g1, Option.bind_eq_bind, Option.bind_some]
  clear g1
  generalize hfb : LState.findBinary data ce st.sol u v st.binary = fb at f1 f2 g2
  obtain ⟨binary, found⟩ := fb
  dsimp only at f1 f2 g2 ⊢
  have hok : Ok data ce plan { st with binary := binary } :=
    ⟨h.sol, h.exclusive, h.space, h.self, f1⟩
  have hz0 : Sized data { st with binary := binary } := ⟨hz.1, hz.2, g2⟩
  cases found with
  | none => exact ⟨rfl, fun st' b e => by cases e; exact hz0⟩
  | some found =>
    obtain ⟨op, verdict⟩ := found
    obtain ⟨cache, hmem, rfl, hap⟩ := f2 op verdict rfl
    obtain ⟨hval, hco⟩ := h.caches _ hmem
    obtain ⟨j, q, hf⟩ := BinaryOp.find_of_apply op hap
    obtain ⟨plan', δ, s', h1, h2, h3⟩ := op.outcome hval ce hd h.sol h.exclusive hu hv hvu hco hap
    obtain ⟨hj, hq⟩ := LState.find_le h.sol.clean.1 hv hf
    obtain ⟨m1, m2, -⟩ := LState.markIf_rest { st with binary := binary } (st.sol.place u)
    have hg := LState.markIf_grows (st := { st with binary := binary }) (u := u) h.sol.clean.1 h.sol.routes
      h.space.size
    have happ := applyBinary_eq op hval hd h.sol h.exclusive hu hv hvu hap
    rw [h1] at happ
    have e1 := markIf_eq (st := { st with binary := binary }) h.sol.clean.1 h.sol.routes
      h.space.size u
    have e2 := mark_eq (st := LState.markIf { st with binary := binary } (st.sol.place u))
      (by rw [m1]; exact h.sol.clean.1) h.sol.routes (by rw [hg.size]; exact h.space.size) hj hq
    have hsol : (LState.mark (LState.markIf { st with binary := binary } (st.sol.place u)) (j, q)).sol
        = st.sol := m1
    have hz1 := (hz0.markIf (st.sol.place u)).mark (j, q)
    dsimp only at e1 e2 ⊢
    rw [hf]
    simp only [Option.bind_eq_bind, Option.bind_some]
    rw [e1, Option.bind_some, e2, Option.bind_some, hsol, solutionCost_eq he.cost hdist h.sol,
      Option.bind_some, happ, Option.bind_some, h1]
    dsimp only
    refine ⟨settle_move hok hI he hd hdist h2 (fun a b => h3 a b trivial)
      (u := (st.sol.place u).map (·.1)) (v := j)
      (st' := { LState.mark (LState.markIf { st with binary := binary } (st.sol.place u)) (j, q) with sol := s' })
      ?_ ?_ hj rfl m2 (hz1.sol s'), fun st' b e => ?_⟩
    · intro k hk
      unfold Touched at hk
      rcases hk with ⟨p, hp⟩ | ⟨p, hp⟩
      · left; rw [hp]; rfl
      · right; rw [hf] at hp; cases hp; rfl
    · intro i hi
      cases hp : st.sol.place u with
      | none => rw [hp] at hi; cases hi
      | some ip =>
        rw [hp] at hi
        cases hi
        exact (LState.place_le h.sol.clean.1 hp).1
    · cases e
      exact (hz1.sol s').update _ _

/-! ## The loops -/

theorem known_of {a : Activity} (ha : IsTask data a) : known data a = some () := by
  obtain ⟨ty, k⟩ := a
  obtain ⟨h1, h2⟩ := ha
  cases ty with
  | depot => exact absurd rfl h1
  | client => exact ensure_true h2
  | pickup => exact ensure_true h2
  | delivery => exact ensure_true h2

theorem updateOf_eq {st : LState} (h : Holds data plan st.sol) (hz : Sized data st) (u : Activity) :
    updateOf st (st.sol.place u) = some (LState.updateOf st (st.sol.place u)) := by
  cases hp : st.sol.place u with
  | none => rfl
  | some ip =>
    obtain ⟨i, p⟩ := ip
    have hi : i < st.lastUpdate.length := by rw [hz.stamps]; exact (LState.place_le h hp).1
    show st.lastUpdate[i]? = some (st.lastUpdate.getD i 0)
    rw [List.getD_eq_getElem?_getD, List.getElem?_eq_getElem hi]; rfl

theorem testNeighbour_eq {st : LState} (h : Ok data ce plan st) (hI : I plan)
    (he : Exact data ce I)
    (hd : Consistent data) (hdist : DistancesOk data) (hz : Sized data st) (lastTest : Int) {u : Activity}
    (hu : u ∈ allTasks data) {v : Activity} (hvt : IsTask data v) (hvu : v ≠ u) :
    testNeighbour data ce lastTest st u v = some (LState.testNeighbour data ce lastTest st u v)
    ∧ ∀ st', LState.testNeighbour data ce lastTest st u v = .ok st' → Sized data st' := by
  unfold testNeighbour LState.testNeighbour
  rw [known_of hvt, Option.bind_eq_bind, Option.bind_some, updateOf_eq h.sol.clean.1 hz u]
  have hupd := updateOf_eq h.sol.clean.1 hz v
  cases hp : st.sol.place v with
  | none => exact ⟨rfl, fun st' e => by cases e; exact hz⟩
  | some ip =>
    obtain ⟨idx, pos⟩ := ip
    rw [hp] at hupd
    have hidx := (LState.place_le h.sol.clean.1 hp).1
    simp only [Option.bind_eq_bind, Option.bind_some]
    rw [hupd, Option.bind_some]
    split
    · have hin : (st.sol.find (.task v)).isSome = true := by
        show (st.sol.place v).isSome = true
        rw [hp]; rfl
      obtain ⟨plan1, st1, b, e1, p1, k1, -⟩ := LState.applyBinaryOps_spec h hd hu (v := .task v) trivial
        (by simpa using hvu)
      obtain ⟨c1, z1⟩ := applyBinaryOps_eq h hI he hd hdist hz hu (v := .task v) trivial (by simpa using hvu) hin
      have hz1 := z1 st1 b e1
      rw [c1, Option.bind_some, e1]
      cases b with
      | true => exact ⟨rfl, fun st' e => by cases e; exact hz1⟩
      | false =>
        dsimp only
        obtain ⟨-, -, vs, ws, hat, rfl⟩ := h.sol.clean.1.place_some (a := v) hp
        obtain ⟨kp, ks⟩ := k1 rfl
        have hlen : vs.length ≤ (plan1.getD idx []).length + 1 := by
          rw [kp, hat]; simp; omega
        rw [holds_route p1.ok.sol.clean.1 hidx, Option.bind_some, minus_eq (show 1 ≤ vs.length + 1 by omega),
          Option.bind_some, holds_node p1.ok.sol.clean.1 hidx (by omega), Option.bind_some]
        split
        · obtain ⟨c2, z2⟩ := applyBinaryOps_eq p1.ok (p1.keeps he h hI) he hd hdist hz1 hu (v := .start idx) hidx
            (by simp) rfl
          obtain ⟨plan2, st2, b, e2, p2, -, -⟩ := LState.applyBinaryOps_spec p1.ok hd hu (v := .start idx)
            hidx (by simp)
          rw [c2, Option.bind_some, e2]
          exact ⟨rfl, fun st' e => by cases e; exact z2 _ _ e2⟩
        · exact ⟨rfl, fun st' e => by cases e; exact hz1⟩
    · exact ⟨rfl, fun st' e => by cases e; exact hz⟩

theorem testNeighbours_eq (he : Exact data ce I) (hd : Consistent data) (hdist : DistancesOk data)
    (lastTest : Int) {u : Activity} (hu : u ∈ allTasks data) : ∀ (vs : List Activity), u ∉ vs →
    (∀ v ∈ vs, IsTask data v) → ∀ {plan : List (List Activity)} {st : LState}, Ok data ce plan st → I plan →
    Sized data st →
    testNeighbours data ce lastTest u st vs = some (LState.testNeighbours data ce lastTest u st vs)
    ∧ ∀ st', LState.testNeighbours data ce lastTest u st vs = .ok st' → Sized data st'
  | [], _, _, plan, st, h, hI, hz => ⟨rfl, fun st' e => by cases e; exact hz⟩
  | v :: vs, hn, ht, plan, st, h, hI, hz => by
    rw [List.mem_cons, not_or] at hn
    have hvu : v ≠ u := fun h => hn.1 h.symm
    obtain ⟨plan1, st1, e1, p1⟩ := LState.testNeighbour_spec h hd lastTest hu hvu
    obtain ⟨c1, z1⟩ := testNeighbour_eq h hI he hd hdist hz lastTest hu (ht v (by simp)) hvu
    obtain ⟨c2, z2⟩ := testNeighbours_eq he hd hdist lastTest hu vs hn.2 (fun w hw => ht w (by simp [hw]))
      p1.ok (p1.keeps he h hI) (z1 st1 e1)
    unfold testNeighbours LState.testNeighbours
    rw [c1, Option.bind_eq_bind, Option.bind_some, e1]
    exact ⟨c2, z2⟩

theorem firstEmpty_eq (hco : CostOk data ce) (hdist : DistancesOk data) (h : SearchOk data plan s)
    {t offset : Nat} (ht : t < data.numVehicleTypes) (ho : offset = vehiclesBefore data t) :
    firstEmpty data s t offset = some (s.firstEmpty data t offset) := by
  unfold firstEmpty SSol.firstEmpty
  have hvt : vehicleType data t = some (data.vehicleType t) := by
    have h' : t < data.vehicleTypes.length := ht
    show data.vehicleTypes[t]? = some (data.vehicleTypes.getD t _)
    rw [List.getD_eq_getElem?_getD, List.getElem?_eq_getElem h']; rfl
  rw [hvt, Option.bind_eq_bind, Option.bind_some]
  have hall : ∀ i ∈ List.range' offset (data.vehicleType t).numAvailable, i < data.numVehicles := by
    intro i hi
    rw [List.mem_range'_1] at hi
    have := vehTypeAt_block data (t := t) (k := i - offset) ht (by omega)
    rw [← ho, show offset + (i - offset) = i by omega] at this
    exact this.2
  generalize List.range' offset (data.vehicleType t).numAvailable = l at hall ⊢
  induction l with
  | nil => rfl
  | cons i l ih =>
    have hi := hall i (by simp)
    unfold firstEmpty.go
    rw [holds_route h.clean.1 hi, Option.bind_eq_bind, Option.bind_some,
      empty_eq (sound_route hco hdist h hi), Option.bind_eq_bind, Option.bind_some, List.find?_cons]
    split
    · rename_i hem; rw [hem]; rfl
    · rename_i hem
      rw [Bool.not_eq_true] at hem
      rw [hem]
      exact ih (fun k hk => hall k (by simp [hk]))

theorem applyEmptyRouteMoves_eq (he : Exact data ce I) (hd : Consistent data) (hdist : DistancesOk data)
    {u : Activity} (hu : u ∈ allTasks data) : ∀ (order : List (Nat × Nat)),
    (∀ p ∈ order, p.1 < data.numVehicleTypes ∧ p.2 = vehiclesBefore data p.1) →
    ∀ {plan : List (List Activity)} {st : LState}, Ok data ce plan st → I plan → Sized data st →
    applyEmptyRouteMoves data ce u st order = some (LState.applyEmptyRouteMoves data ce u st order)
    ∧ ∀ st', LState.applyEmptyRouteMoves data ce u st order = .ok st' → Sized data st'
  | [], _, plan, st, h, hI, hz => ⟨rfl, fun st' e => by cases e; exact hz⟩
  | (t, offset) :: order, ho, plan, st, h, hI, hz => by
    have h0 := ho (t, offset) (by simp)
    have hrest := fun p hp => ho p (List.mem_cons_of_mem _ hp)
    unfold applyEmptyRouteMoves LState.applyEmptyRouteMoves
    rw [firstEmpty_eq he.cost hdist h.sol h0.1 h0.2, Option.bind_eq_bind, Option.bind_some]
    cases hf : st.sol.firstEmpty data t offset with
    | none => exact applyEmptyRouteMoves_eq he hd hdist hu order hrest h hI hz
    | some idx =>
      have hlt := (SSol.firstEmpty_lt h0.1 h0.2 hf).1
      obtain ⟨plan1, st1, b, e1, p1, -, -⟩ := LState.applyBinaryOps_spec h hd hu (v := .start idx)
        hlt (by simp)
      obtain ⟨c1, z1⟩ := applyBinaryOps_eq h hI he hd hdist hz hu (v := .start idx) hlt (by simp) rfl
      have hz1 := z1 _ _ e1
      dsimp only
      rw [c1, Option.bind_eq_bind, Option.bind_some, e1]
      cases b with
      | true => exact ⟨rfl, fun st' e => by cases e; exact hz1⟩
      | false => exact applyEmptyRouteMoves_eq he hd hdist hu order hrest p1.ok (p1.keeps he h hI) hz1

theorem isTask_of {u : Activity} (hu : u ∈ allTasks data) : IsTask data u := by
  obtain ⟨ty, k⟩ := u
  rcases BinaryOp.mem_allTasks hu with ⟨h1, h2⟩ | ⟨h1, h2⟩
  · simp only at h1; subst h1; exact ⟨by simp, h2⟩
  · simp only at h1; subst h1; exact ⟨by simp, h2⟩

theorem testIdx_lt {u : Activity} (hu : u ∈ allTasks data) :
    LState.testIdx data u < data.numClients + data.numShipments := by
  obtain ⟨ty, k⟩ := u
  rcases BinaryOp.mem_allTasks hu with ⟨h1, h2⟩ | ⟨h1, h2⟩
  · simp only at h1 h2; subst h1
    have : k < data.numClients := h2
    show 0 + k < _
    omega
  · simp only at h1 h2; subst h1
    have : k < data.numShipments := h2
    show data.numClients + k < _
    omega

theorem testActivity_eq {st : LState} (h : Ok data ce plan st) (hI : I plan)
    (he : Exact data ce I)
    (hd : Consistent data) (hdist : DistancesOk data) (hz : Sized data st) (ops : List UnaryOp) {u : Activity}
    (hu : u ∈ allTasks data) :
    testActivity data ce ops st u = some (LState.testActivity data ce ops st u)
    ∧ ∀ st', LState.testActivity data ce ops st u = .ok st' → Sized data st' := by
  have hidx : LState.testIdx data u < st.lastTest.length := by rw [hz.tests]; exact testIdx_lt hu
  unfold testActivity LState.testActivity
  rw [isPromising_eq h.space.size (isTask_of hu), Option.bind_eq_bind, Option.bind_some]
  split
  · exact ⟨rfl, fun st' e => by cases e; exact hz⟩
  · dsimp only
    have ht : st.lastTest[LState.testIdx data u]? = some (st.lastTest.getD (LState.testIdx data u) 0) := by
      rw [List.getD_eq_getElem?_getD, List.getElem?_eq_getElem hidx]; rfl
    rw [known_of (isTask_of hu), Option.bind_eq_bind, Option.bind_some, ht, Option.bind_eq_bind,
      Option.bind_some]
    generalize st.lastTest.getD (LState.testIdx data u) 0 = lastTest
    have h0 : Ok data ce plan { st with lastTest := st.lastTest.set (LState.testIdx data u) st.numUpdates } :=
      ⟨h.sol, h.exclusive, h.space, h.self, h.caches⟩
    have hz0 : Sized data { st with lastTest := st.lastTest.set (LState.testIdx data u) st.numUpdates } :=
      ⟨List.length_set.trans hz.1, hz.2, hz.3⟩
    generalize { st with lastTest := st.lastTest.set (LState.testIdx data u) st.numUpdates } = st0 at h0 hz0
    obtain ⟨plan1, st1, b, e1, p1, -, -⟩ := LState.applyUnaryOps_spec h0 hd ops hu
    obtain ⟨c1, z1⟩ := applyUnaryOps_eq h0 hI he hd hdist hz0 ops hu
    rw [c1, Option.bind_eq_bind, Option.bind_some, e1]
    dsimp only
    obtain ⟨ns, hns, hnt⟩ := p1.ok.space.neighbours u hu
    rw [hns]
    dsimp only
    obtain ⟨plan2, st2, e2, p2⟩ := LState.testNeighbours_spec hd lastTest hu ns (p1.ok.self u ns hns) p1.ok
    obtain ⟨c2, z2⟩ := testNeighbours_eq he hd hdist lastTest hu ns (p1.ok.self u ns hns) hnt p1.ok
      (p1.keeps he h0 hI) (z1 _ _ e1)
    rw [c2, Option.bind_eq_bind, Option.bind_some, e2]
    dsimp only
    exact applyEmptyRouteMoves_eq he hd hdist hu _ p2.ok.space.types p2.ok
      (p2.keeps he p1.ok (p1.keeps he h0 hI)) (z2 _ e2)

theorem testAll_eq (he : Exact data ce I) (hd : Consistent data) (hdist : DistancesOk data)
    (ops : List UnaryOp) : ∀ (us : List Activity), (∀ u ∈ us, u ∈ allTasks data) →
    ∀ {plan : List (List Activity)} {st : LState}, Ok data ce plan st → I plan → Sized data st →
    testAll data ce ops st us = some (LState.testAll data ce ops st us)
    ∧ ∀ st', LState.testAll data ce ops st us = .ok st' → Sized data st'
  | [], _, plan, st, h, hI, hz => ⟨rfl, fun st' e => by cases e; exact hz⟩
  | u :: us, hu, plan, st, h, hI, hz => by
    obtain ⟨plan1, st1, e1, p1⟩ := LState.testActivity_spec h hd ops (hu u (by simp))
    obtain ⟨c1, z1⟩ := testActivity_eq h hI he hd hdist hz ops (hu u (by simp))
    obtain ⟨c2, z2⟩ := testAll_eq he hd hdist ops us (fun v hv => hu v (by simp [hv])) p1.ok
      (p1.keeps he h hI) (z1 _ e1)
    unfold testAll LState.testAll
    rw [c1, Option.bind_eq_bind, Option.bind_some, e1]
    exact ⟨c2, z2⟩

theorem searchLoop_eq (he : Exact data ce I) (hd : Consistent data) (hdist : DistancesOk data)
    (ops : List UnaryOp) : ∀ (fuel : Nat) {plan : List (List Activity)} {st : LState},
    Ok data ce plan st → I plan → Sized data st →
    searchLoop data ce ops fuel st = some (LState.searchLoop data ce ops fuel st)
  | 0, plan, st, h, hI, hz => rfl
  | fuel + 1, plan, st, h, hI, hz => by
    unfold searchLoop LState.searchLoop
    split
    · rfl
    · have h0 : Ok data ce plan { st with completed := true } :=
        ⟨h.sol, h.exclusive, h.space, h.self, h.caches⟩
      have hz0 : Sized data { st with completed := true } := ⟨hz.1, hz.2, hz.3⟩
      have ho : ∀ u ∈ st.space.activityOrder, u ∈ allTasks data := fun u hu => h.space.order.mem_iff.1 hu
      obtain ⟨plan1, st1, e1, p1⟩ := LState.testAll_spec hd ops _ ho h0
      obtain ⟨c1, z1⟩ := testAll_eq he hd hdist ops _ ho h0 hI hz0
      rw [c1, Option.bind_eq_bind, Option.bind_some, e1]
      exact searchLoop_eq he hd hdist ops fuel p1.ok (p1.keeps he h0 hI) (z1 _ e1)

/-- No assertion of the search fails. -/
theorem search_eq (he : Exact data ce I) (hd : Consistent data) (hdist : DistancesOk data)
    (ops : List UnaryOp) (fuel : Nat) {st : LState} (h : Ok data ce plan st) (hI : I plan) (hz : Sized data st) :
    search data ce ops fuel st = some (LState.search data ce ops fuel st) := by
  unfold search LState.search
  split
  · rfl
  · exact searchLoop_eq he hd hdist ops fuel (st := { st with completed := false })
      ⟨h.sol, h.exclusive, h.space, h.self, h.caches⟩ hI ⟨hz.1, hz.2, hz.3⟩

end PyVRP.Checked
