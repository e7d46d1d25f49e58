import Verif.Lemmas.Int64Update
/-!
# Improving with the local search does not overflow
-/
namespace PyVRP.Checked64
open Spec Checked
open SSol (Holds CleanBut At RefOk)
open LState (Ok)

variable {data : ProblemData} {ce : CostEvaluator} {plan : List (List Activity)} {s : SSol}
  {B M : Int} {N : Nat} {K : Int}

theorem findUnary_eq (hx : Ctx data ce B M N K) (h : SearchOk data plan s)
    {u : Activity} (hu : u ∈ allTasks data) : ∀ ops : List UnaryOp,
    findUnary data ce s u ops = some (LState.findUnary data ce s u ops)
  | [] => rfl
  | op :: rest => by
    unfold findUnary LState.findUnary
    rw [ref_eq (evaluateUnary_ref hx.env (hx.solBd h) op u) (evaluateUnary_eq op hx.cost hx.dist h hu),
      Option.bind_eq_bind, Option.bind_some]
    dsimp only
    split
    · rfl
    · exact findUnary_eq hx h hu rest

theorem findBinary_eq (hx : Ctx data ce B M N K) (h : SearchOk data plan s)
    {u : Activity} (hu : u ∈ allTasks data) {v : NodeRef} (hv : RefOk data v) (hvu : v ≠ .task u)
    (hin : (s.find v).isSome = true) : ∀ binary : List (BinaryOp × Cache),
    (∀ p ∈ binary, p.1.Valid) → (∀ p ∈ binary, p.2.length = p.1.cacheSize data) →
    (∀ p ∈ binary, CacheBd K p.2) →
    findBinary data ce s u v binary = some (LState.findBinary data ce s u v binary)
    ∧ ∀ p ∈ (LState.findBinary data ce s u v binary).1, CacheBd K p.2
  | [], _, _, h3 => ⟨rfl, h3⟩
  | (op, cache) :: rest, h1, h2, h3 => by
    have h0 : cache.length = op.cacheSize data := h2 (op, cache) (by simp)
    obtain ⟨i1, i2⟩ := findBinary_eq hx h hu hv hvu hin rest (fun p hp => h1 p (by simp [hp]))
      (fun p hp => h2 p (by simp [hp])) (fun p hp => h3 p (by simp [hp]))
    obtain ⟨y, k1, rfl, k2⟩ := evaluateBinary_ref hx.env (hx.solBd h) op (h3 (op, cache) (by simp)) u v _
      (evaluateBinary_eq op (h1 (op, cache) (by simp)) hx.cost hx.dist h hu hv hvu hin h0)
    unfold findBinary LState.findBinary
    rw [k1, Option.bind_eq_bind, Option.bind_some]
    generalize op.evaluate data ce s cache u v = vc at k2 ⊢
    obtain ⟨verdict, cache'⟩ := vc
    dsimp only at k2 ⊢
    split
    · refine ⟨rfl, fun p hp => ?_⟩
      rcases List.mem_cons.1 hp with rfl | hp
      · exact k2
      · exact h3 p (by simp [hp])
    · rw [i1]
      refine ⟨rfl, fun p hp => ?_⟩
      rcases List.mem_cons.1 hp with rfl | hp
      · exact k2
      · exact i2 p hp

theorem applyUnaryOps_eq {st : LState} (h : Ok data ce plan st)
    (hx : Ctx data ce B M N K) (hz : Sized data K st) (ops : List UnaryOp)
    {u : Activity} (hu : u ∈ allTasks data) :
    applyUnaryOps data ce ops st u = some (LState.applyUnaryOps data ce ops st u)
    ∧ ∀ st' b, LState.applyUnaryOps data ce ops st u = .ok (st', b) → Sized data K st' := by
  unfold applyUnaryOps LState.applyUnaryOps
  rw [findUnary_eq hx h.sol hu, Option.bind_eq_bind, Option.bind_some]
  cases hf : LState.findUnary data ce st.sol u ops with
  | none => exact ⟨rfl, fun st' b e => by cases e; exact hz⟩
  | some found =>
    obtain ⟨op, verdict⟩ := found
    obtain ⟨rfl, hap⟩ := LState.findUnary_some hf
    obtain ⟨j, plan', δ, s', h1, h2, h3, h4, -⟩ := UnaryOp.outcome op ce (consistent hx.cost) h.sol hu hap
    obtain ⟨m1, m2, -⟩ := LState.markIf_rest st (st.sol.place u)
    have hg := LState.markIf_grows (u := u) h.sol.clean.1 h.sol.routes h.space.size
    have hz' := hz.markIf (st.sol.place u)
    have happ := applyUnary_eq (ce := ce) op h.sol hap
    rw [h1] at happ
    dsimp only
    rw [markIf_eq h.sol.clean.1 h.sol.routes h.space.size]
    simp only [Option.bind_eq_bind, Option.bind_some]
    rw [m1, happ, Option.bind_some, h1]
    dsimp only
    rcases h2 with ⟨p, hp⟩ | ⟨hp, ho⟩
    · rw [hp] at hg hz' ⊢
      dsimp only
      obtain ⟨hj, -⟩ := LState.place_le h.sol.clean.1 hp
      refine ⟨by rw [update_eq hx (st := { LState.markIf st (some (j, p)) with sol := s' }) h3.but h3.routes (hz'.sol s') (fun i hi => by cases hi; exact hj) hj]; rfl, fun st' b e => ?_⟩
      cases e
      exact (hz'.sol s').update _ _
    · rw [hp] at hg hz' ⊢
      dsimp only
      have hud : u.type ≠ .depot := by
        rcases BinaryOp.mem_allTasks hu with ⟨h, -⟩ | ⟨h, -⟩ <;> rw [h] <;> simp
      have hmem := (h3.but.1.owner u hud j).1 ho
      obtain ⟨xs, ys, hxy⟩ := List.append_of_mem hmem
      have hj := h3.but.1.lt_of_mem hmem
      have hpl := h3.but.1.place hj hud hxy
      rw [hpl]
      dsimp only
      simp only [Option.bind_some]
      obtain ⟨hj, hq⟩ := LState.place_le h3.but.1 hpl
      rw [mark_eq (st := { LState.markIf st none with sol := s' }) h3.but.1 h3.routes
        (by rw [hg.size]; exact h.space.size) hj hq, Option.bind_some]
      refine ⟨by rw [update_eq hx (st := LState.mark { LState.markIf st none with sol := s' } (j, xs.length + 1)) h3.but h3.routes ((hz'.sol s').mark _) (fun i hi => by cases hi; exact hj) hj]; rfl, fun st' b e => ?_⟩
      cases e
      exact ((hz'.sol s').mark _).update _ _

theorem applyBinaryOps_eq {st : LState} (h : Ok data ce plan st)
    (hx : Ctx data ce B M N K) (hz : Sized data K st) {u : Activity}
    (hu : u ∈ allTasks data) {v : NodeRef} (hv : RefOk data v) (hvu : v ≠ .task u)
    (hin : (st.sol.find v).isSome = true) :
    applyBinaryOps data ce st u v = some (LState.applyBinaryOps data ce st u v)
    ∧ ∀ st' b, LState.applyBinaryOps data ce st u v = .ok (st', b) → Sized data K st' := by
  obtain ⟨f1, f2⟩ := LState.findBinary_spec (ce := ce) (s := st.sol) hu v h.caches
  obtain ⟨g1, g2⟩ := findBinary_eq hx h.sol hu hv hvu hin st.binary
    (fun p hp => (h.caches p hp).1) hz.base.caches hz.costs
  have g3 := (Checked.findBinary_eq hx.cost hx.dist h.sol hu hv hvu hin st.binary
    (fun p hp => (h.caches p hp).1) hz.base.caches).2
  unfold applyBinaryOps LState.applyBinaryOps
  rw [g1, Option.bind_eq_bind, Option.bind_some]
  clear g1
  generalize hfb : LState.findBinary data ce st.sol u v st.binary = fb at f1 f2 g2 g3
  obtain ⟨binary, found⟩ := fb
  dsimp only at f1 f2 g2 g3 ⊢
  have hok : Ok data ce plan { st with binary := binary } :=
    ⟨h.sol, h.exclusive, h.space, h.self, f1⟩
  have hz0 : Sized data K { st with binary := binary } := ⟨⟨hz.1.1, hz.1.2, g3⟩, g2⟩
  cases found with
  | none => exact ⟨rfl, fun st' b e => by cases e; exact hz0⟩
  | some found =>
    obtain ⟨op, verdict⟩ := found
    obtain ⟨cache, hmem, rfl, hap⟩ := f2 op verdict rfl
    obtain ⟨hval, hco⟩ := h.caches _ hmem
    obtain ⟨j, q, hf⟩ := BinaryOp.find_of_apply op hap
    obtain ⟨plan', δ, s', h1, h2, h3⟩ := op.outcome hval ce (consistent hx.cost) h.sol h.exclusive hu hv hvu hco hap
    obtain ⟨hj, hq⟩ := LState.find_le h.sol.clean.1 hv hf
    obtain ⟨m1, m2, -⟩ := LState.markIf_rest { st with binary := binary } (st.sol.place u)
    have hg := LState.markIf_grows (st := { st with binary := binary }) (u := u) h.sol.clean.1 h.sol.routes
      h.space.size
    have happ := applyBinary_eq op hval (consistent hx.cost) h.sol h.exclusive hu hv hvu hap
    rw [h1] at happ
    have e1 := markIf_eq (st := { st with binary := binary }) h.sol.clean.1 h.sol.routes
      h.space.size u
    have e2 := mark_eq (st := LState.markIf { st with binary := binary } (st.sol.place u))
      (by rw [m1]; exact h.sol.clean.1) h.sol.routes (by rw [hg.size]; exact h.space.size) hj hq
    have hsol : (LState.mark (LState.markIf { st with binary := binary } (st.sol.place u)) (j, q)).sol
        = st.sol := m1
    have hz1 := (hz0.markIf (st.sol.place u)).mark (j, q)
    dsimp only at e1 e2 ⊢
    rw [hf]
    simp only [Option.bind_eq_bind, Option.bind_some]
    rw [e1, Option.bind_some, e2, Option.bind_some, hsol, happ, Option.bind_some, h1]
    dsimp only
    refine ⟨?_, fun st' b e => ?_⟩
    · rw [update_eq hx (u := (st.sol.place u).map (·.1)) (v := j)
        (st := { LState.mark (LState.markIf { st with binary := binary } (st.sol.place u)) (j, q) with sol := s' })
        h2.but h2.routes (hz1.sol s') ?_ hj]
      · rfl
      intro i hi
      cases hp : st.sol.place u with
      | none => rw [hp] at hi; cases hi
      | some ip =>
        rw [hp] at hi
        cases hi
        exact (LState.place_le h.sol.clean.1 hp).1
    · cases e
      exact (hz1.sol s').update _ _

theorem testNeighbour_eq {st : LState} (h : Ok data ce plan st)
    (hx : Ctx data ce B M N K) (hz : Sized data K st) (lastTest : Int) {u : Activity}
    (hu : u ∈ allTasks data) {v : Activity} (hvt : IsTask data v) (hvu : v ≠ u) :
    testNeighbour data ce lastTest st u v = some (LState.testNeighbour data ce lastTest st u v)
    ∧ ∀ st', LState.testNeighbour data ce lastTest st u v = .ok st' → Sized data K st' := by
  unfold testNeighbour LState.testNeighbour
  rw [known_of hvt, Option.bind_eq_bind, Option.bind_some, Checked.updateOf_eq h.sol.clean.1 hz.base u]
  have hupd := Checked.updateOf_eq h.sol.clean.1 hz.base v
  cases hp : st.sol.place v with
  | none => exact ⟨rfl, fun st' e => by cases e; exact hz⟩
  | some ip =>
    obtain ⟨idx, pos⟩ := ip
    rw [hp] at hupd
    have hidx := (LState.place_le h.sol.clean.1 hp).1
    simp only [Option.bind_eq_bind, Option.bind_some]
    rw [hupd, Option.bind_some]
    split
    · have hin : (st.sol.find (.task v)).isSome = true := by
        show (st.sol.place v).isSome = true
        rw [hp]; rfl
      obtain ⟨plan1, st1, b, e1, p1, k1, -⟩ := LState.applyBinaryOps_spec h (consistent hx.cost) hu (v := .task v) trivial
        (by simpa using hvu)
      obtain ⟨c1, z1⟩ := applyBinaryOps_eq h hx hz hu (v := .task v) trivial (by simpa using hvu) hin
      have hz1 := z1 st1 b e1
      rw [c1, Option.bind_some, e1]
      cases b with
      | true => exact ⟨rfl, fun st' e => by cases e; exact hz1⟩
      | false =>
        dsimp only
        obtain ⟨-, -, vs, ws, hat, rfl⟩ := h.sol.clean.1.place_some (a := v) hp
        obtain ⟨kp, ks⟩ := k1 rfl
        have hlen : vs.length ≤ (plan1.getD idx []).length + 1 := by
          rw [kp, hat]; simp; omega
        rw [holds_route p1.ok.sol.clean.1 hidx, Option.bind_some, minus_eq (show 1 ≤ vs.length + 1 by omega),
          Option.bind_some, holds_node p1.ok.sol.clean.1 hidx (by omega), Option.bind_some]
        split
        · obtain ⟨c2, z2⟩ := applyBinaryOps_eq p1.ok hx hz1 hu (v := .start idx) hidx
            (by simp) rfl
          obtain ⟨plan2, st2, b, e2, p2, -, -⟩ := LState.applyBinaryOps_spec p1.ok (consistent hx.cost) hu (v := .start idx)
            hidx (by simp)
          rw [c2, Option.bind_some, e2]
          exact ⟨rfl, fun st' e => by cases e; exact z2 _ _ e2⟩
        · exact ⟨rfl, fun st' e => by cases e; exact hz1⟩
    · exact ⟨rfl, fun st' e => by cases e; exact hz⟩

theorem testNeighbours_eq (hx : Ctx data ce B M N K)
    (lastTest : Int) {u : Activity} (hu : u ∈ allTasks data) : ∀ (vs : List Activity), u ∉ vs →
    (∀ v ∈ vs, IsTask data v) → ∀ {plan : List (List Activity)} {st : LState}, Ok data ce plan st →
    Sized data K st →
    testNeighbours data ce lastTest u st vs = some (LState.testNeighbours data ce lastTest u st vs)
    ∧ ∀ st', LState.testNeighbours data ce lastTest u st vs = .ok st' → Sized data K st'
  | [], _, _, plan, st, h, hz => ⟨rfl, fun st' e => by cases e; exact hz⟩
  | v :: vs, hn, ht, plan, st, h, hz => by
    rw [List.mem_cons, not_or] at hn
    have hvu : v ≠ u := fun h => hn.1 h.symm
    obtain ⟨plan1, st1, e1, p1⟩ := LState.testNeighbour_spec h (consistent hx.cost) lastTest hu hvu
    obtain ⟨c1, z1⟩ := testNeighbour_eq h hx hz lastTest hu (ht v (by simp)) hvu
    obtain ⟨c2, z2⟩ := testNeighbours_eq hx lastTest hu vs hn.2 (fun w hw => ht w (by simp [hw]))
      p1.ok (z1 st1 e1)
    unfold testNeighbours LState.testNeighbours
    rw [c1, Option.bind_eq_bind, Option.bind_some, e1]
    exact ⟨c2, z2⟩

theorem applyEmptyRouteMoves_eq (hx : Ctx data ce B M N K)
    {u : Activity} (hu : u ∈ allTasks data) : ∀ (order : List (Nat × Nat)),
    (∀ p ∈ order, p.1 < data.numVehicleTypes ∧ p.2 = vehiclesBefore data p.1) →
    ∀ {plan : List (List Activity)} {st : LState}, Ok data ce plan st → Sized data K st →
    applyEmptyRouteMoves data ce u st order = some (LState.applyEmptyRouteMoves data ce u st order)
    ∧ ∀ st', LState.applyEmptyRouteMoves data ce u st order = .ok st' → Sized data K st'
  | [], _, plan, st, h, hz => ⟨rfl, fun st' e => by cases e; exact hz⟩
  | (t, offset) :: order, ho, plan, st, h, hz => by
    have h0 := ho (t, offset) (by simp)
    have hrest := fun p hp => ho p (List.mem_cons_of_mem _ hp)
    unfold applyEmptyRouteMoves LState.applyEmptyRouteMoves
    rw [firstEmpty_eq hx.cost hx.dist h.sol h0.1 h0.2, Option.bind_eq_bind, Option.bind_some]
    cases hf : st.sol.firstEmpty data t offset with
    | none => exact applyEmptyRouteMoves_eq hx hu order hrest h hz
    | some idx =>
      have hlt := (SSol.firstEmpty_lt h0.1 h0.2 hf).1
      obtain ⟨plan1, st1, b, e1, p1, -, -⟩ := LState.applyBinaryOps_spec h (consistent hx.cost) hu (v := .start idx)
        hlt (by simp)
      obtain ⟨c1, z1⟩ := applyBinaryOps_eq h hx hz hu (v := .start idx) hlt (by simp) rfl
      have hz1 := z1 _ _ e1
      dsimp only
      rw [c1, Option.bind_eq_bind, Option.bind_some, e1]
      cases b with
      | true => exact ⟨rfl, fun st' e => by cases e; exact hz1⟩
      | false => exact applyEmptyRouteMoves_eq hx hu order hrest p1.ok hz1

theorem testActivity_eq {st : LState} (h : Ok data ce plan st)
    (hx : Ctx data ce B M N K) (hz : Sized data K st) (ops : List UnaryOp) {u : Activity}
    (hu : u ∈ allTasks data) :
    testActivity data ce ops st u = some (LState.testActivity data ce ops st u)
    ∧ ∀ st', LState.testActivity data ce ops st u = .ok st' → Sized data K st' := by
  have hidx : LState.testIdx data u < st.lastTest.length := by rw [hz.base.tests]; exact testIdx_lt hu
  unfold testActivity LState.testActivity
  rw [isPromising_eq h.space.size (isTask_of hu), Option.bind_eq_bind, Option.bind_some]
  split
  · exact ⟨rfl, fun st' e => by cases e; exact hz⟩
  · dsimp only
    have ht : st.lastTest[LState.testIdx data u]? = some (st.lastTest.getD (LState.testIdx data u) 0) := by
      rw [List.getD_eq_getElem?_getD, List.getElem?_eq_getElem hidx]; rfl
    rw [known_of (isTask_of hu), Option.bind_eq_bind, Option.bind_some, ht, Option.bind_eq_bind,
      Option.bind_some]
    generalize st.lastTest.getD (LState.testIdx data u) 0 = lastTest
    have h0 : Ok data ce plan { st with lastTest := st.lastTest.set (LState.testIdx data u) st.numUpdates } :=
      ⟨h.sol, h.exclusive, h.space, h.self, h.caches⟩
    have hz0 : Sized data K { st with lastTest := st.lastTest.set (LState.testIdx data u) st.numUpdates } :=
      ⟨⟨List.length_set.trans hz.1.1, hz.1.2, hz.1.3⟩, hz.2⟩
    generalize { st with lastTest := st.lastTest.set (LState.testIdx data u) st.numUpdates } = st0 at h0 hz0
    obtain ⟨plan1, st1, b, e1, p1, -, -⟩ := LState.applyUnaryOps_spec h0 (consistent hx.cost) ops hu
    obtain ⟨c1, z1⟩ := applyUnaryOps_eq h0 hx hz0 ops hu
    rw [c1, Option.bind_eq_bind, Option.bind_some, e1]
    dsimp only
    obtain ⟨ns, hns, hnt⟩ := p1.ok.space.neighbours u hu
    rw [hns]
    dsimp only
    obtain ⟨plan2, st2, e2, p2⟩ := LState.testNeighbours_spec (consistent hx.cost) lastTest hu ns (p1.ok.self u ns hns) p1.ok
    obtain ⟨c2, z2⟩ := testNeighbours_eq hx lastTest hu ns (p1.ok.self u ns hns) hnt p1.ok (z1 _ _ e1)
    rw [c2, Option.bind_eq_bind, Option.bind_some, e2]
    dsimp only
    exact applyEmptyRouteMoves_eq hx hu _ p2.ok.space.types p2.ok (z2 _ e2)

theorem testAll_eq (hx : Ctx data ce B M N K)
    (ops : List UnaryOp) : ∀ (us : List Activity), (∀ u ∈ us, u ∈ allTasks data) →
    ∀ {plan : List (List Activity)} {st : LState}, Ok data ce plan st → Sized data K st →
    testAll data ce ops st us = some (LState.testAll data ce ops st us)
    ∧ ∀ st', LState.testAll data ce ops st us = .ok st' → Sized data K st'
  | [], _, plan, st, h, hz => ⟨rfl, fun st' e => by cases e; exact hz⟩
  | u :: us, hu, plan, st, h, hz => by
    obtain ⟨plan1, st1, e1, p1⟩ := LState.testActivity_spec h (consistent hx.cost) ops (hu u (by simp))
    obtain ⟨c1, z1⟩ := testActivity_eq h hx hz ops (hu u (by simp))
    obtain ⟨c2, z2⟩ := testAll_eq hx ops us (fun v hv => hu v (by simp [hv])) p1.ok (z1 _ e1)
    unfold testAll LState.testAll
    rw [c1, Option.bind_eq_bind, Option.bind_some, e1]
    exact ⟨c2, z2⟩

theorem searchLoop_eq (hx : Ctx data ce B M N K)
    (ops : List UnaryOp) : ∀ (fuel : Nat) {plan : List (List Activity)} {st : LState},
    Ok data ce plan st → Sized data K st →
    searchLoop data ce ops fuel st = some (LState.searchLoop data ce ops fuel st)
  | 0, plan, st, h, hz => rfl
  | fuel + 1, plan, st, h, hz => by
    unfold searchLoop LState.searchLoop
    split
    · rfl
    · have h0 : Ok data ce plan { st with completed := true } :=
        ⟨h.sol, h.exclusive, h.space, h.self, h.caches⟩
      have hz0 : Sized data K { st with completed := true } := ⟨⟨hz.1.1, hz.1.2, hz.1.3⟩, hz.2⟩
      have ho : ∀ u ∈ st.space.activityOrder, u ∈ allTasks data := fun u hu => h.space.order.mem_iff.1 hu
      obtain ⟨plan1, st1, e1, p1⟩ := LState.testAll_spec (consistent hx.cost) ops _ ho h0
      obtain ⟨c1, z1⟩ := testAll_eq hx ops _ ho h0 hz0
      rw [c1, Option.bind_eq_bind, Option.bind_some, e1]
      exact searchLoop_eq hx ops fuel p1.ok (z1 _ e1)

theorem search_eq (hx : Ctx data ce B M N K)
    (ops : List UnaryOp) (fuel : Nat) {st : LState} (h : Ok data ce plan st) (hz : Sized data K st) :
    search data ce ops fuel st = some (LState.search data ce ops fuel st) := by
  unfold search LState.search
  split
  · rfl
  · exact searchLoop_eq hx ops fuel (st := { st with completed := false })
      ⟨h.sol, h.exclusive, h.space, h.self, h.caches⟩ ⟨⟨hz.1.1, hz.1.2, hz.1.3⟩, hz.2⟩


end PyVRP.Checked64
