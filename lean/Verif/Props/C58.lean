import Verif.Lemmas.Int64Move
import Verif.Model.Int64Search
import Verif.Props.C21
import Verif.Props.C55
/-!
# C58: the local search evaluates moves without overflow

`PyVRP.I64` has, in `Verif/Model/Int64Search.lean`, the local search's `Route::update`, the segments, the
proposals and `CostEvaluator::deltaCost` on 64-bit integers: the result is `none` if an operation overflows.
-/
namespace PyVRP
open Spec

namespace Spec

/-- There is room to evaluate a change of routes with at most `n` nodes: even with the value `out` that the
evaluation starts from, the numbers stay in the range of 64-bit integers. -/
def MoveRoom (data : ProblemData) (B M n : Nat) (out : Int) : Prop :=
  (((4 * data.numLoadDimensions + 200) * M * B * n + out.natAbs : Nat) : Int) ≤ MAX

/-- A part of a proposed route, taken from routes with at most `n` nodes or a single stop. -/
inductive Part (data : ProblemData) (n : Nat) : I64.Seg → Prop where
  /-- The nodes of a route from position `s` on. -/
  | after {vt : Nat} {acts : List Activity} {r : SRoute} (h : History data vt acts r)
      (hvt : vt < data.numVehicleTypes) (hn : acts.length + 2 ≤ n) (s : Nat) (hs : s ≤ acts.length + 1) :
      Part data n (I64.after (r.update data) s)
  /-- The nodes of a route at positions `s, ..., e`. -/
  | between {vt : Nat} {acts : List Activity} {r : SRoute} (h : History data vt acts r)
      (hvt : vt < data.numVehicleTypes) (hn : acts.length + 2 ≤ n) (s e : Nat) (hse : s ≤ e)
      (he : e ≤ acts.length + 1) : Part data n (I64.between data (r.update data) s e)
  | client (i : Nat) : Part data n (I64.client data i)
  | depot (i : Nat) : Part data n (I64.depot data i)
  | pickup (i : Nat) : Part data n (I64.pickup data i)
  | delivery (i : Nat) : Part data n (I64.delivery data i)

/-- A proposal for a route of vehicle type `vt` that visits `old`: the nodes up to position `k`, followed by
other parts. All routes involved, and the proposed route, have at most `n` nodes. -/
structure Proposed (data : ProblemData) (vt : Nat) (old : List Activity) (n : Nat) (p : I64.Proposal) :
    Prop where
  route : ∃ r k, History data vt old r ∧ k ≤ old.length + 1 ∧ p.route = r.update data
    ∧ p.first = I64.before (r.update data) k
  oldSize : old.length + 2 ≤ n
  parts : ∀ c ∈ p.rest, Part data n c
  nonempty : p.rest ≠ []
  newSize : ((p.first :: p.rest).map (·.plain.size)).sum ≤ n

end Spec

theorem Spec.MoveRoom.le {data : ProblemData} {B M n : Nat} {out : Int} (h : MoveRoom data B M n out) :
    2 * (2 * ((M : Int) * (B * n)) * data.numLoadDimensions + 100 * ((M : Int) * (B * n))) - MAX ≤ out
    ∧ out + 2 * (2 * ((M : Int) * (B * n)) * data.numLoadDimensions + 100 * ((M : Int) * (B * n))) ≤ MAX
    ∧ 2 * ((M : Int) * (B * n)) * data.numLoadDimensions + 150 * ((M : Int) * (B * n)) ≤ MAX
    ∧ 150 * ((M : Int) * (B * n)) ≤ MAX
    ∧ 0 ≤ 2 * ((M : Int) * (B * n)) * data.numLoadDimensions ∧ 0 ≤ (M : Int) * (B * n) := by
  unfold MoveRoom at h
  have e : (((4 * data.numLoadDimensions + 200) * M * B * n + out.natAbs : Nat) : Int)
      = 2 * (2 * ((M : Int) * (B * n)) * data.numLoadDimensions + 100 * ((M : Int) * (B * n)))
        + out.natAbs := by
    rw [Int.natCast_add, Int.natCast_mul, Int.natCast_mul, Int.natCast_mul, Int.natCast_add,
      Int.natCast_mul]
    grind
  rw [e] at h
  have h0 : 0 ≤ (M : Int) * (B * n) :=
    Int.mul_nonneg (Int.natCast_nonneg _) (Int.mul_nonneg (Int.natCast_nonneg _) (Int.natCast_nonneg _))
  have h1 : 0 ≤ 2 * ((M : Int) * (B * n)) * (data.numLoadDimensions : Int) :=
    Int.mul_nonneg (by omega) (Int.natCast_nonneg _)
  omega

theorem canon_dropLast (v : VehicleType) (acts : List Activity) :
    ∀ m ∈ (canon v acts).dropLast, m.isEndDepot = false := by
  have inner : ∀ (acts : List Activity) (pos trip : Nat),
      ∀ m ∈ innerNodes pos trip acts, m.isEndDepot = false := by
    intro acts
    induction acts with
    | nil => intro pos trip m hm; cases hm
    | cons a rest ih =>
      intro pos trip m hm
      rw [innerNodes] at hm
      rcases List.mem_cons.1 hm with rfl | hm
      · rfl
      · exact ih _ _ m hm
  intro m hm
  unfold canon at hm
  rw [← List.cons_append, List.dropLast_concat] at hm
  rcases List.mem_cons.1 hm with rfl | hm
  · rfl
  · exact inner acts 1 0 m hm

namespace C58

theorem updated {data : ProblemData} (hg : GoodData data) {B M : Nat} (hM : 1 ≤ M)
    (hs : Small data B M) {vt : Nat} (hvt : vt < data.numVehicleTypes) {acts : List Activity} {r : SRoute}
    (h : History data vt acts r) {n : Nat} (hn : acts.length + 2 ≤ n)
    (hr : 150 * ((M : Int) * (B * n)) ≤ MAX) :
    I64.update data r = some (r.update data) ∧ I64.UpdBd data B M (r.update data)
    ∧ (r.update data).nodes.length = acts.length + 2 ∧ (r.update data).vehicleType = vt
    ∧ (B : Int) * (r.update data).nodes.length ≤ B * n := by
  obtain ⟨hv, _, hsz, _, _, _, _, hvis⟩ := C20_nodes data vt acts r h
  have hsz' : r.nodes.length = acts.length + 2 := hsz
  have hle : (B : Int) * r.nodes.length ≤ B * n :=
    Int.mul_le_mul_of_nonneg_left (by omega) (Int.natCast_nonneg _)
  have hle2 := Int.mul_le_mul_of_nonneg_left hle (show (0 : Int) ≤ M by omega)
  unfold SRoute.Visits at hvis
  obtain ⟨k1, k2⟩ := I64.update_eq (I64.dataBd hg.times hs) (r := r) (M := M)
    (by rw [hv]; exact I64.vehBd hg hs (mem_vehicleTypes hvt)) (by omega)
    (n := startNode (data.vehicleType r.vehicleType)) hvis
    (by rw [hvis]; exact canon_dropLast _ _) (by omega)
  exact ⟨k1, k2, hsz', hv, hle⟩

theorem part_bd {data : ProblemData} (hg : GoodData data) {B M : Nat} (hM : 1 ≤ M)
    (hs : Small data B M) {n : Nat} (hn : 1 ≤ n) (hr : 150 * ((M : Int) * (B * n)) ≤ MAX) {c : I64.Seg}
    (h : Part data n c) : I64.SegBd B c ∧ 1 ≤ c.plain.size := by
  have hm := MAX_eq
  have hh := HALF_eq
  have hd := I64.dataBd hg.times hs
  have h0 : (0 : Int) ≤ (B : Int) * n := Int.mul_nonneg (Int.natCast_nonneg _) (Int.natCast_nonneg _)
  have hMX := Int.mul_le_mul_of_nonneg_right (show (1 : Int) ≤ M by omega) h0
  have hBn := Int.mul_le_mul_of_nonneg_left (show (1 : Int) ≤ n by omega) (Int.natCast_nonneg B)
  have hB : (B : Int) ≤ HALF := by omega
  cases h with
  | after h hvt hn s hs' =>
    obtain ⟨_, k2, k3, k4, k5⟩ := updated hg hM hs hvt h hn hr
    refine ⟨I64.after_bd hd.nonneg k2 (by omega) (by omega), ?_⟩
    change 1 ≤ (SRoute.nodes _).length - s
    omega
  | between h hvt hn s e hse he =>
    obtain ⟨_, k2, k3, k4, k5⟩ := updated hg hM hs hvt h hn hr
    refine ⟨I64.between_bd hd k2 hse (by omega) (by omega), ?_⟩
    change 1 ≤ e - s + 1
    omega
  | client i => exact ⟨I64.client_bd hd hB i, Nat.le_refl 1⟩
  | depot i => exact ⟨I64.depot_bd hd i, Nat.le_refl 1⟩
  | pickup i => exact ⟨I64.pickup_bd hd hB i, Nat.le_refl 1⟩
  | delivery i => exact ⟨I64.delivery_bd hd hB i, Nat.le_refl 1⟩

theorem proposal_bd {data : ProblemData} (hg : GoodData data) {B M : Nat} (hM : 1 ≤ M)
    (hs : Small data B M) {vt : Nat} (hvt : vt < data.numVehicleTypes) {n : Nat}
    (hr : 150 * ((M : Int) * (B * n)) ≤ MAX) {old : List Activity} {p : I64.Proposal}
    (h : Proposed data vt old n p) :
    I64.PropBd B (B * n) p ∧ I64.UpdBd data B M p.route ∧ (B : Int) * p.route.nodes.length ≤ B * n
    ∧ p.route.vehicleType = vt := by
  obtain ⟨r, k, h1, h2, h3, h4⟩ := h.route
  have hn1 := h.oldSize
  obtain ⟨_, k2, k3, k4, k5⟩ := updated hg hM hs hvt h1 hn1 hr
  have hBn := Int.mul_le_mul_of_nonneg_left (show (1 : Int) ≤ n by omega) (Int.natCast_nonneg B)
  refine ⟨⟨?_, fun c hc => part_bd hg hM hs (by omega) hr (h.parts c hc), h.nonempty, ?_, by omega⟩,
    by rw [h3]; exact k2, by rw [h3]; exact k5, by rw [h3]; exact k4⟩
  · rw [h4]
    exact I64.before_bd k2 (by omega)
  · refine Int.mul_le_mul_of_nonneg_left ?_ (Int.natCast_nonneg _)
    exact Int.ofNat_le.mpr h.newSize

end C58

/-- **C58, updates.** Whatever changes were made to a route of the local search, `update` computes its
distances, duration segments, load segments, costs and violations without overflow. -/
theorem C58_update (data : ProblemData) (hg : GoodData data) (B M : Nat) (hM : 1 ≤ M)
    (hs : Small data B M) (vt : Nat) (hvt : vt < data.numVehicleTypes) (acts : List Activity) (r : SRoute)
    (h : History data vt acts r) (hr : MoveRoom data B M (acts.length + 2) 0) :
    I64.update data r = some (r.update data) :=
  (C58.updated hg hM hs hvt h (Nat.le_refl _) hr.le.2.2.2.1).1

/-- **C58, one route.** The evaluation of a change of one route is computed without overflow, with and
without the early exit. -/
theorem C58_one_route (data : ProblemData) (hg : GoodData data) (B M : Nat) (hM : 1 ≤ M)
    (hs : Small data B M) (ce : CostEvaluator) (hp : SmallPenalties data ce M)
    (vt : Nat) (hvt : vt < data.numVehicleTypes) (old : List Activity) (n : Nat) (p : I64.Proposal)
    (h : Proposed data vt old n p) (out : Int) (hr : MoveRoom data B M n out) (exact : Bool) :
    I64.deltaCost exact ce data out p = some (ce.deltaCost exact data out p.plain) := by
  obtain ⟨r1, r2, r3, r4, r5, r6⟩ := hr.le
  obtain ⟨b1, b2, b3, b4⟩ := C58.proposal_bd hg hM hs hvt r4 h
  exact (I64.deltaCost_eq (M := M) (I64.dataBd hg.times hs) b1
    (by rw [b4]; exact I64.vehBd hg hs (mem_vehicleTypes hvt)) (by omega)
    ⟨hp.dims, hp.loads, hp.tw, hp.dist⟩ (by rw [b4]; exact (hg.vehicle hvt).dims) b2 b3 (by omega) (by omega)
    (by omega) exact).1

/-- **C58, two routes.** The same for a change of two routes. -/
theorem C58_two_routes (data : ProblemData) (hg : GoodData data) (B M : Nat) (hM : 1 ≤ M)
    (hs : Small data B M) (ce : CostEvaluator) (hp : SmallPenalties data ce M)
    (vt vt' : Nat) (hvt : vt < data.numVehicleTypes) (hvt' : vt' < data.numVehicleTypes)
    (old old' : List Activity) (n : Nat) (p q : I64.Proposal)
    (h : Proposed data vt old n p) (h' : Proposed data vt' old' n q) (out : Int)
    (hr : MoveRoom data B M n out) (exact : Bool) :
    I64.deltaCost2 exact ce data out p q = some (ce.deltaCost2 exact data out p.plain q.plain) := by
  obtain ⟨r1, r2, r3, r4, r5, r6⟩ := hr.le
  obtain ⟨b1, b2, b3, b4⟩ := C58.proposal_bd hg hM hs hvt r4 h
  obtain ⟨c1, c2, c3, c4⟩ := C58.proposal_bd hg hM hs hvt' r4 h'
  exact I64.deltaCost2_eq (M := M) (I64.dataBd hg.times hs) b1 c1
    (by rw [b4]; exact I64.vehBd hg hs (mem_vehicleTypes hvt))
    (by rw [c4]; exact I64.vehBd hg hs (mem_vehicleTypes hvt')) (by omega)
    ⟨hp.dims, hp.loads, hp.tw, hp.dist⟩ (by rw [b4]; exact (hg.vehicle hvt).dims)
    (by rw [c4]; exact (hg.vehicle hvt').dims) b2 b3 c2 c3 r1 r2 r3 exact

/-- **C58, exactness.** For proposals that are evaluated exactly (C22), the 64-bit computation gives the
difference of the objective values of the routes before and after the change. -/
theorem C58_exact (data : ProblemData) (hg : GoodData data) (B M : Nat) (hM : 1 ≤ M)
    (hs : Small data B M) (ce : CostEvaluator) (hce : ce.Valid) (hp : SmallPenalties data ce M)
    (vt k : Nat) (hvt : vt < data.numVehicleTypes)
    (hreloads : (data.vehicleType vt).maxReloads ≤ SIZE_MAX)
    (old new : List Activity) (n : Nat) (p : I64.Proposal)
    (h : Proposed data vt old n p) (hgood : GoodProposal data vt k p.plain old new)
    (hold : old.length < SIZE_MAX) (hnew : new.length < SIZE_MAX)
    (oldRoute newRoute : Route) (ho : Route.make data old vt = .ok oldRoute)
    (hn : Route.make data new vt = .ok newRoute) (hne : newRoute.empty = false) (out : Int)
    (hr : MoveRoom data B M n out) :
    I64.deltaCost true ce data out p
      = some (out + (ce.penalisedCostRoute newRoute - ce.penalisedCostRoute oldRoute), true) := by
  rw [C58_one_route data hg B M hM hs ce hp vt hvt old n p h out hr true]
  have := (C22_one_route_partial data hg ce hce hp.dims vt k hvt hreloads p.plain old new hgood hold hnew
    oldRoute newRoute ho hn hne out).1
  exact congrArg some this

/-! ## Large numbers -/

/-- The demo route with client 4 inserted after the first client. -/
def Demo.insertion (data : ProblemData) : I64.Proposal :=
  let r := SRoute.ofActs data 0 Demo.acts
  ⟨r, I64.before r 1, [I64.client data 4, I64.after r 2]⟩

theorem Demo.insertion_proposed (data : ProblemData) (hvt : 0 < data.numVehicleTypes)
    (hdep : depotVisits Demo.acts + 1 ≤ (data.vehicleType 0).maxTrips) :
    History data 0 Demo.acts (SRoute.ofActs data 0 Demo.acts)
    ∧ Proposed data 0 Demo.acts 9 (Demo.insertion data) := by
  obtain ⟨r, hr⟩ := history_of_inserts data 0 Demo.acts hdep
  have hup : History data 0 Demo.acts (r.update data) := History.step .update hr trivial rfl
  rw [SRoute.update_of_history hr] at hup
  refine ⟨hup, ⟨⟨_, 1, hup, by decide, rfl, rfl⟩, by decide, ?_, by simp [Demo.insertion], Nat.le_refl 9⟩⟩
  intro c hc
  rcases List.mem_cons.1 hc with rfl | hc
  · exact .client 4
  · rw [List.mem_singleton] at hc
    subst hc
    exact .after hup hvt (by decide) 2 (by decide)

/-- Some bound on the numbers is needed: with distances of a fifth of the largest 64-bit integer, the
route is updated without overflow, but the evaluation of a longer route overflows. -/
theorem C58_bound_needed :
    ∃ (data : ProblemData) (acts : List Activity) (r : SRoute) (p : I64.Proposal),
      ProblemData.make data = .ok data ∧ History data 0 acts r
      ∧ (I64.update data r).isSome = true
      ∧ Proposed data 0 acts 9 p ∧ p.distance data = none := by
  obtain ⟨h1, h2⟩ := Demo.insertion_proposed (Demo.farData (MAX / 5)) (by decide) (by decide)
  exact ⟨_, _, _, _, by decide +kernel, h1, by decide +kernel, h2, by decide +kernel⟩

/-! ## Non-vacuity -/

namespace Demo

/-- The evaluation of the insertion, with 64-bit numbers. -/
example : I64.deltaCost true costEvaluator data (-1000) (insertion data)
      = some (costEvaluator.deltaCost true data (-1000) (insertion data).plain)
    ∧ (costEvaluator.deltaCost true data (-1000) (insertion data).plain).1 ≠ -1000 := by
  have hs : Small data 50 1000 := by constructor <;> decide
  exact ⟨C58_one_route data goodData 50 1000 (by decide) hs costEvaluator smallPenalties 0 (by decide) acts 9
    _ (insertion_proposed data (by decide) (by decide)).2 (-1000) (by unfold MoveRoom; decide) true,
    by decide +kernel⟩

/-- With distances and times up to a million, unit costs and penalties up to 100000 and two load dimensions,
there is room for routes with 440000 nodes. -/
example (h : ProblemData) (hd : h.numLoadDimensions = 2) : MoveRoom h 1000000 100000 440000 1000 := by
  unfold MoveRoom; rw [hd]; decide

end Demo
end PyVRP
