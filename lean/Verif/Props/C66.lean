import Verif.Model.ModelSolve
import Verif.Props.C39
import Verif.Props.C47
/-!
# C66: building a model and solving it

A model that is built by calls of `Model`'s methods with numbers of moderate size is solved by `Model.solve`, which
raises only if the data of the model cannot be built.
-/
namespace PyVRP
open ModelApi

namespace Spec

/-- The numbers in the calls are at most `B`, and the longest possible route still fits. -/
structure ModestCalls (calls : List Call) (missingValue : Int) (B : Nat) : Prop where
  pos : 0 < B
  half : (B : Int) ≤ HALF
  /-- The value for missing edges; it is capped (C39). -/
  missing : 0 ≤ missingValue ∧ min missingValue MAX_VALUE ≤ B
  edges : ∀ p, ∀ e ∈ edgesOf calls p, e.distance ≤ B ∧ e.duration ≤ B
  clients : ∀ c ∈ clientsOf calls, c.2.2.twEarly ≤ B ∧ c.2.2.twLate ≤ MAX ∧ c.2.2.serviceDuration ≤ B
    ∧ c.2.2.releaseTime ≤ B
  depots : ∀ c ∈ depotsOf calls, c.2.2.twEarly ≤ B ∧ c.2.2.twLate ≤ MAX ∧ c.2.2.serviceDuration ≤ B
  pickups : ∀ c ∈ shipmentsOf calls, c.2.2.pickup.twEarly ≤ B ∧ c.2.2.pickup.twLate ≤ MAX
    ∧ c.2.2.pickup.serviceDuration ≤ B
  deliveries : ∀ c ∈ shipmentsOf calls, c.2.2.delivery.twEarly ≤ B ∧ c.2.2.delivery.twLate ≤ MAX
    ∧ c.2.2.delivery.serviceDuration ≤ B
  vehicles : ∀ v ∈ vehicleTypesOf calls, v.2.2.2.2.twEarly ≤ B ∧ v.2.2.2.2.twLate ≤ MAX
    ∧ v.2.2.2.2.maxReloads ≤ SIZE_MAX
  /-- Vehicles that may reload make one trip more than they reload, others one trip. -/
  total : ∀ v ∈ vehicleTypesOf calls,
    ((3 * B * ((clientsOf calls).length + 2 * (shipmentsOf calls).length
      + (if v.2.2.2.1 = [] then 1 else v.2.2.2.2.maxReloads + 1) + 4) : Nat) : Int) ≤ HALF
  /-- There are no release times, or no vehicle may reload. -/
  releases : (∀ c ∈ clientsOf calls, c.2.2.releaseTime = 0) ∨ ∀ v ∈ vehicleTypesOf calls, v.2.2.2.1 = []

end Spec
open Spec

namespace ModelApi

theorem All2.right {α β : Type} {R : α → β → Prop} {as : List α} {bs : List β} (h : All2 R as bs) {b : β}
    (hb : b ∈ bs) : ∃ a ∈ as, R a b := by
  induction h with
  | nil => simp at hb
  | cons h1 _ ih =>
    rcases List.mem_cons.1 hb with rfl | hb
    · exact ⟨_, by simp, h1⟩
    · obtain ⟨a, ha, hR⟩ := ih hb
      exact ⟨a, by simp [ha], hR⟩

/-- Every entry is within the bounds. -/
def Within (B : Nat) (a : PyModel.Array2 × PyModel.Array2) : Prop :=
  ∀ i j, 0 ≤ a.1 i j ∧ a.1 i j ≤ B ∧ 0 ≤ a.2 i j ∧ a.2 i j ≤ B

theorem setEdges_within {B : Nat} {refs : List Nat} {edges : List Edge}
    (he : ∀ e ∈ edges, 0 ≤ e.distance ∧ e.distance ≤ B ∧ 0 ≤ e.duration ∧ e.duration ≤ B)
    {a a' : PyModel.Array2 × PyModel.Array2} (ha : Within B a) (h : PyModel.setEdges refs edges a = .ok a') :
    Within B a' := by
  induction edges generalizing a with
  | nil => cases h; exact ha
  | cons e rest ih =>
    obtain ⟨dist, dur⟩ := a
    unfold PyModel.setEdges at h
    split at h
    · cases h
    · split at h
      · cases h
      · refine ih (fun e' h' => he e' (by simp [h'])) (fun i j => ?_) h
        have h1 := ha i j
        have h2 := he e (by simp)
        simp only [PyModel.Array2.set]
        split
        · exact h2
        · exact h1

theorem profileArrays_within {B : Nat} {refs : List Nat} {heap : Nat → List Edge} {ps : List Nat}
    (he : ∀ p, ∀ e ∈ heap p, 0 ≤ e.distance ∧ e.distance ≤ B ∧ 0 ≤ e.duration ∧ e.duration ≤ B)
    {base : PyModel.Array2 × PyModel.Array2} (hb : Within B base)
    {arrays : List (PyModel.Array2 × PyModel.Array2)}
    (h : PyModel.profileArrays refs heap base ps = .ok arrays) : ∀ a ∈ arrays, Within B a := by
  induction ps generalizing arrays with
  | nil => cases h; simp
  | cons p rest ih =>
    unfold PyModel.profileArrays at h
    split at h
    · cases h
    · next a ha =>
      split at h
      · cases h
      · next others ho =>
        cases h
        intro x hx
        rcases List.mem_cons.1 hx with rfl | hx
        · exact setEdges_within (he p) hb ha
        · exact ih ho x hx

theorem edge_nonneg {e e' : Edge} (h : Edge.make e = .ok e') : 0 ≤ e.distance ∧ 0 ≤ e.duration := by
  unfold Edge.make at h
  split at h
  · cases h
  · omega

/-- The entries of the matrices are within the bounds. -/
theorem matrices_within {calls : List Call} {m : PyModel} (h : Builds calls m) {missingValue : Int} {B : Nat}
    (hm : ModestCalls calls missingValue B) {d : ProblemData} (hd : m.data missingValue = .ok d) :
    (∀ x ∈ d.dists, ∀ y ∈ x.data, 0 ≤ y ∧ y ≤ B) ∧ (∀ x ∈ d.durs, ∀ y ∈ x.data, 0 ≤ y ∧ y ≤ B) := by
  have R := reflects h
  have he : ∀ p, ∀ e ∈ edgesOf calls p, 0 ≤ e.distance ∧ e.distance ≤ B ∧ 0 ≤ e.duration ∧ e.duration ≤ B :=
    fun p e hin => by
      have h1 := edge_nonneg (R.edgesOk p e hin)
      have h2 := hm.edges p e hin
      exact ⟨h1.1, h2.1, h1.2, h2.2⟩
  have hblank : Within B (PyModel.blank missingValue, PyModel.blank missingValue) := by
    intro i j
    have h1 := hm.missing
    have h2 : (0 : Int) ≤ MAX_VALUE := by decide
    unfold PyModel.blank
    dsimp only
    split <;> omega
  unfold PyModel.data at hd
  split at hd
  · cases hd
  · next base hb =>
    have hbase := setEdges_within (by rw [R.edges]; exact he none) hblank hb
    split at hd
    · cases hd
    · next arrays ha =>
      have harr := profileArrays_within (fun p => by rw [R.profileEdges p]; exact he (some p)) hbase ha
      have hmk := ((C37_accepts_exactly_consistent _ d).1 (lift_ok hd)).1
      subst hmk
      dsimp only
      have hall : ∀ a ∈ (if m.profiles = [] then [base] else arrays), Within B a := by
        intro a hin
        split at hin
        · rw [List.mem_singleton.1 hin]; exact hbase
        · exact harr a hin
      generalize (if m.profiles = [] then [base] else arrays) = l at hall
      constructor
      · intro x hx y hy
        obtain ⟨a, hin, rfl⟩ := List.mem_map.1 hx
        obtain ⟨k, -, rfl⟩ := List.mem_map.1 hy
        exact ⟨(hall a hin _ _).1, (hall a hin _ _).2.1⟩
      · intro x hx y hy
        obtain ⟨a, hin, rfl⟩ := List.mem_map.1 hx
        obtain ⟨k, -, rfl⟩ := List.mem_map.1 hy
        exact (hall a hin _ _).2.2

end ModelApi
open ModelApi

namespace ModelApi
variable {calls : List Call} {m : PyModel} {missingValue : Int} {B : Nat} {d : ProblemData}

theorem data_made (hd : m.data missingValue = .ok d) : ProblemData.make d = .ok d := by
  unfold PyModel.data at hd
  split at hd
  · cases hd
  · split at hd
    · cases hd
    · have hmk := lift_ok hd
      have := ((C37_accepts_exactly_consistent _ d).1 hmk).1
      rw [← this] at hmk
      exact hmk

theorem client_within (h : Builds calls m) (hm : ModestCalls calls missingValue B)
    (hd : m.data missingValue = .ok d) : ∀ c ∈ d.clients, 0 ≤ c.twEarly ∧ c.twEarly ≤ c.twLate ∧ c.twLate ≤ MAX
      ∧ c.twEarly ≤ B ∧ 0 ≤ c.serviceDuration ∧ c.serviceDuration ≤ B ∧ 0 ≤ c.releaseTime ∧ c.releaseTime ≤ B
      ∧ ∃ call ∈ clientsOf calls, c.releaseTime = call.2.2.releaseTime := by
  intro c hc
  obtain ⟨call, hin, i, g, -, -, hmk⟩ := All2.right (C39_objects h hd).1 hc
  have hok := (C36_client_accepts _).1.1 ⟨c, hmk⟩
  have hf := (C36_client_fields _ _ hmk).2.2
  have hb := hm.clients call hin
  rw [hf]
  exact ⟨hok.early, hok.window, hb.2.1, hb.1, hok.service, hb.2.2.1, hok.release.1, hb.2.2.2, call, hin, rfl⟩

theorem depot_within (h : Builds calls m) (hm : ModestCalls calls missingValue B)
    (hd : m.data missingValue = .ok d) : ∀ c ∈ d.depots, 0 ≤ c.twEarly ∧ c.twEarly ≤ c.twLate ∧ c.twLate ≤ MAX
      ∧ c.twEarly ≤ B ∧ 0 ≤ c.serviceDuration ∧ c.serviceDuration ≤ B := by
  intro c hc
  obtain ⟨call, hin, -, i, -, hmk⟩ := All2.right (C39_objects h hd).2.1 hc
  obtain ⟨hf, hok⟩ := ((C36_depot_accepts _).1 c).1 hmk
  have hb := hm.depots call hin
  rw [hf]
  exact ⟨hok.early, hok.window, hb.2.1, hb.1, hok.service, hb.2.2⟩

theorem shipment_within (h : Builds calls m) (hm : ModestCalls calls missingValue B)
    (hd : m.data missingValue = .ok d) : ∀ c ∈ d.shipments,
      (0 ≤ c.pickup.twEarly ∧ c.pickup.twEarly ≤ c.pickup.twLate ∧ c.pickup.twLate ≤ MAX
        ∧ c.pickup.twEarly ≤ B ∧ 0 ≤ c.pickup.serviceDuration ∧ c.pickup.serviceDuration ≤ B)
      ∧ (0 ≤ c.delivery.twEarly ∧ c.delivery.twEarly ≤ c.delivery.twLate ∧ c.delivery.twLate ≤ MAX
        ∧ c.delivery.twEarly ≤ B ∧ 0 ≤ c.delivery.serviceDuration ∧ c.delivery.serviceDuration ≤ B) := by
  intro c hc
  obtain ⟨call, hin, i, j, -, -, hmk⟩ := All2.right (C39_objects h hd).2.2.1 hc
  obtain ⟨hf, hok⟩ := ((C36_shipment_accepts _).1 c).1 hmk
  have hb := hm.pickups call hin
  have hb' := hm.deliveries call hin
  rw [hf]
  exact ⟨⟨hok.pickup.early, hok.pickup.window, hb.2.1, hb.1, hok.pickup.service, hb.2.2⟩,
    hok.delivery.early, hok.delivery.window, hb'.2.1, hb'.1, hok.delivery.service, hb'.2.2⟩

theorem All2.nil_iff {α β : Type} {R : α → β → Prop} {as : List α} {bs : List β} (h : All2 R as bs) :
    bs = [] ↔ as = [] := by
  cases h <;> simp

theorem vehicle_within (h : Builds calls m) (hm : ModestCalls calls missingValue B)
    (hd : m.data missingValue = .ok d) : ∀ v ∈ d.vehicleTypes,
      (∃ args, VehicleType.make args = .ok v) ∧ 0 ≤ v.twEarly ∧ v.twEarly ≤ v.startLate
      ∧ v.startLate ≤ v.twLate ∧ v.twLate ≤ MAX ∧ v.twEarly ≤ B
      ∧ v.maxReloads ≤ SIZE_MAX
      ∧ ∃ call ∈ vehicleTypesOf calls, (v.reloadDepots = [] ↔ call.2.2.2.1 = [])
        ∧ v.maxTrips = if call.2.2.2.1 = [] then 1 else call.2.2.2.2.maxReloads + 1 := by
  intro v hv
  obtain ⟨call, hin, s, e, p, r, -, -, -, hr, hmk⟩ := All2.right (C39_objects h hd).2.2.2.1 hv
  have hok := (C36_vehicle_accepts _).1.1 ⟨v, hmk⟩
  obtain ⟨-, -, -, h1, h2, -, -, -, -, -, -, h3, h4, -, -, -, h5, -⟩ := C36_vehicle_fields _ _ hmk
  have hb := hm.vehicles call hin
  have hw := hok.window
  have hs := hok.startLate
  have he := hok.early
  dsimp only at h1 h2 h3 h4 h5 hw hs he
  have hsl : v.twEarly ≤ v.startLate ∧ v.startLate ≤ v.twLate := by
    rw [h5, h1, h2]
    cases hc : call.2.2.2.2.startLate with
    | none => exact ⟨hw, Int.le_refl _⟩
    | some t => exact hs t hc
  have hnil : v.reloadDepots = [] ↔ call.2.2.2.1 = [] := by rw [h3]; exact All2.nil_iff hr
  refine ⟨⟨_, hmk⟩, by rw [h1]; exact he, hsl.1, hsl.2, by rw [h2]; exact hb.2.1, by rw [h1]; exact hb.1,
    by rw [h4]; exact hb.2.2, call, hin, hnil, ?_⟩
  unfold VehicleType.maxTrips
  by_cases hn : v.reloadDepots = []
  · rw [if_pos hn, if_pos (hnil.1 hn)]
  · rw [if_neg hn, if_neg (fun h => hn (hnil.2 h)), h4]
    have ht := hm.total call hin
    rw [if_neg (fun h => hn (hnil.2 h))] at ht
    have hp := hm.pos
    have h6 : 1 * ((clientsOf calls).length + 2 * (shipmentsOf calls).length
        + (call.2.2.2.2.maxReloads + 1) + 4) ≤ 3 * B * ((clientsOf calls).length
        + 2 * (shipmentsOf calls).length + (call.2.2.2.2.maxReloads + 1) + 4) :=
      Nat.mul_le_mul_right _ (by omega)
    generalize 3 * B * ((clientsOf calls).length
        + 2 * (shipmentsOf calls).length + (call.2.2.2.2.maxReloads + 1) + 4) = t at ht h6
    unfold HALF at ht
    rw [Nat.mod_eq_of_lt (by omega)]
    omega

theorem numClients_eq (h : Builds calls m) (hd : m.data missingValue = .ok d) :
    d.numClients = (clientsOf calls).length ∧ d.numShipments = (shipmentsOf calls).length :=
  ⟨(All2.length_eq' (C39_objects h hd).1).symm, (All2.length_eq' (C39_objects h hd).2.2.1).symm⟩

/-- The data is as `solve` needs it. -/
theorem data_good (h : Builds calls m) (hm : ModestCalls calls missingValue B)
    (hd : m.data missingValue = .ok d) : GoodData d where
  made := data_made hd
  vehicles v hv := (vehicle_within h hm hd v hv).1
  times := by
    have hh := hm.half
    refine ⟨fun c hc => ?_, fun c hc => ?_, fun s hs => ?_, fun s hs => ?_, fun v hv => ?_, fun x hx y hy => ?_⟩
    · have := client_within h hm hd c hc; omega
    · have := depot_within h hm hd c hc; omega
    · have := (shipment_within h hm hd s hs).1; omega
    · have := (shipment_within h hm hd s hs).2; omega
    · have := (vehicle_within h hm hd v hv).2; omega
    · exact ((matrices_within h hm hd).2 x hx y hy).1

theorem data_moderate (h : Builds calls m) (hm : ModestCalls calls missingValue B)
    (hd : m.data missingValue = .ok d) : Moderate d B where
  pos := hm.pos
  times := by
    rintro ⟨ty, idx⟩ hr
    cases ty with
    | depot =>
      have hlt : idx < d.depots.length := hr
      have := depot_within h hm hd _ (List.getElem_mem hlt)
      have e : d.depot idx = d.depots[idx] := by simp [ProblemData.depot, hlt]
      simp only [earliest, released, serviceTime, e]
      omega
    | client =>
      have hlt : idx < d.clients.length := hr
      have := client_within h hm hd _ (List.getElem_mem hlt)
      have e : d.client idx = d.clients[idx] := by simp [ProblemData.client, hlt]
      simp only [earliest, released, serviceTime, e]
      omega
    | pickup =>
      have hlt : idx < d.shipments.length := hr
      have := (shipment_within h hm hd _ (List.getElem_mem hlt)).1
      have e : d.shipment idx = d.shipments[idx] := by simp [ProblemData.shipment, hlt]
      simp only [earliest, released, serviceTime, e]
      omega
    | delivery =>
      have hlt : idx < d.shipments.length := hr
      have := (shipment_within h hm hd _ (List.getElem_mem hlt)).2
      have e : d.shipment idx = d.shipments[idx] := by simp [ProblemData.shipment, hlt]
      simp only [earliest, released, serviceTime, e]
      omega
  vehicles v hv := by have := (vehicle_within h hm hd v hv).2; omega
  durations x hx y hy := ((matrices_within h hm hd).2 x hx y hy).2
  distances x hx y hy := ((matrices_within h hm hd).1 x hx y hy).2
  total v hv := by
    obtain ⟨-, -, -, -, -, -, -, call, hin, -, ht⟩ := vehicle_within h hm hd v hv
    rw [(numClients_eq h hd).1, (numClients_eq h hd).2, ht]
    exact hm.total call hin
  releases := by
    rcases hm.releases with hr | hr
    · refine .inl fun c hc => ?_
      obtain ⟨-, -, -, -, -, -, -, -, call, hin, e⟩ := client_within h hm hd c hc
      rw [e]; exact hr call hin
    · refine .inr fun v hv => .inl ?_
      obtain ⟨-, -, -, -, -, -, -, call, hin, hn, -⟩ := vehicle_within h hm hd v hv
      exact hn.2 (hr call hin)

theorem filterMap_idx_nodup {α : Type} (l : List α) (p : α → Bool) (k : Nat) :
    ((l.zipIdx k).filterMap fun c => if p c.1 then some c.2 else none).Nodup
      ∧ ∀ x ∈ (l.zipIdx k).filterMap fun c => if p c.1 then some c.2 else none, k ≤ x := by
  induction l generalizing k with
  | nil => simp
  | cons a l ih =>
    obtain ⟨h1, h2⟩ := ih (k + 1)
    rw [List.zipIdx_cons, List.filterMap_cons]
    by_cases ha : p a = true
    · simp only [ha, if_true]
      refine ⟨List.nodup_cons.2 ⟨fun hin => by have := h2 k hin; omega, h1⟩, fun x hx => ?_⟩
      rcases List.mem_cons.1 hx with rfl | hx
      · omega
      · have := h2 x hx; omega
    · simp only [ha]
      exact ⟨h1, fun x hx => by have := h2 x hx; omega⟩

theorem groups_nodup (h : Builds calls m) (hd : m.data missingValue = .ok d) :
    ∀ g ∈ d.groups, g.clients.Nodup := by
  intro g hg
  rw [(C39_objects h hd).2.2.2.2] at hg
  obtain ⟨g', -, rfl⟩ := List.mem_map.1 hg
  have := (filterMap_idx_nodup (clientsOf calls) (fun c => decide (c.2.1 = some g'.1)) 0).1
  simpa [membersOf] using this

end ModelApi
open ModelApi

/-- **C66.** A model that is built from moderate numbers is solved: with a criterion that stops, the call returns
a result whose solution is one of the data and, unless the initial solution is returned, visits all that is
required. It is not worse than the initial solution if that is feasible. -/
theorem C66_solves {calls : List Call} {m : PyModel} (h : Builds calls m) {missingValue : Int} {B : Nat}
    (hm : ModestCalls calls missingValue B) {d : ProblemData} (hd : m.data missingValue = .ok d)
    (R : Rounding) (params : SolveParams) (hp : GoodParams R params) (seed : BitVec 32)
    (stop : Criterion) (hstop : ∀ least, Stops Criterion.call least stop)
    (clock : Nat → Int) (hclock : ∀ i j, i ≤ j → clock i ≤ clock j) (collectStats : Bool)
    (initial : Option Solution) (hinit : ∀ s, initial = some s → Accepted d s) :
    ∃ enough res, (∀ fuel rounds, enough ≤ fuel → enough ≤ rounds →
        m.solve R stop clock seed collectStats params missingValue initial fuel rounds = .ok (some res))
      ∧ Accepted d res.best ∧ (res.best.isComplete = true ∨ initial = some res.best)
      ∧ ∀ s, initial = some s → s.isFeasible = true → objective s ≤ MAX →
          res.best.isFeasible = true ∧ objective res.best ≤ objective s := by
  obtain ⟨enough, res, h1, h2⟩ := C47_returns_partial d (data_good h hm hd) B (data_moderate h hm hd)
    (fun v hv => by have := (vehicle_within h hm hd v hv).2; omega) (groups_nodup h hd) R params hp Rng.next
    (Rng.ofSeed seed) Criterion.call stop hstop clock hclock collectStats initial hinit
  refine ⟨enough, res, fun fuel rounds hf hr => ?_, h2⟩
  unfold PyModel.solve
  rw [hd]
  dsimp only
  unfold Solve.solveSeed
  rw [h1 fuel rounds hf hr]
  rfl

/-- **C66.** `Model.solve` raises exactly when, and what, `Model.data` raises. -/
theorem C66_raises {calls : List Call} {m : PyModel} (h : Builds calls m) {missingValue : Int} {B : Nat}
    (hm : ModestCalls calls missingValue B) (R : Rounding) (params : SolveParams) (hp : GoodParams R params)
    (seed : BitVec 32) (stop : Criterion) (clock : Nat → Int) (hclock : ∀ i j, i ≤ j → clock i ≤ clock j)
    (collectStats : Bool) (initial : Option Solution)
    (hinit : ∀ d s, m.data missingValue = .ok d → initial = some s → Accepted d s) (fuel rounds : Nat)
    (e : ApiError) :
    m.solve R stop clock seed collectStats params missingValue initial fuel rounds = .error e
      ↔ m.data missingValue = .error e := by
  unfold PyModel.solve
  cases hd : m.data missingValue with
  | error e' => simp
  | ok d =>
    simp only [reduceCtorEq, iff_false]
    have hfit : FitsMemory d := by
      intro v hv
      have h1 := (data_moderate h hm hd).total v hv
      have h2 := hm.pos
      have h3 : 1 * (d.numClients + 2 * d.numShipments + v.maxTrips + 4)
          ≤ 3 * B * (d.numClients + 2 * d.numShipments + v.maxTrips + 4) := Nat.mul_le_mul_right _ (by omega)
      generalize 3 * B * (d.numClients + 2 * d.numShipments + v.maxTrips + 4) = t at h1 h3
      unfold HALF at h1
      unfold SIZE_MAX
      omega
    rcases C47_valid d (data_good h hm hd)
      (fun v hv => by have := (vehicle_within h hm hd v hv).2; omega) (groups_nodup h hd) hfit R params hp
      Rng.next (Rng.ofSeed seed) Criterion.call stop clock hclock collectStats initial
      (fun s hs => hinit d s hd hs) fuel rounds with h1 | ⟨res, h1, -⟩
    · unfold Solve.solveSeed
      rw [h1]
      intro hc; cases hc
    · unfold Solve.solveSeed
      rw [h1]
      intro hc; cases hc

/-! ## Non-vacuity -/
namespace C66

/-- A model with a depot, a group of two clients, a shipment and two vehicle types, one of which may reload
twice. -/
def demo : List Call :=
  [.location 10 ⟨0, 0, ""⟩, .location 11 ⟨3, 4, ""⟩, .edge ⟨10, 11, 5, 6⟩ none, .edge ⟨11, 10, 7, 8⟩ none,
   .depot 30 11 ⟨0, 0, MAX, 0, ""⟩, .group 40 true "g",
   .client 11 none ⟨0, [1], [0], 1, 0, 50, 0, 0, true, none, ""⟩,
   .client 10 (some 40) ⟨0, [2], [0], 1, 0, 50, 0, 0, false, none, ""⟩,
   .client 11 (some 40) ⟨0, [2], [1], 1, 0, 50, 0, 3, false, none, ""⟩,
   .shipment 10 11 ⟨⟨0, 0, 100, 0⟩, ⟨0, 0, 100, 0⟩, [3], 0, true, ""⟩,
   .vehicleType none none none [30] { capacity := [10], maxReloads := 2 },
   .vehicleType (some 30) (some 30) none [] { capacity := [5] }]

/-- The numbers are moderate even with the default value for missing edges. -/
theorem demo_modest : ModestCalls demo MAX_VALUE 17592186044416 where
  pos := by decide
  half := by decide
  missing := by decide
  edges p e he := by
    have : ∀ e ∈ edgesOf demo none, e.distance ≤ (17592186044416 : Nat) ∧ e.duration ≤ (17592186044416 : Nat) := by
      decide
    cases p with
    | none => exact this e he
    | some p => simp [edgesOf, demo] at he
  clients := by decide
  depots := by decide
  pickups := by decide
  deliveries := by decide
  vehicles := by decide
  total := by decide
  releases := by decide

/-- It is solved from every seed. -/
example (seed : BitVec 32) : ∃ m, Builds demo m ∧ ∃ enough res, ∀ fuel rounds, enough ≤ fuel → enough ≤ rounds →
    m.solve .exact (.maxIterations 3 0) (fun i => i) seed true {} MAX_VALUE none fuel rounds = .ok (some res)
      ∧ res.best.isComplete = true := by
  have hrun : ((C39.runAll {} demo).bind fun m => (m.data MAX_VALUE).toOption).isSome = true := by decide
  cases hm : C39.runAll {} demo with
  | none => rw [hm] at hrun; simp at hrun
  | some m =>
    rw [hm, Option.bind_some] at hrun
    have hb : Builds demo m := C39.builds .new (by decide) hm
    cases hd : m.data MAX_VALUE with
    | error e => rw [hd] at hrun; simp [Except.toOption] at hrun
    | ok d =>
      obtain ⟨enough, res, h1, -, h2, -⟩ := C66_solves hb demo_modest hd .exact {} Demo.defaultParams_good seed
        (.maxIterations 3 0) (fun least => (C47_criteria least).1 3 _ rfl) (fun i => i)
        (fun i j h => Int.ofNat_le.2 h) true none (by simp)
      exact ⟨m, hb, enough, res, fun fuel rounds hf hr => ⟨h1 fuel rounds hf hr, by simpa using h2⟩⟩

/-- An edge to a location that is not in the model makes the call raise. -/
example : ((C39.runAll {} (demo ++ [.edge ⟨10, 99, 1, 1⟩ none])).bind fun m =>
      match m.solve .exact (.maxIterations 3 0) (fun i => i) 42 true {} MAX_VALUE none 10 10 with
      | .error e => some e
      | .ok _ => none) = some .keyError := by decide

end C66
end PyVRP
