import Verif.Lemmas.Data
/-!
# C37: problem data is internally consistent
-/
namespace PyVRP
open Spec

namespace C37

theorem findSome?_zipIdx_eq_none {α : Type} (l : List α) (f : Nat → α → Option Error) :
    l.zipIdx.findSome? (fun p => f p.2 p.1) = none ↔ ∀ (i : Nat) (x : α), l[i]? = some x → f i x = none := by
  simp only [List.findSome?_eq_none_iff, Prod.forall]
  constructor
  · intro h i x hx
    exact h x i (by rw [List.mem_zipIdx_iff_getElem?]; exact hx)
  · intro h x i hx
    rw [List.mem_zipIdx_iff_getElem?] at hx
    exact h i x hx

theorem dims_of_vehicle {d : ProblemData} (h : d.vehicleTypes ≠ []) :
    ∃ v ∈ d.vehicleTypes, d.numLoadDimensions = v.capacity.length := by
  cases hv : d.vehicleTypes with
  | nil => exact absurd hv h
  | cons v rest => exact ⟨v, by simp, by simp [ProblemData.numLoadDimensions, hv]⟩

theorem overlap_iff (a b c e : Int) :
    ¬ (ProblemData.hasTimeOverlap a b c e = false) ↔ a ≤ e ∧ c ≤ b := by
  simp [ProblemData.hasTimeOverlap]

theorem getD_of_getElem? {α : Type} {l : List α} {i : Nat} {x y : α} (h : l[i]? = some x) :
    l.getD i y = x := by
  simp [List.getD_eq_getElem?_getD, h]

theorem clientError_none (d : ProblemData) (i : Nat) (c : Client) :
    d.clientError i c = none ↔
      c.location < d.locations.length ∧ c.delivery.length = d.numLoadDimensions
      ∧ c.pickup.length = d.numLoadDimensions
      ∧ ∀ g, c.group = some g →
        ∃ grp : ClientGroup, d.groups[g]? = some grp ∧ i ∈ grp.clients ∧ c.required = false := by
  unfold ProblemData.clientError
  simp only [throwIf_orElse_eq_none]
  simp only [ProblemData.numLocations, Decidable.not_not, Nat.not_le, ge_iff_le]
  refine and_congr_right fun _ => and_congr_right fun _ => and_congr_right fun _ => ?_
  cases hg : c.group with
  | none => simp
  | some g =>
    simp only [throwIf_orElse_eq_none, throwIf_eq_none]
    simp only [ProblemData.numGroups, Nat.not_le,
      Decidable.not_not, ClientGroup.mutuallyExclusive, and_true, Bool.not_eq_true,
      Option.some.injEq, forall_eq']
    constructor
    · rintro ⟨h1, h2, h3⟩
      have hg' : d.groups[g]? = some (d.groups[g]) := List.getElem?_eq_getElem h1
      refine ⟨_, hg', ?_, h3⟩
      rw [ProblemData.group, getD_of_getElem? hg'] at h2
      exact h2
    · rintro ⟨grp, h1, h2, h3⟩
      obtain ⟨hlt, _⟩ := List.getElem?_eq_some_iff.1 h1
      refine ⟨hlt, ?_, h3⟩
      rw [ProblemData.group, getD_of_getElem? h1]
      exact h2

theorem groupError_none (d : ProblemData) (g : Nat) (grp : ClientGroup) :
    d.groupError g grp = none ↔
      grp.clients ≠ [] ∧ ∀ i ∈ grp.clients, ∃ c : Client, d.clients[i]? = some c ∧ c.group = some g := by
  unfold ProblemData.groupError
  simp only [throwIf_orElse_eq_none, List.findSome?_eq_none_iff]
  refine and_congr_right fun _ => forall₂_congr fun i _ => ?_
  unfold ProblemData.memberError
  simp only [throwIf_orElse_eq_none, throwIf_eq_none]
  simp only [ProblemData.numClients, Nat.not_le,
    Decidable.not_not, ge_iff_le]
  constructor
  · rintro ⟨h1, h2⟩
    have hc : d.clients[i]? = some (d.clients[i]) := List.getElem?_eq_getElem h1
    refine ⟨_, hc, ?_⟩
    rwa [ProblemData.client, getD_of_getElem? hc] at h2
  · rintro ⟨c, h1, h2⟩
    obtain ⟨hlt, _⟩ := List.getElem?_eq_some_iff.1 h1
    refine ⟨hlt, ?_⟩
    rwa [ProblemData.client, getD_of_getElem? h1]

theorem shipmentError_none (d : ProblemData) (s : Shipment) :
    d.shipmentError s = none ↔ s.pickup.location < d.locations.length
      ∧ s.delivery.location < d.locations.length ∧ s.amount.length = d.numLoadDimensions := by
  unfold ProblemData.shipmentError
  simp only [throwIf_orElse_eq_none, throwIf_eq_none]
  simp [ProblemData.numLocations]

theorem depotRef (d : ProblemData) (i : Nat) (a b : Int) :
    (i < d.depots.length ∧ ((d.depot i).twEarly ≤ b ∧ a ≤ (d.depot i).twLate)) ↔
      ∃ dep : Depot, d.depots[i]? = some dep ∧ dep.twEarly ≤ b ∧ a ≤ dep.twLate := by
  constructor
  · rintro ⟨h1, h2⟩
    have hc : d.depots[i]? = some (d.depots[i]) := List.getElem?_eq_getElem h1
    refine ⟨_, hc, ?_⟩
    rwa [ProblemData.depot, getD_of_getElem? hc] at h2
  · rintro ⟨c, h1, h2⟩
    obtain ⟨hlt, _⟩ := List.getElem?_eq_some_iff.1 h1
    refine ⟨hlt, ?_⟩
    rwa [ProblemData.depot, getD_of_getElem? h1]

theorem vehicleTypeError_none (d : ProblemData) (v : VehicleType) :
    d.vehicleTypeError v = none ↔ v.capacity.length = d.numLoadDimensions
      ∧ (∃ dep : Depot, d.depots[v.startDepot]? = some dep
        ∧ dep.twEarly ≤ v.twLate ∧ v.twEarly ≤ dep.twLate)
      ∧ (∃ dep : Depot, d.depots[v.endDepot]? = some dep
        ∧ dep.twEarly ≤ v.twLate ∧ v.twEarly ≤ dep.twLate)
      ∧ v.profile < d.dists.length
      ∧ ∀ i ∈ v.reloadDepots, i < d.depots.length := by
  unfold ProblemData.vehicleTypeError
  simp only [throwIf_orElse_eq_none, List.findSome?_eq_none_iff, throwIf_eq_none]
  simp only [overlap_iff,
    ProblemData.numDepots, Nat.not_le, Decidable.not_not, ge_iff_le, ← depotRef]
  constructor
  · rintro ⟨h1, h2, h3, h4, h5, h6, h7⟩; exact ⟨h1, ⟨h2, h5⟩, ⟨h3, h6⟩, h4, h7⟩
  · rintro ⟨h1, ⟨h2, h5⟩, ⟨h3, h6⟩, h4, h7⟩; exact ⟨h1, h2, h3, h4, h5, h6, h7⟩

theorem matrixError_none (d : ProblemData) (p : Matrix × Matrix) :
    d.matrixError p = none ↔
      (p.1.rows = d.locations.length ∧ p.1.cols = d.locations.length
        ∧ ∀ i, i < d.locations.length → p.1.get i i = 0)
      ∧ (p.2.rows = d.locations.length ∧ p.2.cols = d.locations.length
        ∧ ∀ i, i < d.locations.length → p.2.get i i = 0) := by
  have hd : ∀ i, ProblemData.diagonalError p.1 p.2 i = none ↔ p.1.get i i = 0 ∧ p.2.get i i = 0 := by
    intro i; unfold ProblemData.diagonalError; simp
  unfold ProblemData.matrixError
  simp only [orElse_eq_none', throwIf_eq_none, List.findSome?_eq_none_iff, hd]
  simp only [List.mem_range, ProblemData.numLocations, not_or, Decidable.not_not]
  constructor
  · rintro ⟨⟨h1, h2⟩, ⟨h3, h4⟩, h5⟩
    exact ⟨⟨h1, h2, fun i hi => (h5 i hi).1⟩, h3, h4, fun i hi => (h5 i hi).2⟩
  · rintro ⟨⟨h1, h2, h5⟩, h3, h4, h6⟩
    exact ⟨⟨h1, h2⟩, ⟨h3, h4⟩, fun i hi => ⟨h5 i hi, h6 i hi⟩⟩

theorem forall_mem_zip {α : Type} {a b : List α} (h : a.length = b.length) (P : α → Prop) :
    (∀ p ∈ a.zip b, P p.1 ∧ P p.2) ↔ ∀ x ∈ a ++ b, P x := by
  induction a generalizing b with
  | nil => cases b <;> simp_all
  | cons x xs ih =>
    cases b with
    | nil => simp at h
    | cons y ys =>
      simp only [List.length_cons, Nat.add_right_cancel_iff] at h
      have := ih h
      simp only [List.mem_append] at this
      simp only [List.zip_cons_cons, List.mem_cons, forall_eq_or_imp, this, List.mem_append,
        List.cons_append]
      constructor
      · rintro ⟨⟨h1, h2⟩, h3⟩
        exact ⟨h1, fun z hz => by
          rcases hz with hz | rfl | hz
          · exact h3 z (.inl hz)
          · exact h2
          · exact h3 z (.inr hz)⟩
      · rintro ⟨h1, h2⟩
        exact ⟨⟨h1, h2 y (.inr (.inl rfl))⟩, fun z hz => by
          rcases hz with hz | hz
          · exact h2 z (.inl hz)
          · exact h2 z (.inr (.inr hz))⟩

end C37

open C37 in
/-- **C37.** The `ProblemData` constructor succeeds exactly on consistent data, and keeps it as
given; so every `ProblemData` object is consistent. -/
theorem C37_accepts_exactly_consistent (a d : ProblemData) :
    ProblemData.make a = .ok d ↔ d = a ∧ Consistent a := by
  unfold ProblemData.make
  rw [checked_eq_ok]
  have key : a.validate = none ↔ Consistent a := by
    unfold ProblemData.validate
    have e1 := findSome?_zipIdx_eq_none a.clients a.clientError
    have e2 := findSome?_zipIdx_eq_none a.groups a.groupError
    simp only [orElse_eq_none', e1, e2]
    simp only [throwIf_eq_none, List.findSome?_eq_none_iff]
    simp only [clientError_none, groupError_none, shipmentError_none,
      vehicleTypeError_none, matrixError_none, ProblemData.numLocations, Nat.not_le, not_or,
      Decidable.not_not, ge_iff_le]
    constructor
    · rintro ⟨h1, h2, h3, h4, h5, h6, h7, h8, h9, h10⟩
      have hmem : ∀ c ∈ a.clients, ∃ i : Nat, a.clients[i]? = some c := fun c hc =>
        List.getElem?_of_mem hc
      constructor
      · intro c hc; obtain ⟨i, hi⟩ := hmem c hc; exact (h1 i c hi).1
      · exact h3
      · exact fun s hs => (h5 s hs).1
      · exact fun s hs => (h5 s hs).2.1
      · exact h2
      · exact h6
      · exact h8.1
      · exact fun i c g hc hg => (h1 i c hc).2.2.2 g hg
      · exact h4
      · refine ⟨a.numLoadDimensions, fun c hc => ?_, fun s hs => (h5 s hs).2.2,
          fun v hv => (h7 v hv).1⟩
        obtain ⟨i, hi⟩ := hmem c hc; exact ⟨(h1 i c hi).2.1, (h1 i c hi).2.2.1⟩
      · exact fun v hv => (h7 v hv).2.1
      · exact fun v hv => (h7 v hv).2.2.1
      · exact fun v hv => (h7 v hv).2.2.2.2
      · exact fun v hv => ⟨(h7 v hv).2.2.2.1, by rw [← h9]; exact (h7 v hv).2.2.2.1⟩
      · exact h9
      · exact (forall_mem_zip h9 (fun m => m.rows = a.locations.length
          ∧ m.cols = a.locations.length ∧ ∀ i, i < a.locations.length → m.get i i = 0)).1 h10
    · rintro ⟨c1, c2, c3, c4, c5, c6, c7, c8, c9, ⟨n, c10, c11, c12⟩, c13, c14, c15, c16, c17, c18⟩
      obtain ⟨v0, hv0, hdim⟩ := dims_of_vehicle c6
      have hn : a.numLoadDimensions = n := by rw [hdim, c12 v0 hv0]
      rw [hn]
      refine ⟨fun i c hc => ?_, c5, c2, c9, fun s hs => ⟨c3 s hs, c4 s hs, c11 s hs⟩, c6,
        fun v hv => ⟨c12 v hv, c13 v hv, c14 v hv, (c16 v hv).1, c15 v hv⟩, ⟨c7, ?_⟩, c17, ?_⟩
      · have hm := List.mem_of_getElem? hc
        exact ⟨c1 c hm, (c10 c hm).1, (c10 c hm).2, fun g hg => c8 i c g hc hg⟩
      · intro h0; rw [h0] at c17
        exact c7 (List.eq_nil_of_length_eq_zero (by simpa using c17))
      · exact (forall_mem_zip c17 (fun m => m.rows = a.locations.length
          ∧ m.cols = a.locations.length ∧ ∀ i, i < a.locations.length → m.get i i = 0)).2 c18
  rw [key]
  exact ⟨fun h => ⟨h.2.symm, h.1⟩, fun h => ⟨h.2, h.1.symm⟩⟩

/-- **C37.** Replacing nothing gives the same data. -/
theorem C37_replace_nothing (a d : ProblemData) (h : ProblemData.make a = .ok d) :
    d.replace {} = .ok d := by
  have h' := (C37_accepts_exactly_consistent a d).1 h
  have := (C37_accepts_exactly_consistent d d).2 ⟨rfl, h'.1 ▸ h'.2⟩
  simpa [ProblemData.replace] using this

/-- **C37.** A successful replacement changes exactly the given parts, and the result is
consistent again. -/
theorem C37_replace_changes_exactly (d d' : ProblemData) (r : ProblemData.Replace)
    (h : d.replace r = .ok d') :
    Consistent d'
    ∧ d'.locations = r.locations.getD d.locations ∧ d'.clients = r.clients.getD d.clients
    ∧ d'.depots = r.depots.getD d.depots ∧ d'.vehicleTypes = r.vehicleTypes.getD d.vehicleTypes
    ∧ d'.dists = r.dists.getD d.dists ∧ d'.durs = r.durs.getD d.durs
    ∧ d'.groups = r.groups.getD d.groups ∧ d'.shipments = r.shipments.getD d.shipments := by
  obtain ⟨rfl, hc⟩ := (C37_accepts_exactly_consistent _ d').1 h
  exact ⟨hc, rfl, rfl, rfl, rfl, rfl, rfl, rfl, rfl⟩

/-- **C37.** The number of load dimensions is the common length of all load vectors. -/
theorem C37_derived (d : ProblemData) (h : Consistent d) :
    (∀ c ∈ d.clients, c.delivery.length = d.numLoadDimensions
        ∧ c.pickup.length = d.numLoadDimensions)
    ∧ (∀ s ∈ d.shipments, s.amount.length = d.numLoadDimensions)
    ∧ (∀ v ∈ d.vehicleTypes, v.capacity.length = d.numLoadDimensions) := by
  obtain ⟨n, c10, c11, c12⟩ := h.dimensions
  obtain ⟨v0, hv0, hdim⟩ := C37.dims_of_vehicle h.hasVehicle
  have hn : d.numLoadDimensions = n := by rw [hdim, c12 v0 hv0]
  rw [hn]
  exact ⟨c10, c11, c12⟩

/-! ## Non-vacuity -/

/-- Two locations, a depot, two alternative clients in a group, a shipment, a vehicle. -/
def C37.demo : ProblemData :=
  { locations := [⟨0, 0, ""⟩, ⟨3, 4, ""⟩]
    clients := [⟨1, [2], [0], 1, 0, 50, 0, 0, false, some 0, ""⟩,
                ⟨0, [1], [1], 1, 0, 50, 0, 5, false, some 0, ""⟩,
                ⟨1, [1], [1], 1, 0, 50, 0, 5, true, none, ""⟩]
    depots := [⟨0, 0, 100, 0, ""⟩]
    vehicleTypes := [⟨2, 0, 0, [10], 0, 100, 100, 100, 0, 1, 0, 0, 100, [0], [0], 1, 0, 0, 100, ""⟩]
    dists := [⟨2, 2, [0, 5, 5, 0]⟩]
    durs := [⟨2, 2, [0, 6, 6, 0]⟩]
    groups := [⟨[0, 1], true, ""⟩]
    shipments := [⟨⟨0, 0, 100, 0⟩, ⟨1, 0, 100, 0⟩, [3], 0, true, ""⟩] }

example : ProblemData.make C37.demo = .ok C37.demo := by decide

/-- A group that lists a client that does not refer to it is rejected. -/
example : ProblemData.make { C37.demo with groups := [⟨[0, 1, 2], true, ""⟩] }
    = .error (.invalidArgument "Group references client not in group.") := by decide

example : (C37.demo.replace { durs := some [⟨2, 2, [0, 7, 7, 0]⟩] }).toOption.isSome := by decide

end PyVRP
