import Verif.Lemmas.Load
/-!
# C03: load segments compute the peak load
# C02 (loads): merging does not depend on the split
-/
namespace PyVRP
open Spec

/-- Segments for single visits, as made by the constructors from a client or one of
the two activities of a shipment. -/
inductive VisitSeg (dim : Nat) : LoadSeg → LoadEvent → Prop
  /-- A client: its delivery is on board from the start of the trip, and at the visit
  it is dropped off and its pickup loaded. -/
  | client (c : Client) : VisitSeg dim (LoadSeg.ofClient c dim)
      ⟨c.delivery.getD dim 0, c.pickup.getD dim 0 - c.delivery.getD dim 0⟩
  | pickup (s : Shipment) : VisitSeg dim (LoadSeg.ofShipment s .pickup dim)
      ⟨0, s.amount.getD dim 0⟩
  | delivery (s : Shipment) : VisitSeg dim (LoadSeg.ofShipment s .delivery dim)
      ⟨0, - s.amount.getD dim 0⟩

/-- `Merged dim s es`: segment `s` was obtained by merging the segments of visits with
the events `es`, in order, with any order of concatenation; `{}` is the segment of no
visits (default constructor). -/
inductive Merged (dim : Nat) : LoadSeg → List LoadEvent → Prop
  | empty : Merged dim {} []
  | visit {s : LoadSeg} {e : LoadEvent} : VisitSeg dim s e → Merged dim s [e]
  | merge {a b : LoadSeg} {la lb : List LoadEvent} :
      Merged dim a la → Merged dim b lb → Merged dim (LoadSeg.merge a b) (la ++ lb)

theorem C03.rep {dim : Nat} {s : LoadSeg} {es : List LoadEvent} (h : Merged dim s es) :
    s.Rep es ∧ s.excessLoad_ = 0 := by
  induction h with
  | empty => exact ⟨.nil, rfl⟩
  | visit hv =>
    cases hv with
    | client c => exact ⟨LoadSeg.ofClient_rep c dim, rfl⟩
    | pickup c => exact ⟨LoadSeg.ofPickup_rep c dim, rfl⟩
    | delivery c => exact ⟨LoadSeg.ofDelivery_rep c dim, rfl⟩
  | merge _ _ ha hb =>
    exact ⟨LoadSeg.Rep.merge ha.1 hb.1, by simp [LoadSeg.merge, ha.2, hb.2]⟩

/-- **C03.** `load()` of a merged segment is the largest amount on board at any moment
of the trip. -/
theorem C03_load_is_peak {dim : Nat} {s : LoadSeg} {es : List LoadEvent} (h : Merged dim s es) :
    IsPeak s.load (tripAmounts 0 es) := by
  have h := (C03.rep h).1
  rw [h.load, tripAmounts, Int.zero_add]
  exact isPeak_peak _ _

/-- **C03.** `excess_load(capacity)` of a trip `s` that follows an already finalised part
`prev` is the excess of that part, plus what the peak load of this trip exceeds the
capacity. -/
theorem C03_excess_load {dim : Nat} {s prev : LoadSeg} {es : List LoadEvent} {m : Int}
    (capacity : Int) (h : Merged dim s es) (hm : IsPeak m (tripAmounts 0 es)) :
    (LoadSeg.merge (prev.finalise capacity) s).excessLoad capacity
      = prev.excessLoad capacity + max (m - capacity) 0 := by
  have hm' := IsPeak.unique hm (C03_load_is_peak h)
  obtain ⟨hr, he⟩ := C03.rep h
  have hinc : 0 ≤ s.increase_ := by rw [hr.increase]; exact le_peak 0 es
  subst hm'
  simp only [LoadSeg.merge, LoadSeg.finalise, LoadSeg.excessLoad, LoadSeg.load, he]
  omega

/-- **C03.** The vehicle's initial load, merged in front of a trip, is on board during
the whole trip. -/
theorem C03_initial_load {dim : Nat} {s : LoadSeg} {es : List LoadEvent} (v : VehicleType)
    (h : Merged dim s es) :
    IsPeak (LoadSeg.merge (LoadSeg.ofVehicle v dim) s).load
      (tripAmounts (v.initialLoad.getD dim 0) es) := by
  have hr := (C03.rep h).1
  have hinc : 0 ≤ s.increase_ := by rw [hr.increase]; exact le_peak 0 es
  have hload : (LoadSeg.merge (LoadSeg.ofVehicle v dim) s).load
      = v.initialLoad.getD dim 0 + s.load := by
    simp only [LoadSeg.merge, LoadSeg.ofVehicle, LoadSeg.load]; omega
  rw [hload, hr.load, tripAmounts, Int.add_comm, ← peak_shift,
    Int.add_comm (v.initialLoad.getD dim 0)]
  exact isPeak_peak _ _

/-- **C02 (loads).** `LoadSegment.merge` is associative. -/
theorem C02_load_merge_assoc (a b c : LoadSeg) :
    LoadSeg.merge (LoadSeg.merge a b) c = LoadSeg.merge a (LoadSeg.merge b c) := by
  simp only [LoadSeg.merge, LoadSeg.mk.injEq]; omega

/-- **C02 (loads).** Segments of the same visits, however they were put together, are
equal. -/
theorem C02_load_split_independent {dim : Nat} {s s' : LoadSeg} {es : List LoadEvent}
    (h : Merged dim s es) (h' : Merged dim s' es) : s = s' := by
  obtain ⟨⟨a1, a2, a3⟩, a4⟩ := C03.rep h
  obtain ⟨⟨b1, b2, b3⟩, b4⟩ := C03.rep h'
  cases s; cases s'; simp_all

/-! ## Non-vacuity -/

/-- Deliver 5, pick up 3; then pick up a shipment of 10, and deliver it. -/
def C03.demoClient : Client :=
  { location := 0, delivery := [5], pickup := [3], serviceDuration := 0, twEarly := 0, twLate := 0
    releaseTime := 0, prize := 0, required := true, group := none, name := "" }
def C03.demoShipment : Shipment :=
  { pickup := default, delivery := default, amount := [10], prize := 0, required := true, name := "" }

example : ∃ s, Merged 0 s [⟨5, -2⟩, ⟨0, 10⟩, ⟨0, -10⟩] ∧ s.load = 13 ∧ s.excessLoad 12 = 1 :=
  ⟨_, .merge (.visit (.client C03.demoClient))
      (.merge (.visit (.pickup C03.demoShipment)) (.visit (.delivery C03.demoShipment))),
    by decide, by decide⟩

end PyVRP
