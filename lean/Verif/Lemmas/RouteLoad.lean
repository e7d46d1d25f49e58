import Verif.Lemmas.RouteBasic
import Verif.Lemmas.Load
/-!
# Lemmas on the loads of a route
-/
namespace PyVRP
open Spec

namespace Spec

/-- Part of the peak above the capacity, for a trip with these events. -/
def tripExcess (cap : Int) (es : List LoadEvent) : Int :=
  max (peak (loadedAtStart es) es - cap) 0

theorem trips_ne_nil (acts : List Activity) : trips acts ≠ [] := by
  cases acts with
  | nil => simp [trips]
  | cons a rest =>
    simp only [trips]
    split
    · simp
    · split <;> simp

/-- Totals over trips when the events `es` of the first trip have already happened. -/
def excessFrom (data : ProblemData) (dim : Nat) (cap : Int) (es : List LoadEvent) :
    List (List Activity) → Int
  | [] => 0
  | t :: ts => tripExcess cap (es ++ t.map (loadEvent data dim))
      + (ts.map fun t => tripExcess cap (t.map (loadEvent data dim))).sum

end Spec

namespace Route

theorem loadEvent_depot (data : ProblemData) (dim : Nat) (a : Activity) (h : a.type = .depot) :
    loadEvent data dim a = ⟨0, 0⟩ := by simp [loadEvent, h]

/-- `loadStep` reads only the activity of an entry. -/
def loadStepA (data : ProblemData) (v : VehicleType) (dim : Nat) (st : LState)
    (a : Activity) : LState :=
  loadStep data v dim st ⟨a, 0, 0, 0, 0, 0⟩

theorem foldl_loadStep (data : ProblemData) (v : VehicleType) (dim : Nat)
    (l : List ScheduledActivity) (st : LState) :
    l.foldl (loadStep data v dim) st
      = (l.map (·.activity)).foldl (loadStepA data v dim) st := by
  rw [List.foldl_map]
  rfl

/-- State in the middle of a trip with events `es`, with excess `x` from earlier trips. -/
structure LInv (st : LState) (es : List LoadEvent) (x : Int) : Prop where
  rep : st.ls.Rep es
  ex : st.ls.excessLoad_ = x

theorem LInv.finalise {st : LState} {es : List LoadEvent} {x : Int} (h : LInv st es x)
    (cap : Int) : (st.ls.finalise cap).Rep [] ∧
      (st.ls.finalise cap).excessLoad_ = x + tripExcess cap es := by
  refine ⟨⟨rfl, rfl, rfl⟩, ?_⟩
  simp only [LoadSeg.finalise, LoadSeg.excessLoad, h.rep.load, h.ex, tripExcess]

theorem loadStepA_visit (data : ProblemData) (v : VehicleType) (dim : Nat) {st : LState}
    {es : List LoadEvent} {x : Int} (h : LInv st es x) (a : Activity) (ha : a.type ≠ .depot) :
    LInv (loadStepA data v dim st a) (es ++ [loadEvent data dim a]) x := by
  obtain ⟨ty, i⟩ := a
  cases ty with
  | depot => exact absurd rfl ha
  | client =>
    refine ⟨h.rep.merge (LoadSeg.ofClient_rep _ _), ?_⟩
    simp [loadStepA, loadStep, LoadSeg.merge, LoadSeg.ofClient, h.ex]
  | pickup =>
    refine ⟨h.rep.merge (LoadSeg.ofPickup_rep _ _), ?_⟩
    simp [loadStepA, loadStep, LoadSeg.merge, LoadSeg.ofShipment, h.ex]
  | delivery =>
    refine ⟨h.rep.merge (LoadSeg.ofDelivery_rep _ _), ?_⟩
    simp [loadStepA, loadStep, LoadSeg.merge, LoadSeg.ofShipment, h.ex]

theorem foldl_excess (data : ProblemData) (v : VehicleType) (dim : Nat) (acts : List Activity)
    (d : Nat) : ∀ (st : LState) (es : List LoadEvent) (x : Int), LInv st es x →
    LInv ((acts ++ [(⟨.depot, d⟩ : Activity)]).foldl (loadStepA data v dim) st) []
      (x + excessFrom data dim (v.capacity.getD dim 0) es (trips acts)) := by
  induction acts with
  | nil =>
    intro st es x h
    have := h.finalise (v.capacity.getD dim 0)
    simp only [List.nil_append, List.foldl_cons, List.foldl_nil, trips, excessFrom,
      List.map_nil, List.append_nil, List.sum_nil, Int.add_zero]
    exact ⟨this.1, this.2⟩
  | cons a rest ih =>
    intro st es x h
    rw [List.cons_append, List.foldl_cons]
    by_cases ha : a.type = .depot
    · have hf := h.finalise (v.capacity.getD dim 0)
      have h' : LInv (loadStepA data v dim st a) [] (x + tripExcess (v.capacity.getD dim 0) es) := by
        simp only [loadStepA, loadStep, ha]
        exact ⟨hf.1, hf.2⟩
      have := ih _ _ _ h'
      rw [show x + tripExcess (v.capacity.getD dim 0) es
          + excessFrom data dim (v.capacity.getD dim 0) [] (trips rest)
          = x + excessFrom data dim (v.capacity.getD dim 0) es (trips (a :: rest)) from ?_] at this
      · exact this
      · simp only [trips, ha, if_true, excessFrom, List.map_nil, List.append_nil]
        cases ht : trips rest with
        | nil => exact absurd ht (trips_ne_nil _)
        | cons t ts => simp; omega
    · have := ih _ _ _ (loadStepA_visit data v dim h a ha)
      rw [show excessFrom data dim (v.capacity.getD dim 0) (es ++ [loadEvent data dim a])
            (trips rest)
          = excessFrom data dim (v.capacity.getD dim 0) es (trips (a :: rest)) from ?_] at this
      · exact this
      · simp only [trips, ha, if_false]
        cases ht : trips rest with
        | nil => exact absurd ht (trips_ne_nil _)
        | cons t ts => simp [excessFrom]

theorem foldl_sums (data : ProblemData) (v : VehicleType) (dim : Nat) (acts : List Activity) :
    ∀ (st : LState),
    (acts.foldl (loadStepA data v dim) st).delivery
      = st.delivery + ((acts.filter (fun a => a.type = .client)).map
          (fun a => (data.client a.idx).delivery.getD dim 0)).sum
    ∧ (acts.foldl (loadStepA data v dim) st).pickup
      = st.pickup + ((acts.filter (fun a => a.type = .client)).map
          (fun a => (data.client a.idx).pickup.getD dim 0)).sum := by
  induction acts with
  | nil => intro st; simp
  | cons a rest ih =>
    intro st
    rw [List.foldl_cons, (ih _).1, (ih _).2]
    obtain ⟨ty, i⟩ := a
    cases ty <;> simp [loadStepA, loadStep, Int.add_assoc]

end Route
end PyVRP
