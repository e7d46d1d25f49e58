import Verif.Model.LoadSegment
import Verif.Spec.Load
/-!
# Lemmas on load segments
-/
namespace PyVRP
open Spec

namespace Spec

/-- The largest amount on board, computed. -/
def peak (l : Int) : List LoadEvent → Int
  | [] => l
  | e :: rest => max l (peak (l + e.change) rest)

theorem onBoard_append (l : Int) (a b : List LoadEvent) :
    ∃ front, onBoard l (a ++ b) = front ++ onBoard (l + (a.map LoadEvent.change).sum) b := by
  induction a generalizing l with
  | nil => exact ⟨[], by simp⟩
  | cons e rest ih =>
    obtain ⟨f, hf⟩ := ih (l + e.change)
    exact ⟨l :: f, by simp [onBoard, hf, Int.add_assoc]⟩

theorem le_peak (l : Int) (es : List LoadEvent) : l ≤ peak l es := by
  cases es <;> simp only [peak] <;> omega

theorem isPeak_peak (l : Int) (es : List LoadEvent) : IsPeak (peak l es) (onBoard l es) := by
  induction es generalizing l with
  | nil => simp [IsPeak, peak, onBoard]
  | cons e rest ih =>
    obtain ⟨h1, h2⟩ := ih (l + e.change)
    refine ⟨?_, ?_⟩
    · simp only [peak, onBoard, List.mem_cons]
      by_cases h : l ≤ peak (l + e.change) rest
      · right; rwa [Int.max_eq_right h]
      · left; omega
    · intro x hx
      simp only [onBoard, List.mem_cons] at hx
      simp only [peak]
      rcases hx with rfl | hx
      · omega
      · have := h2 x hx; omega

theorem IsPeak.unique {m m' : Int} {l : List Int} (h : IsPeak m l) (h' : IsPeak m' l) : m = m' :=
  Int.le_antisymm (h'.2 m h.1) (h.2 m' h'.1)

theorem peak_shift (l k : Int) (es : List LoadEvent) : peak (l + k) es = peak l es + k := by
  induction es generalizing l with
  | nil => rfl
  | cons e rest ih =>
    simp only [peak]
    have := ih (l + e.change)
    rw [show l + k + e.change = l + e.change + k by omega, this]; omega

theorem peak_append (l : Int) (a b : List LoadEvent) :
    peak l (a ++ b) = max (peak l a) (peak (l + (a.map LoadEvent.change).sum) b) := by
  induction a generalizing l with
  | nil => simp only [List.nil_append, peak, List.map_nil, List.sum_nil, Int.add_zero]
           have := le_peak l b; omega
  | cons e rest ih =>
    simp only [List.cons_append, peak, ih, List.map_cons, List.sum_cons]
    rw [show l + e.change + (rest.map LoadEvent.change).sum
      = l + (e.change + (rest.map LoadEvent.change).sum) by omega]
    omega

end Spec

namespace LoadSeg

/-- The segment represents the events of a (partial) trip. -/
structure Rep (s : LoadSeg) (es : List LoadEvent) : Prop where
  initial : s.initial_ = loadedAtStart es
  delta : s.delta_ = (es.map LoadEvent.change).sum
  increase : s.increase_ = peak 0 es

theorem Rep.nil : Rep {} [] := ⟨rfl, rfl, rfl⟩

theorem Rep.merge {a b : LoadSeg} {la lb : List LoadEvent} (ha : a.Rep la) (hb : b.Rep lb) :
    (merge a b).Rep (la ++ lb) := by
  constructor
  · simp [LoadSeg.merge, ha.initial, hb.initial, loadedAtStart]
  · simp [LoadSeg.merge, ha.delta, hb.delta]
  · simp only [LoadSeg.merge, peak_append, ha.increase, hb.increase, ha.delta]
    rw [peak_shift 0, Int.add_comm]

theorem Rep.load {s : LoadSeg} {es : List LoadEvent} (h : s.Rep es) :
    s.load = peak (loadedAtStart es) es := by
  have := peak_shift 0 (loadedAtStart es) es
  simp only [LoadSeg.load, h.initial, h.increase]
  rw [Int.zero_add] at this; omega

theorem ofClient_rep (c : Client) (dim : Nat) :
    (ofClient c dim).Rep [⟨c.delivery.getD dim 0, c.pickup.getD dim 0 - c.delivery.getD dim 0⟩] := by
  constructor <;> simp [ofClient, loadedAtStart, peak]

theorem ofPickup_rep (s : Shipment) (dim : Nat) :
    (ofShipment s .pickup dim).Rep [⟨0, s.amount.getD dim 0⟩] := by
  constructor <;> simp [ofShipment, loadedAtStart, peak]

theorem ofDelivery_rep (s : Shipment) (dim : Nat) :
    (ofShipment s .delivery dim).Rep [⟨0, - s.amount.getD dim 0⟩] := by
  constructor <;> simp [ofShipment, loadedAtStart, peak]

end LoadSeg
end PyVRP
