import Verif.Model.DurationSegment
import Verif.Spec.Drive
/-!
# Lemmas on duration segments
-/
namespace PyVRP
open Spec

namespace DurSeg

/-- Duration of the current trip part when starting at `t`, as represented by
the segment's fields. -/
def D (s : DurSeg) (t : Int) : Int := s.duration_ + max (s.startEarly_ - t) 0

/-- Time warp of the current trip part when starting at `t`. -/
def W (s : DurSeg) (t : Int) : Int := s.timeWarp_ + max (t - s.startLate_) 0

/-- Invariant of all segments built from visits. -/
structure Ok (s : DurSeg) : Prop where
  e0 : 0 ≤ s.startEarly_
  el : s.startEarly_ ≤ s.startLate_
  lM : s.startLate_ ≤ MAX
  eH : s.startEarly_ ≤ HALF
  d0 : 0 ≤ s.duration_
  w0 : 0 ≤ s.timeWarp_
  we : 0 < s.timeWarp_ → s.startEarly_ = s.startLate_
  en : 0 ≤ s.startEarly_ + s.duration_ - s.timeWarp_

/-- Time at the end of the segment when starting at `t`. -/
def fin (s : DurSeg) (t : Int) : Int := t + s.D t - s.W t

theorem fin_eq {s : DurSeg} (h : s.Ok) (t : Int) :
    s.fin t = max s.startEarly_ (min t s.startLate_) + s.duration_ - s.timeWarp_ := by
  have := h.el
  unfold fin D W
  omega

theorem Ok.merge {e : Int} {a b : DurSeg} (he : 0 ≤ e) (ha : a.Ok) (hb : b.Ok) :
    (merge e a b).Ok := by
  obtain ⟨a1, a2, a3, a4, a5, a6, a7, a8⟩ := ha
  obtain ⟨b1, b2, b3, b4, b5, b6, b7, b8⟩ := hb
  have := MAX_eq; have := HALF_eq
  constructor <;> simp only [DurSeg.merge] <;> omega

theorem merge_D {e : Int} {a b : DurSeg} (_he : 0 ≤ e) (ha : a.Ok) (hb : b.Ok) (t : Int) :
    (merge e a b).D t = a.D t + e + b.D (a.fin t + e) := by
  rw [fin_eq ha]
  obtain ⟨a1, a2, a3, a4, a5, a6, a7, a8⟩ := ha
  obtain ⟨b1, b2, b3, b4, b5, b6, b7, b8⟩ := hb
  simp only [D, DurSeg.merge]
  omega

theorem merge_W {e : Int} {a b : DurSeg} (he : 0 ≤ e) (ha : a.Ok) (hb : b.Ok) (t : Int) :
    (merge e a b).W t = a.W t + b.W (a.fin t + e) := by
  rw [fin_eq ha]
  obtain ⟨a1, a2, a3, a4, a5, a6, a7, a8⟩ := ha
  obtain ⟨b1, b2, b3, b4, b5, b6, b7, b8⟩ := hb
  have := MAX_eq; have := HALF_eq
  simp only [W, DurSeg.merge]
  omega

end DurSeg
end PyVRP
