import Verif.Lemmas.Drive
import Verif.Spec.Plan
/-!
# C01: duration segments compute the true schedule
# C02 (durations): merging does not depend on the split

`segOf` is what a caller of the API does: make a segment for each visit, and merge
them, in any order of concatenation.
-/
namespace PyVRP
open Spec

/-- The segment a caller obtains for a plan with `DurationSegment(...)` and
`DurationSegment.merge`. -/
def segOf : Plan → DurSeg
  | .visit v =>
    { duration_ := v.service, startEarly_ := v.early, startLate_ := v.late
      releaseTime_ := v.release }
  | .join e a b => DurSeg.merge e (segOf a) (segOf b)

namespace C01

theorem stops_ne_nil (p : Plan) : p.stops ≠ [] := by
  cases p with
  | visit v => simp [Plan.stops]
  | join e a b =>
    simp only [Plan.stops, ne_eq, List.append_eq_nil_iff, not_and]
    intro h; exact absurd h (stops_ne_nil a)

theorem facts (p : Plan) (h : p.Valid) :
    (segOf p).Ok ∧ (segOf p).Rep p.stops ∧ (segOf p).releaseTime_ = p.release
      ∧ (segOf p).cumDuration_ = 0 ∧ (segOf p).cumTimeWarp_ = 0 ∧ (segOf p).prevEndLate_ = MAX
      ∧ 0 ≤ p.release ∧ p.release ≤ HALF := by
  induction p with
  | visit v =>
    obtain ⟨h1, h2, h3, h4, h5, h6, h7⟩ := h
    have hok : (segOf (.visit v)).Ok := by
      constructor <;> simp only [segOf] <;> omega
    exact ⟨hok, DurSeg.Rep.single hok rfl, rfl, rfl, rfl, rfl, h6, h7⟩
  | join e a b iha ihb =>
    obtain ⟨he, ha, hb⟩ := h
    obtain ⟨a1, a2, a3, a4, a5, a6, a7, a8⟩ := iha ha
    obtain ⟨b1, b2, b3, b4, b5, b6, b7, b8⟩ := ihb hb
    refine ⟨DurSeg.Ok.merge he a1 b1, DurSeg.Rep.merge he a1 b1 a2 b2 (stops_ne_nil b),
      ?_, ?_, ?_, ?_, ?_, ?_⟩ <;>
      simp only [segOf, DurSeg.merge, Plan.release] <;> omega

end C01

/-- **C01.** For every way of putting visits together with `merge`, and every start
moment `t` not before the visits' release times, the segment's `duration()` and
`start_early()` give exactly the duration of driving those visits in order from
`t`, and `time_warp()` and `start_late()` give exactly its lateness. -/
theorem C01_segment_computes_drive (p : Plan) (h : p.Valid) (t : Int) (ht : p.release ≤ t)
    (hmax : (segOf p).duration ≤ MAX) :
    driveDuration t p.stops = (segOf p).duration + max ((segOf p).startEarly - t) 0
    ∧ driveWarp t p.stops = (segOf p).timeWarp + max (t - (segOf p).startLate) 0 := by
  obtain ⟨ok, rep, hr, hcd, hct, hp, hr0, hrH⟩ := C01.facts p h
  have h1 := (rep t).1
  have h2 := (rep t).2
  obtain ⟨a1, a2, a3, a4, a5, a6, a7, a8⟩ := ok
  have := MAX_eq; have := HALF_eq
  rw [h1, h2]
  simp only [DurSeg.duration, DurSeg.timeWarp, DurSeg.startEarly, DurSeg.startLate, DurSeg.D,
    DurSeg.W, hcd, hct, hp, hr] at *
  omega

/-- **C01.** `start_early()` and `start_late()` delimit exactly the start moments that
have both minimal duration and minimal lateness. -/
theorem C01_start_window_is_optimal (p : Plan) (h : p.Valid)
    (hmax : (segOf p).duration ≤ MAX) (t : Int) :
    ((segOf p).startEarly ≤ t ∧ t ≤ (segOf p).startLate) ↔
      (p.release ≤ t
        ∧ (∀ t', p.release ≤ t' → driveDuration t p.stops ≤ driveDuration t' p.stops)
        ∧ (∀ t', p.release ≤ t' → driveWarp t p.stops ≤ driveWarp t' p.stops)) := by
  have key := fun t ht => C01_segment_computes_drive p h t ht hmax
  obtain ⟨ok, _, hr, _, _, _, _, _⟩ := C01.facts p h
  have hel := ok.el
  have hse : p.release ≤ (segOf p).startEarly := by
    simp only [DurSeg.startEarly, hr]; omega
  have hsl : (segOf p).startEarly ≤ (segOf p).startLate := by
    simp only [DurSeg.startEarly, DurSeg.startLate]; omega
  constructor
  · rintro ⟨h1, h2⟩
    refine ⟨by omega, fun t' ht' => ?_, fun t' ht' => ?_⟩
    · rw [(key t (by omega)).1, (key t' ht').1]; omega
    · rw [(key t (by omega)).2, (key t' ht').2]; omega
  · rintro ⟨h0, h1, h2⟩
    have e1 := h1 (segOf p).startEarly hse
    have e2 := h2 (segOf p).startEarly hse
    rw [(key t h0).1, (key _ hse).1] at e1
    rw [(key t h0).2, (key _ hse).2] at e2
    omega

/-- **C01.** The release time of the segment is the latest release time of the
visits. -/
theorem C01_release_time (p : Plan) (h : p.Valid) : (segOf p).releaseTime_ = p.release :=
  (C01.facts p h).2.2.1

/-- **C01.** The time warp reported for a maximum duration is the lateness of leaving
at `start_early()`, plus the amount by which the duration exceeds the maximum. From
that duration the smallest possible lateness `w` (over all start moments, also those
before the release time) is subtracted first: time warp shortens the drive. -/
theorem C01_time_warp_max_duration (p : Plan) (h : p.Valid) (maxDuration w : Int)
    (hw : ∀ t, w ≤ driveWarp t p.stops) (hw' : ∃ t, driveWarp t p.stops = w) :
    (segOf p).timeWarp maxDuration =
      driveWarp (segOf p).startEarly p.stops
      + max (driveDuration (segOf p).startEarly p.stops - w - maxDuration) 0 := by
  obtain ⟨ok, rep, hr, hcd, hct, hp, hr0, hrH⟩ := C01.facts p h
  obtain ⟨t, ht⟩ := hw'
  have hw := hw (segOf p).startLate_
  rw [(rep _).2] at hw ht
  rw [(rep _).1, (rep _).2]
  obtain ⟨a1, a2, a3, a4, a5, a6, a7, a8⟩ := ok
  have := MAX_eq; have := HALF_eq
  simp only [DurSeg.duration, DurSeg.timeWarp, DurSeg.startEarly, DurSeg.D,
    DurSeg.W, hcd, hct, hp, hr] at *
  omega

/-- Extensionality: the duration and lateness functions determine the fields of a
segment. -/
theorem DurSeg.ext_of_functions {a b : DurSeg}
    (hD : ∀ t, a.D t = b.D t) (hW : ∀ t, a.W t = b.W t) :
    a.duration_ = b.duration_ ∧ a.timeWarp_ = b.timeWarp_
      ∧ a.startEarly_ = b.startEarly_ ∧ a.startLate_ = b.startLate_ := by
  have d1 := hD (max a.startEarly_ b.startEarly_)
  have d2 := hD (min a.startEarly_ b.startEarly_)
  have w1 := hW (min a.startLate_ b.startLate_)
  have w2 := hW (max a.startLate_ b.startLate_)
  unfold DurSeg.D at d1 d2
  unfold DurSeg.W at w1 w2
  omega

/-- **C02 (durations).** Two ways of putting the same stops together, whatever the
split points, give segments that agree in everything they report. -/
theorem C02_duration_split_independent (p q : Plan) (hp : p.Valid) (hq : q.Valid)
    (hstops : p.stops = q.stops) (hrel : p.release = q.release) : segOf p = segOf q := by
  obtain ⟨_, rp, p3, p4, p5, p6, _, _⟩ := C01.facts p hp
  obtain ⟨_, rq, q3, q4, q5, q6, _, _⟩ := C01.facts q hq
  have hD : ∀ t, (segOf p).D t = (segOf q).D t := fun t => by
    rw [← (rp t).1, ← (rq t).1, hstops]
  have hW : ∀ t, (segOf p).W t = (segOf q).W t := fun t => by
    rw [← (rp t).2, ← (rq t).2, hstops]
  obtain ⟨h1, h2, h3, h4⟩ := DurSeg.ext_of_functions hD hW
  cases hsp : segOf p; cases hsq : segOf q
  simp_all

/-- **C02 (durations).** Associativity of `merge` with edges, for arbitrary segments
(also ones with earlier trips) satisfying the segment invariant. -/
theorem C02_duration_merge_assoc (e f : Int) (a b c : DurSeg) (he : 0 ≤ e) (hf : 0 ≤ f)
    (ha : a.Ok) (hb : b.Ok) (hc : c.Ok) :
    DurSeg.merge f (DurSeg.merge e a b) c = DurSeg.merge e a (DurSeg.merge f b c) := by
  have hab := DurSeg.Ok.merge he ha hb
  have hbc := DurSeg.Ok.merge hf hb hc
  have hfin : ∀ t, (DurSeg.merge e a b).fin t = b.fin (a.fin t + e) := fun t => by
    unfold DurSeg.fin; rw [DurSeg.merge_D he ha hb, DurSeg.merge_W he ha hb]
    unfold DurSeg.fin; omega
  have hD : ∀ t, (DurSeg.merge f (DurSeg.merge e a b) c).D t
      = (DurSeg.merge e a (DurSeg.merge f b c)).D t := fun t => by
    rw [DurSeg.merge_D hf hab hc, DurSeg.merge_D he ha hb, DurSeg.merge_D he ha hbc,
      DurSeg.merge_D hf hb hc, hfin]
    omega
  have hW : ∀ t, (DurSeg.merge f (DurSeg.merge e a b) c).W t
      = (DurSeg.merge e a (DurSeg.merge f b c)).W t := fun t => by
    rw [DurSeg.merge_W hf hab hc, DurSeg.merge_W he ha hb, DurSeg.merge_W he ha hbc,
      DurSeg.merge_W hf hb hc, hfin]
    omega
  obtain ⟨h1, h2, h3, h4⟩ := DurSeg.ext_of_functions hD hW
  have h5 : (DurSeg.merge f (DurSeg.merge e a b) c).releaseTime_
      = (DurSeg.merge e a (DurSeg.merge f b c)).releaseTime_ := by
    simp only [DurSeg.merge]; omega
  have h6 : (DurSeg.merge f (DurSeg.merge e a b) c).cumDuration_
      = (DurSeg.merge e a (DurSeg.merge f b c)).cumDuration_ := by
    simp only [DurSeg.merge]; omega
  have h7 : (DurSeg.merge f (DurSeg.merge e a b) c).cumTimeWarp_
      = (DurSeg.merge e a (DurSeg.merge f b c)).cumTimeWarp_ := by
    simp only [DurSeg.merge]; omega
  have h8 : (DurSeg.merge f (DurSeg.merge e a b) c).prevEndLate_
      = (DurSeg.merge e a (DurSeg.merge f b c)).prevEndLate_ := rfl
  cases hx : DurSeg.merge f (DurSeg.merge e a b) c
  cases hy : DurSeg.merge e a (DurSeg.merge f b c)
  simp_all

/-! ## Non-vacuity -/

/-- Two visits with waiting, lateness and a release time. -/
def C01.demo : Plan :=
  .join 5 (.join 10 (.visit ⟨0, 20, 3, 7⟩) (.visit ⟨40, 50, 2, 0⟩)) (.visit ⟨0, 30, 1, 4⟩)

example : C01.demo.Valid := by
  refine ⟨by decide, ⟨by decide, ?_, ?_⟩, ?_⟩ <;> constructor <;> decide

example : (segOf C01.demo).duration = 28 ∧ (segOf C01.demo).timeWarp = 17
    ∧ (segOf C01.demo).startEarly = 20 ∧ (segOf C01.demo).startLate = 20
    ∧ (segOf C01.demo).duration ≤ MAX := by decide

/-- The same three visits, split differently. -/
def C01.demo' : Plan :=
  .join 10 (.visit ⟨0, 20, 3, 7⟩) (.join 5 (.visit ⟨40, 50, 2, 0⟩) (.visit ⟨0, 30, 1, 4⟩))

example : C01.demo.stops = C01.demo'.stops ∧ C01.demo.release = C01.demo'.release := by decide

end PyVRP
