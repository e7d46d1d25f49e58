import Verif.Checks.Instances

/-!
# The random number generator and segments in the cases of the test suite

Checks of `/repo/tests/test_RandomNumberGenerator.py`, `test_DurationSegment.py` and
`test_LoadSegment.py`.
-/
namespace PyVRP.Checks

/-! ## `test_RandomNumberGenerator.py` -/

/-- `test_call`. -/
example : (Rng.next (Rng.ofSeed 42)).1 = 2386648076 ∧ (Rng.next (Rng.next (Rng.ofSeed 42)).2).1 = 1236469084
    ∧ (Rng.next (Rng.ofSeed 43)).1 = 2386648077 ∧ (Rng.next (Rng.next (Rng.ofSeed 43)).2).1 = 1236469085 := by
  decide +kernel

/-! ## `test_DurationSegment.py` -/

/-- `DurationSegment(duration, time_warp, start_early, start_late, release_time)`. -/
def seg (duration timeWarp startEarly startLate releaseTime : Int) (cumDuration cumTimeWarp : Int := 0)
    (prevEndLate : Int := MAX) : DurSeg :=
  ⟨duration, timeWarp, startEarly, startLate, releaseTime, cumDuration, cumTimeWarp, prevEndLate⟩

/-- `test_time_warp_when_there_is_existing_time_warp`. -/
example : ∀ x ∈ [2, 5, 10], (seg 0 x 0 0 0).timeWarp = x := by decide +kernel

/-- `test_merge_two`. -/
example : (DurSeg.merge 4 (seg 5 0 0 5 0) (seg 0 5 3 6 0)).timeWarp = 8
    ∧ (DurSeg.merge 4 (seg 5 0 0 5 0) (seg 0 5 3 6 3)).timeWarp = 11 := by
  decide +kernel

/-- `test_merging_two_previously_merged_duration_segments`. -/
example :
    let ds1 := seg 5 1 0 5 0
    let ds2 := seg 1 1 3 6 0
    let merged12 := DurSeg.merge 4 ds1 ds2
    let merged21 := DurSeg.merge 3 ds2 ds1
    merged12.timeWarp = 4 ∧ merged21.timeWarp = 3 ∧ (DurSeg.merge 0 merged12 merged21).timeWarp = 10 := by
  decide +kernel

/-- `test_max_duration_argument`. -/
example : (seg 5 0 0 0 0).timeWarp = 0 ∧ (seg 5 0 0 0 0).timeWarp 2 = 3 ∧ (seg 5 0 0 0 0).timeWarp 0 = 5 := by
  decide +kernel

/-- `test_OkSmall_with_time_warp`. -/
example :
    let dur := (okSmall.durs.getD 0 default).get
    let d := DurSeg.ofDepot (okSmall.depot 0) (okSmall.depot 0).serviceDuration
    let c := fun i => DurSeg.ofClient (okSmall.client i)
    let s := DurSeg.merge (dur 3 0) (DurSeg.merge (dur 1 3) (DurSeg.merge (dur 0 1) d (c 0)) (c 2)) d
    s.duration = 1544 + 1427 + 2063 + 360 + 420 ∧ s.timeWarp = 2087 := by
  decide +kernel

/-- `test_bug_fix_overflow_more_timewarp_than_duration`. -/
example : (DurSeg.merge 0 (seg 9 18 0 18 0) (seg 0 0 0 MAX 0)).timeWarp = 18 := by decide +kernel

/-- `test_finalise_back_with_time_warp_from_release_time`. -/
example :
    let s := seg 5 0 50 70 75
    let f := s.finaliseBack
    s.startEarly = 75 ∧ s.startLate = 75 ∧ s.releaseTime_ = 75 ∧ s.duration = 5 ∧ s.timeWarp = 5
      ∧ f.duration = 5 ∧ f.timeWarp = 5 ∧ f.startEarly = 75 ∧ f.startLate = MAX ∧ f.releaseTime_ = 75
      ∧ f.prevEndLate_ = 75 := by
  decide +kernel

/-- `test_duration_and_time_warp_from_prev_end_times`. -/
example : ∀ p ∈ [(95, 95, 5, 0), (95, 100, 0, 0), (120, 120, 0, 10), (110, 120, 0, 0), (95, 120, 0, 0)],
    let s := seg 0 0 100 110 p.1 0 0 p.2.1
    s.duration = p.2.2.1 ∧ s.timeWarp = p.2.2.2 := by
  decide +kernel

/-- `test_time_warp_from_release_time`. -/
example : ∀ p ∈ [(100, 0), (110, 10)], (seg 0 0 0 100 p.1).startLate = max 100 p.1
    ∧ (seg 0 0 0 100 p.1).timeWarp = p.2 := by
  decide +kernel

/-- `test_finalise_front`. -/
example :
    let s := seg 5 5 40 50 50
    let f := s.finaliseFront
    s.duration = 5 ∧ s.timeWarp = 5 ∧ s.startEarly = 50 ∧ s.startLate = 50 ∧ s.releaseTime_ = 50
      ∧ f.duration = 5 ∧ f.timeWarp = 5 ∧ f.startEarly = 50 ∧ f.startLate = 50 ∧ f.releaseTime_ = 0 := by
  decide +kernel

/-- `test_repeated_merge_and_finalise_back`. -/
example :
    let f1 := (seg 45 0 30 50 50).finaliseBack
    let m := DurSeg.merge 0 f1 (seg 50 0 70 110 100)
    let f2 := m.finaliseBack
    f1.startEarly = 95 ∧ f1.startLate = MAX ∧ f1.releaseTime_ = 95 ∧ f1.prevEndLate_ = 95
      ∧ m.duration = 100 ∧ m.startEarly = 100 ∧ m.startLate = 110 ∧ m.releaseTime_ = 100 ∧ m.slack = 0
      ∧ f2.duration = 100 ∧ f2.startEarly = 150 ∧ f2.startLate = MAX ∧ f2.releaseTime_ = 150
      ∧ f2.prevEndLate_ = 150 := by
  decide +kernel

/-- `test_finalise_nonzero_route_slack`. -/
example :
    let f1 := (seg 0 0 0 100 0).finaliseBack
    let f2 := (DurSeg.merge 0 f1 (seg 0 0 50 75 0)).finaliseBack
    f1.releaseTime_ = 0 ∧ f1.prevEndLate_ = 100 ∧ f1.slack = 100
      ∧ f2.releaseTime_ = 50 ∧ f2.prevEndLate_ = 75 ∧ f2.slack = 25 := by
  decide +kernel

/-- `test_end_early_and_late`. -/
example :
    let s := seg 40 30 10 20 0 15 5
    s.startEarly = 10 ∧ s.startLate = 20 ∧ s.duration = 55 ∧ s.timeWarp = 35 ∧ s.endEarly = 20
      ∧ s.endLate = 30 := by
  decide +kernel

/-- `test_finalise_back_front_merge_same_thing`. -/
example :
    let ds1 := seg 50 0 70 110 100
    let ds2 := seg 45 0 30 50 50
    let back := DurSeg.merge 0 ds1.finaliseBack ds2
    let front := DurSeg.merge 0 ds1 ds2.finaliseFront
    back.timeWarp = front.timeWarp ∧ back.duration = front.duration := by
  decide +kernel

/-! ## `test_LoadSegment.py` -/

/-- `test_merge_two`. -/
example : ∀ p ∈ [((⟨5, 0, 3, 0⟩ : LoadSeg), (⟨3, 0, 8, 0⟩ : LoadSeg), 8, 8, 16), (⟨3, 4, 11, 0⟩, ⟨5, 0, 8, 0⟩, 8, 12, 20)],
    let m := LoadSeg.merge p.1 p.2.1
    m.initial_ = p.2.2.1 ∧ m.increase_ = p.2.2.2.1 ∧ m.load = p.2.2.2.2 ∧ m.excessLoad 0 = p.2.2.2.2
      ∧ m.excessLoad p.2.2.2.2 = 0 := by
  decide +kernel

/-- `test_excess_load_capacity`. -/
example :
    let m := LoadSeg.merge ⟨5, 0, 0, 30⟩ ⟨2, 0, 0, 5⟩
    m.load = 7 ∧ m.excessLoad 7 = 35 ∧ m.excessLoad 0 = 42 := by
  decide +kernel

/-- `test_finalise`. -/
example : ∀ p ∈ [(10, 20), (5, 20), (0, 25)],
    let f := LoadSeg.finalise ⟨5, 0, 0, 20⟩ p.1
    f.initial_ = 0 ∧ f.delta_ = 0 ∧ f.increase_ = 0 ∧ f.load = 0 ∧ f.excessLoad p.1 = p.2 := by
  decide +kernel

/-- `test_mixed_clients_and_shipments`. -/
example :
    let m1 := LoadSeg.merge ⟨0, 5, 5, 0⟩ ⟨0, 3, 3, 0⟩
    let m2 := LoadSeg.merge m1 ⟨5, 0, 0, 0⟩
    let m3 := LoadSeg.merge m2 ⟨0, 0, -5, 0⟩
    let m4 := LoadSeg.merge m3 ⟨0, 0, -5, 0⟩
    let f := m4.finalise 11
    m1.load = 8 ∧ m2.load = 13 ∧ m3.load = 13 ∧ m4.load = 13 ∧ f.load = 0 ∧ f.excessLoad 11 = 2 := by
  decide +kernel

end PyVRP.Checks
