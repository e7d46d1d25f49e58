import Verif.Props.C01
import Verif.Lemmas.Finalise
/-!
# C45: duration segments of several trips

A caller closes a trip with `finalise_back()`, and goes on with the next one by merging its
segment (the API documented at `DurationSegment.h` 30-48).  The specification below does not use
segments: it drives the trips one after the other.
-/
namespace PyVRP
open Spec

namespace Spec

/-- When the trips are over, leaving at `t`.  The list has the latest trip first.  No trip leaves
before all its visits are released. -/
def tripsFinish (t : Int) : List Plan → Int
  | [] => t
  | p :: earlier => (drive (max (tripsFinish t earlier) p.release) p.stops).finish

/-- Duration of all trips, including waiting for the release of a trip. -/
def tripsDuration (t : Int) : List Plan → Int
  | [] => 0
  | p :: earlier => tripsDuration t earlier + max (p.release - tripsFinish t earlier) 0
      + driveDuration (max (tripsFinish t earlier) p.release) p.stops

/-- Time warp of all trips. -/
def tripsWarp (t : Int) : List Plan → Int
  | [] => 0
  | p :: earlier => tripsWarp t earlier
      + driveWarp (max (tripsFinish t earlier) p.release) p.stops

/-- The whole duration when the `earlier` trips leave at `t` and the current trip `q` at `u`. -/
def holdDuration (t u : Int) (earlier : List Plan) (q : Plan) : Int :=
  tripsDuration t earlier + (u - tripsFinish t earlier) + driveDuration u q.stops

/-- The trips, from the first on, end at sane times. -/
def TripsFit : List Plan → Prop
  | [] => True
  | p :: earlier => TripsFit earlier ∧ tripsFinish 0 (p :: earlier) ≤ HALF

end Spec

/-- The segment a caller obtains for the current trip `q` after the `earlier` trips, latest
first. -/
def segTrips : List Plan → Plan → DurSeg
  | [], q => segOf q
  | p :: earlier, q => DurSeg.merge 0 (segTrips earlier p).finaliseBack (segOf q)

namespace C45

/-- What is known of trips that are closed: some one segment `f` behaves like all of them. -/
structure Closed (ps : List Plan) (c f : DurSeg) : Prop where
  ok : f.Ok
  dur : ∀ t, 0 ≤ t → t ≤ MAX → tripsDuration t ps = f.D t
  warp : ∀ t, 0 ≤ t → t ≤ MAX → tripsWarp t ps = f.W t
  fields : c = { duration_ := 0, timeWarp_ := 0, startEarly_ := f.fin 0, startLate_ := MAX
                 releaseTime_ := f.fin 0, cumDuration_ := f.D MAX, cumTimeWarp_ := f.W 0
                 prevEndLate_ := min MAX (f.fin MAX) }
  finH : f.fin 0 ≤ HALF

theorem trips_finish (t : Int) (ps : List Plan) :
    tripsFinish t ps = t + tripsDuration t ps - tripsWarp t ps := by
  induction ps with
  | nil => simp [tripsFinish, tripsDuration, tripsWarp]
  | cons p ps ih =>
    simp only [tripsFinish, tripsDuration, tripsWarp, drive_finish]
    omega

theorem Closed.finish {ps : List Plan} {c f : DurSeg} (h : Closed ps c f) (t : Int) (h0 : 0 ≤ t)
    (hM : t ≤ MAX) : tripsFinish t ps = f.fin t := by
  rw [trips_finish, h.dur t h0 hM, h.warp t h0 hM]; rfl

theorem Closed.fin_nonneg {ps : List Plan} {c f : DurSeg} (h : Closed ps c f) (t : Int) :
    0 ≤ f.fin t := by
  rw [DurSeg.fin_eq h.ok]; have := h.ok.en; omega

theorem Closed.fin_mono {ps : List Plan} {c f : DurSeg} (h : Closed ps c f) {t u : Int}
    (htu : t ≤ u) : f.fin t ≤ f.fin u := by
  rw [DurSeg.fin_eq h.ok, DurSeg.fin_eq h.ok]; omega

theorem Closed.key {ps : List Plan} {c f : DurSeg} (h : Closed ps c f) (t : Int) :
    f.duration_ - f.fin MAX ≤ f.D t - f.fin t := by
  have := h.ok.el; have := h.ok.lM; have := h.ok.eH
  have := MAX_eq; have := HALF_eq
  rw [DurSeg.fin_eq h.ok, DurSeg.fin_eq h.ok]; simp only [DurSeg.D]; omega

theorem Closed.c_ok {ps : List Plan} {c f : DurSeg} (h : Closed ps c f) : c.Ok := by
  have := h.fin_nonneg 0; have := h.finH
  have := MAX_eq; have := HALF_eq
  rw [h.fields]
  constructor <;> simp only <;> omega

theorem first (p : Plan) (h : p.Valid) (hf : tripsFinish 0 [p] ≤ HALF) :
    Closed [p] (segOf p).finaliseBack (segOf p).finaliseFront := by
  obtain ⟨ok, rep, hr, hcd, hct, hp, hr0, hrH⟩ := C01.facts p h
  have hM := MAX_eq; have hH := HALF_eq
  have hfin : (segOf p).fin (segOf p).releaseTime_ ≤ HALF := by
    have : tripsFinish 0 [p] = (segOf p).fin p.release := by
      simp only [tripsFinish, drive_finish, (rep _).1, (rep _).2, DurSeg.fin]
      rw [show max 0 p.release = p.release by omega]
    rw [hr]; omega
  have hpre : (segOf p).Pre := ⟨ok, by omega, by omega, by omega, by omega, hfin⟩
  have hff : ∀ t, (segOf p).finaliseFront.fin t = (segOf p).fin (max t p.release) := by
    intro t
    simp only [DurSeg.fin, DurSeg.finaliseFront_D ok, DurSeg.finaliseFront_W ok, hr]; omega
  refine ⟨ok.finaliseFront (by omega), ?_, ?_, ?_, ?_⟩
  · intro t h0 _
    simp only [tripsDuration, tripsFinish, (rep _).1, DurSeg.finaliseFront_D ok, hr]; omega
  · intro t h0 _
    simp only [tripsWarp, tripsFinish, (rep _).2, DurSeg.finaliseFront_W ok, hr]; omega
  · rw [hpre.finaliseBack_fields, hff, hff, DurSeg.finaliseFront_D ok, DurSeg.finaliseFront_W ok]
    rw [hr, hp, hcd, hct]
    rw [show max 0 p.release = p.release by omega, show max MAX p.release = MAX by omega]
    simp only [DurSeg.mk.injEq, true_and]
    refine ⟨?_, ?_, trivial⟩ <;> omega
  · rw [hff]; rw [hr] at hfin
    rw [show max 0 p.release = p.release by omega]; exact hfin

theorem next {ps : List Plan} {c f : DurSeg} (h : Closed ps c f) (q : Plan) (hq : q.Valid)
    (hf : tripsFinish 0 (q :: ps) ≤ HALF) :
    Closed (q :: ps) (DurSeg.merge 0 c (segOf q)).finaliseBack
      (DurSeg.merge 0 f (segOf q).finaliseFront) := by
  obtain ⟨ok, rep, hr, hcd, hct, hp, hr0, hrH⟩ := C01.facts q hq
  have hM := MAX_eq; have hH := HALF_eq
  have hfo := ok.finaliseFront (by omega : (segOf q).releaseTime_ ≤ HALF)
  have hff : ∀ t, (segOf q).finaliseFront.fin t = (segOf q).fin (max t q.release) := by
    intro t
    simp only [DurSeg.fin, DurSeg.finaliseFront_D ok, DurSeg.finaliseFront_W ok, hr]; omega
  have hn0 := h.fin_nonneg 0
  have hnM := h.fin_nonneg MAX
  have hfH := h.finH
  have hmono := h.fin_mono (t := 0) (u := MAX) (by omega)
  have hc := h.c_ok
  have hcf : ∀ t, t ≤ MAX → c.fin t = max (f.fin 0) t := by
    intro t ht
    rw [DurSeg.fin_eq hc, h.fields]
    simp only
    omega
  have hs := DurSeg.Ok.merge (Int.le_refl 0) hc ok
  have e5 : (DurSeg.merge 0 c (segOf q)).releaseTime_ = max (f.fin 0) q.release := by
    simp only [DurSeg.merge, hr, h.fields]
  have e8 : (DurSeg.merge 0 c (segOf q)).prevEndLate_ = min MAX (f.fin MAX) := by
    simp only [DurSeg.merge, h.fields]
  have e6 : (DurSeg.merge 0 c (segOf q)).cumDuration_ = f.D MAX := by
    simp only [DurSeg.merge, h.fields, hcd]; omega
  have e7 : (DurSeg.merge 0 c (segOf q)).cumTimeWarp_ = f.W 0 := by
    simp only [DurSeg.merge, h.fields, hct]; omega
  have hcD : ∀ t, t ≤ MAX → c.D t = max (f.fin 0 - t) 0 := by
    intro t ht
    simp only [DurSeg.D, h.fields]; omega
  have hcW : ∀ t, t ≤ MAX → c.W t = 0 := by
    intro t ht
    simp only [DurSeg.W, h.fields]; omega
  have hsfin : ∀ t, t ≤ MAX → (DurSeg.merge 0 c (segOf q)).fin t
      = (segOf q).fin (max (f.fin 0) t) := by
    intro t ht
    rw [DurSeg.merge_fin (Int.le_refl 0) hc ok, hcf t ht, Int.add_zero]
  have hgfin : ∀ t, (DurSeg.merge 0 f (segOf q).finaliseFront).fin t
      = (segOf q).fin (max (f.fin t) q.release) := by
    intro t
    rw [DurSeg.merge_fin (Int.le_refl 0) h.ok hfo, Int.add_zero, hff]
  have hfinq : ∀ t, 0 ≤ t → t ≤ MAX →
      tripsFinish t (q :: ps) = (segOf q).fin (max (f.fin t) q.release) := by
    intro t h0 hm
    simp only [tripsFinish, drive_finish, (rep _).1, (rep _).2, DurSeg.fin, h.finish t h0 hm]
  have hpre : (DurSeg.merge 0 c (segOf q)).Pre := by
    refine ⟨hs, ?_, ?_, ?_, ?_, ?_⟩
    · omega
    · omega
    · omega
    · omega
    · rw [hsfin _ (by omega), e5]
      rw [hfinq 0 (by omega) (by omega)] at hf
      rw [show max (f.fin 0) (max (f.fin 0) q.release) = max (f.fin 0) q.release by omega]
      exact hf
  refine ⟨DurSeg.Ok.merge (Int.le_refl 0) h.ok hfo, ?_, ?_, ?_, ?_⟩
  · intro t h0 hm
    rw [DurSeg.merge_D (Int.le_refl 0) h.ok hfo]
    simp only [tripsDuration, h.finish t h0 hm, h.dur t h0 hm, (rep _).1,
      DurSeg.finaliseFront_D ok, hr, Int.add_zero]
    omega
  · intro t h0 hm
    rw [DurSeg.merge_W (Int.le_refl 0) h.ok hfo]
    simp only [tripsWarp, h.finish t h0 hm, h.warp t h0 hm, (rep _).2,
      DurSeg.finaliseFront_W ok, hr, Int.add_zero]
  · rw [hpre.finaliseBack_fields, hgfin, hgfin, e5, e6, e7, e8, hsfin _ (by omega),
      hsfin _ (by omega)]
    rw [DurSeg.merge_D (Int.le_refl 0) hc ok, DurSeg.merge_W (Int.le_refl 0) hc ok,
      DurSeg.merge_D (Int.le_refl 0) h.ok hfo, DurSeg.merge_W (Int.le_refl 0) h.ok hfo]
    rw [hcD _ (by omega), hcW _ (by omega), hcf _ (by omega), hcf _ (by omega)]
    simp only [DurSeg.finaliseFront_D ok, DurSeg.finaliseFront_W ok, hr, Int.add_zero]
    rw [show max (f.fin 0) (max (f.fin 0) q.release) = max (f.fin 0) q.release by omega]
    have hse := ok.eH; have hsl := ok.lM; have hel := ok.el
    simp only [DurSeg.mk.injEq, true_and]
    refine ⟨?_, ?_, ?_⟩
    · simp only [DurSeg.D]; omega
    · omega
    · rw [DurSeg.fin_eq ok, DurSeg.fin_eq ok]; omega
  · rw [hgfin]
    rw [hfinq 0 (by omega) (by omega)] at hf
    exact hf

/-- Closed trips behave like one segment. -/
theorem closed (p : Plan) (ps : List Plan) (hv : ∀ q ∈ p :: ps, q.Valid)
    (hf : TripsFit (p :: ps)) :
    ∃ f, Closed (p :: ps) (segTrips ps p).finaliseBack f := by
  induction ps generalizing p with
  | nil => exact ⟨_, first p (hv p (by simp)) hf.2⟩
  | cons q ps ih =>
    obtain ⟨f, hc⟩ := ih q (fun x hx => hv x (by simp only [List.mem_cons] at *; exact .inr hx)) hf.1
    exact ⟨_, next hc p (hv p (by simp)) hf.2⟩

/-- The parts of the segment of a trip after closed ones. -/
theorem open_fields {ps : List Plan} {c f : DurSeg} (h : Closed ps c f) (q : Plan)
    (hq : q.Valid) :
    DurSeg.merge 0 c (segOf q) =
      { duration_ := (segOf q).duration_
        timeWarp_ := (segOf q).timeWarp_ + max (f.fin 0 - (segOf q).startLate_) 0
        startEarly_ := max (f.fin 0) (segOf q).startEarly_
        startLate_ := max (f.fin 0) (segOf q).startLate_
        releaseTime_ := max (f.fin 0) q.release
        cumDuration_ := f.D MAX
        cumTimeWarp_ := f.W 0
        prevEndLate_ := min MAX (f.fin MAX) } := by
  obtain ⟨ok, rep, hr, hcd, hct, hp, hr0, hrH⟩ := C01.facts q hq
  have hM := MAX_eq; have hH := HALF_eq
  have := h.finH; have := h.fin_nonneg 0
  have := ok.lM; have := ok.el; have := ok.e0; have := ok.eH
  rw [h.fields]
  simp only [DurSeg.merge, DurSeg.mk.injEq, hr, hcd, hct]
  refine ⟨?_, ?_, ?_, ?_, ?_, ?_, ?_, ?_⟩ <;> first | trivial | exact Int.add_zero _ | omega

end C45

/-- **C45.** After any number of closed trips, `duration()` is the least duration of all trips
together, over all moments to leave. -/
theorem C45_duration (p : Plan) (ps : List Plan) (q : Plan) (hv : ∀ x ∈ q :: p :: ps, x.Valid)
    (hf : TripsFit (p :: ps)) :
    (∀ t, 0 ≤ t → t ≤ MAX → (segTrips (p :: ps) q).duration ≤ tripsDuration t (q :: p :: ps))
    ∧ ∃ t, 0 ≤ t ∧ t ≤ MAX ∧
      tripsDuration t (q :: p :: ps) = (segTrips (p :: ps) q).duration := by
  obtain ⟨f, h⟩ := C45.closed p ps (fun x hx => hv x (List.mem_cons_of_mem _ hx)) hf
  have hq := hv q (by simp)
  obtain ⟨ok, rep, hr, hcd, hct, hp, hr0, hrH⟩ := C01.facts q hq
  have hM := MAX_eq; have hH := HALF_eq
  have hd : ∀ t, 0 ≤ t → t ≤ MAX → tripsDuration t (q :: p :: ps)
      = f.D t + max (q.release - f.fin t) 0 + (segOf q).D (max (f.fin t) q.release) := by
    intro t h0 hm
    rw [tripsDuration, h.finish t h0 hm, h.dur t h0 hm, (rep _).1]
  have hseg : (segTrips (p :: ps) q).duration
      = f.D MAX + max (q.release - f.fin MAX) 0 + (segOf q).D (max (f.fin MAX) q.release) := by
    rw [segTrips, C45.open_fields h q hq]
    have := h.finH; have := h.fin_mono (t := 0) (u := MAX) (by omega)
    have := ok.eH; have := ok.e0; have := ok.el
    simp only [DurSeg.duration, DurSeg.startEarly, DurSeg.D]
    omega
  refine ⟨?_, MAX, by omega, by omega, ?_⟩
  · intro t h0 hm
    rw [hd t h0 hm, hseg]
    have hg := h.ok.eH; have hl := h.ok.lM; have hfl := h.ok.el
    rw [DurSeg.fin_eq h.ok, DurSeg.fin_eq h.ok]
    simp only [DurSeg.D]
    omega
  · rw [hd MAX (by omega) (by omega), hseg]

/-- **C45.** `time_warp()` is the least time warp of all trips together, that of leaving as early
as possible. -/
theorem C45_time_warp (p : Plan) (ps : List Plan) (q : Plan) (hv : ∀ x ∈ q :: p :: ps, x.Valid)
    (hf : TripsFit (p :: ps)) (hmax : (segTrips (p :: ps) q).duration ≤ MAX) :
    (segTrips (p :: ps) q).timeWarp = tripsWarp 0 (q :: p :: ps)
    ∧ ∀ t, 0 ≤ t → t ≤ MAX → (segTrips (p :: ps) q).timeWarp ≤ tripsWarp t (q :: p :: ps) := by
  obtain ⟨f, h⟩ := C45.closed p ps (fun x hx => hv x (List.mem_cons_of_mem _ hx)) hf
  have hq := hv q (by simp)
  obtain ⟨ok, rep, hr, hcd, hct, hp, hr0, hrH⟩ := C01.facts q hq
  have hM := MAX_eq; have hH := HALF_eq
  have hd : ∀ t, 0 ≤ t → t ≤ MAX → tripsWarp t (q :: p :: ps)
      = f.W t + (segOf q).W (max (f.fin t) q.release) := by
    intro t h0 hm
    rw [tripsWarp, h.finish t h0 hm, h.warp t h0 hm, (rep _).2]
  have hw0 : 0 ≤ f.W 0 := by have := h.ok.w0; simp only [DurSeg.W]; omega
  have hseg : (segTrips (p :: ps) q).timeWarp
      = f.W 0 + (segOf q).W (max (f.fin 0) q.release) := by
    have hw := ok.w0
    rw [segTrips, C45.open_fields h q hq] at hmax ⊢
    generalize f.W 0 = w at *
    simp only [DurSeg.timeWarp, DurSeg.W]
    omega
  have hm : ∀ t, 0 ≤ t → f.W 0 ≤ f.W t := by intro t h0; simp only [DurSeg.W]; omega
  constructor
  · rw [hseg, hd 0 (by omega) (by omega)]
  · intro t h0 ht
    rw [hseg, hd t h0 ht]
    have := hm t h0
    have := h.fin_mono h0
    simp only [DurSeg.W] at *
    omega

/-- **C45.** Closing the current trip with `finalise_back()` keeps the duration and the time
warp, and then tells when all trips are over at the earliest, and at the latest if they are not to
take longer. -/
theorem C45_finalise_back (p : Plan) (ps : List Plan) (hv : ∀ x ∈ p :: ps, x.Valid)
    (hf : TripsFit (p :: ps)) (hmax : (segTrips ps p).duration ≤ MAX) :
    let c := (segTrips ps p).finaliseBack
    c.duration = (segTrips ps p).duration
    ∧ c.timeWarp = (segTrips ps p).timeWarp
    ∧ c.startEarly = tripsFinish 0 (p :: ps)
    ∧ c.releaseTime_ = tripsFinish 0 (p :: ps)
    ∧ c.startLate = MAX
    ∧ c.prevEndLate_ = min MAX (tripsFinish MAX (p :: ps)) := by
  intro c
  obtain ⟨f, h⟩ := C45.closed p ps hv hf
  have hM := MAX_eq; have hH := HALF_eq
  have hfH := h.finH
  have hm := h.fin_mono (t := 0) (u := MAX) (by omega)
  have hd0 : 0 ≤ f.D MAX := by have := h.ok.d0; simp only [DurSeg.D]; omega
  have hw0 : 0 ≤ f.W 0 := by have := h.ok.w0; simp only [DurSeg.W]; omega
  have hdur : c.duration = f.D MAX := by
    simp only [c, DurSeg.duration, DurSeg.startEarly, h.fields]; omega
  have hsegd : (segTrips ps p).duration = f.D MAX := by
    cases ps with
    | nil =>
      obtain ⟨ok, rep, hr, hcd, hct, hp, hr0, hrH⟩ := C01.facts p (hv p (by simp))
      have := h.dur MAX (by omega) (by omega)
      rw [← this]
      simp only [tripsDuration, tripsFinish, (rep _).1, segTrips, DurSeg.duration,
        DurSeg.startEarly, DurSeg.D, hcd, hp, hr]
      omega
    | cons q qs =>
      have := (C45_duration q qs p hv hf.1)
      obtain ⟨h1, t, h2, h3, h4⟩ := this
      have h5 := h1 MAX (by omega) (by omega)
      rw [h.dur _ h2 h3] at h4
      rw [h.dur _ (by omega) (by omega)] at h5
      have : f.D MAX ≤ f.D t := by
        have := h.ok.eH; simp only [DurSeg.D]; omega
      omega
  refine ⟨by rw [hdur, hsegd], ?_, ?_, ?_, ?_, ?_⟩
  · have hc : c.timeWarp = f.W 0 := by
      rw [hsegd] at hmax
      have : c.timeWarp = c.cumTimeWarp_ + c.timeWarp_ + max (c.releaseTime_ - c.startLate_) 0
          + (if c.duration - (c.cumTimeWarp_ + c.timeWarp_) > MAX then
              c.duration - (c.cumTimeWarp_ + c.timeWarp_) - MAX else 0) := rfl
      rw [this, hdur]
      simp only [c, h.fields]
      omega
    rw [hc]
    cases ps with
    | nil =>
      obtain ⟨ok, rep, hr, hcd, hct, hp, hr0, hrH⟩ := C01.facts p (hv p (by simp))
      have := h.warp 0 (by omega) (by omega)
      rw [← this]
      have hk := (C01_segment_computes_drive p (hv p (by simp)) p.release (Int.le_refl _)
        (by rw [segTrips] at hmax; exact hmax)).2
      simp only [tripsWarp, tripsFinish, segTrips] at *
      rw [show max 0 p.release = p.release by omega, hk]
      simp only [DurSeg.startLate, hr]
      omega
    | cons q qs =>
      rw [(C45_time_warp q qs p hv hf.1 hmax).1, h.warp 0 (by omega) (by omega)]
  · rw [h.finish 0 (by omega) (by omega)]
    simp only [c, DurSeg.startEarly, h.fields]; omega
  · rw [h.finish 0 (by omega) (by omega)]
    simp only [c, h.fields]
  · simp only [c, DurSeg.startLate, h.fields]; omega
  · rw [h.finish MAX (by omega) (by omega)]
    simp only [c, h.fields]

/-- **C45** (one trip). `end_early()` and `end_late()` are the ends of the trip when it starts at
`start_early()` and at `start_late()`. -/
theorem C45_end_times_first_trip (p : Plan) (h : p.Valid) (hmax : (segOf p).duration ≤ MAX) :
    (segOf p).endEarly = (drive (segOf p).startEarly p.stops).finish
    ∧ (segOf p).endLate = min MAX (drive (segOf p).startLate p.stops).finish := by
  obtain ⟨ok, rep, hr, hcd, hct, hp, hr0, hrH⟩ := C01.facts p h
  have := MAX_eq; have := HALF_eq
  have := ok.w0; have := ok.el; have := ok.d0; have := ok.eH; have := ok.lM
  rw [drive_finish, drive_finish, (rep _).1, (rep _).2, (rep _).1, (rep _).2]
  simp only [DurSeg.endEarly, DurSeg.endLate, DurSeg.duration, DurSeg.timeWarp, DurSeg.startEarly,
    DurSeg.startLate, DurSeg.D, DurSeg.W, hcd, hct, hp, hr] at *
  constructor <;> omega

/-- **C45** (partly). After earlier trips, `end_early()` and `end_late()` are the ends of the
current trip when it starts at `start_early()` and at `start_late()`, **if the earlier trips can
be made to end as late as the current one starts**; otherwise the wait in between is counted
twice, see `C45_negation_end_early`. -/
theorem C45_end_times_partial (p : Plan) (ps : List Plan) (q : Plan)
    (hv : ∀ x ∈ q :: p :: ps, x.Valid) (hf : TripsFit (p :: ps))
    (hmax : (segTrips (p :: ps) q).duration ≤ MAX)
    (hwait : (segTrips (p :: ps) q).startEarly ≤ tripsFinish MAX (p :: ps)) :
    let s := segTrips (p :: ps) q
    s.endEarly = (drive s.startEarly q.stops).finish
    ∧ s.endEarly = tripsFinish 0 (q :: p :: ps)
    ∧ s.endLate = min MAX (drive s.startLate q.stops).finish := by
  intro s
  obtain ⟨f, h⟩ := C45.closed p ps (fun x hx => hv x (List.mem_cons_of_mem _ hx)) hf
  have hq := hv q (by simp)
  obtain ⟨ok, rep, hr, hcd, hct, hp, hr0, hrH⟩ := C01.facts q hq
  have hM := MAX_eq; have hH := HALF_eq
  have hff : ∀ t, (drive t q.stops).finish = (segOf q).fin t := by
    intro t; rw [drive_finish, (rep _).1, (rep _).2]; rfl
  have hfH := h.finH; have hf0 := h.fin_nonneg 0
  have hel := ok.el; have heH := ok.eH; have hw0 := ok.w0; have hlM := ok.lM; have hd0 := ok.d0
  have hD0 : 0 ≤ f.D MAX := by have := h.ok.d0; simp only [DurSeg.D]; omega
  have hW0 : 0 ≤ f.W 0 := by have := h.ok.w0; simp only [DurSeg.W]; omega
  rw [h.finish MAX (by omega) (by omega)] at hwait
  rw [tripsFinish, h.finish 0 (by omega) (by omega), hff, hff, hff]
  have hs : s = _ := C45.open_fields h q hq
  rw [segTrips, C45.open_fields h q hq] at hwait hmax
  rw [hs, DurSeg.fin_eq ok, DurSeg.fin_eq ok, DurSeg.fin_eq ok]
  generalize f.D MAX = d at *
  generalize f.W 0 = w at *
  generalize f.fin 0 = e at *
  generalize f.fin MAX = l at *
  simp only [DurSeg.endEarly, DurSeg.endLate, DurSeg.duration, DurSeg.timeWarp, DurSeg.startEarly,
    DurSeg.startLate] at *
  refine ⟨?_, ?_, ?_⟩ <;> omega

set_option maxHeartbeats 800000 in
/-- **C45** (partly). `slack()` is the amount of time by which the start of the current trip can
be delayed, holding back the earlier trips or waiting after them, without increasing the whole
duration and without more time warp on the current trip, **if the current trip has no other
reason to wait than its release times**; see `C45_negation_slack` for what happens otherwise.
-/
theorem C45_slack_partial (p : Plan) (ps : List Plan) (q : Plan)
    (hv : ∀ x ∈ q :: p :: ps, x.Valid) (hf : TripsFit (p :: ps))
    (hready : (segOf q).startEarly ≤ max (tripsFinish 0 (p :: ps)) q.release) :
    let s := segTrips (p :: ps) q
    0 ≤ s.slack
    ∧ (∀ d, 0 ≤ d → d ≤ s.slack → ∃ t, 0 ≤ t ∧ t ≤ MAX
        ∧ tripsFinish t (p :: ps) ≤ s.startEarly + d
        ∧ holdDuration t (s.startEarly + d) (p :: ps) q = s.duration
        ∧ driveWarp (s.startEarly + d) q.stops = driveWarp s.startEarly q.stops)
    ∧ (∀ d t, s.slack < d → s.startEarly + d ≤ MAX → 0 ≤ t → t ≤ MAX →
        tripsFinish t (p :: ps) ≤ s.startEarly + d →
        s.duration < holdDuration t (s.startEarly + d) (p :: ps) q
        ∨ driveWarp s.startEarly q.stops < driveWarp (s.startEarly + d) q.stops) := by
  intro s
  obtain ⟨f, h⟩ := C45.closed p ps (fun x hx => hv x (List.mem_cons_of_mem _ hx)) hf
  have hq := hv q (by simp)
  obtain ⟨ok, rep, hr, hcd, hct, hp, hr0, hrH⟩ := C01.facts q hq
  have hM := MAX_eq; have hH := HALF_eq
  have hfH := h.finH; have hf0 := h.fin_nonneg 0
  have hel := ok.el; have heH := ok.eH; have hw0 := ok.w0; have hlM := ok.lM; have hd0 := ok.d0
  have gel := h.ok.el; have geH := h.ok.eH; have glM := h.ok.lM; have ge0 := h.ok.e0
  rw [h.finish 0 (by omega) (by omega)] at hready
  have hs : s = _ := C45.open_fields h q hq
  have hfin := fun t => DurSeg.fin_eq h.ok t
  have hf0' := hfin 0
  have hfM := hfin MAX
  have hse : s.startEarly = max (f.fin 0) q.release := by
    simp only [DurSeg.startEarly, hr] at hready
    rw [hs]; simp only [DurSeg.startEarly]; omega
  have hsl : s.startLate = max (max (f.fin 0) q.release) (segOf q).startLate_ := by
    rw [hs]; simp only [DurSeg.startLate]; omega
  have hdur : s.duration = f.D MAX + (segOf q).duration_
      + max (max (f.fin 0) q.release - min MAX (f.fin MAX)) 0 := by
    rw [← hse, hs]; simp only [DurSeg.duration]
  have hslack : s.slack = min (s.startLate - s.startEarly)
      (max (min MAX (f.fin MAX) - max (f.fin 0) q.release) 0) := by
    rw [DurSeg.slack, hs]
  have hDq : ∀ u, s.startEarly ≤ u → (segOf q).D u = (segOf q).duration_ := by
    intro u hu
    simp only [DurSeg.startEarly, hr] at hready
    simp only [DurSeg.D]; omega
  have hhold : ∀ t u, 0 ≤ t → t ≤ MAX → s.startEarly ≤ u →
      holdDuration t u (p :: ps) q = f.D t + (u - f.fin t) + (segOf q).duration_ := by
    intro t u h0 hm hu
    rw [holdDuration, h.dur t h0 hm, h.finish t h0 hm, (rep _).1, hDq u hu]
  have hDM : f.D MAX = f.duration_ := by simp only [DurSeg.D]; omega
  rw [hsl, hse] at hslack
  rw [hDM] at hdur
  refine ⟨by omega, ?_, ?_⟩
  · intro d hd0 hd1
    have hwp : driveWarp (s.startEarly + d) q.stops = driveWarp s.startEarly q.stops := by
      rw [(rep _).2, (rep _).2, hse]
      simp only [DurSeg.W]; omega
    by_cases hle : s.startEarly + d ≤ min MAX (f.fin MAX)
    · refine ⟨s.startEarly + d - (f.duration_ - f.timeWarp_), by omega, by omega, ?_, ?_, hwp⟩
      · rw [h.finish _ (by omega) (by omega), hfin]; omega
      · rw [hhold _ _ (by omega) (by omega) (by omega), hfin, hdur]
        simp only [DurSeg.D]; omega
    · refine ⟨MAX, by omega, by omega, ?_, ?_, hwp⟩
      · rw [h.finish _ (by omega) (by omega)]; omega
      · rw [hhold _ _ (by omega) (by omega) (by omega), hdur, hDM]
        omega
  · intro d t hd hu h0 hm hft
    have hd0 : 0 < d := by omega
    have hkey := h.key t
    rw [hhold t _ h0 hm (by omega), hdur, (rep _).2, (rep _).2, hse]
    rw [hse] at hu
    clear hhold hDq hs rep hv hcd hct hp hq h hfin hf0' hfM hse hsl hdur hDM hready hft
    by_cases hA : (segOf q).startLate_ < max (f.fin 0) q.release + d
    · right
      clear hslack hkey hd hel
      simp only [DurSeg.W]
      generalize max (f.fin 0) q.release = r at *
      omega
    · left
      generalize max (f.fin 0) q.release = r at *
      have hB : min MAX (f.fin MAX) < r + d := by omega
      clear hslack
      generalize f.D t = x at *
      omega

namespace C45

/-- One trip that can start until 120, and takes no time. -/
def trip1 : Plan := .visit ⟨0, 120, 0, 0⟩
/-- A trip that can start between 100 and 200. -/
def trip2 : Plan := .visit ⟨100, 200, 0, 0⟩
/-- The trips of `test_repeated_merge_and_finalise_back`: 45 time units, released at 50... -/
def trip3 : Plan := .visit ⟨30, 50, 45, 50⟩
/-- ... and 50 time units, released at 100. -/
def trip4 : Plan := .visit ⟨70, 110, 50, 100⟩

theorem valid : trip1.Valid ∧ trip2.Valid ∧ trip3.Valid ∧ trip4.Valid := by
  refine ⟨?_, ?_, ?_, ?_⟩ <;> constructor <;> decide

end C45

/-- `slack()` promises too much when the current trip waits for a time window rather than for a
release time: here the trip starts at 100, and the previous one can end at 120 at the latest.
`slack()` is 100, but starting the trip 100 later means 80 time units of waiting, so the
whole takes 80 instead of 0, whenever the first trip leaves. -/
theorem C45_negation_slack :
    C45.trip1.Valid ∧ C45.trip2.Valid ∧ TripsFit [C45.trip1]
    ∧ (segTrips [C45.trip1] C45.trip2).startEarly = 100
    ∧ (segTrips [C45.trip1] C45.trip2).slack = 100
    ∧ (segTrips [C45.trip1] C45.trip2).duration = 0
    ∧ ∀ t, 0 ≤ t → tripsFinish t [C45.trip1] ≤ 200 →
        80 ≤ holdDuration t 200 [C45.trip1] C45.trip2 := by
  refine ⟨C45.valid.1, C45.valid.2.1, by exact ⟨trivial, by decide⟩, by decide, by decide,
    by decide, ?_⟩
  intro t h0 _
  simp only [holdDuration, tripsDuration, tripsFinish, C45.trip1, C45.trip2, Plan.stops,
    Plan.release, driveDuration, drive, Stop.wait, Stop.warp, Stop.begin, Stop.arrive, totalTravel,
    totalService, List.map_cons, List.map_nil, List.sum_cons, List.sum_nil]
  omega

/-- `end_early()` counts the wait before the current trip twice: the two trips of
`test_repeated_merge_and_finalise_back` are over at 150, as `finalise_back()` says as well, but
`end_early()` is 155. -/
theorem C45_negation_end_early :
    C45.trip3.Valid ∧ C45.trip4.Valid ∧ TripsFit [C45.trip3]
    ∧ (segTrips [C45.trip3] C45.trip4).startEarly = 100
    ∧ (segTrips [C45.trip3] C45.trip4).endEarly = 155
    ∧ tripsFinish 0 [C45.trip4, C45.trip3] = 150
    ∧ (segTrips [C45.trip3] C45.trip4).finaliseBack.startEarly = 150 := by
  refine ⟨C45.valid.2.2.1, C45.valid.2.2.2, by exact ⟨trivial, by decide⟩, by decide, by decide,
    by decide, by decide⟩

/-! ## Non-vacuity: the values of `test_repeated_merge_and_finalise_back` and
`test_finalise_nonzero_route_slack` -/

example : ∀ x ∈ [C45.trip4, C45.trip3, C45.trip1], x.Valid := by
  simp [C45.valid]

example : TripsFit [C45.trip4, C45.trip3, C45.trip1] := ⟨⟨⟨trivial, by decide⟩, by decide⟩, by decide⟩

example : (segTrips [C45.trip3] C45.trip4).duration = 100
    ∧ (segTrips [C45.trip3] C45.trip4).startLate = 110
    ∧ (segTrips [C45.trip3] C45.trip4).slack = 0
    ∧ (segTrips [C45.trip3] C45.trip4).finaliseBack.prevEndLate_ = 150 := by decide

/-- A case of `C45_slack_partial` with slack: the second trip is released at 60, when the first
one may go on until 120; it must start before 100. -/
example : let q : Plan := .visit ⟨0, 100, 7, 60⟩
    q.Valid ∧ (segOf q).startEarly ≤ max (tripsFinish 0 [C45.trip1]) q.release
    ∧ (segTrips [C45.trip1] q).slack = 40 ∧ (segTrips [C45.trip1] q).duration = 7
    ∧ (segTrips [C45.trip1] q).startEarly ≤ tripsFinish MAX [C45.trip1] := by
  refine ⟨?_, by decide, by decide, by decide, by decide⟩
  constructor <;> decide

end PyVRP
