import Verif.Props.C21
import Verif.Props.C09
/-!
# C23: skipping the evaluation of distance or duration is safe
-/
namespace PyVRP
open Spec

namespace Spec

/-- Without late arrivals: every stop may be served until `MAX`, and there is enough time. -/
theorem drive_in_time (t M : Int) (l : List Stop) (htM : t ≤ M)
    (hl : ∀ s ∈ l, s.late = MAX ∧ s.ready ≤ M ∧ 0 ≤ s.travel ∧ 0 ≤ s.service)
    (hfit : M + totalTravel l + totalService l ≤ MAX) :
    driveWarp t l = 0 ∧ (drive t l).finish ≤ M + totalTravel l + totalService l := by
  induction l generalizing t M with
  | nil =>
    have h1 : totalTravel [] = 0 := rfl
    have h2 : totalService [] = 0 := rfl
    rw [h1, h2]
    exact ⟨rfl, by show t ≤ _; omega⟩
  | cons s rest ih =>
    obtain ⟨h1, h2, h3, h4⟩ := hl s (List.mem_cons_self ..)
    rw [totalTravel_cons, totalService_cons] at hfit ⊢
    have hnn : 0 ≤ totalTravel rest ∧ 0 ≤ totalService rest := by
      have hr : ∀ s ∈ rest, 0 ≤ s.travel ∧ 0 ≤ s.service := fun x hx =>
        (hl x (List.mem_cons_of_mem _ hx)).2.2
      clear ih hl hfit
      induction rest with
      | nil => simp [totalTravel, totalService]
      | cons x rest ih =>
        have hx := hr x (List.mem_cons_self ..)
        have := ih (fun y hy => hr y (List.mem_cons_of_mem _ hy))
        rw [totalTravel_cons, totalService_cons]
        omega
    have hw : s.warp t = 0 := by simp only [Stop.warp, Stop.arrive, h1]; omega
    have hb : s.begin t + s.service ≤ M + s.travel + s.service := by
      simp only [Stop.begin, hw, Stop.wait, Stop.arrive]; omega
    have := ih (s.begin t + s.service) (M + s.travel + s.service) hb
      (fun x hx => by
        obtain ⟨g1, g2, g3, g4⟩ := hl x (List.mem_cons_of_mem _ hx)
        exact ⟨g1, by omega, g3, g4⟩) (by omega)
    simp only [driveWarp, drive, hw] at this ⊢
    omega

/-- There are no time windows. -/
structure NoWindows (data : ProblemData) : Prop where
  clients : ∀ c ∈ data.clients, c.twEarly = 0 ∧ c.twLate = MAX
  depots : ∀ c ∈ data.depots, c.twEarly = 0 ∧ c.twLate = MAX
  vehicles : ∀ v ∈ data.vehicleTypes, v.twEarly = 0 ∧ v.twLate = MAX ∧ v.startLate = MAX
  pickups : ∀ s ∈ data.shipments, s.pickup.twEarly = 0 ∧ s.pickup.twLate = MAX
  deliveries : ∀ s ∈ data.shipments, s.delivery.twEarly = 0 ∧ s.delivery.twLate = MAX

end Spec

/-- `has_time_windows` says whether anything has a time window. -/
theorem C23_has_time_windows (data : ProblemData) :
    data.hasTimeWindows = false ↔ NoWindows data := by
  simp only [ProblemData.hasTimeWindows, ProblemData.hasTw, Bool.or_eq_false_iff, List.any_eq_false,
    Bool.or_eq_true, bne_iff_ne, ne_eq, not_or, Decidable.not_not]
  constructor
  · rintro ⟨⟨⟨h1, h2⟩, h3⟩, h4⟩
    exact ⟨h1, h2, fun v hv => ⟨(h3 v hv).1.1, (h3 v hv).1.2, (h3 v hv).2⟩,
      fun s hs => (h4 s hs).1, fun s hs => (h4 s hs).2⟩
  · rintro ⟨h1, h2, h3, h4, h5⟩
    exact ⟨⟨⟨h1, h2⟩, fun v hv => ⟨⟨(h3 v hv).1, (h3 v hv).2.1⟩, (h3 v hv).2.2⟩⟩,
      fun s hs => ⟨h4 s hs, h5 s hs⟩⟩

theorem getD_mem {α : Type} (l : List α) (i : Nat) (d : α) (h : i < l.length) : l.getD i d ∈ l := by
  rw [List.getD_eq_getElem?_getD, List.getElem?_eq_getElem h]
  exact List.getElem_mem h

theorem Spec.NoWindows.activity {data : ProblemData} (h : NoWindows data) {a : Activity}
    (ha : InRange data a) : earliest data a = 0 ∧ latest data a = MAX := by
  obtain ⟨ty, i⟩ := a
  cases ty
  · exact h.depots _ (getD_mem _ _ _ ha)
  · exact h.clients _ (getD_mem _ _ _ ha)
  · exact h.pickups _ (getD_mem _ _ _ ha)
  · exact h.deliveries _ (getD_mem _ _ _ ha)

theorem tripRelease_le {data : ProblemData} {M : Int} (hM : 0 ≤ M) (acts : List Activity)
    (h : ∀ a ∈ acts, released data a ≤ M) : tripRelease data acts ≤ M := by
  induction acts with
  | nil => exact hM
  | cons a rest ih =>
    have h1 := h a (List.mem_cons_self ..)
    have h2 := ih (fun b hb => h b (List.mem_cons_of_mem _ hb))
    simp only [tripRelease]
    split
    · exact hM
    · omega

theorem stopsFrom_totals (data : ProblemData) (v : VehicleType) (a : Activity) (acts : List Activity) :
    totalTravel (stopsFrom data v (place data a) acts)
      = legSum (data.dur v.profile) ((a :: (acts ++ [⟨.depot, v.endDepot⟩])).map (place data))
    ∧ totalService (stopsFrom data v (place data a) acts) = (acts.map (serviceTime data)).sum := by
  induction acts generalizing a with
  | nil => simp [stopsFrom, totalTravel, totalService, legSum, place]
  | cons b rest ih =>
    obtain ⟨h1, h2⟩ := ih b
    rw [stopsFrom, totalTravel_cons, totalService_cons, h1, h2]
    simp [legSum]

theorem stopsFrom_late {data : ProblemData} (ht : TimesOk data) (hw : NoWindows data) (v : VehicleType)
    (hv : v ∈ data.vehicleTypes) (hend : v.endDepot < data.numDepots) {M : Int} (hM : 0 ≤ M)
    (loc : Nat) (acts : List Activity) (hex : ∀ a ∈ acts, InRange data a)
    (hrel : ∀ a ∈ acts, released data a ≤ M) :
    ∀ s ∈ stopsFrom data v loc acts, s.late = MAX ∧ s.ready ≤ M ∧ 0 ≤ s.travel ∧ 0 ≤ s.service := by
  induction acts generalizing loc with
  | nil =>
    intro s hs
    have h1 := hw.depots _ (getD_mem data.depots v.endDepot default hend)
    have h2 := hw.vehicles v hv
    have h3 := ht.dur v.profile loc (data.depot v.endDepot).location
    simp only [stopsFrom, List.mem_cons, List.not_mem_nil, or_false] at hs
    rcases hs with rfl | rfl
    · exact ⟨h1.2, by rw [show (data.depot v.endDepot).twEarly = 0 from h1.1]; exact hM, h3, Int.le_refl 0⟩
    · exact ⟨h2.2.1, by show v.twEarly ≤ M; rw [h2.1]; exact hM, Int.le_refl 0, Int.le_refl 0⟩
  | cons a rest ih =>
    intro s hs
    obtain ⟨h1, h2⟩ := hw.activity (hex a (List.mem_cons_self ..))
    have h3 := ht.dur v.profile loc (place data a)
    have h4 := serviceTime_nonneg ht a
    have h5 := tripRelease_le hM rest (fun b hb => hrel b (List.mem_cons_of_mem _ hb))
    rw [stopsFrom] at hs
    rcases List.mem_cons.1 hs with rfl | hs
    · refine ⟨h2, ?_, h3, h4⟩
      dsimp only
      rw [h1]
      split <;> omega
    · exact ih _ (fun b hb => hex b (List.mem_cons_of_mem _ hb))
        (fun b hb => hrel b (List.mem_cons_of_mem _ hb)) s hs

/-- **C23.** When the evaluation of duration is skipped, the duration cost and the time warp are zero,
for any activities, also with release times. The hypothesis `hv` is what the constructor of the vehicle
type does (C36). -/
theorem C23_skipped_duration_is_zero (data : ProblemData) (ht : TimesOk data) (vt : Nat)
    (hvt : vt < data.numVehicleTypes)
    (hv : (data.vehicleType vt).maxDuration
      = min ((data.vehicleType vt).shiftDuration + (data.vehicleType vt).maxOvertime) MAX)
    (hstart : (data.vehicleType vt).startDepot < data.numDepots)
    (hend : (data.vehicleType vt).endDepot < data.numDepots)
    (r : SRoute) (hr : r.vehicleType = vt) (hskip : r.hasDurationCost data = false)
    (acts : List Activity) (hex : ∀ a ∈ acts, InRange data a)
    (hfit : TimesFit data (data.vehicleType vt) acts) :
    (Route.build data acts vt).durationCost = 0 ∧ (Route.build data acts vt).timeWarp = 0 := by
  subst hr
  simp only [SRoute.hasDurationCost, Bool.or_eq_false_iff, bne_eq_false_iff_eq,
    Bool.and_eq_false_iff] at hskip
  obtain ⟨⟨⟨hw, hc⟩, ho⟩, hmax⟩ := hskip
  have hw := (C23_has_time_windows data).1 hw
  have hmem : data.vehicleType r.vehicleType ∈ data.vehicleTypes := getD_mem _ _ _ hvt
  have hinv := Route.total_inv ht r.vehicleType acts
  have hH := HALF_eq
  have hX := MAX_eq
  -- driving
  obtain ⟨M, hM0, hMv, hMs, hMa, hMfit⟩ := hfit
  have hrel := tripRelease_le hM0 acts (fun a ha => (hMa a ha).2)
  obtain ⟨t1, t2⟩ := stopsFrom_totals data (data.vehicleType r.vehicleType)
    ⟨.depot, (data.vehicleType r.vehicleType).startDepot⟩ acts
  have hlate := stopsFrom_late ht hw _ hmem hend hM0
    (data.depot (data.vehicleType r.vehicleType).startDepot).location acts hex
    (fun a ha => (hMa a ha).2)
  have hsd := hw.depots _ (getD_mem data.depots _ default hstart)
  have hsv := (ht.depot (data.vehicleType r.vehicleType).startDepot 0 (Int.le_refl 0)).2
  have hsvE := serviceTime_nonneg ht ⟨.depot, (data.vehicleType r.vehicleType).endDepot⟩
  have hvw := hw.vehicles _ hmem
  have htot : totalTravel (routeStops data (data.vehicleType r.vehicleType) acts)
      + totalService (routeStops data (data.vehicleType r.vehicleType) acts)
      ≤ ((fullActs (data.vehicleType r.vehicleType) acts).map (serviceTime data)).sum
      + legSum (data.dur (data.vehicleType r.vehicleType).profile)
        ((fullActs (data.vehicleType r.vehicleType) acts).map (place data)) := by
    have hp : place data ⟨.depot, (data.vehicleType r.vehicleType).startDepot⟩
      = (data.depot (data.vehicleType r.vehicleType).startDepot).location := rfl
    have hs : serviceTime data ⟨.depot, (data.vehicleType r.vehicleType).startDepot⟩
      = (data.depot (data.vehicleType r.vehicleType).startDepot).serviceDuration := rfl
    rw [hp] at t1 t2
    have hf : fullActs (data.vehicleType r.vehicleType) acts
      = ⟨.depot, (data.vehicleType r.vehicleType).startDepot⟩
        :: (acts ++ [⟨.depot, (data.vehicleType r.vehicleType).endDepot⟩]) := rfl
    rw [routeStops, totalTravel_cons, totalTravel_cons, totalService_cons, totalService_cons, t1, t2, hf]
    simp only [List.map_cons, List.map_append, List.sum_cons, List.sum_append, List.map_nil,
      List.sum_nil, hs]
    omega
  have hdrive := drive_in_time (tripRelease data acts) M
    (routeStops data (data.vehicleType r.vehicleType) acts) hrel (by
      intro s hs
      simp only [routeStops, List.mem_cons] at hs
      rcases hs with rfl | rfl | hs
      · exact ⟨hvw.2.2, hMv, Int.le_refl 0, Int.le_refl 0⟩
      · exact ⟨hsd.2, hMs, Int.le_refl 0, hsv⟩
      · exact hlate s hs) (by omega)
  have hrep := hinv.rep (tripRelease data acts)
  have hfin := drive_finish (tripRelease data acts) (routeStops data (data.vehicleType r.vehicleType) acts)
  have hdd : driveDuration (tripRelease data acts)
      (routeStops data (data.vehicleType r.vehicleType) acts) ≤ MAX := by
    have h0 := (tripRelease_bounds ht acts).1
    simp only [driveDuration, driveWarp] at *
    omega
  have hbw : (Route.build data acts r.vehicleType).timeWarp
      = (Route.backward data (data.vehicleType r.vehicleType) acts).ds.timeWarp
          (data.vehicleType r.vehicleType).maxDuration := rfl
  have hbd : (Route.build data acts r.vehicleType).duration
      = (Route.backward data (data.vehicleType r.vehicleType) acts).ds.duration := rfl
  have hbc : (Route.build data acts r.vehicleType).durationCost
      = (data.vehicleType r.vehicleType).unitDurationCost
          * (Route.build data acts r.vehicleType).duration
        + (data.vehicleType r.vehicleType).unitOvertimeCost
          * max ((Route.build data acts r.vehicleType).duration
            - (data.vehicleType r.vehicleType).shiftDuration) 0 := rfl
  obtain ⟨hok, _, hr', hcD, hcW, hprev, _, _⟩ := hinv
  rw [SRoute.timeWarp_eq, DurSeg.obs_eq] at hbw
  rw [DurSeg.duration_eq] at hbd
  rw [hr', hcD, hprev] at hbd
  rw [hcW, hr', hcD, hprev, hmax] at hbw
  rw [← hr'] at hrep hdrive hdd hfin
  rw [← hr'] at hbd hbw
  generalize (Route.backward data (data.vehicleType r.vehicleType) acts).ds = s at *
  have hDm : s.D (max MAX s.releaseTime_) ≤ s.D s.releaseTime_ := by simp only [DurSeg.D]; omega
  have hrb : s.releaseTime_ ≤ MAX := by rw [hr']; have := (tripRelease_bounds ht acts).2; omega
  have hw0 := hok.w0
  have hWt : s.W s.releaseTime_ = 0 := by rw [← hrep.2]; exact hdrive.1
  have hWw : s.timeWarp_ = 0 := by simp only [DurSeg.W] at hWt; omega
  have hdur : (Route.build data acts r.vehicleType).duration ≤ MAX := by
    rw [hbd, ← hrep.1] at *
    omega
  refine ⟨?_, ?_⟩
  · rw [hbc, hc]
    have hz : (data.vehicleType r.vehicleType).unitOvertimeCost
        * max ((Route.build data acts r.vehicleType).duration
            - (data.vehicleType r.vehicleType).shiftDuration) 0 = 0 := by
      rcases ho with h | h
      · rw [h, Int.zero_mul]
      · have : (data.vehicleType r.vehicleType).shiftDuration ≥ MAX := by
          rw [hmax, h] at hv
          omega
        rw [show max ((Route.build data acts r.vehicleType).duration
            - (data.vehicleType r.vehicleType).shiftDuration) 0 = 0 by omega, Int.mul_zero]
    rw [hz]; omega
  · rw [hbw]
    dsimp only
    rw [hWt, hWw]
    omega

/-- **C23.** When the evaluation of distance is skipped, the distance cost and the excess distance are
zero, for all routes whose distance fits into the range of `Distance`. -/
theorem C23_skipped_distance_is_zero (data : ProblemData) (r : SRoute)
    (hskip : r.hasDistanceCost data = false) (acts : List Activity)
    (hfit : (Route.build data acts r.vehicleType).distance ≤ MAX) :
    (Route.build data acts r.vehicleType).distanceCost = 0
    ∧ (Route.build data acts r.vehicleType).excessDistance = 0 := by
  simp only [SRoute.hasDistanceCost, Bool.or_eq_false_iff, bne_eq_false_iff_eq] at hskip
  have h1 : (Route.build data acts r.vehicleType).distanceCost
      = (data.vehicleType r.vehicleType).unitDistanceCost
        * (Route.build data acts r.vehicleType).distance := rfl
  have h2 : (Route.build data acts r.vehicleType).excessDistance
      = max ((Route.build data acts r.vehicleType).distance
        - (data.vehicleType r.vehicleType).maxDistance) 0 := rfl
  rw [h1, h2, hskip.1, hskip.2]
  omega

/-- **C23.** The same for proposals: what the evaluation skips is zero. -/
theorem C23_skipped_terms_of_proposal (data : ProblemData) (ht : TimesOk data) (vt k : Nat)
    (hvt : vt < data.numVehicleTypes)
    (hv : (data.vehicleType vt).maxDuration
      = min ((data.vehicleType vt).shiftDuration + (data.vehicleType vt).maxOvertime) MAX)
    (hstart : (data.vehicleType vt).startDepot < data.numDepots)
    (hend : (data.vehicleType vt).endDepot < data.numDepots)
    (hcap : ∀ dim, 0 ≤ (data.vehicleType vt).capacity.getD dim 0)
    (hinit : ∀ dim, 0 ≤ (data.vehicleType vt).initialLoad.getD dim 0)
    (p : Proposal) (old new : List Activity) (h : Proposes data vt k p old new)
    (hex : ∀ a ∈ new, InRange data a) (hfit : TimesFit data (data.vehicleType vt) new)
    (hdist : (Route.build data new vt).distance ≤ MAX) :
    (p.route.hasDistanceCost data = false → p.distance data = (0, 0))
    ∧ (p.route.hasDurationCost data = false → p.duration data = (0, 0)) := by
  have hroute : p.route.vehicleType = vt := by
    cases h with
    | mk hist _ _ _ => rw [SRoute.update_of_history hist]; rfl
  constructor
  · intro hs
    obtain ⟨h1, h2⟩ := C23_skipped_distance_is_zero data p.route hs new (by rw [hroute]; exact hdist)
    rw [hroute] at h1 h2
    have : p.distance data
        = ((Route.build data new vt).distanceCost, (Route.build data new vt).excessDistance) := by
      cases h with
      | @mk _ tail r ms as last hist hk mids hlast =>
      rw [SRoute.update_of_history hist]
      have := SRoute.proposal_distance (xs := old.take k) (ys := old.drop k) (pieces_mid mids)
        (lastPiece_tail hlast)
      rw [List.take_append_drop, List.length_take, Nat.min_eq_left hk] at this
      exact this
    rw [this, h1, h2]
  · intro hs
    obtain ⟨h1, h2⟩ := C23_skipped_duration_is_zero data ht vt hvt hv hstart hend p.route hroute
      hs new hex hfit
    have hw : NoWindows data := by
      rw [← C23_has_time_windows]
      simp only [SRoute.hasDurationCost, Bool.or_eq_false_iff] at hs
      exact hs.1.1.1
    have hrel : ReleasedInTime data new := by
      intro a _ d hd _
      rw [(hw.activity (hex d hd)).2]
      have := (released_bounds ht a).2
      have hH := HALF_eq
      have hX := MAX_eq
      omega
    obtain ⟨_, c2, _, _, c5, _⟩ := C21_proposal_exact_unchecked_partial data ht vt k hcap hinit p old new h
      hfit hrel
    exact Prod.ext (by rw [c2, h1]) (c5.2 h2)

/-! ## Non-vacuity -/

namespace Demo

/-- No windows, no costs of time, no limits; but release times and a reload. -/
def free : ProblemData :=
  { locations := [⟨0, 0, ""⟩, ⟨3, 4, ""⟩]
    clients := [
      ⟨1, [1], [0], 5, 0, MAX, 0, 0, true, none, ""⟩,
      ⟨1, [1], [0], 5, 0, MAX, 50, 0, true, none, ""⟩]
    depots := [⟨0, 0, MAX, 3, ""⟩]
    vehicleTypes := [
      { numAvailable := 1, startDepot := 0, endDepot := 0, capacity := [1], twEarly := 0
        twLate := MAX, shiftDuration := MAX, maxDistance := MAX, fixedCost := 0
        unitDistanceCost := 0, unitDurationCost := 0, profile := 0, startLate := MAX
        initialLoad := [0], reloadDepots := [0], maxReloads := 1, maxOvertime := 0
        unitOvertimeCost := 7, maxDuration := MAX, name := "" }]
    dists := [⟨2, 2, [0, 5, 5, 0]⟩]
    durs := [⟨2, 2, [0, 5, 5, 0]⟩]
    groups := []
    shipments := [] }

example : ProblemData.make free = .ok free := by decide +kernel
example : (SRoute.new free 0).hasDurationCost free = false := by decide +kernel
example : (SRoute.new free 0).hasDistanceCost free = false := by decide +kernel
example : (free.vehicleType 0).maxDuration
      = min ((free.vehicleType 0).shiftDuration + (free.vehicleType 0).maxOvertime) MAX := by decide
example : TimesFit free (free.vehicleType 0) [client 0, depot 0, client 1] :=
  ⟨50, by decide, by decide, by decide, by decide, by decide⟩
example : ∀ a ∈ [client 0, depot 0, client 1], InRange free a := by
  intro a ha; simp at ha; rcases ha with rfl | rfl | rfl <;> simp [InRange, free, ProblemData.numClients, ProblemData.numDepots]
example : TimesOk free := by
  refine ⟨by decide +kernel, by decide +kernel, by decide +kernel, by decide +kernel, by decide +kernel,
    by decide +kernel⟩

end Demo
end PyVRP
