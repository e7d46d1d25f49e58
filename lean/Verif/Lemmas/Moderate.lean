import Verif.Lemmas.SearchLoop
import Verif.Spec.SearchSpec
/-!
# The local search: instances whose routes are evaluated exactly
-/
namespace PyVRP
open Spec
open SSol (used)

variable {data : ProblemData} {ce : CostEvaluator}

theorem legSum_le {f : Nat → Nat → Int} {B : Int} (hf : ∀ i j, f i j ≤ B) (hB : 0 ≤ B) :
    ∀ l : List Nat, legSum f l ≤ B * l.length
  | [] => by simp [legSum]
  | [_] => by simpa [legSum] using hB
  | x :: y :: rest => by
    have h1 := hf x y
    have h2 := legSum_le hf hB (y :: rest)
    rw [legSum, List.length_cons, Int.natCast_succ, Int.mul_add]
    omega

theorem sum_map_le {α : Type} {f : α → Int} {B : Int} : ∀ {l : List α}, (∀ a ∈ l, f a ≤ B) →
    (l.map f).sum ≤ B * l.length
  | [], _ => by simp
  | a :: l, h => by
    have h1 := h a (by simp)
    have h2 := sum_map_le (l := l) (fun b hb => h b (by simp [hb]))
    rw [List.map_cons, List.sum_cons, List.length_cons, Int.natCast_succ, Int.mul_add]
    omega

theorem drive_wait_le {B : Int} (hB : 0 ≤ B) : ∀ (l : List Stop),
    (∀ s ∈ l, 0 ≤ s.travel ∧ s.ready ≤ B ∧ 0 ≤ s.late ∧ 0 ≤ s.service) → ∀ t, 0 ≤ t →
    (drive t l).wait ≤ B * l.length
  | [], _, t, _ => by simp [drive]
  | s :: l, h, t, ht => by
    obtain ⟨h1, h2, h3, h4⟩ := h s (by simp)
    have hb : 0 ≤ s.begin t := by
      unfold Stop.begin Stop.wait Stop.warp Stop.arrive; omega
    have hw : s.wait t ≤ B := by unfold Stop.wait Stop.arrive; omega
    have ih := drive_wait_le hB l (fun x hx => h x (by simp [hx])) (s.begin t + s.service) (by omega)
    rw [drive, List.length_cons, Int.natCast_succ, Int.mul_add]
    dsimp only
    omega

namespace Spec.ModerateUpTo

variable {B : Nat} {T : VehicleType → Nat}

theorem dur (h : ModerateUpTo data B T) (p i j : Nat) : data.dur p i j ≤ B := by
  have := getD_of_forall (d := (default : Matrix)) (P := fun m => ∀ x ∈ m.data, x ≤ (B : Int))
    h.durations (fun x hx => by cases hx) p
  exact getD_of_forall (P := fun x => x ≤ (B : Int)) this (Int.natCast_nonneg B) _

theorem dist (h : ModerateUpTo data B T) (p i j : Nat) : data.dist p i j ≤ B := by
  have := getD_of_forall (d := (default : Matrix)) (P := fun m => ∀ x ∈ m.data, x ≤ (B : Int))
    h.distances (fun x hx => by cases hx) p
  exact getD_of_forall (P := fun x => x ≤ (B : Int)) this (Int.natCast_nonneg B) _

theorem tripRelease_le (h : ModerateUpTo data B T) : ∀ {acts : List Activity}, (∀ a ∈ acts, InRange data a) →
    tripRelease data acts ≤ B
  | [], _ => Int.natCast_nonneg B
  | a :: acts, ha => by
    have h1 := (h.times a (ha a (by simp))).2.1
    have h2 := h.tripRelease_le (acts := acts) (fun b hb => ha b (by simp [hb]))
    unfold tripRelease
    split <;> omega

theorem stopsFrom_ok (h : ModerateUpTo data B T) (ht : TimesOk data) {v : VehicleType}
    (hv : v ∈ data.vehicleTypes) (he : v.endDepot < data.depots.length) :
    ∀ {acts : List Activity} (loc : Nat), (∀ a ∈ acts, InRange data a) →
    (∀ s ∈ stopsFrom data v loc acts, 0 ≤ s.travel ∧ s.ready ≤ B ∧ 0 ≤ s.late ∧ 0 ≤ s.service
      ∧ s.travel ≤ B ∧ s.service ≤ B) ∧ (stopsFrom data v loc acts).length = acts.length + 2
  | [], loc, _ => by
    have h1 := (h.times ⟨.depot, v.endDepot⟩ he).1
    have h2 := ht.depots _ (by
      rw [List.mem_iff_getElem]; exact ⟨v.endDepot, he, rfl⟩ : data.depots[v.endDepot] ∈ data.depots)
    have h3 : data.depot v.endDepot = data.depots[v.endDepot] := by
      simp [ProblemData.depot, List.getD_eq_getElem?_getD, List.getElem?_eq_getElem he]
    have h4 := h.vehicles v hv
    have h5 := ht.vehicles v hv
    have h6 := ht.dur v.profile loc (data.depot v.endDepot).location
    have h7 := h.dur v.profile loc (data.depot v.endDepot).location
    simp only [earliest] at h1
    rw [← h3] at h2
    refine ⟨?_, rfl⟩
    intro s hs
    simp only [stopsFrom, List.mem_cons, List.not_mem_nil, or_false] at hs
    rcases hs with rfl | rfl <;> dsimp only <;> omega
  | a :: acts, loc, ha => by
    obtain ⟨h1, h2, h3⟩ := h.times a (ha a (by simp))
    have ha' : ∀ b ∈ acts, InRange data b := fun b hb => ha b (by simp [hb])
    obtain ⟨i1, i2⟩ := h.stopsFrom_ok ht hv he (acts := acts) (place data a) ha'
    have h4 := h.tripRelease_le ha'
    have h6 := ht.dur v.profile loc (place data a)
    have h7 := h.dur v.profile loc (place data a)
    have hr := ha a (by simp)
    have h8 : 0 ≤ latest data a ∧ 0 ≤ serviceTime data a := by
      obtain ⟨ty, i⟩ := a
      cases ty with
      | depot =>
        have := ht.depots _ (List.getElem_mem (show i < data.depots.length from hr))
        simp only [latest, serviceTime, ProblemData.depot, List.getD_eq_getElem?_getD,
          List.getElem?_eq_getElem (show i < data.depots.length from hr), Option.getD_some]
        omega
      | client =>
        have := ht.clients _ (List.getElem_mem (show i < data.clients.length from hr))
        simp only [latest, serviceTime, ProblemData.client, List.getD_eq_getElem?_getD,
          List.getElem?_eq_getElem (show i < data.clients.length from hr), Option.getD_some]
        omega
      | pickup =>
        have := ht.pickups _ (List.getElem_mem (show i < data.shipments.length from hr))
        simp only [latest, serviceTime, ProblemData.shipment, List.getD_eq_getElem?_getD,
          List.getElem?_eq_getElem (show i < data.shipments.length from hr), Option.getD_some]
        omega
      | delivery =>
        have := ht.deliveries _ (List.getElem_mem (show i < data.shipments.length from hr))
        simp only [latest, serviceTime, ProblemData.shipment, List.getD_eq_getElem?_getD,
          List.getElem?_eq_getElem (show i < data.shipments.length from hr), Option.getD_some]
        omega
    refine ⟨?_, by rw [stopsFrom, List.length_cons, i2]; rfl⟩
    intro s hs
    rw [stopsFrom] at hs
    rcases List.mem_cons.1 hs with rfl | hs
    · dsimp only
      refine ⟨h6, ?_, h8.1, h8.2, h7, h3⟩
      split <;> omega
    · exact i1 s hs

theorem routeStops_ok (h : ModerateUpTo data B T) (ht : TimesOk data) {v : VehicleType}
    (hv : v ∈ data.vehicleTypes) (hs : v.startDepot < data.depots.length)
    (he : v.endDepot < data.depots.length) {acts : List Activity} (ha : ∀ a ∈ acts, InRange data a) :
    (∀ s ∈ routeStops data v acts, 0 ≤ s.travel ∧ s.ready ≤ B ∧ 0 ≤ s.late ∧ 0 ≤ s.service
      ∧ s.travel ≤ B ∧ s.service ≤ B) ∧ (routeStops data v acts).length = acts.length + 4 := by
  obtain ⟨i1, i2⟩ := h.stopsFrom_ok ht hv he (data.depot v.startDepot).location ha
  obtain ⟨h1, h2, h3⟩ := h.times ⟨.depot, v.startDepot⟩ hs
  simp only [earliest, serviceTime] at h1 h3
  have h4 := h.vehicles v hv
  have h5 := ht.vehicles v hv
  have h6 := ht.depots _ (List.getElem_mem hs)
  have h7 : data.depot v.startDepot = data.depots[v.startDepot] := by
    simp [ProblemData.depot, List.getD_eq_getElem?_getD, List.getElem?_eq_getElem hs]
  rw [← h7] at h6
  refine ⟨?_, by rw [routeStops, List.length_cons, List.length_cons, i2]⟩
  intro s hm
  rw [routeStops] at hm
  rcases List.mem_cons.1 hm with rfl | hm
  · dsimp only; omega
  · rcases List.mem_cons.1 hm with rfl | hm
    · dsimp only; omega
    · exact i1 s hm

theorem released_zero (hn : ∀ c ∈ data.clients, c.releaseTime = 0) {a : Activity} (ha : InRange data a) :
    released data a = 0 := by
  obtain ⟨ta, j⟩ := a
  cases ta with
  | client =>
    have hj : j < data.clients.length := ha
    have := hn _ (List.getElem_mem hj)
    simpa [released, ProblemData.client, List.getD_eq_getElem?_getD, List.getElem?_eq_getElem hj] using this
  | _ => rfl

theorem build_distance (data : ProblemData) (acts : List Activity) (vt : Nat) :
    (Route.build data acts vt).distance = legSum (data.dist (data.vehicleType vt).profile)
      ((fullActs (data.vehicleType vt) acts).map (place data)) := by
  simp only [Route.build, Route.mkSchedule, List.drop_succ_cons, List.drop_zero,
    Route.distanceLoop_eq, Route.forward_activities, Int.zero_add]
  simp [fullActs, place]

theorem build_duration_le (ht : TimesOk data) (vt : Nat) (acts : List Activity) (t : Int)
    (h : tripRelease data acts ≤ t) :
    (Route.build data acts vt).duration
      ≤ driveDuration t (routeStops data (data.vehicleType vt) acts) := by
  obtain ⟨ok, rep, hrel, hcd, hcw, hp, -, -⟩ := Route.total_inv ht vt acts
  have hb := tripRelease_bounds ht acts
  rw [(rep t).1]
  simp only [Route.build] at *
  generalize (Route.backward data (data.vehicleType vt) acts).ds = ds at *
  obtain ⟨a1, a2, a3, a4, a5, a6, a7, a8⟩ := ok
  have := MAX_eq; have := HALF_eq
  simp only [DurSeg.startEarly, DurSeg.duration, DurSeg.D, hcd, hp] at *
  omega

/-- In such an instance a route with so many trips is evaluated exactly. -/
theorem fitsRoute (h : ModerateUpTo data B T) (hg : GoodData data) {k : Nat} (hk : k < data.numVehicles)
    {acts : List Activity} (hr : RouteOk data (data.vehicleType (vehTypeAt data k)) acts)
    (hon : ∀ a : Activity, a.type ≠ .depot → acts.count a ≤ 1)
    (hT : depotVisits acts + 1 ≤ T (data.vehicleType (vehTypeAt data k))) :
    Fits data (vehTypeAt data k) acts := by
  have hd : Consistent data := ((C37_accepts_exactly_consistent data data).1 hg.made).2
  have ht := hg.times
  have hv : data.vehicleType (vehTypeAt data k) ∈ data.vehicleTypes :=
    SSol.vehicleType_mem data (vehTypeAt_lt data hk)
  generalize hvt : vehTypeAt data k = vt at *
  have htot := h.total _ hv
  generalize hvv : data.vehicleType vt = v at *
  have hlen := hr.length_le hon
  have htr := hr.trips
  have hsd : v.startDepot < data.depots.length := by
    obtain ⟨d, h⟩ := hd.startDepot v hv; exact (List.getElem?_eq_some_iff.1 h.1).1
  have hed : v.endDepot < data.depots.length := by
    obtain ⟨d, h⟩ := hd.endDepot v hv; exact (List.getElem?_eq_some_iff.1 h.1).1
  have hB := Int.natCast_nonneg B
  obtain ⟨n, hn'⟩ : ∃ n : Nat, n = acts.length + 4 := ⟨_, rfl⟩
  have hle : (((3 * B * n : Nat)) : Int) ≤ HALF := by
    refine Int.le_trans (Int.ofNat_le.2 (Nat.mul_le_mul_left _ ?_)) htot
    omega
  have hle : 3 * ((B : Int) * n) ≤ HALF := by
    have : (((3 * B * n : Nat)) : Int) = 3 * ((B : Int) * n) := by
      rw [Int.natCast_mul, Int.natCast_mul, Int.mul_assoc]; rfl
    omega
  have hfull : ∀ a ∈ fullActs v acts, InRange data a := by
    intro a ha
    rw [fullActs, List.cons_append] at ha
    rcases List.mem_cons.1 ha with rfl | ha
    · exact hsd
    · rcases List.mem_append.1 ha with ha | ha
      · exact hr.inRange a ha
      · rw [List.mem_singleton] at ha; subst ha; exact hed
  have hflen : (fullActs v acts).length + 2 = n := by rw [fullActs]; simp; omega
  have hprod : (B : Int) * ((fullActs v acts).length : Nat) + 2 * B = B * n := by
    rw [← hflen, Int.natCast_add, Int.mul_add]; omega
  have hlt : vt < data.numVehicleTypes := hvt ▸ vehTypeAt_lt data hk
  refine ⟨?_, ?_, ?_, ?_⟩
  · rw [hvv]
    refine ⟨B, hB, h.vehicles v hv, (h.times ⟨.depot, v.startDepot⟩ hsd).1,
      fun a ha => ⟨(h.times a (hr.inRange a ha)).1, (h.times a (hr.inRange a ha)).2.1⟩, ?_⟩
    have h1 := sum_map_le (f := serviceTime data) (B := B) (fun a ha => (h.times a (hfull a ha)).2.2)
    have h2 := legSum_le (f := data.dur v.profile) (B := B) (fun i j => h.dur _ i j) hB
      ((fullActs v acts).map (place data))
    rw [List.length_map] at h2
    omega
  · rw [build_distance, hvv]
    have h2 := legSum_le (f := data.dist v.profile) (B := B) (fun i j => h.dist _ i j) hB
      ((fullActs v acts).map (place data))
    rw [List.length_map] at h2
    have := HALF_eq; have := MAX_eq
    omega
  · intro a ha d hdm hdt
    obtain ⟨ty, i⟩ := d
    dsimp only at hdt
    subst hdt
    have hi : i < data.depots.length := hr.inRange _ hdm
    have hmem := List.getElem_mem hi
    have hl : latest data ⟨.depot, i⟩ = data.depots[i].twLate := by
      simp [latest, ProblemData.depot, List.getD_eq_getElem?_getD, List.getElem?_eq_getElem hi]
    have h0 := ht.depots _ hmem
    rw [hl]
    rcases h.releases.imp id (fun hn => hn v hv) with hn | hn | ⟨-, hn⟩
    · rw [released_zero hn (hr.inRange a ha)]; omega
    · have := hn
      unfold VehicleType.maxTrips at htr
      rw [if_pos this] at htr
      have h1 : 0 < depotVisits acts := List.countP_pos_iff.2 ⟨_, hdm, by simp⟩
      omega
    · obtain ⟨ta, j⟩ := a
      have hj := hr.inRange _ ha
      cases ta with
      | client =>
        have hj : j < data.clients.length := hj
        have := hn _ (List.getElem_mem hj) _ hmem
        simpa [released, ProblemData.client, List.getD_eq_getElem?_getD, List.getElem?_eq_getElem hj] using this
      | _ => simp only [released]; omega
  · rcases h.releases.imp id (fun hn => hn v hv) with hn | hn | ⟨hn, -⟩
    · exact .inl (fun a ha => released_zero hn (hr.inRange a ha))
    · refine .inr (.inl ?_)
      have := hn
      unfold VehicleType.maxTrips at htr
      rw [if_pos this] at htr
      exact (noDepot_iff acts).2 (by omega)
    · refine .inr (.inr ?_)
      obtain ⟨o1, o2⟩ := h.routeStops_ok ht hv hsd hed hr.inRange
      have hdur := build_duration_le ht vt acts (B : Int) (h.tripRelease_le hr.inRange)
      rw [hvv] at hdur ⊢
      rw [hn]
      have w := drive_wait_le hB _ (fun s hs => ⟨(o1 s hs).1, (o1 s hs).2.1, (o1 s hs).2.2.1, (o1 s hs).2.2.2.1⟩)
        (B : Int) hB
      have w1 := sum_map_le (f := Stop.travel) (B := B) (fun s hs => (o1 s hs).2.2.2.2.1)
      have w2 := sum_map_le (f := Stop.service) (B := B) (fun s hs => (o1 s hs).2.2.2.2.2)
      rw [o2, ← hn'] at w w1 w2
      unfold driveDuration totalTravel totalService at hdur
      have := HALF_eq; have := MAX_eq
      omega

end Spec.ModerateUpTo

namespace Spec.Moderate

variable {B : Nat}

/-- In such an instance all routes are evaluated exactly. -/
theorem exact (h : Moderate data B) (hc : CostOk data ce) : Exact data ce (fun _ => True) :=
  ⟨hc, fun _ _ _ hk _ hr hon _ _ => h.fitsRoute hc.good hk hr hon hr.trips,
    fun _ _ _ _ _ _ _ _ _ => trivial⟩

/-- In such an instance all routes fit in memory. -/
theorem fits (h : Moderate data B) : FitsMemory data := by
  intro v hv
  have h3 := h.total _ hv
  have h4 := h.pos
  have h5 : 3 * (data.numClients + 2 * data.numShipments + v.maxTrips + 4)
      ≤ 3 * B * (data.numClients + 2 * data.numShipments + v.maxTrips + 4) :=
    Nat.mul_le_mul_right _ (by omega)
  have := HALF_eq
  unfold SIZE_MAX
  omega

end Spec.Moderate
end PyVRP
