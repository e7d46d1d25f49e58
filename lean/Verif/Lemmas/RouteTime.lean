import Verif.Lemmas.RouteBasic
import Verif.Lemmas.Drive
/-!
# Lemmas on the times of a route: the backward pass computes the drive
-/
namespace PyVRP
open Spec

/-- What holds for all elements and the default also holds for `getD`. -/
theorem getD_of_forall {α : Type} {P : α → Prop} {l : List α} {d : α} (h : ∀ x ∈ l, P x) (hd : P d)
    (i : Nat) : P (l.getD i d) := by
  rw [List.getD_eq_getElem?_getD]
  cases hi : l[i]? with
  | none => exact hd
  | some x => exact h x (List.mem_of_getElem? hi)

namespace Spec

theorem HALF_nonneg : 0 ≤ HALF := by rw [HALF_eq]; decide
theorem MAX_nonneg : 0 ≤ MAX := by rw [MAX_eq]; decide

theorem TimesOk.client {data : ProblemData} (h : TimesOk data) (i : Nat) :
    (DurSeg.ofClient (data.client i)).Ok ∧ 0 ≤ (data.client i).releaseTime
      ∧ (data.client i).releaseTime ≤ HALF := by
  have := getD_of_forall (d := (default : Client)) h.clients
    ⟨Int.le_refl 0, Int.le_refl 0, MAX_nonneg, HALF_nonneg, Int.le_refl 0, Int.le_refl 0,
      HALF_nonneg⟩ i
  obtain ⟨h1, h2, h3, h4, h5, h6, h7⟩ := this
  refine ⟨?_, h6, h7⟩
  constructor <;> simp only [DurSeg.ofClient, ProblemData.client] <;> omega

theorem TimesOk.depot {data : ProblemData} (h : TimesOk data) (i : Nat) (sv : Int) (hs : 0 ≤ sv) :
    (DurSeg.ofDepot (data.depot i) sv).Ok ∧ 0 ≤ (data.depot i).serviceDuration := by
  have := getD_of_forall (d := (default : Depot)) h.depots
    ⟨Int.le_refl 0, Int.le_refl 0, MAX_nonneg, HALF_nonneg, Int.le_refl 0⟩ i
  obtain ⟨h1, h2, h3, h4, h5⟩ := this
  refine ⟨?_, h5⟩
  constructor <;> simp only [DurSeg.ofDepot, ProblemData.depot] <;> omega

theorem TimesOk.pickup {data : ProblemData} (h : TimesOk data) (i : Nat) :
    (DurSeg.ofStep (data.shipment i).pickup).Ok := by
  have := getD_of_forall (d := (default : Shipment)) h.pickups
    ⟨Int.le_refl 0, Int.le_refl 0, MAX_nonneg, HALF_nonneg, Int.le_refl 0⟩ i
  obtain ⟨h1, h2, h3, h4, h5⟩ := this
  constructor <;> simp only [DurSeg.ofStep, ProblemData.shipment] <;> omega

theorem TimesOk.delivery {data : ProblemData} (h : TimesOk data) (i : Nat) :
    (DurSeg.ofStep (data.shipment i).delivery).Ok := by
  have := getD_of_forall (d := (default : Shipment)) h.deliveries
    ⟨Int.le_refl 0, Int.le_refl 0, MAX_nonneg, HALF_nonneg, Int.le_refl 0⟩ i
  obtain ⟨h1, h2, h3, h4, h5⟩ := this
  constructor <;> simp only [DurSeg.ofStep, ProblemData.shipment] <;> omega

theorem TimesOk.vehicle {data : ProblemData} (h : TimesOk data) (i : Nat) :
    let v := data.vehicleType i
    (DurSeg.ofVehicle v v.twLate).Ok ∧ (DurSeg.ofVehicle v v.startLate).Ok := by
  have := getD_of_forall (d := (default : VehicleType)) h.vehicles
    ⟨Int.le_refl 0, Int.le_refl 0, Int.le_refl 0, MAX_nonneg, HALF_nonneg⟩ i
  obtain ⟨h1, h2, h3, h4, h5⟩ := this
  constructor <;> constructor <;> simp only [DurSeg.ofVehicle, ProblemData.vehicleType] <;> omega

theorem TimesOk.dur {data : ProblemData} (h : TimesOk data) (p i j : Nat) :
    0 ≤ data.dur p i j := by
  have := getD_of_forall (d := (default : Matrix)) (P := fun m => ∀ x ∈ m.data, 0 ≤ x)
    h.durations (fun x hx => by cases hx) p
  exact getD_of_forall (P := fun x => 0 ≤ x) this (Int.le_refl 0) _

theorem tripRelease_bounds {data : ProblemData} (h : TimesOk data) (acts : List Activity) :
    0 ≤ tripRelease data acts ∧ tripRelease data acts ≤ HALF := by
  induction acts with
  | nil => exact ⟨Int.le_refl 0, HALF_nonneg⟩
  | cons a rest ih =>
    have h1 := (h.client a.idx).2
    have h0 := HALF_nonneg
    simp only [tripRelease, released]
    cases a.type <;> simp <;> omega

theorem totalService_cons (s : Stop) (l : List Stop) :
    totalService (s :: l) = s.service + totalService l := rfl

theorem totalTravel_cons (s : Stop) (l : List Stop) :
    totalTravel (s :: l) = s.travel + totalTravel l := rfl

/-- The place of the first activity, or of the end depot. -/
def headPlace (data : ProblemData) (v : VehicleType) : List Activity → Nat
  | [] => (data.depot v.endDepot).location
  | a :: _ => place data a

/-- The stops, when the vehicle is already at the first of them. -/
def arrived (data : ProblemData) (v : VehicleType) (acts : List Activity) : List Stop :=
  match stopsFrom data v 0 acts with
  | [] => []
  | s :: rest => { s with travel := 0 } :: rest

theorem arrived_ne_nil (data : ProblemData) (v : VehicleType) (acts : List Activity) :
    arrived data v acts ≠ [] := by
  cases acts <;> simp [arrived, stopsFrom]

theorem stopsFrom_eq (data : ProblemData) (v : VehicleType) (loc : Nat) (acts : List Activity) :
    stopsFrom data v loc acts
      = delay (data.dur v.profile loc (headPlace data v acts)) (arrived data v acts) := by
  cases acts <;> simp [arrived, stopsFrom, delay, headPlace]

end Spec

namespace Route

/-- What the backward loop knows after the activities `acts`. -/
structure BackInv (data : ProblemData) (v : VehicleType) (acts : List Activity) (b : Back) :
    Prop where
  ok : b.ds.Ok
  rep : b.ds.Rep (arrived data v acts)
  rel : b.ds.releaseTime_ = tripRelease data acts
  cumD : b.ds.cumDuration_ = 0
  cumW : b.ds.cumTimeWarp_ = 0
  prev : b.ds.prevEndLate_ = MAX
  loc : b.nextLoc = headPlace data v acts
  service : b.service = totalService (arrived data v acts)
  travel : b.travel = totalTravel (arrived data v acts)

/-- Prepending a visit that is not a depot. -/
theorem BackInv.visit {data : ProblemData} {v : VehicleType} {rest : List Activity} {b : Back}
    (ht : TimesOk data) (h : BackInv data v rest b) (a : Activity) (ha : a.type ≠ .depot)
    (s : DurSeg) (hs : s.Ok) (hw : s.timeWarp_ = 0) (he : s.startEarly_ = earliest data a)
    (hl : s.startLate_ = latest data a) (hd : s.duration_ = serviceTime data a)
    (hr : s.releaseTime_ = released data a) (hcd : s.cumDuration_ = 0) (hcw : s.cumTimeWarp_ = 0)
    (hp : s.prevEndLate_ = MAX) :
    BackInv data v (a :: rest)
      { ds := DurSeg.merge (data.dur v.profile (place data a) b.nextLoc) s b.ds
        nextLoc := place data a
        service := b.service + serviceTime data a
        travel := b.travel + data.dur v.profile (place data a) b.nextLoc
        releaseTimes := b.releaseTimes } := by
  have harr : arrived data v (a :: rest)
      = [⟨0, earliest data a, latest data a, serviceTime data a⟩]
        ++ delay (data.dur v.profile (place data a) b.nextLoc) (arrived data v rest) := by
    rw [h.loc, ← stopsFrom_eq]
    simp [arrived, stopsFrom, ha]
  have hd0 := ht.dur v.profile (place data a) b.nextLoc
  have hne := arrived_ne_nil data v rest
  constructor
  · exact hs.merge hd0 h.ok
  · rw [harr, ← he, ← hl, ← hd]
    exact (DurSeg.Rep.single hs hw).merge hd0 hs h.ok h.rep hne
  · simp only [DurSeg.merge, tripRelease, ha, if_false, hr, h.rel]
  · simp [DurSeg.merge, hcd, h.cumD]
  · simp [DurSeg.merge, hcw, h.cumW]
  · simp [DurSeg.merge, hp]
  · rfl
  · rw [harr, totalService_append, totalService_delay, h.service]
    simp [totalService]; omega
  · rw [harr, totalTravel_append, totalTravel_delay _ _ hne, h.travel]
    simp [totalTravel]; omega

theorem back_inv {data : ProblemData} (ht : TimesOk data) (vt : Nat) (acts : List Activity) :
    BackInv data (data.vehicleType vt) acts
      (acts.foldr (backStep data (data.vehicleType vt).profile)
        (backInit data (data.vehicleType vt))) := by
  induction acts with
  | nil =>
    have hv := (ht.vehicle vt).1
    have hd := (ht.depot (data.vehicleType vt).endDepot 0 (Int.le_refl 0)).1
    have hrep := (DurSeg.Rep.single hd rfl).merge (Int.le_refl 0) hd hv
      (DurSeg.Rep.single hv rfl) (by simp)
    constructor
    · exact hd.merge (Int.le_refl 0) hv
    · show DurSeg.Rep _ [_, _]
      exact hrep
    · simp [backInit, DurSeg.merge, DurSeg.ofDepot, DurSeg.ofVehicle, tripRelease]
    · rfl
    · rfl
    · rfl
    · rfl
    · simp [arrived, stopsFrom, totalService, backInit]
    · simp [arrived, stopsFrom, totalTravel, backInit]
  | cons a rest ih =>
    rw [List.foldr_cons]
    obtain ⟨ty, i⟩ := a
    cases ty with
    | client =>
      exact ih.visit ht ⟨.client, i⟩ (by simp) (DurSeg.ofClient (data.client i)) (ht.client i).1
        rfl rfl rfl rfl rfl rfl rfl rfl
    | pickup =>
      exact ih.visit ht ⟨.pickup, i⟩ (by simp) (DurSeg.ofStep (data.shipment i).pickup)
        (ht.pickup i) rfl rfl rfl rfl rfl rfl rfl rfl
    | delivery =>
      exact ih.visit ht ⟨.delivery, i⟩ (by simp) (DurSeg.ofStep (data.shipment i).delivery)
        (ht.delivery i) rfl rfl rfl rfl rfl rfl rfl rfl
    | depot =>
      generalize hb : rest.foldr (backStep data (data.vehicleType vt).profile)
        (backInit data (data.vehicleType vt)) = b at ih
      have hs0 := (ht.depot i 0 (Int.le_refl 0)).2
      have hd := (ht.depot i (data.depot i).serviceDuration hs0).1
      have hd0 := ht.dur (data.vehicleType vt).profile (data.depot i).location b.nextLoc
      have hne := arrived_ne_nil data (data.vehicleType vt) rest
      have hrb := tripRelease_bounds ht rest
      have hok := hd.merge hd0 ih.ok
      have hrep := (DurSeg.Rep.single hd rfl).merge hd0 hd ih.ok ih.rep hne
      have hrel : (DurSeg.merge (data.dur (data.vehicleType vt).profile (data.depot i).location
          b.nextLoc) (DurSeg.ofDepot (data.depot i) (data.depot i).serviceDuration) b.ds).releaseTime_
          = tripRelease data rest := by
        simp only [DurSeg.merge, DurSeg.ofDepot, ih.rel]; omega
      have harr : arrived data (data.vehicleType vt) (⟨.depot, i⟩ :: rest)
          = ⟨0, max (data.depot i).twEarly (tripRelease data rest), (data.depot i).twLate,
              (data.depot i).serviceDuration⟩
            :: delay (data.dur (data.vehicleType vt).profile (data.depot i).location b.nextLoc)
              (arrived data (data.vehicleType vt) rest) := by
        rw [ih.loc, ← stopsFrom_eq]
        simp [arrived, stopsFrom, earliest, latest, serviceTime, place]
      have hfin := DurSeg.Rep.finaliseFront hok hrep rfl
      rw [hrel] at hfin
      constructor
      · exact hok.finaliseFront (by omega)
      · rw [harr]; exact hfin
      · simp [backStep, DurSeg.finaliseFront, DurSeg.merge, tripRelease]
      · rfl
      · rfl
      · rfl
      · rfl
      · rw [harr, totalService_cons, totalService_delay, ← ih.service]
        exact Int.add_comm _ _
      · rw [harr, totalTravel_cons, totalTravel_delay _ _ hne, ← ih.travel]
        simp only [backStep]; omega

/-- The whole backward pass. -/
structure TotalInv (data : ProblemData) (v : VehicleType) (acts : List Activity) (b : Back) :
    Prop where
  ok : b.ds.Ok
  rep : b.ds.Rep (routeStops data v acts)
  release : b.ds.releaseTime_ = tripRelease data acts
  cumD : b.ds.cumDuration_ = 0
  cumW : b.ds.cumTimeWarp_ = 0
  prev : b.ds.prevEndLate_ = MAX
  service : b.service = totalService (routeStops data v acts)
  travel : b.travel = totalTravel (routeStops data v acts)

theorem total_inv {data : ProblemData} (ht : TimesOk data) (vt : Nat) (acts : List Activity) :
    TotalInv data (data.vehicleType vt) acts (backward data (data.vehicleType vt) acts) := by
  have ih := back_inv ht vt acts
  simp only [backward]
  generalize hb : acts.foldr (backStep data (data.vehicleType vt).profile)
    (backInit data (data.vehicleType vt)) = b at ih
  have hs0 := (ht.depot (data.vehicleType vt).startDepot 0 (Int.le_refl 0)).2
  have hd := (ht.depot (data.vehicleType vt).startDepot _ hs0).1
  have hd0 := ht.dur (data.vehicleType vt).profile
    (data.depot (data.vehicleType vt).startDepot).location b.nextLoc
  have hne := arrived_ne_nil data (data.vehicleType vt) acts
  have hok := hd.merge hd0 ih.ok
  have hrep := (DurSeg.Rep.single hd rfl).merge hd0 hd ih.ok ih.rep hne
  have hv := (ht.vehicle vt).2
  have hrep2 := (DurSeg.Rep.single hv rfl).merge (Int.le_refl 0) hv hok hrep (by simp)
  have hrb := tripRelease_bounds ht acts
  have hstops : routeStops data (data.vehicleType vt) acts
      = [⟨0, (data.vehicleType vt).twEarly, (data.vehicleType vt).startLate, 0⟩] ++ delay 0
        ([⟨0, (data.depot (data.vehicleType vt).startDepot).twEarly,
          (data.depot (data.vehicleType vt).startDepot).twLate,
          (data.depot (data.vehicleType vt).startDepot).serviceDuration⟩]
        ++ delay (data.dur (data.vehicleType vt).profile
          (data.depot (data.vehicleType vt).startDepot).location b.nextLoc)
          (arrived data (data.vehicleType vt) acts)) := by
    rw [ih.loc, ← stopsFrom_eq]
    simp [routeStops, delay]
  constructor
  · exact hv.merge (Int.le_refl 0) hok
  · rw [hstops]; exact hrep2
  · simp only [DurSeg.merge, DurSeg.ofDepot, DurSeg.ofVehicle, ih.rel]; omega
  · simp [DurSeg.merge, DurSeg.ofDepot, DurSeg.ofVehicle, ih.cumD]
  · simp [DurSeg.merge, DurSeg.ofDepot, DurSeg.ofVehicle, ih.cumW]
  · simp [DurSeg.merge, DurSeg.ofVehicle]
  · rw [hstops, totalService_append, totalService_delay, totalService_append,
      totalService_delay, ih.service]
    simp [totalService]; omega
  · rw [hstops, totalTravel_append, totalTravel_delay _ _ (by simp), totalTravel_append,
      totalTravel_delay _ _ hne, ih.travel]
    simp [totalTravel]; omega

end Route
end PyVRP
