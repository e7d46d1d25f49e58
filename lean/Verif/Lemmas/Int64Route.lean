import Verif.Lemmas.Int64
import Verif.Lemmas.RouteTime
import Verif.Spec.Int64Spec
import Verif.Spec.Instance
import Verif.Props.C36
/-!
# Computations with 64-bit integers: routes
-/
namespace PyVRP.I64
open Spec

/-! ## Bounds on the data -/

/-- Bounds on the data of locations, clients, depots and shipments. -/
structure DataBd (data : ProblemData) (B : Int) : Prop where
  nonneg : 0 ≤ B
  client : ∀ i, Bd B B 0 (DurSeg.ofClient (data.client i))
  depot : ∀ i, Bd B B 0 (DurSeg.ofDepot (data.depot i) (data.depot i).serviceDuration)
  pickup : ∀ i, Bd B B 0 (DurSeg.ofStep (data.shipment i).pickup)
  delivery : ∀ i, Bd B B 0 (DurSeg.ofStep (data.shipment i).delivery)
  dur : ∀ p i j, 0 ≤ data.dur p i j ∧ data.dur p i j ≤ B
  dist : ∀ p i j, 0 ≤ data.dist p i j ∧ data.dist p i j ≤ B
  deliveries : ∀ i dim, 0 ≤ (data.client i).delivery.getD dim 0 ∧ (data.client i).delivery.getD dim 0 ≤ B
  pickups : ∀ i dim, 0 ≤ (data.client i).pickup.getD dim 0 ∧ (data.client i).pickup.getD dim 0 ≤ B
  amounts : ∀ i dim, 0 ≤ (data.shipment i).amount.getD dim 0 ∧ (data.shipment i).amount.getD dim 0 ≤ B
  clientPrize : ∀ i, 0 ≤ (data.client i).prize ∧ (data.client i).prize ≤ B
  shipmentPrize : ∀ i, 0 ≤ (data.shipment i).prize ∧ (data.shipment i).prize ≤ B

/-- Bounds on the data of a vehicle. -/
structure VehBd (v : VehicleType) (B M : Int) : Prop where
  early : 0 ≤ v.twEarly ∧ v.twEarly ≤ B
  late : v.twEarly ≤ v.startLate ∧ v.startLate ≤ v.twLate ∧ v.twLate ≤ MAX
  capacity : ∀ dim, 0 ≤ v.capacity.getD dim 0 ∧ v.capacity.getD dim 0 ≤ MAX
  initial : ∀ dim, 0 ≤ v.initialLoad.getD dim 0 ∧ v.initialLoad.getD dim 0 ≤ B
  unitDistance : 0 ≤ v.unitDistanceCost ∧ v.unitDistanceCost ≤ M
  unitDuration : 0 ≤ v.unitDurationCost ∧ v.unitDurationCost ≤ M
  unitOvertime : 0 ≤ v.unitOvertimeCost ∧ v.unitOvertimeCost ≤ M
  maxDistance : 0 ≤ v.maxDistance ∧ v.maxDistance ≤ MAX
  shift : 0 ≤ v.shiftDuration ∧ v.shiftDuration ≤ MAX
  maxDuration : 0 ≤ v.maxDuration
  fixedCost : -(M * B) ≤ v.fixedCost ∧ v.fixedCost ≤ M * B

theorem dataBd {data : ProblemData} {B M : Nat} (ht : TimesOk data) (h : Small data B M) :
    DataBd data B := by
  have hm := MAX_eq
  have hB : (0 : Int) ≤ B := Int.natCast_nonneg B
  have get : ∀ (l : List Int) (dim : Nat), (∀ x ∈ l, 0 ≤ x ∧ x ≤ (B : Int)) →
      0 ≤ l.getD dim 0 ∧ l.getD dim 0 ≤ (B : Int) := fun l dim hl =>
    getD_of_forall (P := fun x => 0 ≤ x ∧ x ≤ (B : Int)) hl ⟨Int.le_refl 0, hB⟩ dim
  constructor
  · exact hB
  · intro i
    have h1 := getD_of_forall (d := (default : Client)) ht.clients (by decide) i
    have h2 := getD_of_forall (d := (default : Client)) h.clients
      ⟨hB, hB, hB⟩ i
    change _ ∧ _ at h1
    constructor <;> dsimp only [DurSeg.ofClient, ProblemData.client] <;> omega
  · intro i
    have h1 := getD_of_forall (d := (default : Depot)) ht.depots (by decide) i
    have h2 := getD_of_forall (d := (default : Depot)) h.depots ⟨hB, hB⟩ i
    constructor <;> dsimp only [DurSeg.ofDepot, ProblemData.depot] <;> omega
  · intro i
    have h1 := getD_of_forall (d := (default : Shipment)) ht.pickups (by decide) i
    have h2 := getD_of_forall (d := (default : Shipment)) h.pickups ⟨hB, hB⟩ i
    constructor <;> dsimp only [DurSeg.ofStep, ProblemData.shipment] <;> omega
  · intro i
    have h1 := getD_of_forall (d := (default : Shipment)) ht.deliveries (by decide) i
    have h2 := getD_of_forall (d := (default : Shipment)) h.deliveries ⟨hB, hB⟩ i
    constructor <;> dsimp only [DurSeg.ofStep, ProblemData.shipment] <;> omega
  · intro p i j
    have h1 := getD_of_forall (d := (default : Matrix)) (P := fun m => ∀ x ∈ m.data, 0 ≤ x ∧ x ≤ (B : Int))
      (fun m hm x hx => ⟨ht.durations m hm x hx, h.durations m hm x hx⟩) (fun x hx => by cases hx) p
    exact get _ _ h1
  · intro p i j
    have h1 := getD_of_forall (d := (default : Matrix)) (P := fun m => ∀ x ∈ m.data, 0 ≤ x ∧ x ≤ (B : Int))
      h.distances (fun x hx => by cases hx) p
    exact get _ _ h1
  · intro i dim
    exact get _ _ (getD_of_forall (d := (default : Client))
      (P := fun c => ∀ x ∈ c.delivery, 0 ≤ x ∧ x ≤ (B : Int)) (fun c hc => (h.clientLoads c hc).1)
      (fun x hx => by cases hx) i)
  · intro i dim
    exact get _ _ (getD_of_forall (d := (default : Client))
      (P := fun c => ∀ x ∈ c.pickup, 0 ≤ x ∧ x ≤ (B : Int)) (fun c hc => (h.clientLoads c hc).2)
      (fun x hx => by cases hx) i)
  · intro i dim
    exact get _ _ (getD_of_forall (d := (default : Shipment))
      (P := fun c => ∀ x ∈ c.amount, 0 ≤ x ∧ x ≤ (B : Int)) h.shipmentLoads
      (fun x hx => by cases hx) i)
  · intro i
    exact getD_of_forall (d := (default : Client)) (P := fun c => 0 ≤ c.prize ∧ c.prize ≤ (B : Int))
      h.clientPrizes ⟨Int.le_refl 0, hB⟩ i
  · intro i
    exact getD_of_forall (d := (default : Shipment)) (P := fun c => 0 ≤ c.prize ∧ c.prize ≤ (B : Int))
      h.shipmentPrizes ⟨Int.le_refl 0, hB⟩ i

theorem vehBd {data : ProblemData} {B M : Nat} (hg : GoodData data) (h : Small data B M)
    {v : VehicleType} (hv : v ∈ data.vehicleTypes) : VehBd v B M := by
  have hm := MAX_eq
  have hB : (0 : Int) ≤ B := Int.natCast_nonneg B
  obtain ⟨args, hmk⟩ := hg.vehicles v hv
  have hok := (C36_vehicle_accepts args).1.1 ⟨v, hmk⟩
  have ht := hg.times.vehicles v hv
  have hu := h.unitCosts v hv
  have hl := h.limits v hv
  have hi := h.initialLoads v hv
  have hf := h.fixedCosts v hv
  have he := h.vehicles v hv
  have hmb : ((M * B : Nat) : Int) = (M : Int) * (B : Int) := by simp
  unfold VehicleType.make at hmk
  obtain ⟨_, rfl⟩ := checked_eq_ok.1 hmk
  have k1 : Nonneg (pad args.capacity args.initialLoad) := by rw [nonneg_pad]; exact hok.capacity
  have k2 : Nonneg (pad args.initialLoad (pad args.capacity args.initialLoad)) := by
    rw [nonneg_pad]; exact hok.initial
  dsimp only at *
  refine ⟨⟨ht.1, he⟩, ⟨ht.2.1, ht.2.2.1, ht.2.2.2.1⟩, ?_, ?_, ⟨?_, hu.1⟩, ⟨?_, hu.2.1⟩, ⟨?_, hu.2.2⟩,
    ⟨?_, hl.1⟩, ⟨?_, hl.2.1⟩, ?_, ?_⟩
  · intro dim
    exact getD_of_forall (P := fun x => 0 ≤ x ∧ x ≤ MAX) (fun x hx => ⟨k1 x hx, hl.2.2 x hx⟩)
      (by omega) dim
  · intro dim
    exact getD_of_forall (P := fun x => 0 ≤ x ∧ x ≤ (B : Int)) (fun x hx => ⟨k2 x hx, hi x hx⟩)
      ⟨Int.le_refl 0, hB⟩ dim
  · exact hok.unitDistance
  · exact hok.unitDuration
  · exact hok.unitOvertime
  · exact hok.distance
  · exact hok.shift
  · have := hok.shift
    have := hok.overtime
    dsimp only [VehicleType.computeMaxDuration]
    omega
  · rw [← hmb]; exact hf

/-! ## The backward loop -/

variable {data : ProblemData} {v : VehicleType} {B M : Int}

theorem DataBd.depotZero (h : DataBd data B) (i : Nat) : Bd B 0 0 (DurSeg.ofDepot (data.depot i) 0) := by
  obtain ⟨h1, h2, h3, h4, h5, h6, h7, h8, h9⟩ := h.depot i
  dsimp only [DurSeg.ofDepot] at *
  constructor <;> dsimp only <;> omega

theorem VehBd.atom (h : VehBd v B M) {l : Int} (h1 : v.twEarly ≤ l) (h2 : l ≤ MAX) :
    Bd B 0 0 (DurSeg.ofVehicle v l) := by
  have hm := MAX_eq
  have he := h.early
  constructor <;> dsimp only [DurSeg.ofVehicle] <;> omega

/-- Bounds on the state of the backward loop after `n` activities. -/
structure BackBd (B : Int) (n : Nat) (b : Route.Back) : Prop where
  ds : Bd B (4 * (B * n) + B) 0 b.ds
  service : 0 ≤ b.service ∧ b.service ≤ B * n
  travel : 0 ≤ b.travel ∧ b.travel ≤ B * n
  releases : ∀ x ∈ b.releaseTimes, 0 ≤ x ∧ x ≤ B

theorem backInit_eq (hd : DataBd data B) (hv : VehBd v B M) (hB : 4 * B ≤ HALF) :
    backInit data v = some (Route.backInit data v) ∧ BackBd B 0 (Route.backInit data v) := by
  have h0 := hd.nonneg
  have h1 := hd.depotZero v.endDepot
  have h2 := hv.atom (l := v.twLate) (by have := hv.late; omega) (by have := hv.late; omega)
  have hb := Bd.merge (e := 0) (a := B) h1 h2 (by omega) (by omega) (by omega) (by omega)
  unfold backInit Route.backInit
  dsimp only
  rw [merge_eq h1 h2 (by omega) (by omega)]
  refine ⟨rfl, hb.mono (by omega) (by omega) (by omega), ?_, ?_, ?_⟩
  · dsimp only; omega
  · dsimp only; omega
  · intro x hx; cases hx

theorem backVisit {n : Nat} {b : Route.Back} {s : DurSeg} {e : Int} (hb : BackBd B n b)
    (hs : Bd B B 0 s) (he : 0 ≤ e ∧ e ≤ B) (hn : 4 * (B * n) + 8 * B ≤ HALF) :
    merge e s b.ds = some (DurSeg.merge e s b.ds)
    ∧ Bd B (4 * (B * n) + 4 * B) 0 (DurSeg.merge e s b.ds) := by
  have hk := Bd.merge (a := B) hs hb.ds he.1 (by omega) (by omega)
    (by have := hb.service; have := hs.early; omega)
  refine ⟨merge_eq hs hb.ds he.1 (by omega), hk.mono (by omega) (by omega) (by omega)⟩

theorem backStep_eq (hd : DataBd data B) {n : Nat} {b : Route.Back} (hb : BackBd B n b)
    (hn : 4 * (B * (n + 1)) + 8 * B ≤ HALF) (profile : Nat) (a : Activity) :
    backStep data profile a b = some (Route.backStep data profile a b)
    ∧ BackBd B (n + 1) (Route.backStep data profile a b) := by
  have hm := MAX_eq
  have hh := HALF_eq
  have h0 := hd.nonneg
  have hbn : B * ((n : Int) + 1) = B * n + B := by rw [Int.mul_add, Int.mul_one]
  have hbn' : B * ((n + 1 : Nat) : Int) = B * n + B := by rw [Int.natCast_succ]; exact hbn
  rw [hbn] at hn
  have h1 := hb.service
  have h2 := hb.travel
  cases hty : a.type
  all_goals
    unfold backStep Route.backStep
    simp only [hty]
  · have he := hd.dur profile (data.depot a.idx).location b.nextLoc
    obtain ⟨k1, k2⟩ := backVisit hb (hd.depot a.idx) he (by omega)
    have hsv : 0 ≤ (data.depot a.idx).serviceDuration ∧ (data.depot a.idx).serviceDuration ≤ B :=
      (hd.depot a.idx).dur
    have k3 : Bd B (4 * (B * ((n + 1 : Nat) : Int)) + B) 0 _ :=
      (k2.finaliseFront (by omega)).mono (by omega) (by omega) (by omega)
    rw [k1]
    dsimp only [Option.bind_eq_bind, Option.bind_some]
    rw [finaliseFront_eq k2 (by omega), add_eq (a := b.service) (by omega),
      add_eq (a := b.travel) (by omega)]
    refine ⟨rfl, ⟨k3, ?_, ?_, ?_⟩⟩
    · dsimp only; omega
    · dsimp only; omega
    · intro x hx
      rcases List.mem_cons.1 hx with rfl | hx
      · exact k2.rel
      · exact hb.releases x hx
  · have he := hd.dur profile (data.client a.idx).location b.nextLoc
    obtain ⟨k1, k2⟩ := backVisit hb (hd.client a.idx) he (by omega)
    have hsv : 0 ≤ (data.client a.idx).serviceDuration ∧ (data.client a.idx).serviceDuration ≤ B :=
      (hd.client a.idx).dur
    have k3 : Bd B (4 * (B * ((n + 1 : Nat) : Int)) + B) 0 _ :=
      k2.mono (by omega) (by omega) (by omega)
    rw [k1, add_eq (a := b.service) (by omega), add_eq (a := b.travel) (by omega)]
    refine ⟨rfl, ⟨k3, ?_, ?_, hb.releases⟩⟩
    · dsimp only; omega
    · dsimp only; omega
  · have he := hd.dur profile (data.shipment a.idx).pickup.location b.nextLoc
    obtain ⟨k1, k2⟩ := backVisit hb (hd.pickup a.idx) he (by omega)
    have hsv : 0 ≤ (data.shipment a.idx).pickup.serviceDuration ∧ (data.shipment a.idx).pickup.serviceDuration ≤ B :=
      (hd.pickup a.idx).dur
    have k3 : Bd B (4 * (B * ((n + 1 : Nat) : Int)) + B) 0 _ :=
      k2.mono (by omega) (by omega) (by omega)
    rw [k1, add_eq (a := b.service) (by omega), add_eq (a := b.travel) (by omega)]
    refine ⟨rfl, ⟨k3, ?_, ?_, hb.releases⟩⟩
    · dsimp only; omega
    · dsimp only; omega
  · have he := hd.dur profile (data.shipment a.idx).delivery.location b.nextLoc
    obtain ⟨k1, k2⟩ := backVisit hb (hd.delivery a.idx) he (by omega)
    have hsv : 0 ≤ (data.shipment a.idx).delivery.serviceDuration ∧ (data.shipment a.idx).delivery.serviceDuration ≤ B :=
      (hd.delivery a.idx).dur
    have k3 : Bd B (4 * (B * ((n + 1 : Nat) : Int)) + B) 0 _ :=
      k2.mono (by omega) (by omega) (by omega)
    rw [k1, add_eq (a := b.service) (by omega), add_eq (a := b.travel) (by omega)]
    refine ⟨rfl, ⟨k3, ?_, ?_, hb.releases⟩⟩
    · dsimp only; omega
    · dsimp only; omega

theorem backLoop_eq (hd : DataBd data B) (hv : VehBd v B M) : ∀ (acts : List Activity),
    4 * (B * acts.length) + 8 * B ≤ HALF →
    backLoop data v acts = some (acts.foldr (Route.backStep data v.profile) (Route.backInit data v))
    ∧ BackBd B acts.length (acts.foldr (Route.backStep data v.profile) (Route.backInit data v))
  | [], h => by
    have h0 := hd.nonneg
    have := backInit_eq hd hv (by simp at h; omega)
    exact this
  | a :: rest, h => by
    have h0 := hd.nonneg
    rw [List.length_cons, Int.natCast_succ] at h
    have hbn : B * ((rest.length : Int) + 1) = B * rest.length + B := by rw [Int.mul_add, Int.mul_one]
    obtain ⟨h1, h2⟩ := backLoop_eq hd hv rest (by omega)
    have h3 := backStep_eq hd h2 h v.profile a
    rw [backLoop, h1]
    exact h3

theorem backward_eq (hd : DataBd data B) (hv : VehBd v B M) (acts : List Activity)
    (h : 4 * (B * acts.length) + 16 * B ≤ HALF) :
    backward data v acts = some (Route.backward data v acts)
    ∧ Bd B (4 * (B * acts.length) + 5 * B) 0 (Route.backward data v acts).ds
    ∧ (0 ≤ (Route.backward data v acts).service ∧ (Route.backward data v acts).service ≤ B * acts.length + B)
    ∧ (0 ≤ (Route.backward data v acts).travel ∧ (Route.backward data v acts).travel ≤ B * acts.length + B)
    ∧ ∀ x ∈ (Route.backward data v acts).releaseTimes, 0 ≤ x ∧ x ≤ B := by
  have hm := MAX_eq
  have hh := HALF_eq
  have h0 := hd.nonneg
  obtain ⟨h1, h2⟩ := backLoop_eq hd hv acts (by omega)
  unfold backward Route.backward
  rw [h1]
  dsimp only [Option.bind_eq_bind, Option.bind_some]
  generalize acts.foldr (Route.backStep data v.profile) (Route.backInit data v) = b at *
  have he := hd.dur v.profile (data.depot v.startDepot).location b.nextLoc
  obtain ⟨k1, k2⟩ := backVisit h2 (hd.depot v.startDepot) he (by omega)
  have hsv : 0 ≤ (data.depot v.startDepot).serviceDuration
    ∧ (data.depot v.startDepot).serviceDuration ≤ B := (hd.depot v.startDepot).dur
  have h3 := hv.atom (l := v.startLate) hv.late.1 (by have := hv.late; omega)
  have hs := h2.service
  have ht := h2.travel
  rw [k1]
  dsimp only [Option.bind_some]
  rw [merge_eq h3 k2 (by omega) (by omega), add_eq (a := b.service) (by omega),
    add_eq (a := b.travel) (by omega)]
  have k3 := Bd.merge (e := 0) (a := B) h3 k2 (by omega) (by omega) (by omega) (by omega)
  refine ⟨rfl, k3.mono (by omega) (by omega) (by omega), by omega, by omega, ?_⟩
  intro x hx
  rcases List.mem_cons.1 hx with rfl | hx
  · exact k3.rel
  · exact h2.releases x hx

/-! ## The schedule -/

theorem handle_eq {a now early late service : Int} (act : Activity) (trip : Nat) (hBa : B ≤ a)
    (hb : a + 2 * B ≤ MAX) (hn : 0 ≤ now ∧ now ≤ a) (he : 0 ≤ early ∧ early ≤ B)
    (hl : 0 ≤ late ∧ late ≤ MAX) (hs : 0 ≤ service ∧ service ≤ B) :
    handle now act trip early late service = some (Route.handle now act trip early late service)
    ∧ 0 ≤ (Route.handle now act trip early late service).2
    ∧ (Route.handle now act trip early late service).2 ≤ a + B := by
  have hm := MAX_eq
  unfold handle Route.handle scheduled
  refine ⟨?_, ?_, ?_⟩
  · dsimp only
    simp (disch := omega) only [add_eq, sub_eq, Option.bind_eq_bind, Option.bind_some]
    rw [if_pos (by omega)]
    rfl
  · dsimp only; omega
  · dsimp only; omega

theorem handleArgs_bd (hd : DataBd data B) (a : Activity) {rel : Int} (hr : 0 ≤ rel ∧ rel ≤ B) :
    (0 ≤ (Route.handleArgs data a rel).1 ∧ (Route.handleArgs data a rel).1 ≤ B)
    ∧ (0 ≤ (Route.handleArgs data a rel).2.1 ∧ (Route.handleArgs data a rel).2.1 ≤ MAX)
    ∧ (0 ≤ (Route.handleArgs data a rel).2.2 ∧ (Route.handleArgs data a rel).2.2 ≤ B) := by
  have h1 := hd.depot a.idx
  have h2 := hd.client a.idx
  have h3 := hd.pickup a.idx
  have h4 := hd.delivery a.idx
  unfold Route.handleArgs
  cases hty : a.type <;> simp only
  · have e1 := h1.early
    have e2 := h1.late
    have e3 := h1.dur
    dsimp only [DurSeg.ofDepot] at e1 e2 e3
    omega
  · have e1 := h2.early
    have e2 := h2.late
    have e3 := h2.dur
    dsimp only [DurSeg.ofClient] at e1 e2 e3
    omega
  · have e1 := h3.early
    have e2 := h3.late
    have e3 := h3.dur
    dsimp only [DurSeg.ofStep] at e1 e2 e3
    omega
  · have e1 := h4.early
    have e2 := h4.late
    have e3 := h4.dur
    dsimp only [DurSeg.ofStep] at e1 e2 e3
    omega

theorem forward_eq (hd : DataBd data B) (rels : List Int) (hr : ∀ x ∈ rels, 0 ≤ x ∧ x ≤ B) :
    ∀ (acts : List Activity) (now a : Int) (loc trip : Nat), B ≤ a → 0 ≤ now ∧ now ≤ a →
      a + 2 * (B * acts.length) + 4 * B ≤ MAX →
      forward data v rels now loc trip acts = some (Route.forward data v rels now loc trip acts)
  | [], now, a, loc, trip, hBa, hn, hb => by
    have h0 := hd.nonneg
    have hm := MAX_eq
    have he := hd.dur v.profile loc (data.depot v.endDepot).location
    have h1 := hd.depot v.endDepot
    have e1 := h1.early
    have e2 := h1.late
    dsimp only [DurSeg.ofDepot] at e1 e2
    have hb' : a + 4 * B ≤ MAX := by
      rw [List.length_nil, Int.natCast_zero, Int.mul_zero] at hb
      omega
    rw [forward, Route.forward]
    rw [add_eq (by omega)]
    dsimp only [Option.bind_eq_bind, Option.bind_some]
    rw [(handle_eq (a := a + B) (B := B) _ _ (by omega) (by omega) (by omega) (by omega) (by omega)
      (by omega)).1]
    rfl
  | act :: rest, now, a, loc, trip, hBa, hn, hb => by
    have h0 := hd.nonneg
    have hm := MAX_eq
    rw [List.length_cons, Int.natCast_succ, Int.mul_add, Int.mul_one] at hb
    have hbr : 0 ≤ B * (rest.length : Int) := Int.mul_nonneg h0 (Int.natCast_nonneg _)
    have he := hd.dur v.profile loc (data.locationOf act)
    have hrel : 0 ≤ rels.getD (if act.isDepot then trip + 1 else trip) 0
        ∧ rels.getD (if act.isDepot then trip + 1 else trip) 0 ≤ B :=
      getD_of_forall (P := fun x => 0 ≤ x ∧ x ≤ B) hr (by omega) _
    obtain ⟨g1, g2, g3⟩ := handleArgs_bd hd act hrel
    rw [forward, Route.forward]
    dsimp only
    rw [add_eq (by omega)]
    dsimp only [Option.bind_eq_bind, Option.bind_some]
    have hh := handle_eq (now := now + data.dur v.profile loc (data.locationOf act)) (a := a + B)
      (B := B) act (if act.isDepot then trip + 1 else trip) (by omega) (by omega) (by omega) g1 g2 g3
    rw [hh.1]
    dsimp only [Option.bind_some]
    rw [forward_eq hd rels hr rest _ (a + 2 * B) _ _ (by omega) ⟨hh.2.1, by omega⟩ (by omega)]
    rfl

theorem mkSchedule_eq (hd : DataBd data B) (hv : VehBd v B M) {rels : List Int}
    (hr : ∀ x ∈ rels, 0 ≤ x ∧ x ≤ B) {startTime rel : Int} (hs : 0 ≤ startTime ∧ startTime ≤ B)
    (hrel : 0 ≤ rel ∧ rel ≤ B) {acts : List Activity} (hb : 2 * (B * acts.length) + 6 * B ≤ MAX) :
    mkSchedule data v rels startTime rel acts = some (Route.mkSchedule data v rels startTime rel acts) := by
  have h0 := hd.nonneg
  have hm := MAX_eq
  have hbr : 0 ≤ B * (acts.length : Int) := Int.mul_nonneg h0 (Int.natCast_nonneg _)
  have h1 := hd.depot v.startDepot
  have e1 := h1.early
  have e2 := h1.late
  have e3 := h1.dur
  dsimp only [DurSeg.ofDepot] at e1 e2 e3
  have e4 := hv.late
  have e5 := hv.early
  have hh := handle_eq (now := startTime) (a := B) (B := B) { type := .depot, idx := v.startDepot } 0
    (early := max (data.depot v.startDepot).twEarly (min rel (data.depot v.startDepot).twLate))
    (late := min (data.depot v.startDepot).twLate v.startLate)
    (service := (data.depot v.startDepot).serviceDuration)
    (by omega) (by omega) (by omega) (by omega) (by omega) (by omega)
  unfold mkSchedule Route.mkSchedule
  dsimp only
  rw [hh.1]
  dsimp only [Option.bind_eq_bind, Option.bind_some]
  rw [forward_eq hd rels hr acts _ (2 * B) _ _ (by omega) ⟨hh.2.1, by omega⟩ (by omega)]
  rfl

theorem forward_length (rels : List Int) : ∀ (acts : List Activity) (now : Int) (loc trip : Nat),
    (Route.forward data v rels now loc trip acts).length = acts.length + 1
  | [], _, _, _ => rfl
  | a :: rest, now, loc, trip => by
    rw [Route.forward]
    rw [List.length_cons, forward_length rels rest, List.length_cons]

theorem mkSchedule_length (rels : List Int) (s r : Int) (acts : List Activity) :
    (Route.mkSchedule data v rels s r acts).length = acts.length + 2 := by
  unfold Route.mkSchedule
  dsimp only
  rw [List.length_cons, forward_length]

/-! ## Distance, load and prizes -/

theorem distanceLoop_eq (hd : DataBd data B) (profile : Nat) : ∀ (l : List ScheduledActivity)
    (loc : Nat) (acc : Int), 0 ≤ acc → acc + B * l.length ≤ MAX →
    distanceLoop data profile loc acc l = some (Route.distanceLoop data profile loc acc l)
    ∧ 0 ≤ Route.distanceLoop data profile loc acc l
    ∧ Route.distanceLoop data profile loc acc l ≤ acc + B * l.length
  | [], loc, acc, h0, hb => by
    refine ⟨rfl, h0, ?_⟩
    rw [List.length_nil, Int.natCast_zero, Int.mul_zero, Int.add_zero]
    exact Int.le_refl acc
  | s :: rest, loc, acc, h0, hb => by
    have hB := hd.nonneg
    have hm := MAX_eq
    rw [List.length_cons, Int.natCast_succ, Int.mul_add, Int.mul_one] at hb ⊢
    have hbr : 0 ≤ B * (rest.length : Int) := Int.mul_nonneg hB (Int.natCast_nonneg _)
    have he := hd.dist profile loc (data.locationOf s.activity)
    rw [distanceLoop, Route.distanceLoop]
    rw [add_eq (by omega)]
    obtain ⟨h1, h2, h3⟩ := distanceLoop_eq hd profile rest (data.locationOf s.activity)
      (acc + data.dist profile loc (data.locationOf s.activity)) (by omega) (by omega)
    exact ⟨h1, h2, by omega⟩

/-- Bounds on the state of the loop of `setLoad`. -/
structure LStateBd (q : Int) (st : Route.LState) : Prop where
  ls : LBd q st.ls
  delivery : 0 ≤ st.delivery ∧ st.delivery ≤ q
  pickup : 0 ≤ st.pickup ∧ st.pickup ≤ q

theorem loadStep_eq (hd : DataBd data B) (hv : VehBd v B M) (dim : Nat) {q : Int}
    {st : Route.LState} (h : LStateBd q st) (hq : 2 * (q + B) ≤ MAX) (s : ScheduledActivity) :
    loadStep data v dim st s = some (Route.loadStep data v dim st s)
    ∧ LStateBd (q + B) (Route.loadStep data v dim st s) := by
  have hB := hd.nonneg
  have hm := MAX_eq
  have hh := HALF_eq
  have h1 := h.delivery
  have h2 := h.pickup
  have hc := hv.capacity dim
  cases hty : s.activity.type
  all_goals
    unfold loadStep Route.loadStep
    simp only [hty]
  · obtain ⟨k1, k2⟩ := finalise_eq h.ls hc.1 (by omega) hc.2
    rw [k1]
    exact ⟨rfl, ⟨k2.mono (by omega), by dsimp only; omega, by dsimp only; omega⟩⟩
  · have e1 := hd.deliveries s.activity.idx dim
    have e2 := hd.pickups s.activity.idx dim
    obtain ⟨k1, k2⟩ := loadOfClient_eq (c := data.client s.activity.idx) (dim := dim) (by omega) e1 e2
    obtain ⟨k3, k4⟩ := mergeLoad_eq h.ls k2 (by omega)
    rw [k1]
    dsimp only [Option.bind_eq_bind, Option.bind_some]
    rw [k3, add_eq (a := st.delivery) (by omega), add_eq (a := st.pickup) (by omega)]
    exact ⟨rfl, ⟨k4, by dsimp only; omega, by dsimp only; omega⟩⟩
  · have e1 := hd.amounts s.activity.idx dim
    obtain ⟨k1, k2⟩ := loadOfShipment_eq (s := data.shipment s.activity.idx) (t := .pickup) (dim := dim)
      (by omega) e1
    obtain ⟨k3, k4⟩ := mergeLoad_eq h.ls k2 (by omega)
    rw [k1]
    dsimp only [Option.bind_eq_bind, Option.bind_some]
    rw [k3]
    exact ⟨rfl, ⟨k4, by dsimp only; omega, by dsimp only; omega⟩⟩
  · have e1 := hd.amounts s.activity.idx dim
    obtain ⟨k1, k2⟩ := loadOfShipment_eq (s := data.shipment s.activity.idx) (t := .delivery) (dim := dim)
      (by omega) e1
    obtain ⟨k3, k4⟩ := mergeLoad_eq h.ls k2 (by omega)
    rw [k1]
    dsimp only [Option.bind_eq_bind, Option.bind_some]
    rw [k3]
    exact ⟨rfl, ⟨k4, by dsimp only; omega, by dsimp only; omega⟩⟩

theorem loadLoop_eq (hd : DataBd data B) (hv : VehBd v B M) (dim : Nat) :
    ∀ (l : List ScheduledActivity) (q : Int) (st : Route.LState), LStateBd q st →
      2 * (q + B * l.length) ≤ MAX →
      loadLoop data v dim st l = some (l.foldl (Route.loadStep data v dim) st)
      ∧ LStateBd (q + B * l.length) (l.foldl (Route.loadStep data v dim) st)
  | [], q, st, h, hb => by
    refine ⟨rfl, ?_⟩
    rw [List.length_nil, Int.natCast_zero, Int.mul_zero, Int.add_zero]
    exact h
  | s :: rest, q, st, h, hb => by
    have hB := hd.nonneg
    have hbn : B * ((rest.length : Int) + 1) = B * rest.length + B := by rw [Int.mul_add, Int.mul_one]
    rw [List.length_cons, Int.natCast_succ, hbn] at hb ⊢
    have hbr : 0 ≤ B * (rest.length : Int) := Int.mul_nonneg hB (Int.natCast_nonneg _)
    obtain ⟨k1, k2⟩ := loadStep_eq hd hv dim h (by omega) s
    obtain ⟨k3, k4⟩ := loadLoop_eq hd hv dim rest (q + B) _ k2 (by omega)
    rw [loadLoop, k1]
    refine ⟨k3, ?_⟩
    rw [show q + (B * (rest.length : Int) + B) = q + B + B * rest.length by omega]
    exact k4

theorem loadInit_bd (hv : VehBd v B M) (dim : Nat) : LStateBd B (Route.loadInit v dim) := by
  have h := hv.initial dim
  unfold Route.loadInit
  split
  · refine ⟨?_, by dsimp only; omega, by dsimp only; omega⟩
    constructor <;> dsimp only [LoadSeg.ofVehicle] <;> omega
  · refine ⟨?_, by dsimp only; omega, by dsimp only; omega⟩
    constructor <;> dsimp only <;> omega

theorem loadDim_eq (hd : DataBd data B) (hv : VehBd v B M) {l : List ScheduledActivity} {n : Nat}
    (hl : l.length = n + 1) (hb : 2 * (B * n) + 2 * B ≤ MAX) (dim : Nat) :
    loadDim data v l dim = some (Route.loadDim data v l dim)
    ∧ 0 ≤ (Route.loadDim data v l dim).2.2
    ∧ (Route.loadDim data v l dim).2.2 ≤ 2 * (B * n) + 2 * B := by
  have hc := hv.capacity dim
  have hlen : (l.drop 1).length = n := by rw [List.length_drop, hl]; rfl
  obtain ⟨k1, k2⟩ := loadLoop_eq hd hv dim (l.drop 1) B _ (loadInit_bd hv dim) (by rw [hlen]; omega)
  rw [hlen] at k2
  obtain ⟨k3, k4, k5⟩ := excessLoad_eq k2.ls hc.1 (by omega) hc.2
  unfold loadDim Route.loadDim
  rw [k1]
  dsimp only [Option.bind_eq_bind, Option.bind_some]
  rw [k3]
  exact ⟨rfl, k4, by omega⟩

theorem prizesLoop_eq (hd : DataBd data B) : ∀ (l : List ScheduledActivity) (acc : Int), 0 ≤ acc →
    acc + 2 * (B * l.length) ≤ MAX →
    prizesLoop data acc l = some (l.foldl (fun acc s =>
      let acc := if s.activity.isClient then acc + (data.client s.activity.idx).prize else acc
      if s.activity.isPickup then acc + (data.shipment s.activity.idx).prize else acc) acc)
    ∧ 0 ≤ (l.foldl (fun acc s =>
      let acc := if s.activity.isClient then acc + (data.client s.activity.idx).prize else acc
      if s.activity.isPickup then acc + (data.shipment s.activity.idx).prize else acc) acc)
    ∧ (l.foldl (fun acc s =>
      let acc := if s.activity.isClient then acc + (data.client s.activity.idx).prize else acc
      if s.activity.isPickup then acc + (data.shipment s.activity.idx).prize else acc) acc)
        ≤ acc + 2 * (B * l.length)
  | [], acc, h0, hb => by
    refine ⟨rfl, h0, ?_⟩
    rw [List.length_nil, Int.natCast_zero, Int.mul_zero]
    simp
  | s :: rest, acc, h0, hb => by
    have hB := hd.nonneg
    have hm := MAX_eq
    rw [List.length_cons, Int.natCast_succ, Int.mul_add, Int.mul_one] at hb ⊢
    have hbr : 0 ≤ B * (rest.length : Int) := Int.mul_nonneg hB (Int.natCast_nonneg _)
    have e1 := hd.clientPrize s.activity.idx
    have e2 := hd.shipmentPrize s.activity.idx
    rw [prizesLoop, List.foldl_cons]
    rw [add_eq (by omega)]
    dsimp only [Option.bind_eq_bind]
    rw [ternary_some]
    dsimp only [Option.bind_some]
    have hx : 0 ≤ (if s.activity.isClient = true then acc + (data.client s.activity.idx).prize else acc)
        ∧ (if s.activity.isClient = true then acc + (data.client s.activity.idx).prize else acc) ≤ acc + B := by
      split <;> omega
    generalize (if s.activity.isClient = true then acc + (data.client s.activity.idx).prize else acc) = x at *
    rw [add_eq (by omega), ternary_some]
    dsimp only [Option.bind_some]
    have hy : 0 ≤ (if s.activity.isPickup = true then x + (data.shipment s.activity.idx).prize else x)
        ∧ (if s.activity.isPickup = true then x + (data.shipment s.activity.idx).prize else x) ≤ x + B := by
      split <;> omega
    generalize (if s.activity.isPickup = true then x + (data.shipment s.activity.idx).prize else x) = y at *
    obtain ⟨k1, k2, k3⟩ := prizesLoop_eq hd rest y hy.1 (by omega)
    exact ⟨k1, k2, by dsimp only at k3; omega⟩

/-! ## Whole routes -/

/-- Bounds on the statistics of a route with `X = B * n`, where `n` is the number of stops, and with `L`
load dimensions. -/
structure RouteBd (M X : Int) (L : Nat) (r : Route) : Prop where
  distance : 0 ≤ r.distance ∧ r.distance ≤ X
  distanceCost : 0 ≤ r.distanceCost ∧ r.distanceCost ≤ M * X
  excessDistance : 0 ≤ r.excessDistance ∧ r.excessDistance ≤ X
  duration : 0 ≤ r.duration ∧ r.duration ≤ 4 * X
  overtime : 0 ≤ r.overtime ∧ r.overtime ≤ 4 * X
  durationCost : 0 ≤ r.durationCost ∧ r.durationCost ≤ 8 * (M * X)
  timeWarp : 0 ≤ r.timeWarp ∧ r.timeWarp ≤ 8 * X
  travel : 0 ≤ r.travelDuration ∧ r.travelDuration ≤ X
  service : 0 ≤ r.serviceDuration ∧ r.serviceDuration ≤ X
  startTime : 0 ≤ r.startTime ∧ r.startTime ≤ X
  prizes : 0 ≤ r.prizes ∧ r.prizes ≤ 2 * X
  fixedCost : -(M * X) ≤ r.fixedVehicleCost ∧ r.fixedVehicleCost ≤ M * X
  dims : r.excessLoad.length = L
  excessLoad : ∀ x ∈ r.excessLoad, 0 ≤ x ∧ x ≤ 2 * X

theorem unit_cost {u M x y : Int} (hu : 0 ≤ u ∧ u ≤ M) (hx : 0 ≤ x ∧ x ≤ y) :
    0 ≤ u * x ∧ u * x ≤ M * y :=
  ⟨Int.mul_nonneg hu.1 hx.1, Int.mul_le_mul hu.2 hx.2 hx.1 (Int.le_trans hu.1 hu.2)⟩

theorem build_eq (hd : DataBd data B) {k : Nat} (hv : VehBd (data.vehicleType k) B M) (hM : 1 ≤ M)
    (acts : List Activity) (hr : 20 * (M * (B * (acts.length + 2))) ≤ MAX) :
    build data acts k = some (Route.build data acts k)
    ∧ RouteBd M (B * (acts.length + 2)) data.numLoadDimensions (Route.build data acts k) := by
  have hm := MAX_eq
  have hh := HALF_eq
  have h0 := hd.nonneg
  have hX : B * ((acts.length : Int) + 2) = B * acts.length + 2 * B := by
    rw [Int.mul_add]; omega
  have hbr : 0 ≤ B * (acts.length : Int) := Int.mul_nonneg h0 (Int.natCast_nonneg _)
  rw [hX] at hr ⊢
  generalize hXdef : B * (acts.length : Int) + 2 * B = X at *
  have hMX : X ≤ M * X := by
    have := Int.mul_le_mul_of_nonneg_right hM (show 0 ≤ X by omega)
    omega
  have hMB : M * B ≤ M * X := Int.mul_le_mul_of_nonneg_left (by omega) (by omega)
  obtain ⟨b1, b2, b3, b4, b5⟩ := backward_eq hd hv acts (by omega)
  unfold build Route.build
  dsimp only
  rw [b1]
  generalize Route.backward data (data.vehicleType k) acts = b at *
  generalize hvd : data.vehicleType k = v at *
  obtain ⟨d1, d2, d3⟩ := duration_eq b2 (by omega)
  have hdur : 0 ≤ b.ds.duration ∧ b.ds.duration ≤ 4 * X := by omega
  obtain ⟨t1, t2, t3⟩ := timeWarp_eq (D := v.maxDuration) b2 hv.maxDuration (by omega)
  have hshift := hv.shift
  have hot : 0 ≤ max (b.ds.duration - v.shiftDuration) 0
      ∧ max (b.ds.duration - v.shiftDuration) 0 ≤ 4 * X := by omega
  have c1 := unit_cost hv.unitDuration hdur
  have c2 := unit_cost hv.unitOvertime hot
  have hM4 : M * (4 * X) = 4 * (M * X) := Int.mul_left_comm M 4 X
  rw [hM4] at c1 c2
  have hst : 0 ≤ b.ds.startEarly ∧ b.ds.startEarly ≤ B := by
    have := b2.early
    have := b2.rel
    unfold DurSeg.startEarly
    omega
  have hsch := mkSchedule_eq hd hv b5 hst b2.rel (acts := acts) (by omega)
  have hlen := mkSchedule_length (data := data) (v := v) b.releaseTimes b.ds.startEarly
    b.ds.releaseTime_ acts
  generalize hsd : Route.mkSchedule data v b.releaseTimes b.ds.startEarly b.ds.releaseTime_ acts
    = sch at *
  have hlen1 : ((sch.drop 1).length : Int) = acts.length + 1 := by
    rw [List.length_drop, hlen]; omega
  have hB1 : B * ((acts.length : Int) + 1) = B * acts.length + B := by rw [Int.mul_add, Int.mul_one]
  obtain ⟨e1, e2, e3⟩ := distanceLoop_eq hd v.profile (sch.drop 1) (data.depot v.startDepot).location 0
    (by omega) (by rw [hlen1]; omega)
  rw [hlen1] at e3
  generalize hdd : Route.distanceLoop data v.profile (data.depot v.startDepot).location 0 (sch.drop 1)
    = dist at *
  have c3 := unit_cost hv.unitDistance (x := dist) (y := X) (by omega)
  have hmd := hv.maxDistance
  have hB2 : B * ((acts.length + 1 : Nat) : Int) = B * acts.length + B := by
    rw [Int.natCast_succ]; exact hB1
  have hld : ∀ dim, _ := loadDim_eq hd hv (l := sch) (n := acts.length + 1) hlen (by omega)
  have hB3 : B * (sch.length : Int) = B * acts.length + 2 * B := by
    rw [hlen, ← hX.trans hXdef.symm]
    rfl
  obtain ⟨p1, p2, p3⟩ := prizesLoop_eq hd sch 0 (by omega) (by omega)
  have hloads := each_eq (f := loadDim data v sch) (g := Route.loadDim data v sch)
    (l := List.range data.numLoadDimensions) (fun dim _ => (hld dim).1)
  have hfc := hv.fixedCost
  constructor
  · simp (disch := omega) only [Option.bind_eq_bind, Option.bind_some, d1, sub_eq, mul_eq, add_eq,
      slack_eq b2, t1, hsch, e1, hloads, p1]
    rfl
  · constructor <;> dsimp only
    · omega
    · exact c3
    · omega
    · exact hdur
    · exact hot
    · omega
    · omega
    · omega
    · omega
    · omega
    · unfold Route.prizesOf
      omega
    · omega
    · simp
    · intro x hx
      simp only [List.map_map, List.mem_map] at hx
      obtain ⟨dim, _, rfl⟩ := hx
      have := hld dim
      dsimp only [Function.comp]
      omega

end PyVRP.I64
