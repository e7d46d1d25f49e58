import Verif.Lemmas.Scan
import Verif.Lemmas.Finalise
import Verif.Lemmas.RouteTime
/-!
# Lemmas on the duration segments of search routes
-/
namespace PyVRP
open Spec

/-! ## The backward pass, as a function of what comes after -/

/-- The segment of an activity that is not the start or the end of the route. -/
def innerSeg (data : ProblemData) (a : Activity) : DurSeg :=
  match a.type with
  | .depot => DurSeg.ofDepot (data.depot a.idx) 0
  | .client => DurSeg.ofClient (data.client a.idx)
  | .pickup => DurSeg.ofStep (data.shipment a.idx).pickup
  | .delivery => DurSeg.ofStep (data.shipment a.idx).delivery

/-- One step of the backward pass. -/
def stepDs (data : ProblemData) (profile : Nat) (a : Activity) (ds : DurSeg) (loc : Nat) : DurSeg :=
  let edge := data.dur profile (data.locationOf a) loc
  if a.type = .depot then
    let d := data.depot a.idx
    (DurSeg.merge edge (DurSeg.ofDepot d d.serviceDuration) ds).finaliseFront
  else DurSeg.merge edge (innerSeg data a) ds

/-- The location of the first activity, or `loc`. -/
def headLoc (data : ProblemData) : List Activity → Nat → Nat
  | [], loc => loc
  | a :: _, _ => data.locationOf a

/-- The backward pass over `acts`, given the segment `ds` at `loc` that comes after. -/
def onto (data : ProblemData) (profile : Nat) : List Activity → DurSeg → Nat → DurSeg
  | [], ds, _ => ds
  | a :: rest, ds, loc => stepDs data profile a (onto data profile rest ds loc) (headLoc data rest loc)

theorem headLoc_append (data : ProblemData) (xs ys : List Activity) (loc : Nat) :
    headLoc data (xs ++ ys) loc = headLoc data xs (headLoc data ys loc) := by
  cases xs <;> rfl

theorem onto_append (data : ProblemData) (profile : Nat) (xs ys : List Activity) (ds : DurSeg)
    (loc : Nat) : onto data profile (xs ++ ys) ds loc
      = onto data profile xs (onto data profile ys ds loc) (headLoc data ys loc) := by
  induction xs with
  | nil => rfl
  | cons a rest ih => simp only [List.cons_append, onto, ih, headLoc_append]

/-- The start of the route put in front of a segment. -/
def top (data : ProblemData) (v : VehicleType) (ds : DurSeg) (loc : Nat) : DurSeg :=
  let start := data.depot v.startDepot
  DurSeg.merge (data.dur v.profile start.location loc)
    (DurSeg.merge 0 (DurSeg.ofVehicle v v.startLate) (DurSeg.ofDepot start start.serviceDuration)) ds

theorem backStep_ds (data : ProblemData) (profile : Nat) (a : Activity) (b : Route.Back) :
    (Route.backStep data profile a b).ds = stepDs data profile a b.ds b.nextLoc
    ∧ (Route.backStep data profile a b).nextLoc = data.locationOf a := by
  obtain ⟨ty, i⟩ := a
  cases ty <;> exact ⟨rfl, rfl⟩

theorem back_eq_onto (data : ProblemData) (profile : Nat) (b : Route.Back) (acts : List Activity) :
    (acts.foldr (Route.backStep data profile) b).ds = onto data profile acts b.ds b.nextLoc
    ∧ (acts.foldr (Route.backStep data profile) b).nextLoc = headLoc data acts b.nextLoc := by
  induction acts with
  | nil => exact ⟨rfl, rfl⟩
  | cons a rest ih =>
    rw [List.foldr_cons]
    obtain ⟨h1, h2⟩ := backStep_ds data profile a (rest.foldr (Route.backStep data profile) b)
    rw [h1, h2, ih.1, ih.2]
    exact ⟨rfl, rfl⟩

/-- The segment at the end of the route. -/
def endSeg (data : ProblemData) (v : VehicleType) : DurSeg :=
  DurSeg.merge 0 (DurSeg.ofDepot (data.depot v.endDepot) 0) (DurSeg.ofVehicle v v.twLate)

/-- The location at the end of the route. -/
def endLoc (data : ProblemData) (v : VehicleType) : Nat := (data.depot v.endDepot).location

/-- What is known of a segment that comes at the end: `R` bounds its release time. -/
structure SegOk (R : Int) (s : DurSeg) : Prop where
  ok : s.Ok
  r0 : 0 ≤ s.releaseTime_
  rR : s.releaseTime_ ≤ R
  cumD : s.cumDuration_ = 0
  cumW : s.cumTimeWarp_ = 0
  prev : s.prevEndLate_ = MAX

theorem SegOk.mono {R R' : Int} {s : DurSeg} (h : SegOk R s) (hR : R ≤ R') : SegOk R' s :=
  ⟨h.ok, h.r0, Int.le_trans h.rR hR, h.cumD, h.cumW, h.prev⟩

theorem SegOk.merge {R e : Int} {a b : DurSeg} (he : 0 ≤ e) (ha : SegOk R a) (hb : SegOk R b) :
    SegOk R (DurSeg.merge e a b) := by
  have h1 := ha.r0; have h2 := ha.rR; have h3 := hb.r0; have h4 := hb.rR
  refine ⟨ha.ok.merge he hb.ok, ?_, ?_, ?_, ?_, ?_⟩
  · simp only [DurSeg.merge]; omega
  · simp only [DurSeg.merge]; omega
  · simp [DurSeg.merge, ha.cumD, hb.cumD]
  · simp [DurSeg.merge, ha.cumW, hb.cumW]
  · simp [DurSeg.merge, ha.prev]

theorem innerSeg_ok {data : ProblemData} (ht : TimesOk data) (a : Activity) :
    SegOk (released data a) (innerSeg data a) := by
  obtain ⟨ty, i⟩ := a
  cases ty with
  | depot =>
    exact ⟨(ht.depot i 0 (Int.le_refl 0)).1, Int.le_refl 0, Int.le_refl 0, rfl, rfl, rfl⟩
  | client => exact ⟨(ht.client i).1, (ht.client i).2.1, Int.le_refl _, rfl, rfl, rfl⟩
  | pickup => exact ⟨ht.pickup i, Int.le_refl 0, Int.le_refl 0, rfl, rfl, rfl⟩
  | delivery => exact ⟨ht.delivery i, Int.le_refl 0, Int.le_refl 0, rfl, rfl, rfl⟩

theorem innerSeg_fields {data : ProblemData} (a : Activity) :
    (innerSeg data a).timeWarp_ = 0 ∧ (innerSeg data a).startEarly_ = earliest data a
    ∧ (innerSeg data a).startLate_ = latest data a
    ∧ (innerSeg data a).releaseTime_ = released data a
    ∧ (innerSeg data a).duration_ = if a.type = .depot then 0 else serviceTime data a := by
  obtain ⟨ty, i⟩ := a
  cases ty <;> exact ⟨rfl, rfl, rfl, rfl, rfl⟩

theorem released_bounds {data : ProblemData} (ht : TimesOk data) (a : Activity) :
    0 ≤ released data a ∧ released data a ≤ HALF := by
  have := HALF_nonneg
  obtain ⟨ty, i⟩ := a
  cases ty
  case client => exact (ht.client i).2
  all_goals exact ⟨Int.le_refl 0, this⟩

theorem depotSeg_ok {data : ProblemData} (ht : TimesOk data) {R : Int} (hR : 0 ≤ R) (i : Nat) :
    SegOk R (DurSeg.ofDepot (data.depot i) (data.depot i).serviceDuration) := by
  have hs0 := (ht.depot i 0 (Int.le_refl 0)).2
  exact ⟨(ht.depot i _ hs0).1, Int.le_refl 0, hR, rfl, rfl, rfl⟩

theorem stepDs_ok {data : ProblemData} (ht : TimesOk data) {R : Int} (hR : 0 ≤ R) (hRH : R ≤ HALF)
    (profile : Nat) (a : Activity) (ha : released data a ≤ R) {s : DurSeg} (hs : SegOk R s)
    (loc : Nat) : SegOk R (stepDs data profile a s loc) := by
  have hd := ht.dur profile (data.locationOf a) loc
  unfold stepDs
  split
  · have hm := SegOk.merge hd (depotSeg_ok ht hR a.idx) hs
    refine ⟨hm.ok.finaliseFront (Int.le_trans hm.rR hRH), Int.le_refl 0, hR, rfl, rfl, rfl⟩
  · exact SegOk.merge hd ((innerSeg_ok ht a).mono ha) hs

theorem onto_ok {data : ProblemData} (ht : TimesOk data) {R : Int} (hR : 0 ≤ R) (hRH : R ≤ HALF)
    (profile : Nat) (acts : List Activity) (ha : ∀ a ∈ acts, released data a ≤ R) {s : DurSeg}
    (hs : SegOk R s) (loc : Nat) : SegOk R (onto data profile acts s loc) := by
  induction acts with
  | nil => exact hs
  | cons a rest ih =>
    exact stepDs_ok ht hR hRH profile a (ha a (List.mem_cons_self ..))
      (ih (fun b hb => ha b (List.mem_cons_of_mem _ hb))) _

theorem endSeg_ok {data : ProblemData} (ht : TimesOk data) (vt : Nat) :
    SegOk 0 (endSeg data (data.vehicleType vt)) := by
  apply SegOk.merge (Int.le_refl 0)
  · exact ⟨(ht.depot _ 0 (Int.le_refl 0)).1, Int.le_refl 0, Int.le_refl 0, rfl, rfl, rfl⟩
  · exact ⟨(ht.vehicle vt).1, Int.le_refl 0, Int.le_refl 0, rfl, rfl, rfl⟩

/-- The backward pass of `pyvrp::Route`. -/
theorem backward_ds {data : ProblemData} (ht : TimesOk data) (vt : Nat) (acts : List Activity) :
    (Route.backward data (data.vehicleType vt) acts).ds
      = top data (data.vehicleType vt)
          (onto data (data.vehicleType vt).profile acts (endSeg data (data.vehicleType vt))
            (endLoc data (data.vehicleType vt)))
          (headLoc data acts (endLoc data (data.vehicleType vt))) := by
  have hb := back_eq_onto data (data.vehicleType vt).profile
    (Route.backInit data (data.vehicleType vt)) acts
  have hok := onto_ok ht HALF_nonneg (Int.le_refl _) (data.vehicleType vt).profile acts
    (fun a _ => (released_bounds ht a).2) ((endSeg_ok ht vt).mono HALF_nonneg)
    (endLoc data (data.vehicleType vt))
  simp only [Route.backward, hb.1, hb.2, top]
  rw [DurSeg.merge_assoc (Int.le_refl 0) (ht.dur ..) (ht.vehicle vt).2
    (depotSeg_ok ht (Int.le_refl 0) _).ok]
  · rfl
  · exact hok.ok

/-! ## Segments after a node -/

/-- The segment after a node, opened if the node is a reload depot. -/
def openIf (b : Bool) (s : DurSeg) : DurSeg := if b then s.finaliseFront else s

/-- Nodes that are neither the start nor the end of the route. -/
def Inner (n : SNode) : Prop := n.role = .inner

theorem Inner.reload {n : SNode} (h : Inner n) : n.isReloadDepot = n.isDepot := by
  unfold Inner at h
  simp only [SNode.isReloadDepot, SNode.isStartDepot, SNode.isEndDepot, h]
  cases n.isDepot <;> rfl

theorem Inner.durAtOf {data : ProblemData} {v : VehicleType} {n : SNode} (h : Inner n) :
    SRoute.durAtOf data v n = innerSeg data n.activity := by
  unfold Inner at h
  unfold SRoute.durAtOf innerSeg
  simp only [h]
  rfl

theorem isDepot_iff (n : SNode) : n.isDepot = true ↔ n.activity.type = .depot := by
  simp [SNode.isDepot, Activity.isDepot]

/-- Merging the segment of a depot, its service, and what comes after. -/
theorem depot_merge {data : ProblemData} (ht : TimesOk data) {R : Int} (i : Nat) {s : DurSeg}
    (hs : SegOk R s) {edge : Int} (he : 0 ≤ edge) :
    DurSeg.merge edge (DurSeg.ofDepot (data.depot i) 0)
      (DurSeg.merge 0 { duration_ := (data.depot i).serviceDuration } s)
    = DurSeg.merge edge (DurSeg.ofDepot (data.depot i) (data.depot i).serviceDuration) s := by
  have hd := ht.depot i 0 (Int.le_refl 0)
  exact DurSeg.merge_window_service hd.1.e0 hd.1.el hd.1.lM hd.1.eH hd.2 hs.ok he hs.r0

theorem durAfter_suffix {data : ProblemData} (ht : TimesOk data) (vt : Nat) (ns : List SNode)
    (hns : ∀ n ∈ ns, Inner n) (fin : SNode) (hf : fin.role = .finish)
    (hfa : fin.activity = ⟨.depot, (data.vehicleType vt).endDepot⟩) :
    let v := data.vehicleType vt
    openIf ((ns ++ [fin]).headD default).isReloadDepot
      (backNodes (SRoute.durAfterStep data v) (SRoute.durAtOf data v) (ns ++ [fin]))
    = onto data v.profile (ns.map SNode.activity) (endSeg data v) (endLoc data v)
    ∧ data.locationOf ((ns ++ [fin]).headD default).activity
      = headLoc data (ns.map SNode.activity) (endLoc data v) := by
  intro v
  induction ns with
  | nil =>
    constructor
    · simp only [List.nil_append, List.headD_cons, backNodes, List.map_nil, onto]
      have h1 : fin.isReloadDepot = false := by
        simp [SNode.isReloadDepot, SNode.isEndDepot, hf]
      have h2 : SRoute.durAtOf data v fin = endSeg data v := by
        simp only [SRoute.durAtOf, hf, endSeg]
      simp [openIf, h1, h2]
    · simp only [List.nil_append, List.headD_cons, List.map_nil, headLoc, hfa]
      rfl
  | cons n rest ih =>
    obtain ⟨ih1, ih2⟩ := ih (fun m hm => hns m (List.mem_cons_of_mem _ hm))
    have hn := hns n (List.mem_cons_self ..)
    have hY := onto_ok ht HALF_nonneg (Int.le_refl _) v.profile (rest.map SNode.activity)
      (fun a _ => (released_bounds ht a).2) ((endSeg_ok ht vt).mono HALF_nonneg) (endLoc data v)
    refine ⟨?_, rfl⟩
    rw [List.cons_append, backNodes_cons _ _ n (rest ++ [fin]) (by simp) default]
    simp only [List.headD_cons, List.map_cons, onto, hn.reload]
    have hstep : SRoute.durAfterStep data v n ((rest ++ [fin]).headD default)
          (backNodes (SRoute.durAfterStep data v) (SRoute.durAtOf data v) (rest ++ [fin]))
        = DurSeg.merge (data.dur v.profile (data.locationOf n.activity)
            (headLoc data (rest.map SNode.activity) (endLoc data v))) (innerSeg data n.activity)
          (if n.isDepot then
            DurSeg.merge 0 { duration_ := (data.depot n.activity.idx).serviceDuration }
              (onto data v.profile (rest.map SNode.activity) (endSeg data v) (endLoc data v))
            else onto data v.profile (rest.map SNode.activity) (endSeg data v) (endLoc data v)) := by
      rw [← ih1, ← ih2]
      simp only [SRoute.durAfterStep, hn.reload, hn.durAtOf, openIf]
    rw [hstep]
    unfold stepDs openIf
    by_cases hd : n.activity.type = .depot
    · have hdb := (isDepot_iff n).2 hd
      simp only [hdb, if_true, hd]
      congr 1
      have : innerSeg data n.activity = DurSeg.ofDepot (data.depot n.activity.idx) 0 := by
        simp [innerSeg, hd]
      rw [this]
      exact depot_merge ht _ hY (ht.dur ..)
    · have hdb : n.isDepot = false := by
        cases h : n.isDepot with
        | false => rfl
        | true => exact absurd ((isDepot_iff n).1 h) hd
      simp [hdb, hd]

/-! ## Segments before a node -/

namespace DurSeg

/-- Invariant of a prefix: `M` bounds windows and release times, `K` the times reached. -/
structure PreK (M K : Int) (p : DurSeg) : Prop where
  ok : p.Ok
  r0 : 0 ≤ p.releaseTime_
  rK : p.releaseTime_ ≤ K
  eK : p.startEarly_ ≤ K
  q0 : 0 ≤ p.prevEndLate_
  qM : p.prevEndLate_ ≤ MAX
  fK : p.fin (max M p.releaseTime_) ≤ K
  MK : M ≤ K

theorem PreK.pre {M K : Int} {p : DurSeg} (h : PreK M K p) (hK : K ≤ HALF) : p.Pre := by
  have hf := h.fK
  have hr := h.rK
  refine ⟨h.ok, h.r0, by omega, h.q0, h.qM, ?_⟩
  rw [fin_eq h.ok] at hf ⊢
  omega

theorem PreK.mono {M K K' : Int} {p : DurSeg} (h : PreK M K p) (hK : K ≤ K') : PreK M K' p :=
  ⟨h.ok, h.r0, Int.le_trans h.rK hK, Int.le_trans h.eK hK, h.q0, h.qM, Int.le_trans h.fK hK,
    Int.le_trans h.MK hK⟩

/-- Merging one visit. -/
theorem PreK.merge {M K e : Int} {p s : DurSeg} (h : PreK M K p) (he : 0 ≤ e) (hs : s.Ok)
    (hw : s.timeWarp_ = 0) (hse : s.startEarly_ ≤ M) (hr0 : 0 ≤ s.releaseTime_)
    (hrM : s.releaseTime_ ≤ M) :
    PreK M (K + e + s.duration_) (DurSeg.merge e p s) := by
  have hd := hs.d0
  have hK := h.MK
  have hrK := h.rK; have hpr0 := h.r0; have heK := h.eK; have hq := h.q0; have hqM := h.qM
  have hfK := h.fK
  have hrel : (DurSeg.merge e p s).releaseTime_ = max p.releaseTime_ s.releaseTime_ := by
    simp only [DurSeg.merge]
  have hm := h.ok.merge he hs
  have hmax : max M (max p.releaseTime_ s.releaseTime_) = max M p.releaseTime_ := by omega
  refine ⟨hm, by rw [hrel]; omega, by rw [hrel]; omega, ?_, hq, hqM, ?_, by omega⟩
  · have := hm.e0
    have hel := h.ok.el; have hse0 := hs.e0; have hpe := h.ok.e0; have hpw := h.ok.w0
    have hen := h.ok.en; have hd0 := h.ok.d0; have hsel := hs.el; have hwe := h.ok.we
    simp only [fin_eq h.ok] at hfK
    simp only [DurSeg.merge]
    omega
  · rw [hrel, hmax, merge_fin he h.ok hs, fin_eq hs, hw]
    generalize p.fin (max M p.releaseTime_) = x at hfK
    have := hs.el
    omega

/-- Closing the trips so far. -/
theorem PreK.finaliseBack {M K : Int} {p : DurSeg} (h : PreK M K p) (hK : K ≤ HALF)
    (hM : 0 ≤ M) : PreK M K p.finaliseBack := by
  have hp := h.pre hK
  have hok := hp.finaliseBack_ok
  have hf0 := hp.fin_nonneg p.releaseTime_
  have hf1 := hp.fin_nonneg (max p.prevEndLate_ p.releaseTime_)
  have hfK : p.fin p.releaseTime_ ≤ K := by
    have := h.fK
    rw [fin_eq h.ok] at this ⊢
    omega
  have := MAX_eq; have := HALF_eq
  have hMK := h.MK
  refine ⟨hok, ?_, ?_, ?_, ?_, ?_, ?_, hMK⟩
  · rw [hp.finaliseBack_fields]; exact hf0
  · rw [hp.finaliseBack_fields]; exact hfK
  · rw [hp.finaliseBack_fields]; exact hfK
  · rw [hp.finaliseBack_fields]; simp only; omega
  · rw [hp.finaliseBack_fields]; simp only; omega
  · rw [fin_eq hok, hp.finaliseBack_fields]; simp only; omega

end DurSeg

/-- Travel and service along activities, coming from `loc`. -/
def span (data : ProblemData) (profile : Nat) (loc : Nat) : List Activity → Int
  | [] => 0
  | a :: rest =>
    data.dur profile loc (data.locationOf a) + serviceTime data a
      + span data profile (data.locationOf a) rest

theorem serviceTime_nonneg {data : ProblemData} (ht : TimesOk data) (a : Activity) :
    0 ≤ serviceTime data a := by
  obtain ⟨ty, i⟩ := a
  cases ty
  · exact (ht.depot i 0 (Int.le_refl 0)).2
  · exact (ht.client i).1.d0
  · exact (ht.pickup i).d0
  · exact (ht.delivery i).d0

theorem span_append (data : ProblemData) (profile : Nat) (loc : Nat) (xs : List Activity)
    (a : Activity) (d : Activity) (hd : data.locationOf d = loc) :
    span data profile loc (xs ++ [a])
      = span data profile loc xs
        + data.dur profile (data.locationOf (xs.getLastD d)) (data.locationOf a)
        + serviceTime data a := by
  induction xs generalizing loc d with
  | nil => simp [span, hd]
  | cons x rest ih =>
    simp only [List.cons_append, span]
    rw [ih _ x rfl, List.getLastD_cons]
    omega

/-- The service that `durBefore` does not yet contain at a node. -/
def pending (data : ProblemData) (n : SNode) : Int :=
  if n.isReloadDepot then serviceTime data n.activity else 0

/-- The start node of a route. -/
structure IsStart (v : VehicleType) (s0 : SNode) : Prop where
  role : s0.role = .start
  activity : s0.activity = ⟨.depot, v.startDepot⟩

/-- A prefix of a route and a segment that comes after it. -/
def close (data : ProblemData) (profile : Nat) (n : SNode) (p s : DurSeg) (loc : Nat) : DurSeg :=
  if n.isReloadDepot then DurSeg.merge 0 p (stepDs data profile n.activity s loc)
  else DurSeg.merge (data.dur profile (data.locationOf n.activity) loc) p s

/-- Windows and release times on the way are at most `M`. -/
structure EarlyBy (data : ProblemData) (v : VehicleType) (M : Int) (acts : List Activity) : Prop where
  M0 : 0 ≤ M
  vehicle : v.twEarly ≤ M
  start : (data.depot v.startDepot).twEarly ≤ M
  acts : ∀ a ∈ acts, earliest data a ≤ M ∧ released data a ≤ M

theorem IsStart.reload {v : VehicleType} {s0 : SNode} (h : IsStart v s0) :
    s0.isReloadDepot = false := by
  simp only [SNode.isReloadDepot, SNode.isStartDepot, h.role]
  cases s0.isDepot <;> rfl

theorem IsStart.durAt {data : ProblemData} {v : VehicleType} {s0 : SNode} (h : IsStart v s0) :
    SRoute.durAtOf data v s0 = DurSeg.merge 0 (DurSeg.ofVehicle v v.startLate)
      (DurSeg.ofDepot (data.depot v.startDepot) (data.depot v.startDepot).serviceDuration) := by
  simp only [SRoute.durAtOf, h.role]

theorem getLastD_inner {ns : List SNode} (hns : ∀ n ∈ ns, Inner n) (s0 : SNode) :
    ns.getLastD s0 = s0 ∧ ns = [] ∨ Inner (ns.getLastD s0) ∧ ns.getLastD s0 ∈ ns := by
  by_cases h : ns = []
  · subst h; exact Or.inl ⟨rfl, rfl⟩
  · refine Or.inr ?_
    have : ns.getLastD s0 = ns.getLast h := by
      rw [List.getLastD_eq_getLast?, List.getLast?_eq_some_getLast h]; rfl
    rw [this]
    exact ⟨hns _ (List.getLast_mem h), List.getLast_mem h⟩

theorem getLastD_map {ns : List SNode} (s0 : SNode) :
    (ns.map SNode.activity).getLastD s0.activity = (ns.getLastD s0).activity := by
  rw [List.getLastD_eq_getLast?, List.getLastD_eq_getLast?, List.getLast?_map]
  cases ns.getLast? <;> rfl

theorem pending_bounds {data : ProblemData} (ht : TimesOk data) (n : SNode) :
    0 ≤ pending data n := by
  unfold pending; split
  · exact serviceTime_nonneg ht _
  · exact Int.le_refl 0

theorem prefix_inv {data : ProblemData} (ht : TimesOk data) (vt : Nat) (M : Int)
    (s0 : SNode) (hs0 : IsStart (data.vehicleType vt) s0) (ns : List SNode)
    (hns : ∀ n ∈ ns, Inner n)
    (hM : EarlyBy data (data.vehicleType vt) M (ns.map SNode.activity))
    (hfit : M + serviceTime data s0.activity
      + span data (data.vehicleType vt).profile (data.locationOf s0.activity)
        (ns.map SNode.activity) ≤ HALF) :
    let v := data.vehicleType vt
    let p := foldNodes (SRoute.durBeforeStep data v) s0 (SRoute.durAtOf data v s0) ns
    DurSeg.PreK M (M + serviceTime data s0.activity
      + span data v.profile (data.locationOf s0.activity) (ns.map SNode.activity)
      - pending data (ns.getLastD s0)) p
    ∧ ((ns.getLastD s0).isReloadDepot = true →
        DurSeg.merge 0 p (innerSeg data (ns.getLastD s0).activity) = p) := by
  intro v
  induction ns using snoc_induction with
  | h0 =>
    constructor
    · have hv := (ht.vehicle vt).2
      have hd := depotSeg_ok ht (Int.le_refl 0) v.startDepot
      have h1 : DurSeg.PreK M M (DurSeg.ofVehicle v v.startLate) := by
        have := hM.vehicle; have := hM.M0
        have hMH : M ≤ HALF := by
          have := serviceTime_nonneg ht s0.activity
          simp only [List.map_nil, span] at hfit; omega
        have := MAX_eq; have := HALF_eq
        have hve := hv.el
        simp only [DurSeg.ofVehicle] at hve
        refine ⟨hv, Int.le_refl 0, hM.M0, hM.vehicle, ?_, Int.le_refl _, ?_, Int.le_refl _⟩
        · simp only [DurSeg.ofVehicle]; omega
        · rw [DurSeg.fin_eq hv]; simp only [DurSeg.ofVehicle]; omega
      have h2 := h1.merge (Int.le_refl 0) hd.ok rfl hM.start (Int.le_refl 0) hM.M0
      simp only [foldNodes, List.map_nil, span, List.getLastD_nil, pending, hs0.reload]
      rw [show SRoute.durAtOf data v s0 = _ from hs0.durAt]
      refine h2.mono ?_
      simp [hs0.activity, serviceTime, DurSeg.ofDepot, v]
    · intro h
      rw [List.getLastD_nil, hs0.reload] at h
      cases h
  | hs ns n ih =>
    have hn : Inner n := hns n (by simp)
    have hns' : ∀ m ∈ ns, Inner m := fun m hm => hns m (by simp [hm])
    have hM' : EarlyBy data v M (ns.map SNode.activity) :=
      ⟨hM.M0, hM.vehicle, hM.start, fun a ha => hM.acts a (by
        rw [List.map_append]; exact List.mem_append_left _ ha)⟩
    have hnM := hM.acts n.activity (by simp)
    rw [List.map_append, List.map_singleton,
      span_append data v.profile _ _ n.activity s0.activity rfl, getLastD_map] at hfit ⊢
    rw [List.getLastD_concat]
    have hdur := ht.dur v.profile (data.locationOf (ns.getLastD s0).activity)
      (data.locationOf n.activity)
    have hsv := serviceTime_nonneg ht n.activity
    have hfit' : M + serviceTime data s0.activity
      + span data v.profile (data.locationOf s0.activity) (ns.map SNode.activity) ≤ HALF := by
      omega
    obtain ⟨ih1, ih2⟩ := ih hns' hM' hfit'
    have hpend := pending_bounds ht (ns.getLastD s0)
    -- the prefix, closed if the last node is a reload depot
    have hclosed : ∃ b, SRoute.durBeforeStep data v (ns.getLastD s0)
          (foldNodes (SRoute.durBeforeStep data v) s0 (SRoute.durAtOf data v s0) ns) n
          = DurSeg.merge (data.dur v.profile (data.locationOf (ns.getLastD s0).activity)
            (data.locationOf n.activity)) b (innerSeg data n.activity)
        ∧ DurSeg.PreK M (M + serviceTime data s0.activity
            + span data v.profile (data.locationOf s0.activity) (ns.map SNode.activity)) b := by
      refine ⟨_, by simp only [SRoute.durBeforeStep, hn.durAtOf]; rfl, ?_⟩
      by_cases hl : (ns.getLastD s0).isReloadDepot = true
      · simp only [hl, if_true]
        have hpend' : pending data (ns.getLastD s0) = serviceTime data (ns.getLastD s0).activity := by
          rw [pending, if_pos hl]
        have hb := ih1.finaliseBack (by omega) hM.M0
        have hty : (ns.getLastD s0).activity.type = .depot := by
          apply (isDepot_iff _).1
          simp only [SNode.isReloadDepot, Bool.and_eq_true] at hl
          exact hl.1.1
        have hsvc : serviceTime data (ns.getLastD s0).activity
            = (data.depot (ns.getLastD s0).activity.idx).serviceDuration := by
          simp only [serviceTime, hty]
        have hd0 := (ht.depot (ns.getLastD s0).activity.idx 0 (Int.le_refl 0)).2
        have := hb.merge (s := DurSeg.service (data.depot (ns.getLastD s0).activity.idx).serviceDuration)
          (Int.le_refl 0) (DurSeg.service_ok hd0) rfl hM.M0 (Int.le_refl 0) hM.M0
        refine this.mono ?_
        simp only [DurSeg.service]; omega
      · simp only [hl]
        exact ih1.mono (by omega)
    obtain ⟨b, hb1, hb2⟩ := hclosed
    rw [foldNodes_concat, hb1]
    have hseg := innerSeg_ok ht n.activity
    obtain ⟨f1, f2, f3, f4, f5⟩ := innerSeg_fields (data := data) n.activity
    have hm := hb2.merge hdur hseg.ok f1 (by rw [f2]; exact hnM.1) hseg.r0 (by rw [f4]; exact hnM.2)
    constructor
    · refine hm.mono ?_
      rw [f5]
      unfold pending
      rw [hn.reload]
      by_cases hty : n.activity.type = .depot
      · rw [if_pos hty, if_pos ((isDepot_iff n).2 hty)]; omega
      · rw [if_neg hty, if_neg (fun h => hty ((isDepot_iff n).1 h))]; omega
    · intro hr
      rw [hn.reload] at hr
      have hty := (isDepot_iff n).1 hr
      have hw : innerSeg data n.activity
          = DurSeg.window (data.depot n.activity.idx).twEarly (data.depot n.activity.idx).twLate := by
        simp [innerSeg, hty, DurSeg.ofDepot, DurSeg.window]
      have hd := (ht.depot n.activity.idx 0 (Int.le_refl 0)).1
      rw [DurSeg.merge_assoc hdur (Int.le_refl 0) hb2.ok hseg.ok hseg.ok]
      congr 1
      rw [hw]
      exact DurSeg.merge_window_self hd.e0 hd.el hd.lM hd.eH
        (DurSeg.window_ok hd.e0 hd.el hd.lM hd.eH) (Int.le_refl _) (Int.le_refl _) (Int.le_refl _) rfl

theorem innerSeg_depot {data : ProblemData} {a : Activity} (h : a.type = .depot) :
    innerSeg data a = DurSeg.window (data.depot a.idx).twEarly (data.depot a.idx).twLate := by
  simp [innerSeg, h, DurSeg.ofDepot, DurSeg.window]

/-- Passing through the gate of a depot twice. -/
theorem window_stepDs {data : ProblemData} (ht : TimesOk data) {R : Int} (hRH : R ≤ HALF)
    (profile : Nat) {a : Activity} (ha : a.type = .depot) (hR : R ≤ latest data a) {s : DurSeg}
    (hs : SegOk R s) (loc : Nat) :
    DurSeg.merge 0 (innerSeg data a) (stepDs data profile a s loc) = stepDs data profile a s loc := by
  have hd := (ht.depot a.idx 0 (Int.le_refl 0)).1
  have hsv := (ht.depot a.idx 0 (Int.le_refl 0)).2
  have hlate : latest data a = (data.depot a.idx).twLate := by simp [latest, ha]
  have hr := hs.rR
  have hR0 := hs.r0
  have hok := stepDs_ok ht (R := R) (by omega) hRH profile a (by simp [released, ha]; omega) hs loc
  have hf := DurSeg.finaliseFront_window (edge := data.dur profile (data.locationOf a) loc)
    hd.e0 hd.el hd.lM hd.eH hsv hs.ok (ht.dur ..) hs.r0 (by simp only [DurSeg.ofDepot]; omega)
  rw [innerSeg_depot ha]
  refine DurSeg.merge_window_self hd.e0 hd.el hd.lM hd.eH hok.ok ?_ ?_ hok.r0 hok.prev
  · simp only [stepDs, ha, if_true]; exact hf.1
  · simp only [stepDs, ha, if_true]; exact hf.2

theorem close_merge {data : ProblemData} (ht : TimesOk data) {R : Int} (hRH : R ≤ HALF)
    (profile : Nat) {n : SNode} (hn : Inner n) (hR : n.activity.type = .depot → R ≤ latest data n.activity)
    {s : DurSeg} (hs : SegOk R s) (loc : Nat) {e : Int} (he : 0 ≤ e) {b : DurSeg} (hb : b.Ok) :
    close data profile n (DurSeg.merge e b (innerSeg data n.activity)) s loc
      = DurSeg.merge e b (stepDs data profile n.activity s loc) := by
  have hseg := innerSeg_ok ht n.activity
  have hr := hs.rR; have hR0 := hs.r0
  unfold close
  rw [hn.reload]
  by_cases hty : n.activity.type = .depot
  · have hok := stepDs_ok ht (R := R) (by omega) hRH profile n.activity
      (by simp [released, hty]; omega) hs loc
    rw [if_pos ((isDepot_iff n).2 hty), DurSeg.merge_assoc he (Int.le_refl 0) hb hseg.ok hok.ok,
      window_stepDs ht hRH profile hty (hR hty) hs loc]
  · rw [if_neg (fun h => hty ((isDepot_iff n).1 h)),
      DurSeg.merge_assoc he (ht.dur ..) hb hseg.ok hs.ok]
    simp [stepDs, hty]

/-- Going on after a reload depot: closing the prefix there, or opening the suffix there. -/
theorem close_reload {data : ProblemData} (ht : TimesOk data) {R : Int} (hRH : R ≤ HALF)
    (profile : Nat) {a : Activity} (ha : a.type = .depot) (hR : R ≤ latest data a) {s : DurSeg}
    (hs : SegOk R s) (loc : Nat) {p : DurSeg} (hp : p.Pre)
    (hw : DurSeg.merge 0 p (innerSeg data a) = p) :
    (DurSeg.merge (data.dur profile (data.locationOf a) loc)
      (DurSeg.merge 0 p.finaliseBack { duration_ := (data.depot a.idx).serviceDuration }) s).obs
    = (DurSeg.merge 0 p (stepDs data profile a s loc)).obs := by
  have hd := (ht.depot a.idx 0 (Int.le_refl 0)).1
  have hsv := (ht.depot a.idx 0 (Int.le_refl 0)).2
  have hlate : latest data a = (data.depot a.idx).twLate := by simp [latest, ha]
  have hr := hs.rR; have hR0 := hs.r0
  have he := ht.dur profile (data.locationOf a) loc
  have hso := DurSeg.service_ok hsv
  generalize hx : DurSeg.merge (data.dur profile (data.locationOf a) loc)
    (DurSeg.service (data.depot a.idx).serviceDuration) s = x
  have hxok : x.Ok := by rw [← hx]; exact hso.merge he hs.ok
  have hxr : x.releaseTime_ = s.releaseTime_ := by
    rw [← hx]; simp only [DurSeg.merge, DurSeg.service]; omega
  have hxc : x.cumDuration_ = 0 := by
    rw [← hx]; simp only [DurSeg.merge, DurSeg.service, hs.cumD]; omega
  have hxw : x.cumTimeWarp_ = 0 := by
    rw [← hx]; simp only [DurSeg.merge, DurSeg.service, hs.cumW]; omega
  have e1 : DurSeg.merge (data.dur profile (data.locationOf a) loc)
      (DurSeg.merge 0 p.finaliseBack { duration_ := (data.depot a.idx).serviceDuration }) s
      = DurSeg.merge 0 p.finaliseBack x := by
    rw [← hx]
    exact DurSeg.merge_assoc (Int.le_refl 0) he hp.finaliseBack_ok hso hs.ok
  have e2 : stepDs data profile a s loc
      = DurSeg.merge 0 (innerSeg data a) x.finaliseFront := by
    rw [innerSeg_depot ha, DurSeg.merge_window_finaliseFront (e := (data.depot a.idx).twEarly)
      (l := (data.depot a.idx).twLate) hd.e0 hd.el hd.lM hd.eH hxok
      (by omega) (by rw [hxr]; omega) (by omega), ← hx,
      DurSeg.merge_window_service' (e := (data.depot a.idx).twEarly)
      (l := (data.depot a.idx).twLate) hd.e0 hd.el hd.lM hd.eH hsv hs.ok he hs.r0]
    simp only [stepDs, ha, if_true]
    rfl
  rw [e1, e2, DurSeg.merge_finaliseBack hp hxok (by omega) (by omega) hxc hxw,
    ← DurSeg.merge_assoc (Int.le_refl 0) (Int.le_refl 0) hp.ok (innerSeg_ok ht a).ok
      (hxok.finaliseFront (by omega)), hw]

theorem prefix_obs {data : ProblemData} (ht : TimesOk data) (vt : Nat) (M R : Int)
    (hRH : R ≤ HALF)
    (s0 : SNode) (hs0 : IsStart (data.vehicleType vt) s0) (ns : List SNode)
    (hns : ∀ n ∈ ns, Inner n)
    (hM : EarlyBy data (data.vehicleType vt) M (ns.map SNode.activity))
    (hfit : M + serviceTime data s0.activity
      + span data (data.vehicleType vt).profile (data.locationOf s0.activity)
        (ns.map SNode.activity) ≤ HALF)
    (hrel : ∀ n ∈ ns, released data n.activity ≤ R)
    (hlate : ∀ n ∈ ns, n.activity.type = .depot → R ≤ latest data n.activity)
    (s : DurSeg) (hs : SegOk R s) (loc : Nat) :
    let v := data.vehicleType vt
    let p := foldNodes (SRoute.durBeforeStep data v) s0 (SRoute.durAtOf data v s0) ns
    let acts := ns.map SNode.activity
    (close data v.profile (ns.getLastD s0) p s loc).obs
      = (top data v (onto data v.profile acts s loc) (headLoc data acts loc)).obs
    ∧ ((∀ n ∈ ns.dropLast, n.activity.type ≠ .depot) →
      close data v.profile (ns.getLastD s0) p s loc
        = top data v (onto data v.profile acts s loc) (headLoc data acts loc)) := by
  intro v
  have hR0 : 0 ≤ R := Int.le_trans hs.r0 hs.rR
  induction ns using snoc_induction generalizing s loc with
  | h0 =>
    have : close data v.profile s0 (SRoute.durAtOf data v s0) s loc = top data v s loc := by
      rw [close, if_neg (by rw [hs0.reload]; simp), show SRoute.durAtOf data v s0 = _ from hs0.durAt]
      simp only [top, hs0.activity]
      rfl
    exact ⟨congrArg DurSeg.obs this, fun _ => this⟩
  | hs ns n ih =>
    have hn : Inner n := hns n (by simp)
    have hns' : ∀ m ∈ ns, Inner m := fun m hm => hns m (by simp [hm])
    have hM' : EarlyBy data v M (ns.map SNode.activity) :=
      ⟨hM.M0, hM.vehicle, hM.start, fun a ha => hM.acts a (by
        rw [List.map_append]; exact List.mem_append_left _ ha)⟩
    have hrel' : ∀ m ∈ ns, released data m.activity ≤ R := fun m hm => hrel m (by simp [hm])
    have hlate' : ∀ m ∈ ns, m.activity.type = .depot → R ≤ latest data m.activity :=
      fun m hm => hlate m (by simp [hm])
    rw [List.map_append, List.map_singleton,
      span_append data v.profile _ _ n.activity s0.activity rfl, getLastD_map] at hfit
    rw [List.map_append, List.map_singleton, List.getLastD_concat, List.dropLast_concat]
    have hdur := ht.dur v.profile (data.locationOf (ns.getLastD s0).activity)
      (data.locationOf n.activity)
    have hsv := serviceTime_nonneg ht n.activity
    have hfit' : M + serviceTime data s0.activity
      + span data v.profile (data.locationOf s0.activity) (ns.map SNode.activity) ≤ HALF := by
      omega
    have hinv := prefix_inv ht vt M s0 hs0 ns hns' hM' hfit'
    have hpend := pending_bounds ht (ns.getLastD s0)
    have hs1 := stepDs_ok ht hR0 hRH v.profile n.activity (hrel n (by simp)) hs loc
    obtain ⟨ih1, ih2⟩ := ih hns' hM' hfit' hrel' hlate' (stepDs data v.profile n.activity s loc) hs1
      (data.locationOf n.activity)
    simp only [onto_append, headLoc_append]
    have hone : onto data v.profile [n.activity] s loc = stepDs data v.profile n.activity s loc := rfl
    have hloc : headLoc data [n.activity] loc = data.locationOf n.activity := rfl
    rw [hone, hloc, foldNodes_concat]
    have hreloadOf : ns.getLastD s0 = s0 ∧ ns = [] ∨ Inner (ns.getLastD s0) ∧ ns.getLastD s0 ∈ ns :=
      getLastD_inner hns' s0
    generalize hlast : ns.getLastD s0 = last at *
    generalize hp : foldNodes (SRoute.durBeforeStep data v) s0 (SRoute.durAtOf data v s0) ns = p at *
    have hpre : p.Pre := by
      have := hinv.1.pre (by
        have hv : data.vehicleType vt = v := rfl
        rw [hv]; omega)
      rwa [show foldNodes (SRoute.durBeforeStep data (data.vehicleType vt)) s0
        (SRoute.durAtOf data (data.vehicleType vt) s0) ns = p from hp] at this
    by_cases hl : last.isReloadDepot = true
    · have hmem : Inner last ∧ last ∈ ns := by
        rcases hreloadOf with h | h
        · rw [h.1, hs0.reload] at hl; cases hl
        · exact h
      have hty : last.activity.type = .depot := by
        rw [hmem.1.reload] at hl; exact (isDepot_iff last).1 hl
      have hw := hinv.2 hl
      rw [show foldNodes (SRoute.durBeforeStep data (data.vehicleType vt)) s0
        (SRoute.durAtOf data (data.vehicleType vt) s0) ns = p from hp] at hw
      have hd0 := (ht.depot last.activity.idx 0 (Int.le_refl 0)).2
      have hbok : (DurSeg.merge 0 p.finaliseBack
          { duration_ := (data.depot last.activity.idx).serviceDuration }).Ok :=
        hpre.finaliseBack_ok.merge (Int.le_refl 0) (DurSeg.service_ok hd0)
      have hstep : SRoute.durBeforeStep data v last p n
          = DurSeg.merge (data.dur v.profile (data.locationOf last.activity)
              (data.locationOf n.activity))
            (DurSeg.merge 0 p.finaliseBack
              { duration_ := (data.depot last.activity.idx).serviceDuration })
            (innerSeg data n.activity) := by
        simp only [SRoute.durBeforeStep, hn.durAtOf, hl, if_true]
      rw [hstep, close_merge ht hRH v.profile hn (hlate n (by simp)) hs loc hdur hbok]
      constructor
      · rw [close_reload ht hRH v.profile hty (hlate' last hmem.2 hty) hs1 _ hpre hw, ← ih1]
        rw [close, if_pos hl]
      · intro hno
        exact absurd hty (hno last hmem.2)
    · have hstep : SRoute.durBeforeStep data v last p n
          = DurSeg.merge (data.dur v.profile (data.locationOf last.activity)
              (data.locationOf n.activity)) p (innerSeg data n.activity) := by
        simp [SRoute.durBeforeStep, hn.durAtOf, hl]
      have hcl : DurSeg.merge (data.dur v.profile (data.locationOf last.activity)
          (data.locationOf n.activity)) p (stepDs data v.profile n.activity s loc)
          = close data v.profile last p (stepDs data v.profile n.activity s loc)
            (data.locationOf n.activity) := by
        rw [close, if_neg hl]
      rw [hstep, close_merge ht hRH v.profile hn (hlate n (by simp)) hs loc hdur hpre.ok, hcl]
      exact ⟨ih1, fun hno => ih2 (fun m hm => hno m (List.dropLast_subset _ hm))⟩

end PyVRP
