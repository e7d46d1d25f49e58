import Verif.Lemmas.SearchSolution
import Verif.Props.C16
import Verif.Props.C22
/-!
# C26: loading and unloading a solution in the search loses nothing
-/
namespace PyVRP
open Spec

/-! ## Clients and shipments of a valid plan -/

theorem wellFormed_delivery_count {data : ProblemData} {v : VehicleType} {acts : List Activity}
    (h : WellFormed data v acts) (i : Nat) :
    acts.count ⟨.delivery, i⟩ = acts.count ⟨.pickup, i⟩ := by
  rcases h.shipments i with hn | ⟨before, between, after, he, -, ho⟩
  · have h1 : acts.count ⟨.delivery, i⟩ = 0 := List.count_eq_zero.2 fun hm => hn _ hm (.inr rfl)
    have h2 : acts.count ⟨.pickup, i⟩ = 0 := List.count_eq_zero.2 fun hm => hn _ hm (.inl rfl)
    rw [h1, h2]
  · have h0 : ∀ a, Concerns i a → ∀ l : List Activity, (∀ x ∈ l, x ∈ before ++ between ++ after) → l.count a = 0 := by
      intro a ha l hl
      exact List.count_eq_zero.2 fun hm => ho a (hl a hm) ha
    have hd : Concerns i ⟨.delivery, i⟩ := .inr rfl
    have hp : Concerns i ⟨.pickup, i⟩ := .inl rfl
    have k1 := fun a ha => h0 a ha before (by simp +contextual)
    have k2 := fun a ha => h0 a ha between (by simp +contextual)
    have k3 := fun a ha => h0 a ha after (by simp +contextual)
    rw [he]
    simp only [List.count_append, List.count_cons, k1 _ hd, k1 _ hp, k2 _ hd, k2 _ hp, k3 _ hd, k3 _ hp]
    simp [pickupOf, deliveryOf]

theorem tasks_once {data : ProblemData} {plan : RoutePlan} {routes : List Route}
    (hb : Built data plan routes) (hv : ValidPlan data plan) {a : Activity} (ha : a.type ≠ .depot) :
    (visited plan).count a ≤ 1 := by
  obtain ⟨ty, i⟩ := a
  cases ty with
  | depot => exact absurd rfl ha
  | client => exact hv.clientsOnce i
  | pickup => exact hv.shipmentsOnce i
  | delivery =>
    have : (visited plan).count ⟨.delivery, i⟩ = (visited plan).count ⟨.pickup, i⟩ := by
      clear hv
      revert hb
      refine fun hb => Spec.Built.induction (motive := fun plan _ =>
        (visited plan).count ⟨.delivery, i⟩ = (visited plan).count ⟨.pickup, i⟩) rfl ?_ hb
      intro p plan r routes h1 _ h3 h4 _ ih
      have hw := (C05_route_accepts_exactly_wellformed data p.2 p.1 h3 h4).1.1 ⟨r, h1⟩
      have e : ∀ a, (visited (p :: plan)).count a = p.2.count a + (visited plan).count a := by
        intro a; simp [visited]
      rw [e, e, ih, wellFormed_delivery_count hw]
    rw [this]
    exact hv.shipmentsOnce i

/-! ## Where routes are loaded -/

/-- What the route at `idx` should be, after loading the routes of `plan`. -/
def planAt (data : ProblemData) (plan : RoutePlan) (idx : Nat) : Option (List Activity) :=
  ((plan.filter (fun p => p.1 = vehTypeAt data idx))[idx - vehiclesBefore data (vehTypeAt data idx)]?).map
    (·.2)

theorem planAt_mem {data : ProblemData} {plan : RoutePlan} {idx : Nat} {acts : List Activity}
    (h : planAt data plan idx = some acts) : (vehTypeAt data idx, acts) ∈ plan := by
  unfold planAt at h
  obtain ⟨p, h1, h2⟩ := Option.map_eq_some_iff.1 h
  have := List.mem_of_getElem? h1
  rw [List.mem_filter] at this
  obtain ⟨k1, k2⟩ := this
  obtain ⟨t, as⟩ := p
  simp at k2 h2
  subst h2; subst k2
  exact k1

theorem planAt_block {data : ProblemData} (plan : RoutePlan) {t k : Nat}
    (ht : t < data.numVehicleTypes) (hk : k < (data.vehicleType t).numAvailable) :
    planAt data plan (vehiclesBefore data t + k)
      = ((plan.filter (fun p => p.1 = t))[k]?).map (·.2) := by
  unfold planAt
  rw [(vehTypeAt_block data ht hk).1]
  simp

theorem planAt_snoc {data : ProblemData} {P : RoutePlan} {p : Nat × List Activity}
    (hp : p.1 < data.numVehicleTypes)
    (hc : P.countP (fun q => q.1 = p.1) < (data.vehicleType p.1).numAvailable) {idx : Nat}
    (hidx : idx < data.numVehicles) :
    planAt data (P ++ [p]) idx
      = if idx = vehiclesBefore data p.1 + P.countP (fun q => q.1 = p.1) then some p.2
        else planAt data P idx := by
  obtain ⟨t, k, h1, h2, h3, h4⟩ := vehTypeAt_exists data hidx
  rw [h3, planAt_block _ h1 h2, planAt_block _ h1 h2, List.filter_append]
  by_cases hpt : p.1 = t
  · subst hpt
    simp only [List.filter_cons, List.filter_nil]
    rw [List.countP_eq_length_filter] at *
    simp only [decide_true, if_true, Nat.add_left_cancel_iff]
    rcases Nat.lt_trichotomy k (P.filter (fun q => q.1 = p.1)).length with h | h | h
    · rw [List.getElem?_append_left h, if_neg (by omega)]
    · rw [h, List.getElem?_append_right (Nat.le_refl _)]; simp
    · rw [List.getElem?_append_right (by omega), if_neg (by omega),
        List.getElem?_eq_none (by simp; omega), List.getElem?_eq_none (by omega)]
  · have hf : [p].filter (fun q => q.1 = t) = [] := by simp [hpt]
    rw [hf, List.append_nil, if_neg]
    intro he
    exact hpt (block_inj data h1 h2 hp hc he).1.symm

theorem planAt_next {data : ProblemData} {P : RoutePlan} {t : Nat}
    (ht : t < data.numVehicleTypes)
    (hc : P.countP (fun q => q.1 = t) < (data.vehicleType t).numAvailable) :
    planAt data P (vehiclesBefore data t + P.countP (fun q => q.1 = t)) = none := by
  rw [planAt_block _ ht hc, List.getElem?_eq_none]
  · rfl
  · rw [List.countP_eq_length_filter]; exact Nat.le_refl _

namespace SSol

/-- While loading: the routes of `P` have been loaded, and all other routes still visit what they
visited before, which is `old`. -/
structure Loading (data : ProblemData) (P : RoutePlan) (old : Nat → List Activity) (s : SSol) :
    Prop where
  sized : Sized data s
  routes : ∀ i, i < data.numVehicles →
    s.route i = SRoute.ofActs data (vehTypeAt data i) ((planAt data P i).getD (old i))
  loaded : ∀ i, i < data.numVehicles → ∀ acts, planAt data P i = some acts → ∀ a ∈ acts,
    a.type ≠ .depot → s.owner a = some i
  back : ∀ a i, s.owner a = some i →
    i < data.numVehicles ∧ a ∈ (planAt data P i).getD (old i)
  old : ∀ i, i < data.numVehicles → planAt data P i = none → ∀ a ∈ old i, a.type ≠ .depot →
    s.owner a = some i ∨ ∃ p ∈ P, a ∈ p.2

theorem sameRoute_iff {data : ProblemData} (ht : TimesOk data) {acts acts' : List Activity} {vt vt' : Nat}
    {r : Route} (h : Route.make data acts vt = .ok r) (hvt : vt = vt') :
    sameRoute r (SRoute.ofActs data vt' acts') = true ↔ acts = acts' := by
  subst hvt
  have ha := (C07_schedule_lists_activities data acts vt r h).1
  have hs := (C07_schedule_lists_activities data acts vt r h).2.1
  have hr := Route.make_eq_ok h
  have hn : (SRoute.ofActs data vt acts').nodes.map (·.activity)
      = fullActs (data.vehicleType vt) acts' := SRoute.canon_activities _ _
  constructor
  · intro hsame
    simp only [sameRoute, Bool.and_eq_true, beq_iff_eq] at hsame
    have := hsame.2
    rw [ha, hn] at this
    simpa [fullActs] using this
  · rintro rfl
    simp only [sameRoute, Bool.and_eq_true, beq_iff_eq, ha, hn, hs]
    have hd := SRoute.ofActs_duration ht vt acts
    refine ⟨⟨⟨⟨⟨?_, ?_⟩, ?_⟩, ?_⟩, ?_⟩, trivial⟩
    · rw [SRoute.ofActs_distance, hr]
    · rw [hd.1, hr]
    · rw [hd.2.2, hr]
    · rw [hr]; rfl
    · show _ = (canon _ _).length
      rw [canon_length]

/-- Loading one more route. -/
theorem Loading.step {data : ProblemData} (ht : TimesOk data) {P : RoutePlan}
    {old : Nat → List Activity} {s : SSol} (hl : Loading data P old s) {p : Nat × List Activity}
    {r : Route} (hm : Route.make data p.2 p.1 = .ok r) (hp : p.1 < data.numVehicleTypes)
    (hw : WellFormed data (data.vehicleType p.1) p.2)
    (htrips : depotVisits p.2 + 1 ≤ (data.vehicleType p.1).maxTrips)
    (hc : P.countP (fun q => q.1 = p.1) < (data.vehicleType p.1).numAvailable)
    (hnew : ∀ a ∈ p.2, a.type ≠ .depot → ∀ q ∈ P, a ∉ q.2) :
    ∃ s', loadRoute data s (vehiclesBefore data p.1 + P.countP (fun q => q.1 = p.1)) r = .ok s'
      ∧ Loading data (P ++ [p]) old s' := by
  obtain ⟨hvt, hidx⟩ := vehTypeAt_block data hp hc
  have hnone := planAt_next (P := P) hp hc
  generalize hi : vehiclesBefore data p.1 + P.countP (fun q => q.1 = p.1) = idx at *
  have hsnoc : ∀ i, i < data.numVehicles →
      planAt data (P ++ [p]) i = if i = idx then some p.2 else planAt data P i := by
    intro i h; rw [planAt_snoc hp hc h, hi]
  have hroute := hl.routes idx hidx
  rw [hnone, Option.getD_none] at hroute
  by_cases hsame : p.2 = old idx
  · -- the route is kept
    have hb : sameRoute r (s.route idx) = true := by
      rw [hroute]; exact (sameRoute_iff ht hm hvt.symm).2 hsame
    refine ⟨s, by simp only [loadRoute, hb, if_true], hl.sized, ?_, ?_, ?_, ?_⟩
    · intro i h
      rw [hsnoc i h]
      by_cases he : i = idx
      · subst he; rw [if_pos rfl, Option.getD_some, hsame]; exact hroute
      · rw [if_neg he]; exact hl.routes i h
    · intro i h acts hacts a ha had
      rw [hsnoc i h] at hacts
      by_cases he : i = idx
      · subst he
        rw [if_pos rfl] at hacts
        cases hacts
        rcases hl.old i h hnone a (by rw [← hsame]; exact ha) had with ho | ⟨q, hq, haq⟩
        · exact ho
        · exact absurd haq (hnew a ha had q hq)
      · rw [if_neg he] at hacts
        exact hl.loaded i h acts hacts a ha had
    · intro a i ho
      obtain ⟨h1, h2⟩ := hl.back a i ho
      refine ⟨h1, ?_⟩
      rw [hsnoc i h1]
      by_cases he : i = idx
      · subst he; rw [hnone] at h2; rw [if_pos rfl, Option.getD_some, hsame]; exact h2
      · rw [if_neg he]; exact h2
    · intro i h hn a ha had
      rw [hsnoc i h] at hn
      by_cases he : i = idx
      · rw [if_pos he] at hn; cases hn
      · rw [if_neg he] at hn
        rcases hl.old i h hn a ha had with ho | ⟨q, hq, haq⟩
        · exact .inl ho
        · exact .inr ⟨q, by simp [hq], haq⟩
  · -- the route is cleared and filled
    have hb : sameRoute r (s.route idx) = false := by
      rw [hroute]
      cases hx : sameRoute r (SRoute.ofActs data (vehTypeAt data idx) (old idx)) with
      | false => rfl
      | true => exact absurd ((sameRoute_iff ht hm hvt.symm).1 hx) hsame
    obtain ⟨c1, c2, c3, c4⟩ := clearRoute_spec hl.sized hidx hroute
    have hv0 : ((s.clearRoute data idx).route idx).vehicleType = p.1 := by rw [c2, ← hvt]; rfl
    have hinner : (r.schedule.map (·.activity)).tail.dropLast = p.2 := by
      rw [(C07_schedule_lists_activities data p.2 p.1 r hm).1]; simp [fullActs]
    obtain ⟨s1, k1, k2, k3, k4, k5, k6⟩ := pushAll_spec hidx p.2 c1 (xs := [])
      (by rw [c2]; exact (SRoute.ofActs_visits data _ []).1) (by rw [hv0]; simpa using htrips)
      hw.inRange
    obtain ⟨u1, u2, u3, u4⟩ := updateRoute_spec k2 hidx (acts := p.2) (by simpa using k3)
    have howner : ∀ b, (s1.updateRoute data idx).owner b
        = if b ∈ p.2 ∧ b.type ≠ .depot then some idx
          else if s.owner b = some idx then none else s.owner b := by
      intro b
      rw [u4, k6, c4]
      by_cases ho : s.owner b = some idx
      · have := (hl.back b idx ho).2
        rw [hnone] at this
        have hbo : b ∈ old idx := this
        simp [ho, hbo]
      · simp [ho]
    refine ⟨s1.updateRoute data idx, by simp [loadRoute, hb, hinner, k1], u1, ?_, ?_, ?_, ?_⟩
    · intro i h
      rw [hsnoc i h]
      by_cases he : i = idx
      · subst he
        rw [if_pos rfl, Option.getD_some, u2, k4, hv0, hvt]
      · rw [if_neg he, u3 i he, k5 i he, c3 i he]; exact hl.routes i h
    · intro i h acts hacts a ha had
      rw [hsnoc i h] at hacts
      rw [howner]
      by_cases he : i = idx
      · subst he
        rw [if_pos rfl] at hacts
        cases hacts
        rw [if_pos ⟨ha, had⟩]
      · rw [if_neg he] at hacts
        have ho := hl.loaded i h acts hacts a ha had
        have hnp : ¬ (a ∈ p.2 ∧ a.type ≠ .depot) := fun hc =>
          hnew a hc.1 hc.2 _ (planAt_mem hacts) ha
        rw [if_neg hnp, ho, if_neg (by simpa using he)]
    · intro a i ho
      rw [howner] at ho
      by_cases ha : a ∈ p.2 ∧ a.type ≠ .depot
      · rw [if_pos ha] at ho
        cases ho
        exact ⟨hidx, by rw [hsnoc _ hidx, if_pos rfl]; exact ha.1⟩
      · rw [if_neg ha] at ho
        by_cases ho' : s.owner a = some idx
        · rw [if_pos ho'] at ho; cases ho
        · rw [if_neg ho'] at ho
          obtain ⟨h1, h2⟩ := hl.back a i ho
          refine ⟨h1, ?_⟩
          rw [hsnoc i h1]
          by_cases he : i = idx
          · subst he; exact absurd ho ho'
          · rw [if_neg he]; exact h2
    · intro i h hn a ha had
      rw [hsnoc i h] at hn
      by_cases he : i = idx
      · rw [if_pos he] at hn; cases hn
      · rw [if_neg he] at hn
        rcases hl.old i h hn a ha had with ho | ⟨q, hq, haq⟩
        · rw [howner]
          by_cases hap : a ∈ p.2
          · exact .inr ⟨p, by simp, hap⟩
          · left
            rw [if_neg (fun hc => hap hc.1), ho, if_neg (by simpa using he)]
        · exact .inr ⟨q, by simp [hq], haq⟩

/-- Clearing a route that has not been loaded. -/
theorem Loading.clear {data : ProblemData} {P : RoutePlan} {old : Nat → List Activity} {s : SSol}
    (hl : Loading data P old s) {idx : Nat} (hidx : idx < data.numVehicles)
    (hnone : planAt data P idx = none) :
    Loading data P (fun i => if i = idx then [] else old i) (s.clearRoute data idx) := by
  have hroute := hl.routes idx hidx
  rw [hnone, Option.getD_none] at hroute
  obtain ⟨c1, c2, c3, c4⟩ := clearRoute_spec hl.sized hidx hroute
  have howner : ∀ b, (s.clearRoute data idx).owner b
      = if s.owner b = some idx then none else s.owner b := by
    intro b
    rw [c4]
    by_cases ho : s.owner b = some idx
    · have := (hl.back b idx ho).2
      rw [hnone] at this
      have hbo : b ∈ old idx := this
      simp [ho, hbo]
    · simp [ho]
  refine ⟨c1, ?_, ?_, ?_, ?_⟩
  · intro i h
    by_cases he : i = idx
    · subst he; rw [if_pos rfl, hnone]; exact c2
    · rw [if_neg he, c3 i he]; exact hl.routes i h
  · intro i h acts hacts a ha had
    have ho := hl.loaded i h acts hacts a ha had
    have he : i ≠ idx := by rintro rfl; rw [hnone] at hacts; cases hacts
    rw [howner, ho, if_neg (by simpa using he)]
  · intro a i ho
    rw [howner] at ho
    by_cases ho' : s.owner a = some idx
    · rw [if_pos ho'] at ho; cases ho
    · rw [if_neg ho'] at ho
      have he : i ≠ idx := by rintro rfl; exact ho' ho
      rw [if_neg he]
      exact hl.back a i ho
  · intro i h hn a ha had
    by_cases he : i = idx
    · subst he; simp at ha
    · rw [if_neg he] at ha
      rcases hl.old i h hn a ha had with ho | hq
      · left; rw [howner, ho, if_neg (by simpa using he)]
      · exact .inr hq

theorem Loading.clearAll {data : ProblemData} {P : RoutePlan} (l : List Nat) :
    ∀ {old : Nat → List Activity} {s : SSol}, Loading data P old s →
    (∀ i ∈ l, i < data.numVehicles ∧ planAt data P i = none) →
    ∃ old', Loading data P old' (l.foldl (clearRoute data) s)
      ∧ (∀ i ∈ l, old' i = []) ∧ (∀ i, old i = [] → old' i = []) := by
  induction l with
  | nil => intro old s hl _; exact ⟨old, hl, by simp, fun _ h => h⟩
  | cons idx rest ih =>
    intro old s hl hall
    obtain ⟨h1, h2⟩ := hall idx (by simp)
    obtain ⟨old', k1, k2, k3⟩ := ih (hl.clear h1 h2) (fun i hi => hall i (by simp [hi]))
    refine ⟨old', k1, ?_, ?_⟩
    · intro i hi
      rcases List.mem_cons.1 hi with rfl | hi
      · exact k3 i (by simp)
      · exact k2 i hi
    · intro i hi
      apply k3
      split
      · rfl
      · exact hi

/-- The offsets after loading the routes of `P`. -/
def OffsetsOk (data : ProblemData) (P : RoutePlan) (offsets : List Nat) : Prop :=
  offsets.length = data.numVehicleTypes ∧ ∀ t, t < data.numVehicleTypes →
    offsets.getD t 0 = vehiclesBefore data t + P.countP (fun q => q.1 = t)

theorem loadOffsets_spec (vs : List VehicleType) (base : Nat) :
    (loadOffsets vs base).length = vs.length
    ∧ ∀ t, t < vs.length →
      (loadOffsets vs base).getD t 0 = base + ((vs.take t).map (·.numAvailable)).sum := by
  induction vs generalizing base with
  | nil => exact ⟨rfl, fun t h => by simp at h⟩
  | cons v rest ih =>
    obtain ⟨h1, h2⟩ := ih (base + v.numAvailable)
    refine ⟨by simp [loadOffsets, h1], fun t h => ?_⟩
    cases t with
    | zero => simp [loadOffsets]
    | succ t =>
      have := h2 t (by simpa using h)
      simp only [loadOffsets, List.getD_cons_succ, this, List.take_succ_cons, List.map_cons,
        List.sum_cons]
      omega

theorem OffsetsOk.init (data : ProblemData) :
    OffsetsOk data [] (loadOffsets data.vehicleTypes 0) := by
  obtain ⟨h1, h2⟩ := loadOffsets_spec data.vehicleTypes 0
  refine ⟨h1, fun t ht => ?_⟩
  rw [h2 t ht]
  simp [vehiclesBefore]

theorem OffsetsOk.step {data : ProblemData} {P : RoutePlan} {offsets : List Nat}
    (h : OffsetsOk data P offsets) (p : Nat × List Activity) :
    OffsetsOk data (P ++ [p]) (offsets.modify p.1 (· + 1)) := by
  refine ⟨by simpa using h.1, fun t ht => ?_⟩
  have h2 := h.2 t ht
  have hlt : t < offsets.length := by rw [h.1]; exact ht
  rw [List.getD_eq_getElem?_getD, List.getElem?_eq_getElem hlt, Option.getD_some] at h2
  rw [List.countP_append, List.getD_eq_getElem?_getD, List.getElem?_modify,
    List.getElem?_eq_getElem hlt]
  by_cases he : p.1 = t
  · subst he; simp; omega
  · simp [he]; omega

/-- Loading all routes. -/
theorem Loading.all {data : ProblemData} (ht : TimesOk data) {plan : RoutePlan} {routes : List Route}
    (hb : Built data plan routes) (hv : ValidPlan data plan) {old : Nat → List Activity} :
    ∀ (rest : RoutePlan) (rroutes : List Route), Built data rest rroutes → ∀ (P : RoutePlan),
    plan = P ++ rest → ∀ (s : SSol) (offsets : List Nat), Loading data P old s →
    OffsetsOk data P offsets →
    ∃ s' offsets', loadRoutes data s offsets rroutes = .ok (s', offsets')
      ∧ Loading data plan old s' ∧ OffsetsOk data plan offsets' := by
  intro rest rroutes hbr
  refine Spec.Built.induction (motive := fun rest rroutes => ∀ (P : RoutePlan),
    plan = P ++ rest → ∀ (s : SSol) (offsets : List Nat), Loading data P old s →
    OffsetsOk data P offsets →
    ∃ s' offsets', loadRoutes data s offsets rroutes = .ok (s', offsets')
      ∧ Loading data plan old s' ∧ OffsetsOk data plan offsets') ?_ ?_ hbr
  · intro P hP s offsets hl ho
    rw [List.append_nil] at hP
    subst hP
    exact ⟨s, offsets, rfl, hl, ho⟩
  · intro p rest r rroutes hm hp hsize hrel _ ih P hP s offsets hl ho
    have hw := (C05_route_accepts_exactly_wellformed data p.2 p.1 hsize hrel).1.1 ⟨r, hm⟩
    have hvr : r.vehicleType = p.1 := by rw [Route.make_eq_ok hm]; rfl
    have hc : P.countP (fun q => q.1 = p.1) < (data.vehicleType p.1).numAvailable := by
      have hget : data.vehicleTypes[p.1]? = some (data.vehicleType p.1) := by
        simp [ProblemData.vehicleType, List.getD_eq_getElem?_getD, List.getElem?_eq_getElem hp]
      have := hv.available p.1 _ hget
      rw [hP, List.countP_append, List.countP_cons] at this
      simp at this
      omega
    have htrips : depotVisits p.2 + 1 ≤ (data.vehicleType p.1).maxTrips := by
      have := hw.reloads
      have hd : depotVisits p.2 ≤ p.2.length := List.countP_le_length
      unfold reloadLimit at this
      unfold VehicleType.maxTrips
      unfold SIZE_MAX at *
      split <;> split at this <;> omega
    have hnew : ∀ a ∈ p.2, a.type ≠ .depot → ∀ q ∈ P, a ∉ q.2 := by
      intro a ha had q hq haq
      have h1 := tasks_once hb hv had
      have e : visited plan = visited P ++ (p.2 ++ visited rest) := by
        rw [hP]; simp [visited]
      have k1 : 0 < (visited P).count a := by
        rw [List.count_pos_iff]
        simp only [visited, List.mem_flatMap]
        exact ⟨q, hq, haq⟩
      have k2 : 0 < p.2.count a := by rw [List.count_pos_iff]; exact ha
      rw [e, List.count_append, List.count_append] at h1
      omega
    obtain ⟨s1, h1, h2⟩ := hl.step ht hm hp hw htrips hc hnew
    obtain ⟨s2, off2, k1, k2, k3⟩ := ih (P ++ [p]) (by rw [hP]; simp) s1 _ h2 (ho.step p)
    refine ⟨s2, off2, ?_, k2, k3⟩
    simp only [loadRoutes, hvr, ho.2 p.1 hp, h1, k1]

/-- Clearing what was not loaded. -/
theorem Loading.unused {data : ProblemData} {P : RoutePlan} {offsets : List Nat}
    (ho : OffsetsOk data P offsets) :
    ∀ (n t : Nat), t + n = data.numVehicleTypes → ∀ {old : Nat → List Activity} {s : SSol},
    Loading data P old s →
    ∃ old', Loading data P old'
        (clearUnused data s (vehiclesBefore data t) (data.vehicleTypes.drop t) (offsets.drop t))
      ∧ (∀ i, i < data.numVehicles → t ≤ vehTypeAt data i → planAt data P i = none → old' i = [])
      ∧ (∀ i, old i = [] → old' i = []) := by
  intro n
  induction n with
  | zero =>
    intro t htn old s hl
    have h1 : data.vehicleTypes.drop t = [] := by
      apply List.drop_eq_nil_of_le
      show data.numVehicleTypes ≤ t
      omega
    rw [h1]
    refine ⟨old, by simpa [clearUnused] using hl, ?_, fun _ h => h⟩
    intro i hi hti
    have := vehTypeAt_lt data hi
    omega
  | succ n ih =>
    intro t htn old s hl
    have ht : t < data.numVehicleTypes := by omega
    have ht' : t < data.vehicleTypes.length := ht
    have hto : t < offsets.length := by rw [ho.1]; exact ht
    have hv : data.vehicleTypes[t] = data.vehicleType t := by
      simp [ProblemData.vehicleType, List.getD_eq_getElem?_getD, List.getElem?_eq_getElem ht']
    have hoff : offsets[t] = vehiclesBefore data t + P.countP (fun q => q.1 = t) := by
      have := ho.2 t ht
      rwa [List.getD_eq_getElem?_getD, List.getElem?_eq_getElem hto, Option.getD_some] at this
    rw [List.drop_eq_getElem_cons ht', List.drop_eq_getElem_cons hto]
    simp only [clearUnused, hv]
    rw [← vehiclesBefore_succ data ht]
    have hsucc := vehiclesBefore_succ data ht
    have hrange : ∀ i ∈ List.range' offsets[t] (vehiclesBefore data (t + 1) - offsets[t]),
        i < data.numVehicles ∧ planAt data P i = none := by
      intro i hi
      rw [List.mem_range'_1] at hi
      have hk : i - vehiclesBefore data t < (data.vehicleType t).numAvailable := by omega
      have he : i = vehiclesBefore data t + (i - vehiclesBefore data t) := by omega
      rw [he]
      refine ⟨(vehTypeAt_block data ht hk).2, ?_⟩
      rw [planAt_block _ ht hk, List.getElem?_eq_none]
      · rfl
      · have := List.countP_eq_length_filter (p := fun q : Nat × List Activity => decide (q.1 = t)) (l := P)
        omega
    obtain ⟨old1, k1, k2, k3⟩ := hl.clearAll _ hrange
    obtain ⟨old2, m1, m2, m3⟩ := ih (t + 1) (by omega) k1
    refine ⟨old2, m1, ?_, fun i hi => m3 i (k3 i hi)⟩
    intro i hi hti hnone
    rcases Nat.lt_or_ge t (vehTypeAt data i) with h | h
    · exact m2 i hi h hnone
    · apply m3
      apply k2
      obtain ⟨t', k, h1, h2, h3, h4⟩ := vehTypeAt_exists data hi
      have : t' = t := by omega
      subst this
      rw [h3, planAt_block _ h1 h2] at hnone
      have hlen : (P.filter (fun q => q.1 = t')).length ≤ k := by
        rcases Nat.lt_or_ge k (P.filter (fun q => q.1 = t')).length with hh | hh
        · rw [List.getElem?_eq_getElem hh] at hnone; cases hnone
        · exact hh
      have := List.countP_eq_length_filter (p := fun q : Nat × List Activity => decide (q.1 = t')) (l := P)
      rw [List.mem_range'_1]
      omega

/-- The routes after loading `plan`, in the order of the search's vehicles. -/
def loadedPlan (data : ProblemData) (plan : RoutePlan) : List (List Activity) :=
  (List.range data.numVehicles).map (fun i => (planAt data plan i).getD [])

theorem loadedPlan_getD (data : ProblemData) (plan : RoutePlan) (i : Nat) :
    (loadedPlan data plan).getD i []
      = if i < data.numVehicles then (planAt data plan i).getD [] else [] := by
  simp only [loadedPlan, List.getD_eq_getElem?_getD, List.getElem?_map]
  by_cases h : i < data.numVehicles <;> simp [h]

theorem load_spec {data : ProblemData} (ht : TimesOk data) {plan : RoutePlan} {routes : List Route}
    {sol : Solution} (hb : Built data plan routes) (hn : ∀ g ∈ data.groups, g.clients.Nodup)
    (h : Solution.make data routes = .ok sol) {old : List (List Activity)} {s : SSol}
    (hs : Clean data old s) :
    ∃ s', load data s sol = .ok s' ∧ Clean data (loadedPlan data plan) s' := by
  have hr := (C15_totals data plan routes sol hb hn h).1
  have hv := (C13_solution_accepts_exactly_valid data plan routes hb hn).1.1 ⟨sol, h⟩
  have hinit : Loading data [] (fun i => old.getD i []) s := by
    refine ⟨hs.1.sized, ?_, ?_, ?_, ?_⟩
    · intro i hi; exact hs.2 i hi
    · intro i _ acts hacts; simp [planAt] at hacts
    · intro a i ho
      have htask := (owner_task hs.1.sized ho).1
      have hm := (hs.1.owner a htask i).1 ho
      refine ⟨?_, by simpa [planAt] using hm⟩
      rcases Nat.lt_or_ge i data.numVehicles with hi | hi
      · exact hi
      · rw [List.getD_eq_getElem?_getD, List.getElem?_eq_none (by rw [hs.1.length]; exact hi)] at hm
        cases hm
    · intro i hi _ a ha had
      exact .inl ((hs.1.owner a had i).2 ha)
  obtain ⟨s1, off, h1, h2, h3⟩ := Loading.all ht hb hv plan routes hb [] rfl s _ hinit (OffsetsOk.init data)
  obtain ⟨old', k1, k2, -⟩ := Loading.unused h3 data.numVehicleTypes 0 (by omega) h2
  have e0 : vehiclesBefore data 0 = 0 := by simp [vehiclesBefore]
  rw [List.drop_zero, List.drop_zero, e0] at k1
  refine ⟨_, by simp only [load, hr, h1]; rfl, ?_⟩
  have hget : ∀ i, i < data.numVehicles →
      (loadedPlan data plan).getD i [] = (planAt data plan i).getD (old' i) := by
    intro i hi
    rw [loadedPlan_getD, if_pos hi]
    cases hp : planAt data plan i with
    | some acts => rfl
    | none => rw [Option.getD_none, Option.getD_none, k2 i hi (by omega) hp]
  have hroute : ∀ i, i < data.numVehicles → _ := fun i hi => by
    have := k1.routes i hi
    rw [← hget i hi] at this
    exact this
  refine ⟨⟨k1.sized, by simp [loadedPlan], ?_, ?_, ?_, ?_⟩, hroute⟩
  · intro i hi; rw [hroute i hi]; rfl
  · intro i hi; rw [hroute i hi]; exact (SRoute.ofActs_visits data _ _).1
  · intro a ha i
    constructor
    · intro ho
      obtain ⟨m1, m2⟩ := k1.back a i ho
      rw [hget i m1]; exact m2
    · intro hm
      rw [loadedPlan_getD] at hm
      by_cases hi : i < data.numVehicles
      · rw [if_pos hi] at hm
        cases hp : planAt data plan i with
        | some acts => rw [hp] at hm; exact k1.loaded i hi acts hp a hm ha
        | none => rw [hp] at hm; cases hm
      · rw [if_neg hi] at hm; cases hm
  · intro a ha i
    rw [loadedPlan_getD]
    split
    · cases hp : planAt data plan i with
      | none => simp
      | some acts =>
        have h1 := tasks_once hb hv ha
        have hmem := planAt_mem hp
        obtain ⟨l1, l2, he⟩ := List.append_of_mem hmem
        rw [he] at h1
        simp only [visited, List.flatMap_append, List.flatMap_cons, List.count_append] at h1
        simp only [Option.getD_some]
        omega
    · simp

/-! ## Unloading -/

/-- A route that does something. -/
def used (acts : List Activity) : Bool := acts.any (fun a => a.type ≠ .depot)

/-- The routes that `unload` should make of the first `n` routes of the search. -/
def unloadPlan (data : ProblemData) (plan : List (List Activity)) (n : Nat) : RoutePlan :=
  (List.range n).filterMap (fun i =>
    if used (plan.getD i []) then some (vehTypeAt data i, plan.getD i []) else none)

theorem ofActs_empty {data : ProblemData} {v : VehicleType} {vt : Nat} {acts : List Activity}
    (hw : WellFormed data v acts) : (SRoute.ofActs data vt acts).empty = !used acts := by
  obtain ⟨h1, h2, -⟩ := SRoute.ofActs_counts data vt acts
  unfold SRoute.empty
  rw [h1, h2]
  cases hu : used acts with
  | false =>
    unfold used at hu
    rw [List.any_eq_false] at hu
    have : ∀ ty : ActivityType, ty ≠ .depot → acts.countP (fun a => a.type = ty) = 0 := by
      intro ty hty
      rw [List.countP_eq_zero]
      intro a ha
      have := hu a ha
      simp at this
      simpa [this] using fun h => hty h.symm
    rw [this _ (by decide), this _ (by decide)]
    rfl
  | true =>
    unfold used at hu
    rw [List.any_eq_true] at hu
    obtain ⟨a, ha, had⟩ := hu
    simp at had
    rw [Bool.not_true, Bool.and_eq_false_iff]
    have key : ∀ (ty : ActivityType), (∃ b ∈ acts, b.type = ty) →
        (acts.countP (fun a => a.type = ty) == 0) = false := by
      rintro ty ⟨b, hb, hbt⟩
      have : 0 < acts.countP (fun a => a.type = ty) := List.countP_pos_iff.2 ⟨b, hb, by simpa using hbt⟩
      rw [beq_eq_false_iff_ne]; omega
    obtain ⟨ty, i⟩ := a
    cases ty with
    | depot => exact absurd rfl had
    | client => exact .inl (key _ ⟨_, ha, rfl⟩)
    | pickup => exact .inr (key _ ⟨_, ha, rfl⟩)
    | delivery =>
      right
      apply key
      have := wellFormed_delivery_count hw i
      have hd : 0 < acts.count ⟨.delivery, i⟩ := List.count_pos_iff.2 ha
      exact ⟨⟨.pickup, i⟩, List.count_pos_iff.1 (by omega), rfl⟩

/-- Each route may be one of a solution. -/
structure PlanOk (data : ProblemData) (plan : List (List Activity)) : Prop where
  routes : ∀ i, i < data.numVehicles →
    WellFormed data (data.vehicleType (vehTypeAt data i)) (plan.getD i [])
  sizes : ∀ i, (plan.getD i []).length < SIZE_MAX

theorem vehicleType_mem (data : ProblemData) {t : Nat} (h : t < data.numVehicleTypes) :
    data.vehicleType t ∈ data.vehicleTypes := by
  have h' : t < data.vehicleTypes.length := h
  simp [ProblemData.vehicleType, List.getD_eq_getElem?_getD, List.getElem?_eq_getElem h']

theorem unloadRoutes_spec {data : ProblemData} {plan : List (List Activity)}
    (hp : PlanOk data plan) (hrel : ∀ v ∈ data.vehicleTypes, v.maxReloads ≤ SIZE_MAX) (l : List Nat)
    (hl : ∀ i ∈ l, i < data.numVehicles) :
    ∃ routes, unloadRoutes data
        (l.map (fun i => SRoute.ofActs data (vehTypeAt data i) (plan.getD i []))) = .ok routes
      ∧ Built data (l.filterMap (fun i =>
          if used (plan.getD i []) then some (vehTypeAt data i, plan.getD i []) else none)) routes := by
  induction l with
  | nil => exact ⟨[], rfl, rfl, by simp, by simp, hrel⟩
  | cons i rest ih =>
    obtain ⟨routes, h1, h2⟩ := ih (fun j hj => hl j (by simp [hj]))
    have hi := hl i (by simp)
    have hw := hp.routes i hi
    have he := ofActs_empty (vt := vehTypeAt data i) hw
    rw [List.map_cons, List.filterMap_cons]
    by_cases hu : used (plan.getD i []) = true
    · rw [hu] at he
      have hvt := vehTypeAt_lt data hi
      obtain ⟨r, hm⟩ := (C05_route_accepts_exactly_wellformed data _ _ (hp.sizes i)
        (hrel _ (vehicleType_mem data hvt))).1.2 hw
      have hacts : ((SRoute.ofActs data (vehTypeAt data i) (plan.getD i [])).nodes.map
          (·.activity)).tail.dropLast = plan.getD i [] := by
        have : (SRoute.ofActs data (vehTypeAt data i) (plan.getD i [])).nodes.map (·.activity)
          = fullActs _ _ := SRoute.canon_activities _ _
        rw [this]; simp [fullActs]
      have hvt' : (SRoute.ofActs data (vehTypeAt data i) (plan.getD i [])).vehicleType
        = vehTypeAt data i := rfl
      refine ⟨r :: routes, ?_, ?_⟩
      · simp only [unloadRoutes, he, hacts, hvt', hm, h1, Bool.not_true, Bool.false_eq_true, if_false]
      · simp only [hu, if_true]
        refine ⟨?_, ?_, ?_, hrel⟩
        · simp only [List.map_cons, hm, h2.made]
        · intro p hp'
          rcases List.mem_cons.1 hp' with rfl | hp'
          · exact hvt
          · exact h2.types p hp'
        · intro p hp'
          rcases List.mem_cons.1 hp' with rfl | hp'
          · exact hp.sizes i
          · exact h2.sizes p hp'
    · have hu' : used (plan.getD i []) = false := by simpa using hu
      rw [hu'] at he
      refine ⟨routes, ?_, ?_⟩
      · simp only [unloadRoutes, he, Bool.not_false, if_true, h1]
      · simp only [hu', Bool.false_eq_true, if_false]; exact h2

theorem routes_eq {data : ProblemData} {s : SSol} (hs : Sized data s) :
    s.routes = (List.range data.numVehicles).map s.route := by
  apply List.ext_getElem
  · simp [hs.routes]
  · intro i h1 h2
    simp [route, List.getD_eq_getElem?_getD, List.getElem?_eq_getElem h1]

/-- `unload` makes the routes that are in use. -/
theorem unload_spec {data : ProblemData} {plan : List (List Activity)} {s : SSol}
    (hs : Clean data plan s) (hp : PlanOk data plan)
    (hrel : ∀ v ∈ data.vehicleTypes, v.maxReloads ≤ SIZE_MAX) :
    ∃ routes, Built data (unloadPlan data plan data.numVehicles) routes
      ∧ unload data s = Solution.make data routes := by
  obtain ⟨routes, h1, h2⟩ := unloadRoutes_spec hp hrel (List.range data.numVehicles)
    (fun i hi => List.mem_range.1 hi)
  refine ⟨routes, h2, ?_⟩
  have : s.routes = (List.range data.numVehicles).map
      (fun i => SRoute.ofActs data (vehTypeAt data i) (plan.getD i [])) := by
    rw [routes_eq hs.1.sized]
    apply List.map_congr_left
    intro i hi
    exact hs.2 i (List.mem_range.1 hi)
  simp only [unload, this, h1]

theorem filterMap_getElem? {α : Type} (l : List α) : ∀ m, l.length ≤ m →
    (List.range m).filterMap (fun k => l[k]?) = l := by
  induction l with
  | nil => intro m _; simp
  | cons a rest ih =>
    intro m hm
    obtain ⟨m, rfl⟩ : ∃ k, m = k + 1 := ⟨m - 1, by simp at hm; omega⟩
    rw [List.range_succ_eq_map, List.filterMap_cons, List.filterMap_map]
    have := ih m (by simpa using hm)
    simpa [Function.comp_def] using this

theorem unloadPlan_loaded {data : ProblemData} {plan : RoutePlan} (hv : ValidPlan data plan) :
    ∀ n, n ≤ data.numVehicleTypes →
    unloadPlan data (loadedPlan data plan) (vehiclesBefore data n)
      = (List.range n).flatMap (fun t => plan.filter (fun p => p.1 = t)) := by
  intro n
  induction n with
  | zero => intro _; simp [unloadPlan, vehiclesBefore]
  | succ n ih =>
    intro hn
    have hlt : n < data.numVehicleTypes := hn
    have hget : data.vehicleTypes[n]? = some (data.vehicleType n) := by
      have h' : n < data.vehicleTypes.length := hlt
      simp [ProblemData.vehicleType, List.getD_eq_getElem?_getD, List.getElem?_eq_getElem h']
    have hav := hv.available n _ hget
    rw [List.countP_eq_length_filter] at hav
    rw [List.range_succ, List.flatMap_append, ← ih (by omega), vehiclesBefore_succ data hlt]
    unfold unloadPlan
    rw [List.range_add, List.filterMap_append]
    congr 1
    rw [List.filterMap_map]
    simp only [List.flatMap_cons, List.flatMap_nil, List.append_nil]
    rw [← filterMap_getElem? (plan.filter (fun p => p.1 = n)) _ hav]
    apply List.filterMap_congr
    intro k hk
    have hk := List.mem_range.1 hk
    obtain ⟨b1, b2⟩ := vehTypeAt_block data hlt hk
    simp only [Function.comp]
    rw [loadedPlan_getD, if_pos b2, planAt_block _ hlt hk, b1]
    cases hq : (plan.filter (fun p => p.1 = n))[k]? with
    | none => simp [used]
    | some q =>
      have hm := List.mem_of_getElem? hq
      rw [List.mem_filter] at hm
      obtain ⟨m1, m2⟩ := hm
      obtain ⟨a, ha, had⟩ := hv.nonempty q m1
      have hu : used q.2 = true := List.any_eq_true.2 ⟨a, ha, by simpa using had⟩
      obtain ⟨t, acts⟩ := q
      simp at m2
      subst m2
      simp [hu]

theorem buckets_perm (plan : RoutePlan) (n : Nat) (h : ∀ p ∈ plan, p.1 < n) :
    ((List.range n).flatMap (fun t => plan.filter (fun p => p.1 = t))).Perm plan := by
  have key : ∀ n, ∀ p, ((List.range n).flatMap (fun t => plan.filter (fun p => p.1 = t))).count p
      = if p.1 < n then plan.count p else 0 := by
    intro n p
    induction n with
    | zero => simp
    | succ n ih =>
      rw [List.range_succ, List.flatMap_append, List.count_append, ih]
      simp only [List.flatMap_cons, List.flatMap_nil, List.append_nil]
      by_cases hp : p.1 = n
      · rw [List.count_filter (by simpa using hp)]
        rw [if_neg (by omega), if_pos (by omega), Nat.zero_add]
      · have : (plan.filter (fun p => p.1 = n)).count p = 0 := by
          rw [List.count_eq_zero, List.mem_filter]
          simp [hp]
        rw [this]
        by_cases hlt : p.1 < n
        · rw [if_pos hlt, if_pos (by omega)]; omega
        · rw [if_neg hlt, if_neg (by omega)]
  rw [List.perm_iff_count]
  intro p
  rw [key]
  split
  · rfl
  · next hp =>
    symm
    rw [List.count_eq_zero]
    exact fun hm => hp (h p hm)

theorem new_clean (data : ProblemData) :
    Clean data (List.replicate data.numVehicles []) (new data) := by
  have hr : (new data).routes
      = (Solution.allVehTypes data).map (fun t => SRoute.ofActs data t []) := by
    simp only [new, Solution.allVehTypes, List.map_flatMap, List.map_replicate]
    rfl
  have hlen : (Solution.allVehTypes data).length = data.numVehicles :=
    Solution.allVehTypes_length data
  have hroute : ∀ i, i < data.numVehicles →
      (new data).route i = SRoute.ofActs data (vehTypeAt data i) [] := by
    intro i hi
    have hi' : i < (Solution.allVehTypes data).length := by omega
    unfold route vehTypeAt
    rw [hr]
    simp [List.getD_eq_getElem?_getD, List.getElem?_eq_getElem hi']
  have hnil : ∀ i, (List.replicate data.numVehicles ([] : List Activity)).getD i [] = [] := by
    intro i
    rw [List.getD_eq_getElem?_getD, List.getElem?_replicate]
    split <;> rfl
  refine ⟨⟨⟨by simp [new], by simp [new], by rw [hr, List.length_map, hlen]⟩, by simp, ?_, ?_, ?_, ?_⟩, ?_⟩
  · intro i hi; rw [hroute i hi]; rfl
  · intro i hi; rw [hroute i hi, hnil]; exact (SRoute.ofActs_visits data _ []).1
  · intro a _ i
    rw [hnil]
    have : (new data).owner a = none := by
      unfold owner
      split
      · rfl
      all_goals (simp only [new, List.getD_eq_getElem?_getD, List.getElem?_replicate]; split <;> rfl)
    simp [this]
  · intro a _ i; rw [hnil]; simp
  · intro i hi; rw [hroute i hi, hnil]

theorem wellFormed_nil (data : ProblemData) (v : VehicleType) : WellFormed data v [] :=
  ⟨by simp, fun _ => .inl (by simp), Nat.zero_le _⟩

theorem loadedPlan_ok {data : ProblemData} {plan : RoutePlan} {routes : List Route}
    (hb : Built data plan routes) : PlanOk data (loadedPlan data plan) := by
  have key : ∀ i, i < data.numVehicles →
      WellFormed data (data.vehicleType (vehTypeAt data i)) ((planAt data plan i).getD [])
      ∧ ((planAt data plan i).getD []).length < SIZE_MAX := by
    intro i _
    cases hp : planAt data plan i with
    | none => exact ⟨wellFormed_nil _ _, by simp [SIZE_MAX]⟩
    | some acts =>
      have hm := planAt_mem hp
      have hsz := hb.sizes _ hm
      refine ⟨?_, hsz⟩
      have : Route.make data acts (vehTypeAt data i) ∈ routes.map Except.ok := by
        rw [← hb.made]; exact List.mem_map.2 ⟨_, hm, rfl⟩
      obtain ⟨r, -, hr⟩ := List.mem_map.1 this
      exact (C05_route_accepts_exactly_wellformed data _ _ hsz
        (hb.reloads _ (vehicleType_mem data (hb.types _ hm)))).1.1 ⟨r, hr.symm⟩
  constructor
  · intro i hi; rw [loadedPlan_getD, if_pos hi]; exact (key i hi).1
  · intro i
    rw [loadedPlan_getD]
    split
    · next hi => exact (key i hi).2
    · simp [SIZE_MAX]

end SSol

namespace Spec

/-- `s` is what remains of a search solution after loading any number of solutions, one after the
other. -/
inductive Loads (data : ProblemData) : SSol → Prop where
  | new : Loads data (SSol.new data)
  | load {s s' : SSol} {plan : RoutePlan} {routes : List Route} {sol : Solution} : Loads data s →
      Built data plan routes → Solution.make data routes = .ok sol →
      SSol.load data s sol = .ok s' → Loads data s'

end Spec

theorem Spec.ValidPlan.perm {data : ProblemData} {plan1 plan2 : RoutePlan} (h : ValidPlan data plan1)
    (hp : plan1.Perm plan2) : ValidPlan data plan2 := by
  have hvis : (visited plan1).Perm (visited plan2) := by
    unfold visited; exact hp.flatMap_right _
  refine ⟨?_, ?_, ?_, ?_, ?_, ?_⟩
  · rw [← hp.length_eq]; exact h.fleet
  · intro p hp'; exact h.nonempty p (hp.mem_iff.2 hp')
  · intro i; rw [← hvis.count_eq]; exact h.clientsOnce i
  · intro i; rw [← hvis.count_eq]; exact h.shipmentsOnce i
  · intro g hg i hi j hj h1 h2
    exact h.groups g hg i hi j hj (hvis.mem_iff.2 h1) (hvis.mem_iff.2 h2)
  · intro t v hv; rw [← hp.countP_eq]; exact h.available t v hv

theorem SSol.unloadPlan_perm {data : ProblemData} {plan : RoutePlan} {routes : List Route}
    (hb : Built data plan routes) (hv : ValidPlan data plan) :
    (SSol.unloadPlan data (SSol.loadedPlan data plan) data.numVehicles).Perm plan := by
  rw [← vehiclesBefore_all, SSol.unloadPlan_loaded hv _ (Nat.le_refl _)]
  exact SSol.buckets_perm plan _ hb.types

theorem Spec.Loads.clean {data : ProblemData} (ht : TimesOk data)
    (hn : ∀ g ∈ data.groups, g.clients.Nodup) {s : SSol} (h : Loads data s) :
    ∃ plan, SSol.Clean data plan s := by
  induction h with
  | new => exact ⟨_, SSol.new_clean data⟩
  | load _ hb hm hl ih =>
    obtain ⟨old, hc⟩ := ih
    obtain ⟨s1, h1, h2⟩ := SSol.load_spec ht hb hn hm hc
    rw [hl] at h1
    cases h1
    exact ⟨_, h2⟩

/-- **C26.** Whatever was loaded before, loading a solution succeeds, and unloading then gives an
equal solution. -/
theorem C26_load_unload (data : ProblemData) (ht : TimesOk data)
    (hn : ∀ g ∈ data.groups, g.clients.Nodup) (plan : RoutePlan) (routes : List Route)
    (sol : Solution) (hb : Built data plan routes) (h : Solution.make data routes = .ok sol)
    (s : SSol) (hs : Loads data s) :
    ∃ s' sol', SSol.load data s sol = .ok s' ∧ SSol.unload data s' = .ok sol'
      ∧ Solution.eq sol' sol = true := by
  obtain ⟨old, hc⟩ := hs.clean ht hn
  obtain ⟨s', h1, h2⟩ := SSol.load_spec ht hb hn h hc
  have hv := (C13_solution_accepts_exactly_valid data plan routes hb hn).1.1 ⟨sol, h⟩
  obtain ⟨routes', k1, k2⟩ := SSol.unload_spec h2 (SSol.loadedPlan_ok hb) hb.reloads
  have hperm := SSol.unloadPlan_perm hb hv
  have hv' := hv.perm hperm.symm
  obtain ⟨sol', m⟩ := (C13_solution_accepts_exactly_valid data _ routes' k1 hn).1.2 hv'
  exact ⟨s', sol', h1, by rw [k2, m],
    (C17_equal_iff data _ _ _ _ _ _ k1 hb hn m h).2 hperm⟩

/-- **C26.** After loading, the search has one route per vehicle, ordered by type, with correct
statistics. A client or shipment is assigned to the route that visits it. -/
theorem C26_loaded_state (data : ProblemData) (ht : TimesOk data)
    (hn : ∀ g ∈ data.groups, g.clients.Nodup) (plan : RoutePlan) (routes : List Route)
    (sol : Solution) (hb : Built data plan routes) (h : Solution.make data routes = .ok sol)
    (s s' : SSol) (hs : Loads data s) (hl : SSol.load data s sol = .ok s') :
    s'.routes.map (·.vehicleType) = (List.range data.vehicleTypes.length).flatMap (fun t =>
        List.replicate (data.vehicleType t).numAvailable t)
    ∧ (∀ a, a.type ≠ .depot → ∀ i, s'.owner a = some i ↔
        a ∈ ((s'.route i).nodes.map (·.activity)) ∧ i < s'.routes.length)
    ∧ (∀ a, a.type ≠ .depot → (s'.owner a = none ↔ a ∉ visited plan))
    ∧ ∀ r ∈ s'.routes, r.update data = r := by
  obtain ⟨old, hc⟩ := hs.clean ht hn
  obtain ⟨s1, h1, h2⟩ := SSol.load_spec ht hb hn h hc
  rw [hl] at h1
  cases h1
  have hv := (C13_solution_accepts_exactly_valid data plan routes hb hn).1.1 ⟨sol, h⟩
  have hlen : s'.routes.length = data.numVehicles := h2.1.sized.routes
  have hmem : ∀ a : Activity, a.type ≠ .depot → ∀ i, i < data.numVehicles →
      (a ∈ (s'.route i).nodes.map (·.activity) ↔ a ∈ (SSol.loadedPlan data plan).getD i []) := by
    intro a ha i hi
    rw [h2.2 i hi]
    have : (SRoute.ofActs data (vehTypeAt data i) ((SSol.loadedPlan data plan).getD i [])).nodes.map
        (·.activity) = fullActs _ _ := SRoute.canon_activities _ _
    rw [this]
    constructor
    · intro hm
      simp only [fullActs, List.cons_append, List.mem_cons, List.mem_append, List.not_mem_nil, or_false] at hm
      rcases hm with rfl | hm | rfl
      · exact absurd rfl ha
      · exact hm
      · exact absurd rfl ha
    · intro hm; exact List.mem_cons_of_mem _ (List.mem_append.2 (.inl hm))
  refine ⟨?_, ?_, ?_, ?_⟩
  · rw [SSol.routes_eq h2.1.sized]
    show _ = Solution.allVehTypes data
    apply List.ext_getElem
    · simpa [ProblemData.numVehicles] using (Solution.allVehTypes_length data).symm
    · intro i k1 k2
      have hi : i < data.numVehicles := by simpa using k1
      simp only [List.getElem_map, List.getElem_range]
      rw [h2.1.types i hi, vehTypeAt, List.getD_eq_getElem?_getD, List.getElem?_eq_getElem k2]
      rfl
  · intro a ha i
    rw [hlen, h2.1.owner a ha i]
    constructor
    · intro hm
      have hi : i < data.numVehicles := by
        rcases Nat.lt_or_ge i data.numVehicles with hi | hi
        · exact hi
        · rw [SSol.loadedPlan_getD, if_neg (by omega)] at hm; cases hm
      exact ⟨(hmem a ha i hi).2 hm, hi⟩
    · rintro ⟨hm, hi⟩
      exact (hmem a ha i hi).1 hm
  · intro a ha
    have hperm := SSol.unloadPlan_perm hb hv
    constructor
    · intro ho hm
      obtain ⟨p, hp, hap⟩ := List.mem_flatMap.1 hm
      have := hperm.mem_iff.2 hp
      unfold SSol.unloadPlan at this
      obtain ⟨i, hi, he⟩ := List.mem_filterMap.1 this
      split at he
      · cases he
        have := (h2.1.owner a ha i).2 hap
        rw [ho] at this
        cases this
      · cases he
    · intro hm
      cases ho : s'.owner a with
      | none => rfl
      | some i =>
        have hi := (h2.1.owner a ha i).1 ho
        rw [SSol.loadedPlan_getD] at hi
        split at hi
        · cases hp : planAt data plan i with
          | none => rw [hp] at hi; cases hi
          | some acts =>
            rw [hp] at hi
            exact absurd (List.mem_flatMap.2 ⟨_, planAt_mem hp, hi⟩) hm
        · cases hi
  · intro r hr
    rw [SSol.routes_eq h2.1.sized] at hr
    obtain ⟨i, hi, rfl⟩ := List.mem_map.1 hr
    rw [h2.2 i (List.mem_range.1 hi)]
    exact SRoute.update_ofActs data _ _

/-! ### Examples -/
namespace Demo

/-- The routes in the other order, and only one of them. -/
example : Built data plan.reverse routes.reverse ∧ Built data [(1, [client 3])]
    [Route.build data [client 3] 1] := by
  constructor <;> refine ⟨?_, ?_, ?_, ?_⟩ <;> decide

def loadAll (s : SSol) : List (List Route) → Except Error SSol
  | [] => .ok s
  | r :: rest =>
    match Solution.make data r with
    | .error e => .error e
    | .ok sol =>
      match SSol.load data s sol with
      | .error e => .error e
      | .ok s => loadAll s rest

/-- Loading a solution with one route, then one with two, then again the first one. Vehicle 2 is the
only one of the second type. -/
example : (match loadAll (SSol.new data) [[Route.build data [client 3] 1], routes.reverse] with
    | .ok s => decide (s.routes.map (fun r => r.nodes.length) = [acts.length + 2, 2, 3]
      ∧ s.clients = [some 0, some 0, some 0, some 2, none] ∧ s.shipments = [(some 0, some 0)])
    | .error _ => false) = true := by decide +kernel

example : (match loadAll (SSol.new data) [[Route.build data [client 3] 1], routes.reverse,
      [Route.build data [client 3] 1]] with
    | .ok s => decide (s.routes.map (fun r => r.nodes.length) = [2, 2, 3]
      ∧ s.clients = [none, none, none, some 2, none] ∧ s.shipments = [(none, none)])
    | .error _ => false) = true := by decide +kernel

/-- The hypotheses of the theorems hold. -/
example : ∃ sol s' sol', Solution.make data routes = .ok sol
    ∧ SSol.load data (SSol.new data) sol = .ok s'
    ∧ SSol.unload data s' = .ok sol' ∧ Solution.eq sol' sol = true := by
  have h : ∃ s, Solution.make data routes = .ok s := ⟨_, rfl⟩
  obtain ⟨sol, h⟩ := h
  obtain ⟨s', sol', h'⟩ := C26_load_unload data timesOk groups_nodup plan routes sol built h _ .new
  exact ⟨sol, s', sol', h, h'⟩

end Demo
end PyVRP
