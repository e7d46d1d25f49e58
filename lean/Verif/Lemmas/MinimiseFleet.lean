import Verif.Model.MinimiseFleet
import Verif.Props.C04
import Verif.Props.C13
import Verif.Props.C26
import Verif.Props.C36
import Verif.Props.C37
/-!
# Lemmas on fleet minimisation
-/
namespace PyVRP
open Spec

namespace MinimiseFleet

/-! ## Replacing the number of vehicles -/

/-- The same vehicle type, with another number of vehicles. -/
def resized (v : VehicleType) (n : Nat) : VehicleType := { v with numAvailable := n }

theorem make_resized {args : VehicleTypeArgs} {v : VehicleType} (h : VehicleType.make args = .ok v)
    {n : Nat} (hn : 0 < n) :
    VehicleType.make { args with numAvailable := n } = .ok (resized v n) := by
  have hok := (C36_vehicle_accepts args).1.1 ⟨v, h⟩
  have hok' : VehicleArgsOk { args with numAvailable := n } := by
    obtain ⟨h1, h2, h3, h4, h5, h6, h7, h8, h9, h10, h11, h12, h13⟩ := hok
    exact ⟨hn, h2, h3, h4, h5, h6, h7, h8, h9, h10, h11, h12, h13⟩
  obtain ⟨v', hv'⟩ := (C36_vehicle_accepts _).1.2 hok'
  rw [hv']
  unfold VehicleType.make at h hv'
  obtain ⟨_, rfl⟩ := checked_eq_ok.1 h
  obtain ⟨_, rfl⟩ := checked_eq_ok.1 hv'
  rfl

theorem withVehicles_ok {args : VehicleTypeArgs} {v : VehicleType}
    (h : VehicleType.make args = .ok v) {n : Nat} (hn : 0 < n) :
    withVehicles v n = .ok (resized v n) :=
  C36_replace_nothing _ _ (make_resized h hn)

theorem withVehicles_zero (v : VehicleType) : RaisesValueError (withVehicles v 0) := by
  unfold withVehicles VehicleType.replace
  refine (C36_vehicle_accepts _).2 fun h => ?_
  have := h.available
  simp at this

theorem consistent_resized {d : ProblemData} (hd : Consistent d) {v : VehicleType}
    (hv : d.vehicleTypes = [v]) (n : Nat) :
    Consistent { d with vehicleTypes := [resized v n] } := by
  obtain ⟨c1, c2, c3, c4, c5, c6, c7, c8, c9, ⟨k, c10, c11, c12⟩, c13, c14, c15, c16, c17, c18⟩ := hd
  rw [hv] at c12 c13 c14 c15 c16
  simp only [List.mem_singleton, forall_eq] at c12 c13 c14 c15 c16
  refine ⟨c1, c2, c3, c4, c5, by simp, c7, c8, c9, ⟨k, c10, c11, ?_⟩, ?_, ?_, ?_, ?_, c17, c18⟩ <;>
    simp only [List.mem_singleton, forall_eq]
  · exact c12
  · exact c13
  · exact c14
  · exact c15
  · exact c16

theorem withFleet_ok {d : ProblemData} (hd : Consistent d) {v : VehicleType}
    (hv : d.vehicleTypes = [v]) (n : Nat) :
    withFleet d (resized v n) = .ok { d with vehicleTypes := [resized v n] } :=
  (C37_accepts_exactly_consistent _ _).2 ⟨rfl, consistent_resized hd hv n⟩

/-! ## Trips -/

theorem sum_le_length_mul {α : Type} (f : α → Int) (c : Int) (l : List α) (h : ∀ x ∈ l, f x ≤ c) :
    (l.map f).sum ≤ l.length * c := by
  induction l with
  | nil => simp
  | cons a l ih =>
    simp only [List.map_cons, List.sum_cons, List.length_cons]
    have h1 := h a (by simp)
    have h2 := ih fun x hx => h x (by simp [hx])
    have : ((l.length + 1 : Nat) : Int) * c = l.length * c + c := by grind
    omega

theorem trips_length (acts : List Activity) : (trips acts).length = depotVisits acts + 1 := by
  induction acts with
  | nil => rfl
  | cons a rest ih =>
    unfold trips depotVisits
    rw [List.countP_cons]
    unfold depotVisits at ih
    by_cases h : a.type = .depot
    · simp [h, ih]
    · simp only [h, if_false, decide_false, Bool.false_eq_true, Nat.add_zero]
      cases ht : trips rest with
      | nil => rw [ht] at ih; simp at ih
      | cons t ts => rw [ht] at ih; simpa using ih

theorem trips_sum (f : Activity → Int) (hf : ∀ a : Activity, a.type = .depot → f a = 0)
    (acts : List Activity) :
    ((trips acts).map fun t => (t.map f).sum).sum = (acts.map f).sum := by
  induction acts with
  | nil => rfl
  | cons a rest ih =>
    unfold trips
    by_cases h : a.type = .depot
    · simp [h, ih, hf a h]
    · simp only [h, if_false]
      cases ht : trips rest with
      | nil => rw [ht] at ih; simp at ih ⊢; omega
      | cons t ts => rw [ht] at ih; simp at ih ⊢; omega

theorem mem_onBoard (l : Int) (es : List LoadEvent) :
    l ∈ onBoard l es ∧ l + (es.map LoadEvent.change).sum ∈ onBoard l es := by
  induction es generalizing l with
  | nil => simp [onBoard]
  | cons e es ih =>
    refine ⟨by simp [onBoard], ?_⟩
    have := (ih (l + e.change)).2
    simp only [onBoard, List.map_cons, List.sum_cons, List.mem_cons]
    right
    rwa [Int.add_assoc] at this

theorem forall_of_sum_zero (peaks : List Int) (cap : Int)
    (h : ¬ (peaks.map fun p => max (p - cap) 0).sum > 0) : ∀ p ∈ peaks, p ≤ cap := by
  induction peaks with
  | nil => simp
  | cons p ps ih =>
    simp only [List.map_cons, List.sum_cons] at h
    have h0 : ∀ l : List Int, 0 ≤ (l.map fun p => max (p - cap) 0).sum := by
      intro l
      induction l with
      | nil => simp
      | cons a l ih => simp only [List.map_cons, List.sum_cons]; omega
    have := h0 ps
    intro x hx
    rcases List.mem_cons.1 hx with rfl | hx
    · omega
    · exact ih (by omega) x hx

theorem amounts_le {peaks : List Int} {amounts : List (List Int)} {cap : Int}
    (h : List.Forall₂ IsPeak peaks amounts) (hp : ∀ p ∈ peaks, p ≤ cap) :
    ∀ l ∈ amounts, ∀ x ∈ l, x ≤ cap := by
  induction h with
  | nil => simp
  | cons h1 h2 ih =>
    intro l hl x hx
    rcases List.mem_cons.1 hl with rfl | hl
    · exact Int.le_trans (h1.2 x hx) (hp _ (by simp))
    · exact ih (fun p hp' => hp p (by simp [hp'])) l hl x hx

/-- Nothing on board above the capacity: what starts and what ends each trip fits. -/
theorem trip_fits {data : ProblemData} {dim : Nat} {extra cap : Int} {acts : List Activity}
    (hextra : 0 ≤ extra)
    (h : ∀ l ∈ routeAmounts data dim extra acts, ∀ x ∈ l, x ≤ cap) :
    ∀ t ∈ trips acts, (t.map fun a => (loadEvent data dim a).fromDepot).sum ≤ cap
      ∧ (t.map fun a => (loadEvent data dim a).fromDepot + (loadEvent data dim a).change).sum
        ≤ cap := by
  have key : ∀ (e : Int) (t : List Activity), 0 ≤ e →
      (∀ x ∈ tripAmounts e (t.map (loadEvent data dim)), x ≤ cap) →
      (t.map fun a => (loadEvent data dim a).fromDepot).sum ≤ cap
      ∧ (t.map fun a => (loadEvent data dim a).fromDepot + (loadEvent data dim a).change).sum
        ≤ cap := by
    intro e t he hx
    have hm := mem_onBoard (e + loadedAtStart (t.map (loadEvent data dim)))
      (t.map (loadEvent data dim))
    have h1 := hx _ hm.1
    have h2 := hx _ hm.2
    have hs : loadedAtStart (t.map (loadEvent data dim))
        = (t.map fun a => (loadEvent data dim a).fromDepot).sum := by
      simp only [loadedAtStart, List.map_map]; rfl
    have hc : ((t.map (loadEvent data dim)).map LoadEvent.change).sum
        = (t.map fun a => (loadEvent data dim a).change).sum := by
      simp only [List.map_map]; rfl
    have hadd : (t.map fun a => (loadEvent data dim a).fromDepot
        + (loadEvent data dim a).change).sum
        = (t.map fun a => (loadEvent data dim a).fromDepot).sum
          + (t.map fun a => (loadEvent data dim a).change).sum := by
      clear h1 h2 hs hc hm hx
      induction t with
      | nil => rfl
      | cons a t ih => simp only [List.map_cons, List.sum_cons]; omega
    rw [hs] at h1 h2
    rw [hc] at h2
    exact ⟨by omega, by omega⟩
  intro t ht
  unfold routeAmounts at h
  cases htr : trips acts with
  | nil => rw [htr] at ht; simp at ht
  | cons t0 ts =>
    rw [htr] at h ht
    rcases List.mem_cons.1 ht with rfl | ht
    · exact key extra t hextra (h _ (by simp))
    · exact key 0 t (by omega) (h _ (by simp only [List.mem_cons, List.mem_map]; exact .inr ⟨t, ht, rfl⟩))

/-! ## Counting -/

theorem count_idx (ty : ActivityType) (acts : List Activity) (i : Nat) :
    ((acts.filter fun a => a.type = ty).map (·.idx)).count i = acts.count ⟨ty, i⟩ := by
  induction acts with
  | nil => rfl
  | cons a rest ih =>
    obtain ⟨t, j⟩ := a
    by_cases h : t = ty
    · subst h
      simp only [List.filter_cons, decide_true, if_true, List.map_cons, List.count_cons, ih,
        beq_iff_eq, Activity.mk.injEq, true_and]
    · simp only [List.filter_cons, h, decide_false, Bool.false_eq_true, if_false, List.count_cons,
        ih, beq_iff_eq, Activity.mk.injEq, false_and, Nat.add_zero]

theorem sum_filter (ty : ActivityType) (f : Activity → Int) (acts : List Activity) :
    (acts.map fun a => if a.type = ty then f a else 0).sum
      = ((acts.filter fun a => a.type = ty).map f).sum := by
  induction acts with
  | nil => rfl
  | cons a rest ih =>
    by_cases h : a.type = ty <;> simp [h, ih]

/-- What a well-formed route picks up for shipments it also drops off. -/
theorem shipments_cancel {data : ProblemData} {v : VehicleType} {acts : List Activity}
    (h : WellFormed data v acts) (f : Nat → Int) :
    ((acts.filter fun a => a.type = .pickup).map fun a => f a.idx).sum
      = ((acts.filter fun a => a.type = .delivery).map fun a => f a.idx).sum := by
  have hp : ((acts.filter fun a => a.type = .pickup).map (·.idx)).Perm
      ((acts.filter fun a => a.type = .delivery).map (·.idx)) := by
    rw [List.perm_iff_count]
    intro i
    rw [count_idx, count_idx, wellFormed_delivery_count h]
  have := Solution.perm_sum (hp.map f)
  simpa [List.map_map, Function.comp_def] using this

/-- A route without excess load delivers, and picks up, at most its capacity in each trip. -/
theorem route_fits {data : ProblemData} {acts : List Activity} {vt : Nat} {r : Route} {dim : Nat}
    (hdim : dim < data.numLoadDimensions)
    (hcap : 0 ≤ (data.vehicleType vt).capacity.getD dim 0)
    (hinit : 0 ≤ (data.vehicleType vt).initialLoad.getD dim 0)
    (h : Route.make data acts vt = .ok r) (hw : WellFormed data (data.vehicleType vt) acts)
    (hx : r.hasExcessLoad = false) :
    ((acts.filter fun a => a.type = .client).map
        fun a => (data.client a.idx).delivery.getD dim 0).sum
      ≤ (depotVisits acts + 1 : Nat) * (data.vehicleType vt).capacity.getD dim 0
    ∧ ((acts.filter fun a => a.type = .client).map
        fun a => (data.client a.idx).pickup.getD dim 0).sum
      ≤ (depotVisits acts + 1 : Nat) * (data.vehicleType vt).capacity.getD dim 0 := by
  obtain ⟨peaks, hpk, hex⟩ := C04_excess_load data acts vt r dim hdim hcap hinit h
  have hle : ∀ p ∈ peaks, p ≤ (data.vehicleType vt).capacity.getD dim 0 := by
    refine forall_of_sum_zero peaks _ ?_
    have hm := List.mem_of_getElem? hex
    unfold Route.hasExcessLoad at hx
    rw [List.any_eq_false] at hx
    simpa using hx _ hm
  have hfit := trip_fits hinit (amounts_le hpk hle)
  constructor
  · have h1 := sum_le_length_mul _ _ (trips acts) fun t ht => (hfit t ht).1
    rw [trips_length, trips_sum _ (by intro a ha; simp [loadEvent, ha])] at h1
    refine Int.le_trans (Int.le_of_eq ?_) h1
    rw [← sum_filter]
    congr 1
    refine List.map_congr_left fun a _ => ?_
    unfold loadEvent
    cases a.type <;> simp
  · have h1 := sum_le_length_mul _ _ (trips acts) fun t ht => (hfit t ht).2
    rw [trips_length, trips_sum _ (by intro a ha; simp [loadEvent, ha])] at h1
    refine Int.le_trans (Int.le_of_eq ?_) h1
    have hc := shipments_cancel hw fun i => (data.shipment i).amount.getD dim 0
    rw [← sum_filter] at hc ⊢
    rw [← sum_filter] at hc
    have hsplit : ∀ l : List Activity,
        (l.map fun a => (loadEvent data dim a).fromDepot + (loadEvent data dim a).change).sum
        = (l.map fun a => if a.type = .client then (data.client a.idx).pickup.getD dim 0 else 0).sum
          + (l.map fun a => if a.type = .pickup then (data.shipment a.idx).amount.getD dim 0 else 0).sum
          - (l.map fun a => if a.type = .delivery then (data.shipment a.idx).amount.getD dim 0 else 0).sum := by
      intro l
      induction l with
      | nil => rfl
      | cons a l ih =>
        simp only [List.map_cons, List.sum_cons, ih]
        unfold loadEvent
        cases a.type <;> simp <;> omega
    rw [hsplit]
    omega

theorem depotVisits_le_length (acts : List Activity) : depotVisits acts ≤ acts.length :=
  List.countP_le_length

/-- Trips of a well-formed route are within the limit. -/
theorem trips_le {data : ProblemData} {v : VehicleType} {acts : List Activity}
    (hw : WellFormed data v acts) (hs : acts.length < SIZE_MAX) (hr : v.maxReloads ≤ SIZE_MAX) :
    depotVisits acts + 1 ≤ v.maxTrips := by
  have h1 := hw.reloads
  have h2 := depotVisits_le_length acts
  unfold reloadLimit at h1
  unfold VehicleType.maxTrips
  unfold SIZE_MAX at *
  split
  · simp_all
  · rename_i h
    rw [if_neg h] at h1
    omega

/-- Totals over all clients are totals over the routes, when all clients are visited. -/
theorem clients_sum {data : ProblemData} {plan : RoutePlan} (f : Client → Int)
    (hv : ∀ i, (visited plan).count ⟨.client, i⟩ = if i < data.clients.length then 1 else 0) :
    (data.clients.map f).sum
      = (plan.map fun p => ((p.2.filter fun a => a.type = .client).map
          fun a => f (data.client a.idx)).sum).sum := by
  have h1 : (plan.map fun p => ((p.2.filter fun a => a.type = .client).map
      fun a => f (data.client a.idx)).sum).sum
      = (((visited plan).filter fun a => a.type = .client).map fun a => f (data.client a.idx)).sum := by
    unfold visited
    clear hv
    induction plan with
    | nil => rfl
    | cons p plan ih => simp [ih]
  rw [h1]
  have hp : (((visited plan).filter fun a => a.type = .client).map (·.idx)).Perm
      (List.range data.clients.length) := by
    rw [List.perm_iff_count]
    intro i
    rw [count_idx, hv, List.count_range]
  have h2 := Solution.perm_sum (hp.map fun i => f (data.client i))
  rw [List.map_map] at h2
  refine Eq.trans ?_ h2.symm
  congr 1
  refine List.ext_getElem (by simp) fun i h1 h2 => ?_
  simp only [List.length_map] at h1
  simp [ProblemData.client, List.getElem?_eq_getElem h1]

/-! ## Rounding -/

theorem ceil_le_of_le {x : Rat} {n : Int} (h : x ≤ (n : Rat)) : x.ceil ≤ n := by
  rw [Rat.ceil_le_iff]; exact h

end MinimiseFleet
end PyVRP
