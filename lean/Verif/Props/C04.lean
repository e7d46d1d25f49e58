import Mathlib.Data.List.Forall2
import Verif.Lemmas.RouteLoad
import Verif.Props.C07
/-!
# C04: route load statistics
-/
namespace PyVRP
open Spec

theorem Spec.excessFrom_peaks (data : ProblemData) (dim : Nat) (cap extra : Int)
    (acts : List Activity) :
    ∃ peaks : List Int, List.Forall₂ IsPeak peaks (routeAmounts data dim extra acts)
      ∧ excessFrom data dim cap [⟨extra, 0⟩] (trips acts)
        = (peaks.map fun p => max (p - cap) 0).sum := by
  unfold routeAmounts
  cases ht : trips acts with
  | nil => exact ⟨[], .nil, rfl⟩
  | cons t ts =>
    refine ⟨peak (extra + loadedAtStart (t.map (loadEvent data dim))) (t.map (loadEvent data dim))
      :: ts.map (fun t => peak (loadedAtStart (t.map (loadEvent data dim)))
          (t.map (loadEvent data dim))), ?_, ?_⟩
    · refine .cons (isPeak_peak _ _) ?_
      rw [List.forall₂_map_left_iff, List.forall₂_map_right_iff, List.forall₂_same]
      intro t _
      have := isPeak_peak (loadedAtStart (t.map (loadEvent data dim))) (t.map (loadEvent data dim))
      simpa [tripAmounts] using this
    · have h0 := le_peak (extra + loadedAtStart (t.map (loadEvent data dim)))
        (t.map (loadEvent data dim))
      simp only [excessFrom, tripExcess, List.map_cons, List.sum_cons, List.map_map]
      congr 1
      have : loadedAtStart ([⟨extra, 0⟩] ++ t.map (loadEvent data dim))
          = extra + loadedAtStart (t.map (loadEvent data dim)) := by
        simp [loadedAtStart]
      rw [this]
      simp only [List.singleton_append, peak, Int.add_zero]
      rw [Int.max_eq_right h0]

/-- **C04.** In each load dimension, the excess load of an accepted route is the sum over its trips
of the part of the trip's peak load above the capacity. A trip starts with the deliveries of its
own clients on board, the first trip also with the vehicle's initial load. The constructor of
`VehicleType` guarantees the two non-negativity hypotheses. -/
theorem C04_excess_load (data : ProblemData) (acts : List Activity) (vt : Nat) (r : Route)
    (dim : Nat) (hdim : dim < data.numLoadDimensions)
    (hcap : 0 ≤ (data.vehicleType vt).capacity.getD dim 0)
    (hinit : 0 ≤ (data.vehicleType vt).initialLoad.getD dim 0)
    (h : Route.make data acts vt = .ok r) :
    ∃ peaks : List Int,
      List.Forall₂ IsPeak peaks
        (routeAmounts data dim ((data.vehicleType vt).initialLoad.getD dim 0) acts)
      ∧ r.excessLoad[dim]?
        = some (peaks.map fun p => max (p - (data.vehicleType vt).capacity.getD dim 0) 0).sum := by
  have hr := Route.make_eq_ok h
  have hact := (C07_schedule_lists_activities data acts vt r h).1
  obtain ⟨peaks, hp, he⟩ := Spec.excessFrom_peaks data dim
    ((data.vehicleType vt).capacity.getD dim 0)
    ((data.vehicleType vt).initialLoad.getD dim 0) acts
  refine ⟨peaks, hp, ?_⟩
  rw [← he]
  subst hr
  show (((List.range data.numLoadDimensions).map _).map _)[dim]? = _
  rw [List.getElem?_map, List.getElem?_map, List.getElem?_range hdim]
  simp only [Option.map_some, Option.some.injEq]
  have hsched : ((Route.build data acts vt).schedule.drop 1).map (·.activity)
      = acts ++ [⟨.depot, (data.vehicleType vt).endDepot⟩] := by
    rw [List.map_drop, hact]; simp [fullActs]
  show (Route.loadDim data (data.vehicleType vt) (Route.build data acts vt).schedule dim).2.2 = _
  simp only [Route.loadDim, Route.foldl_loadStep, hsched]
  have hinv : Route.LInv (Route.loadInit (data.vehicleType vt) dim) [⟨(data.vehicleType vt).initialLoad.getD dim 0, 0⟩] 0 := by
    unfold Route.loadInit
    split
    · exact ⟨by constructor <;> simp [LoadSeg.ofVehicle, loadedAtStart, peak], rfl⟩
    · rename_i hle
      have h0 : (data.vehicleType vt).initialLoad.getD dim 0 = 0 := by omega
      rw [h0]
      exact ⟨by constructor <;> simp [loadedAtStart, peak], rfl⟩
  have := Route.foldl_excess data (data.vehicleType vt) dim acts
    (data.vehicleType vt).endDepot _ _ 0 hinv
  simp only [LoadSeg.excessLoad, this.ex, this.rep.load, loadedAtStart, peak, List.map_nil,
    List.sum_nil]
  omega

/-- **C04.** There is one excess load, delivery and pickup for each load dimension. The delivery is
the total of the clients' delivery amounts, the pickup that of the clients' pickup amounts plus
the vehicle's initial load. -/
theorem C04_delivery_and_pickup (data : ProblemData) (acts : List Activity) (vt : Nat) (r : Route)
    (hinit : ∀ dim, 0 ≤ (data.vehicleType vt).initialLoad.getD dim 0)
    (h : Route.make data acts vt = .ok r) :
    r.excessLoad.length = data.numLoadDimensions
    ∧ r.delivery = (List.range data.numLoadDimensions).map (fun dim =>
        ((acts.filter (fun a => a.type = .client)).map
          (fun a => (data.client a.idx).delivery.getD dim 0)).sum)
    ∧ r.pickup = (List.range data.numLoadDimensions).map (fun dim =>
        (data.vehicleType vt).initialLoad.getD dim 0
        + ((acts.filter (fun a => a.type = .client)).map
          (fun a => (data.client a.idx).pickup.getD dim 0)).sum) := by
  have hr := Route.make_eq_ok h
  have hact := (C07_schedule_lists_activities data acts vt r h).1
  subst hr
  have hsched : ((Route.build data acts vt).schedule.drop 1).map (·.activity)
      = acts ++ [⟨.depot, (data.vehicleType vt).endDepot⟩] := by
    rw [List.map_drop, hact]; simp [fullActs]
  have hfilter : ∀ f : Activity → Int,
      (((acts ++ [(⟨.depot, (data.vehicleType vt).endDepot⟩ : Activity)]).filter
        (fun a => a.type = .client)).map f).sum
      = ((acts.filter (fun a => a.type = .client)).map f).sum := by
    intro f; simp
  refine ⟨?_, ?_, ?_⟩
  · show (((List.range data.numLoadDimensions).map _).map _).length = _
    simp
  · show (((List.range data.numLoadDimensions).map
      (Route.loadDim data (data.vehicleType vt) (Route.build data acts vt).schedule)).map _) = _
    rw [List.map_map]
    refine List.map_congr_left fun dim _ => ?_
    simp only [Function.comp_apply, Route.loadDim, Route.foldl_loadStep, hsched,
      (Route.foldl_sums _ _ _ _ _).1, hfilter]
    unfold Route.loadInit
    split <;> simp
  · show (((List.range data.numLoadDimensions).map
      (Route.loadDim data (data.vehicleType vt) (Route.build data acts vt).schedule)).map _) = _
    rw [List.map_map]
    refine List.map_congr_left fun dim _ => ?_
    simp only [Function.comp_apply, Route.loadDim, Route.foldl_loadStep, hsched,
      (Route.foldl_sums _ _ _ _ _).2, hfilter]
    have := hinit dim
    unfold Route.loadInit
    split
    · simp
    · have : (data.vehicleType vt).initialLoad.getD dim 0 = 0 := by omega
      rw [this]

/-! ## Non-vacuity -/

/-- Two trips, with and without shipment and initial load. -/
example : routeAmounts Demo.data 0 0 Demo.acts = [[7, 3, 6, 8, 5], [1, 1]]
    ∧ routeAmounts Demo.data 0 2 [Demo.pickup 0, Demo.client 0, Demo.delivery 0]
      = [[6, 9, 5, 2]] := by decide

example : ∃ r, Route.make Demo.data Demo.acts 0 = .ok r ∧ r.excessLoad = [0]
    ∧ r.delivery = [8] ∧ r.pickup = [6] := by
  refine ⟨Route.build Demo.data Demo.acts 0, ?_, ?_⟩ <;> decide

set_option maxRecDepth 4000 in
/-- Several clients and a shipment in one trip: peak 13, three above the capacity. -/
example : ∃ r, Route.make Demo.data [Demo.pickup 0, Demo.client 1, Demo.client 0, Demo.client 2,
      Demo.delivery 0, Demo.depot 0, Demo.client 3] 0 = .ok r
    ∧ r.excessLoad = [3]
    ∧ routeAmounts Demo.data 0 0 [Demo.pickup 0, Demo.client 1, Demo.client 0, Demo.client 2,
      Demo.delivery 0, Demo.depot 0, Demo.client 3] = [[8, 11, 13, 9, 9, 6], [2, 0]] := by
  refine ⟨Route.build Demo.data [Demo.pickup 0, Demo.client 1, Demo.client 0, Demo.client 2,
      Demo.delivery 0, Demo.depot 0, Demo.client 3] 0, ?_, ?_⟩ <;> decide

end PyVRP
