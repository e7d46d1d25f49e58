import Verif.Lemmas.RouteValidate
import Verif.Lemmas.Data
import Verif.Props.Demo
/-!
# C05: the route constructor accepts exactly the well-formed activity sequences
-/
namespace PyVRP
open Spec

/-- **C05.** `Route(data, activities, vehicle_type)` succeeds if and only if the activities are
well-formed for that vehicle type, and otherwise raises `ValueError`. The two hypotheses say that
the number of reloads and the number of activities fit into `size_t`. -/
theorem C05_route_accepts_exactly_wellformed (data : ProblemData) (acts : List Activity)
    (vehicleType : Nat)
    (hsize : acts.length < SIZE_MAX)
    (hreloads : (data.vehicleType vehicleType).maxReloads ≤ SIZE_MAX) :
    ((∃ r, Route.make data acts vehicleType = .ok r) ↔
        WellFormed data (data.vehicleType vehicleType) acts)
    ∧ (¬ WellFormed data (data.vehicleType vehicleType) acts →
        RaisesValueError (Route.make data acts vehicleType)) := by
  have hdep : depotVisits acts ≤ acts.length := List.countP_le_length
  have htrips : 1 + depotVisits acts ≤ (data.vehicleType vehicleType).maxTrips ↔
      depotVisits acts ≤ reloadLimit (data.vehicleType vehicleType) := by
    unfold VehicleType.maxTrips reloadLimit
    unfold SIZE_MAX at *
    split <;> omega
  obtain ⟨l1, l2⟩ := Route.loop_iff acts [] _ (Route.descr_init data)
  simp only [List.nil_append] at l1 l2
  have main : (WellFormed data (data.vehicleType vehicleType) acts →
        Route.validate data vehicleType acts = .ok ())
      ∧ (¬ WellFormed data (data.vehicleType vehicleType) acts →
        RaisesValueError (Route.validate data vehicleType acts)) := by
    by_cases hs : ∀ q a r, acts = q ++ a :: r → Route.Cond data q a
    · obtain ⟨st, hst, hd⟩ := l1 hs
      have hfin : (List.range data.numShipments).any
          (fun i => st.pickupVisited.getD i false != st.deliveryVisited.getD i false) = false ↔
          ∀ s, s < data.numShipments → (pickupOf s ∈ acts ↔ deliveryOf s ∈ acts) := by
        simp only [List.any_eq_false, List.mem_range]
        refine forall₂_congr fun s hs => ?_
        rw [← hd.pv s hs, ← hd.dv s hs, ← Route.getD_eq_true_iff, ← Route.getD_eq_true_iff]
        cases st.pickupVisited.getD s false <;> cases st.deliveryVisited.getD s false <;> simp
      unfold Route.validate
      simp only [hst]
      by_cases hf : (List.range data.numShipments).any
          (fun i => st.pickupVisited.getD i false != st.deliveryVisited.getD i false) = true
      · simp only [hf, if_true]
        refine ⟨fun hw => ?_, fun _ => ⟨_, rfl⟩⟩
        have := ((Route.prefixForm_iff data acts).2 ⟨hw.inRange, hw.shipments⟩).final
        rw [← hfin, hf] at this; cases this
      · have hf' := hfin.1 (by simpa using hf)
        simp only [hf]
        obtain ⟨w1, w2⟩ := (Route.prefixForm_iff data acts).1 ⟨hs, hf'⟩
        by_cases ht : depotVisits acts ≤ reloadLimit (data.vehicleType vehicleType)
        · rw [if_neg (by simp), if_neg (by rw [hd.trips]; omega)]
          exact ⟨fun _ => rfl, fun hn => absurd ⟨w1, w2, ht⟩ hn⟩
        · rw [if_neg (by simp), if_pos (by rw [hd.trips]; omega)]
          exact ⟨fun hw => absurd hw.reloads ht, fun _ => ⟨_, rfl⟩⟩
    · obtain ⟨m, hm⟩ := l2 hs
      unfold Route.validate
      simp only [hm]
      refine ⟨fun hw => ?_, fun _ => ⟨_, rfl⟩⟩
      exact absurd ((Route.prefixForm_iff data acts).2 ⟨hw.inRange, hw.shipments⟩).steps hs
  unfold Route.make
  by_cases hw : WellFormed data (data.vehicleType vehicleType) acts
  · simp [main.1 hw, hw]
  · obtain ⟨m, hm⟩ := main.2 hw
    simp only [hm, hw, iff_false, not_false_eq_true, true_implies]
    exact ⟨by simp, ⟨m, rfl⟩⟩

/-! ## Non-vacuity -/

example : Demo.acts.length < SIZE_MAX ∧ (Demo.data.vehicleType 0).maxReloads ≤ SIZE_MAX := by decide

/-- Accepted: two trips, a shipment within the first. -/
example : (Route.make Demo.data Demo.acts 0).toOption.isSome := by decide

/-- Rejected: a shipment across a reload, delivery first, twice, unpaired, too many trips,
unknown client. -/
example : (Route.make Demo.data [Demo.pickup 0, Demo.depot 0, Demo.delivery 0] 0
      = .error (.invalidArgument "A shipment must be fully serviced in the same trip."))
    ∧ (Route.make Demo.data [Demo.delivery 0, Demo.pickup 0] 0
      = .error (.invalidArgument "Delivery must follow after pickup."))
    ∧ (Route.make Demo.data [Demo.pickup 0, Demo.delivery 0, Demo.delivery 0] 0
      = .error (.invalidArgument "Delivery visited more than once."))
    ∧ (Route.make Demo.data [Demo.client 1, Demo.pickup 0] 0
      = .error (.invalidArgument "Shipment has unpaired pickup and delivery."))
    ∧ (Route.make Demo.data [Demo.depot 0] 1
      = .error (.invalidArgument "Vehicle cannot perform this many trips."))
    ∧ (Route.make Demo.data [Demo.client 5] 0
      = .error (.invalidArgument "Client is not understood.")) := by decide

end PyVRP
