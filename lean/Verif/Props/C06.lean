import Verif.Props.C05
/-!
# C06: routes only reload where the vehicle may reload (false of the code)

`Route::validate` checks that a depot exists and that the number of trips is allowed, but not that
the depot is one of the vehicle type's `reload_depots`.
-/
namespace PyVRP
open Spec

/-- The property as a user would expect it: every depot visited between start and end of an
accepted route is a reload depot of its vehicle type. -/
def ReloadsOnlyWhereAllowed (data : ProblemData) (acts : List Activity) (vehicleType : Nat) : Prop :=
  ∀ r, Route.make data acts vehicleType = .ok r →
    ∀ a ∈ acts, a.type = .depot → a.idx ∈ (data.vehicleType vehicleType).reloadDepots

/-- **C06 is false of the code**: there is problem data that the constructors accept and a route
that `Route` accepts although it reloads at a depot that is not among the vehicle type's reload
depots. -/
theorem C06_reloads_elsewhere_accepted :
    ∃ data acts vehicleType, ProblemData.make data = .ok data
      ∧ vehicleType < data.vehicleTypes.length
      ∧ (∃ r, Route.make data acts vehicleType = .ok r)
      ∧ ¬ ReloadsOnlyWhereAllowed data acts vehicleType := by
  refine ⟨Demo.data, [Demo.client 0, Demo.depot 1, Demo.client 1], 0, by decide, by decide, ?_, ?_⟩
  · cases h : Route.make Demo.data [Demo.client 0, Demo.depot 1, Demo.client 1] 0 with
    | ok r => exact ⟨r, rfl⟩
    | error e =>
      have : (Route.make Demo.data [Demo.client 0, Demo.depot 1, Demo.client 1] 0).toOption.isSome
        := by decide
      rw [h] at this; cases this
  · intro h
    cases hr : Route.make Demo.data [Demo.client 0, Demo.depot 1, Demo.client 1] 0 with
    | ok r =>
      have := h r hr (Demo.depot 1) (by simp) rfl
      revert this; decide
    | error e =>
      have : (Route.make Demo.data [Demo.client 0, Demo.depot 1, Demo.client 1] 0).toOption.isSome
        := by decide
      rw [hr] at this; cases this

/-- **C06, what does hold**: an accepted route reloads only at existing depots, not more often
than the vehicle type allows, and not at all if the vehicle type has no reload depots. Missing
compared to C06: that the depot is one of the reload depots. -/
theorem C06_reloads_partial (data : ProblemData) (acts : List Activity) (vehicleType : Nat)
    (r : Route) (hsize : acts.length < SIZE_MAX)
    (hreloads : (data.vehicleType vehicleType).maxReloads ≤ SIZE_MAX)
    (h : Route.make data acts vehicleType = .ok r) :
    (∀ a ∈ acts, a.type = .depot → a.idx < data.depots.length)
    ∧ (depotVisits acts ≤ (data.vehicleType vehicleType).maxReloads)
    ∧ ((data.vehicleType vehicleType).reloadDepots = [] → ∀ a ∈ acts, a.type ≠ .depot) := by
  have hw := (C05_route_accepts_exactly_wellformed data acts vehicleType hsize hreloads).1.1 ⟨r, h⟩
  refine ⟨fun a ha hd => ?_, ?_, fun he a ha hd => ?_⟩
  · have := hw.inRange a ha
    simpa [InRange, hd] using this
  · have := hw.reloads
    unfold reloadLimit at this
    split at this <;> omega
  · have := hw.reloads
    unfold reloadLimit at this
    rw [if_pos he] at this
    have hpos : 0 < depotVisits acts := List.countP_pos_iff.2 ⟨a, ha, by simp [hd]⟩
    omega

example : (Route.make Demo.data Demo.acts 0).toOption.isSome := by decide

end PyVRP
