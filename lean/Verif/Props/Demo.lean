import Verif.Model.Route
/-!
# A small instance used in the non-vacuity examples
-/
namespace PyVRP.Demo

/-- Time windows, release times, service, capacities, a group, shipments, reloads, two depots
and two vehicle types. -/
def data : ProblemData :=
  { locations := [⟨0, 0, ""⟩, ⟨3, 4, ""⟩, ⟨6, 8, ""⟩]
    clients := [
      -- location, delivery, pickup, service, early, late, release, prize, required, group, name
      ⟨1, [4], [0], 2, 0, 50, 10, 0, true, none, ""⟩,
      ⟨2, [3], [5], 2, 30, 60, 0, 0, true, none, ""⟩,
      ⟨2, [1], [1], 1, 0, 500, 40, 7, false, none, ""⟩,
      ⟨1, [2], [0], 1, 0, 500, 0, 5, false, some 0, ""⟩,
      ⟨2, [2], [0], 1, 0, 500, 0, 6, false, some 0, ""⟩]
    depots := [⟨0, 0, 1000, 3, "main"⟩, ⟨1, 0, 1000, 0, "other"⟩]
    vehicleTypes := [
      { numAvailable := 2, startDepot := 0, endDepot := 0, capacity := [10], twEarly := 5
        twLate := 900, shiftDuration := 60, maxDistance := 40, fixedCost := 20
        unitDistanceCost := 1, unitDurationCost := 2, profile := 0, startLate := 100
        initialLoad := [0], reloadDepots := [0], maxReloads := 2, maxOvertime := 10
        unitOvertimeCost := 3, maxDuration := 70, name := "" },
      { numAvailable := 1, startDepot := 0, endDepot := 1, capacity := [20], twEarly := 0
        twLate := MAX, shiftDuration := MAX, maxDistance := MAX, fixedCost := 0
        unitDistanceCost := 1, unitDurationCost := 0, profile := 0, startLate := MAX
        initialLoad := [2], reloadDepots := [], maxReloads := 5, maxOvertime := 0
        unitOvertimeCost := 0, maxDuration := MAX, name := "" }]
    dists := [⟨3, 3, [0, 5, 10, 5, 0, 5, 10, 5, 0]⟩]
    durs := [⟨3, 3, [0, 6, 11, 6, 0, 7, 12, 7, 0]⟩]
    groups := [⟨[3, 4], true, ""⟩]
    shipments := [⟨⟨1, 0, 300, 1⟩, ⟨2, 0, 300, 1⟩, [3], 4, true, ""⟩] }

abbrev client (i : Nat) : Activity := ⟨.client, i⟩
abbrev depot (i : Nat) : Activity := ⟨.depot, i⟩
abbrev pickup (i : Nat) : Activity := ⟨.pickup, i⟩
abbrev delivery (i : Nat) : Activity := ⟨.delivery, i⟩

example : ProblemData.make data = .ok data := by decide

/-- A route with two trips and a shipment. -/
def acts : List Activity :=
  [client 0, pickup 0, client 1, delivery 0, depot 0, client 2]

end PyVRP.Demo
