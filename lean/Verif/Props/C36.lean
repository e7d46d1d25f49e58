import Verif.Lemmas.Data
/-!
# C36: constructors reject exactly the malformed data
-/
namespace PyVRP
open Spec

/-- **C36 (Client).** The constructor succeeds exactly on acceptable arguments, otherwise
it raises `ValueError`. -/
theorem C36_client_accepts (a : Client) :
    ((∃ c, Client.make a = .ok c) ↔ ClientArgsOk a)
    ∧ (¬ ClientArgsOk a → RaisesValueError (Client.make a)) := by
  unfold Client.make
  dsimp only
  simp only [checked_eq_ok, exists_and_left, exists_eq', and_true]
  have key : ∀ o : Option Error, (o = none ↔ ClientArgsOk a) → AllValue o →
      (o = none ↔ ClientArgsOk a) ∧ (¬ ClientArgsOk a → RaisesValueError (checked o
        { a with delivery := pad a.delivery a.pickup
                 pickup := pad a.pickup (pad a.delivery a.pickup) })) :=
    fun o h1 h2 => ⟨h1, fun hn => checked_raises h2 (fun h => hn (h1.1 h))⟩
  apply key
  · simp only [throwIf_orElse_eq_none, throwIf_eq_none, Bool.not_eq_true,
      anyNegative_eq_false, nonneg_pad]
    constructor
    · rintro ⟨h1, h2, h3⟩
      constructor <;> first | assumption | omega
    · rintro ⟨h1, h2, h3, h4, h5, h6, h7⟩
      exact ⟨h1, h2, by omega, by omega, by omega, by omega, by omega, by omega⟩
  · exact .throwIf_orElse <| .throwIf_orElse <| .throwIf_orElse <| .throwIf_orElse <|
      .throwIf_orElse <| .throwIf_orElse <| .throwIf_orElse .throwIf

/-- **C36 (Client).** The constructed client has the given attributes; the load vectors are
extended with zeroes to the same length. -/
theorem C36_client_fields (a c : Client) (h : Client.make a = .ok c) :
    PaddedTo a.delivery c.delivery (max a.delivery.length a.pickup.length)
    ∧ PaddedTo a.pickup c.pickup (max a.delivery.length a.pickup.length)
    ∧ c = { a with delivery := c.delivery, pickup := c.pickup } := by
  unfold Client.make at h
  dsimp only at h
  obtain ⟨_, rfl⟩ := checked_eq_ok.1 h
  refine ⟨pad_paddedTo _ _, ?_, rfl⟩
  dsimp only
  rw [pad_pad, Nat.max_comm]
  exact pad_paddedTo _ _

/-- **C36 (Depot).** -/
theorem C36_depot_accepts (a : Depot) :
    (∀ d, Depot.make a = .ok d ↔ d = a ∧ DepotArgsOk a)
    ∧ (¬ DepotArgsOk a → RaisesValueError (Depot.make a)) := by
  unfold Depot.make
  simp only [checked_eq_ok]
  have key : ∀ o : Option Error, (o = none ↔ DepotArgsOk a) → AllValue o →
      (∀ d, (o = none ∧ a = d ↔ d = a ∧ DepotArgsOk a))
        ∧ (¬ DepotArgsOk a → RaisesValueError (checked o a)) :=
    fun o h1 h2 => ⟨fun d => by rw [h1]; exact ⟨fun h => ⟨h.2.symm, h.1⟩, fun h => ⟨h.2, h.1.symm⟩⟩,
      fun hn => checked_raises h2 (fun h => hn (h1.1 h))⟩
  apply key
  · simp only [throwIf_orElse_eq_none, throwIf_eq_none]
    exact ⟨fun _ => ⟨by omega, by omega, by omega⟩, fun ⟨h1, h2, h3⟩ => by omega⟩
  · exact .throwIf_orElse <| .throwIf_orElse .throwIf

/-- **C36 (Shipment steps).** -/
theorem C36_step_accepts (a : Step) :
    (∀ d, Step.make a = .ok d ↔ d = a ∧ StepArgsOk a)
    ∧ (¬ StepArgsOk a → RaisesValueError (Step.make a)) := by
  unfold Step.make
  simp only [checked_eq_ok]
  have key : ∀ o : Option Error, (o = none ↔ StepArgsOk a) → AllValue o →
      (∀ d, (o = none ∧ a = d ↔ d = a ∧ StepArgsOk a))
        ∧ (¬ StepArgsOk a → RaisesValueError (checked o a)) :=
    fun o h1 h2 => ⟨fun d => by rw [h1]; exact ⟨fun h => ⟨h.2.symm, h.1⟩, fun h => ⟨h.2, h.1.symm⟩⟩,
      fun hn => checked_raises h2 (fun h => hn (h1.1 h))⟩
  apply key
  · simp only [throwIf_orElse_eq_none, throwIf_eq_none]
    exact ⟨fun _ => ⟨by omega, by omega, by omega⟩, fun ⟨h1, h2, h3⟩ => by omega⟩
  · exact .throwIf_orElse <| .throwIf_orElse .throwIf

/-- **C36 (Shipment).** -/
theorem C36_shipment_accepts (a : Shipment) :
    (∀ s, Shipment.make a = .ok s ↔ s = a ∧ ShipmentArgsOk a)
    ∧ (¬ ShipmentArgsOk a → RaisesValueError (Shipment.make a)) := by
  obtain ⟨hp, hp'⟩ := C36_step_accepts a.pickup
  obtain ⟨hd, hd'⟩ := C36_step_accepts a.delivery
  by_cases h1 : StepArgsOk a.pickup
  · have e1 : Step.make a.pickup = .ok a.pickup := (hp _).2 ⟨rfl, h1⟩
    by_cases h2 : StepArgsOk a.delivery
    · have e2 : Step.make a.delivery = .ok a.delivery := (hd _).2 ⟨rfl, h2⟩
      simp only [Shipment.make, e1, e2, checked_eq_ok]
      have key : ∀ o : Option Error, (o = none ↔ ShipmentArgsOk a) → AllValue o →
          (∀ d, (o = none ∧ a = d ↔ d = a ∧ ShipmentArgsOk a))
            ∧ (¬ ShipmentArgsOk a → RaisesValueError (checked o a)) :=
        fun o h1 h2 => ⟨fun d => by
          rw [h1]; exact ⟨fun h => ⟨h.2.symm, h.1⟩, fun h => ⟨h.2, h.1.symm⟩⟩,
          fun hn => checked_raises h2 (fun h => hn (h1.1 h))⟩
      apply key
      · simp only [throwIf_orElse_eq_none, throwIf_eq_none, Bool.not_eq_true,
          anyNegative_eq_false]
        exact ⟨fun ⟨x, y, z⟩ => ⟨h1, h2, by omega, y, by omega⟩,
          fun ⟨_, _, x, y, z⟩ => ⟨by omega, y, by omega⟩⟩
      · exact .throwIf_orElse <| .throwIf_orElse .throwIf
    · obtain ⟨m, e2⟩ := hd' h2
      have hm : Shipment.make a = .error (.invalidArgument m) := by
        simp only [Shipment.make, e1, e2]
      exact ⟨fun s => by
        simp only [hm, reduceCtorEq, false_iff, not_and]; exact fun _ h => h2 h.delivery,
        fun _ => ⟨m, hm⟩⟩
  · obtain ⟨m, e1⟩ := hp' h1
    have hm : Shipment.make a = .error (.invalidArgument m) := by
      simp only [Shipment.make, e1]
    exact ⟨fun s => by
      simp only [hm, reduceCtorEq, false_iff, not_and]; exact fun _ h => h1 h.pickup,
      fun _ => ⟨m, hm⟩⟩

/-- **C36 (ClientGroup).** The constructor succeeds exactly on duplicate-free client lists,
and keeps them as given. -/
theorem C36_group_accepts (a : ClientGroup) :
    (∀ g, ClientGroup.make a = .ok g ↔ g = a ∧ a.clients.Nodup)
    ∧ (¬ a.clients.Nodup → RaisesValueError (ClientGroup.make a)) := by
  have key : ∀ (l : List Nat) (g : ClientGroup), g.clients.Nodup →
      (∀ g', g.addAll l = .ok g' ↔ g' = { g with clients := g.clients ++ l }
        ∧ (g.clients ++ l).Nodup)
      ∧ (¬ (g.clients ++ l).Nodup → RaisesValueError (g.addAll l)) := by
    intro l
    induction l with
    | nil =>
      intro g hg
      simp only [ClientGroup.addAll, Except.ok.injEq, List.append_nil, hg, and_true,
        not_true_eq_false, false_implies]
      exact fun g' => eq_comm
    | cons c cs ih =>
      intro g hg
      simp only [ClientGroup.addAll, ClientGroup.addClient]
      by_cases hc : c ∈ g.clients
      · simp only [hc, if_true]
        have hn : ¬ (g.clients ++ c :: cs).Nodup := by
          rw [List.nodup_append]
          rintro ⟨_, _, h⟩
          exact h c hc c (by simp) rfl
        exact ⟨fun g' => by simp [hn], fun _ => ⟨_, rfl⟩⟩
      · simp only [hc, if_false]
        have h1 : (g.clients ++ [c]).Nodup := by
          rw [List.nodup_append]
          refine ⟨hg, by simp, ?_⟩
          intro x hx y hy
          simp only [List.mem_singleton] at hy
          subst hy
          rintro rfl
          exact hc hx
        have := ih { g with clients := g.clients ++ [c] } h1
        simpa using this
  have := key a.clients { a with clients := [] } (by simp)
  simpa [ClientGroup.make] using this

/-- **C36 (VehicleType).** -/
theorem C36_vehicle_accepts (a : VehicleTypeArgs) :
    ((∃ v, VehicleType.make a = .ok v) ↔ VehicleArgsOk a)
    ∧ (¬ VehicleArgsOk a → RaisesValueError (VehicleType.make a)) := by
  have key : ∀ (o : Option Error) (v : VehicleType), (o = none ↔ VehicleArgsOk a) → AllValue o →
      ((∃ v', checked o v = .ok v') ↔ VehicleArgsOk a)
        ∧ (¬ VehicleArgsOk a → RaisesValueError (checked o v)) :=
    fun o v h1 h2 => ⟨by simp only [checked_eq_ok, exists_and_left, exists_eq', and_true]; exact h1,
      fun hn => checked_raises h2 (fun h => hn (h1.1 h))⟩
  unfold VehicleType.make
  apply key
  · simp only [throwIf_orElse_eq_none, throwIf_eq_none, Bool.not_eq_true,
      anyNegative_eq_false, nonneg_pad]
    rw [any_zip_gt_eq_false (by rw [pad_length, pad_length]; omega)]
    simp only [pad_getD]
    constructor
    · rintro ⟨h1, h2, h3, h4, h5, h6, h7, h8, h9, h10, h11, h12, h13⟩
      refine ⟨by omega, h2, ?_, by omega, by omega, by omega, by omega, by omega, by omega, h10,
        h11, by omega, by omega⟩
      intro s hs
      simp only [hs, Option.getD_some] at h3 h4
      omega
    · rintro ⟨h1, h2, h3, h4, h5, h6, h7, h8, h9, h10, h11, h12, h13⟩
      have hs : a.twEarly ≤ a.startLate.getD a.twLate ∧ a.startLate.getD a.twLate ≤ a.twLate := by
        cases hs : a.startLate with
        | none => simp; omega
        | some s => simpa using h3 s hs
      refine ⟨by omega, h2, by omega, by omega, by omega, by omega, by omega, by omega, by omega,
        h10, h11, by omega, by omega⟩
  · exact .throwIf_orElse <| .throwIf_orElse <| .throwIf_orElse <| .throwIf_orElse <|
      .throwIf_orElse <| .throwIf_orElse <| .throwIf_orElse <| .throwIf_orElse <|
      .throwIf_orElse <| .throwIf_orElse <| .throwIf_orElse <| .throwIf_orElse .throwIf

/-- **C36 (VehicleType).** Every attribute of the constructed object is the argument; the load
vectors are extended with zeroes to the same length; the latest start defaults to the end of the
shift; the maximum duration is shift duration plus overtime, but at most `MAX`. -/
theorem C36_vehicle_fields (a : VehicleTypeArgs) (v : VehicleType)
    (h : VehicleType.make a = .ok v) :
    v.numAvailable = a.numAvailable ∧ v.startDepot = a.startDepot ∧ v.endDepot = a.endDepot
    ∧ v.twEarly = a.twEarly ∧ v.twLate = a.twLate ∧ v.shiftDuration = a.shiftDuration
    ∧ v.maxDistance = a.maxDistance ∧ v.fixedCost = a.fixedCost
    ∧ v.unitDistanceCost = a.unitDistanceCost ∧ v.unitDurationCost = a.unitDurationCost
    ∧ v.profile = a.profile ∧ v.reloadDepots = a.reloadDepots ∧ v.maxReloads = a.maxReloads
    ∧ v.maxOvertime = a.maxOvertime ∧ v.unitOvertimeCost = a.unitOvertimeCost ∧ v.name = a.name
    ∧ v.startLate = (match a.startLate with | some s => s | none => a.twLate)
    ∧ PaddedTo a.capacity v.capacity (max a.capacity.length a.initialLoad.length)
    ∧ PaddedTo a.initialLoad v.initialLoad (max a.capacity.length a.initialLoad.length)
    ∧ v.maxDuration = min (a.shiftDuration + a.maxOvertime) MAX := by
  have hok := (C36_vehicle_accepts a).1.1 ⟨v, h⟩
  have hs := hok.shift
  have ho := hok.overtime
  unfold VehicleType.make at h
  obtain ⟨_, rfl⟩ := checked_eq_ok.1 h
  refine ⟨rfl, rfl, rfl, rfl, rfl, rfl, rfl, rfl, rfl, rfl, rfl, rfl, rfl, rfl, rfl, rfl,
    ?_, pad_paddedTo _ _, ?_, ?_⟩
  · dsimp only; cases a.startLate <;> rfl
  · dsimp only
    rw [pad_pad, Nat.max_comm]
    exact pad_paddedTo _ _
  · have := MAX_eq
    simp only [VehicleType.computeMaxDuration]
    omega

/-- **C36 (VehicleType.replace).** Replacing nothing yields the same vehicle type. -/
theorem C36_replace_nothing (a : VehicleTypeArgs) (v : VehicleType)
    (h : VehicleType.make a = .ok v) : v.replace {} = .ok v := by
  have hok := (C36_vehicle_accepts a).1.1 ⟨v, h⟩
  have hf := C36_vehicle_fields a v h
  obtain ⟨f1, f2, f3, f4, f5, f6, f7, f8, f9, f10, f11, f12, f13, f14, f15, f16, f17, f18, f19,
    f20⟩ := hf
  have hlen : v.capacity.length = v.initialLoad.length := by rw [f18.1, f19.1]
  unfold VehicleType.replace
  have hargs : VehicleArgsOk
      { numAvailable := v.numAvailable, capacity := v.capacity, startDepot := v.startDepot
        endDepot := v.endDepot, fixedCost := v.fixedCost, twEarly := v.twEarly, twLate := v.twLate
        shiftDuration := v.shiftDuration, maxDistance := v.maxDistance
        unitDistanceCost := v.unitDistanceCost, unitDurationCost := v.unitDurationCost
        profile := v.profile, startLate := some v.startLate, initialLoad := v.initialLoad
        reloadDepots := v.reloadDepots, maxReloads := v.maxReloads, maxOvertime := v.maxOvertime
        unitOvertimeCost := v.unitOvertimeCost, name := v.name } := by
    obtain ⟨h1, h2, h3, h4, h5, h6, h7, h8, h9, h10, h11, h12, h13⟩ := hok
    unfold VehicleType.make at h
    obtain ⟨_, rfl⟩ := checked_eq_ok.1 h
    constructor <;> dsimp only
    · exact h1
    · rwa [nonneg_pad]
    · intro s hs
      simp only [Option.some.injEq] at hs
      subst hs
      cases hs' : a.startLate with
      | none => simp; omega
      | some s => simpa using h3 s hs'
    · exact h4
    · exact h5
    · exact h6
    · exact h7
    · exact h8
    · exact h9
    · rwa [nonneg_pad]
    · intro i; rw [pad_getD, pad_getD]; exact h11 i
    · exact h12
    · exact h13
  obtain ⟨v', hv'⟩ := (C36_vehicle_accepts _).1.2 hargs
  simp only [Option.getD_none]
  rw [hv']
  unfold VehicleType.make at hv'
  obtain ⟨_, rfl⟩ := checked_eq_ok.1 hv'
  have hmd : VehicleType.computeMaxDuration v.shiftDuration v.maxOvertime = v.maxDuration := by
    rw [f20, f6, f14]
    have := hok.shift
    have := hok.overtime
    have := MAX_eq
    simp only [VehicleType.computeMaxDuration]
    omega
  dsimp only
  rw [pad_eq_self (a := v.capacity) (by omega), pad_eq_self (a := v.initialLoad) (by omega), hmd]
  rfl

/-- **C36 (VehicleType.replace).** A successful replacement changes exactly the given
attributes. (Load vectors that become shorter than the other are extended with zeroes.) -/
theorem C36_replace_changes_exactly (v v' : VehicleType) (r : VehicleTypeReplace)
    (h : v.replace r = .ok v') :
    v'.numAvailable = r.numAvailable.getD v.numAvailable
    ∧ v'.startDepot = r.startDepot.getD v.startDepot ∧ v'.endDepot = r.endDepot.getD v.endDepot
    ∧ v'.fixedCost = r.fixedCost.getD v.fixedCost
    ∧ v'.twEarly = r.twEarly.getD v.twEarly ∧ v'.twLate = r.twLate.getD v.twLate
    ∧ v'.shiftDuration = r.shiftDuration.getD v.shiftDuration
    ∧ v'.maxDistance = r.maxDistance.getD v.maxDistance
    ∧ v'.unitDistanceCost = r.unitDistanceCost.getD v.unitDistanceCost
    ∧ v'.unitDurationCost = r.unitDurationCost.getD v.unitDurationCost
    ∧ v'.profile = r.profile.getD v.profile ∧ v'.startLate = r.startLate.getD v.startLate
    ∧ v'.reloadDepots = r.reloadDepots.getD v.reloadDepots
    ∧ v'.maxReloads = r.maxReloads.getD v.maxReloads
    ∧ v'.maxOvertime = r.maxOvertime.getD v.maxOvertime
    ∧ v'.unitOvertimeCost = r.unitOvertimeCost.getD v.unitOvertimeCost
    ∧ v'.name = r.name.getD v.name
    ∧ PaddedTo (r.capacity.getD v.capacity) v'.capacity
        (max (r.capacity.getD v.capacity).length (r.initialLoad.getD v.initialLoad).length)
    ∧ PaddedTo (r.initialLoad.getD v.initialLoad) v'.initialLoad
        (max (r.capacity.getD v.capacity).length (r.initialLoad.getD v.initialLoad).length)
    ∧ v'.maxDuration = min (v'.shiftDuration + v'.maxOvertime) MAX := by
  obtain ⟨f1, f2, f3, f4, f5, f6, f7, f8, f9, f10, f11, f12, f13, f14, f15, f16, f17, f18, f19,
    f20⟩ := C36_vehicle_fields _ v' h
  refine ⟨f1, f2, f3, f8, f4, f5, f6, f7, f9, f10, f11, f17, f12, f13, f14, f15, f16, f18, f19, ?_⟩
  rw [f6, f14]; exact f20

/-! ## Non-vacuity -/

/-- Accepted: two load dimensions from one, a latest start, overtime beyond the maximum. -/
def C36.demoArgs : VehicleTypeArgs :=
  { capacity := [10], initialLoad := [3, 0], twEarly := 5, twLate := 50, startLate := some 20
    maxOvertime := 7 }

example : ∃ v, VehicleType.make C36.demoArgs = .ok v ∧ v.capacity = [10, 0]
    ∧ v.initialLoad = [3, 0] ∧ v.maxDuration = MAX := by
  refine ⟨_, rfl, ?_⟩; decide

/-- Rejected: initial load in a dimension without capacity. -/
example : RaisesValueError (VehicleType.make { C36.demoArgs with initialLoad := [3, 1] }) :=
  ⟨"initial load exceeds capacity.", by decide⟩

/-- Replacing `tw_late` keeps the latest start of the original, which may make the
replacement fail although a new vehicle type with that `tw_late` (and no explicit latest
start) would be fine. -/
example : ∃ v, VehicleType.make { twLate := 100 } = .ok v
    ∧ RaisesValueError (v.replace { twLate := some 50 })
    ∧ ∃ v', VehicleType.make { twLate := 50 } = .ok v' :=
  ⟨_, rfl, ⟨"start_late must be <= tw_late.", by decide⟩, _, rfl⟩

def C36.demoClient : Client :=
  { location := 0, delivery := [5], pickup := [3], serviceDuration := 0, twEarly := 0
    twLate := 10, releaseTime := 2, prize := 0, required := true, group := none, name := "" }

example : (∃ c, Client.make { C36.demoClient with pickup := [] } = .ok c ∧ c.pickup = [0])
    ∧ RaisesValueError (Client.make { C36.demoClient with releaseTime := 11 }) :=
  ⟨⟨_, rfl, by decide⟩, ⟨"release_time must be <= tw_late", by decide⟩⟩

example : ClientGroup.make ⟨[3, 1, 2], true, ""⟩ = .ok ⟨[3, 1, 2], true, ""⟩
    ∧ RaisesValueError (ClientGroup.make ⟨[3, 1, 3], true, ""⟩) :=
  ⟨by decide, ⟨_, rfl⟩⟩

end PyVRP
