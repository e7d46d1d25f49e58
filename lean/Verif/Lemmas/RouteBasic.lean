import Verif.Model.Route
import Verif.Spec.RouteSpec
import Verif.Spec.WellFormed
import Verif.Lemmas.RouteValidate
/-!
# Lemmas on the schedule's activities, counts and distance of a route
-/
namespace PyVRP
open Spec

namespace Route

theorem place_eq (data : ProblemData) (a : Activity) : data.locationOf a = place data a := by
  cases a with | mk ty i => cases ty <;> rfl

theorem forward_activities (data : ProblemData) (v : VehicleType) (rt : List Int)
    (acts : List Activity) : ∀ (now : Int) (loc trip : Nat),
    (forward data v rt now loc trip acts).map (·.activity) = acts ++ [⟨.depot, v.endDepot⟩] := by
  induction acts with
  | nil => intros; simp [forward, handle]
  | cons a rest ih => intros; simp [forward, handle, ih]

theorem mkSchedule_activities (data : ProblemData) (v : VehicleType) (rt : List Int) (s r : Int)
    (acts : List Activity) :
    (mkSchedule data v rt s r acts).map (·.activity) = fullActs v acts := by
  simp [mkSchedule, handle, forward_activities, fullActs]

theorem isDepot_iff (a : Activity) : a.isDepot = true ↔ a.type = .depot := by
  simp [Activity.isDepot]

theorem isDepot_eq (a : Activity) : a.isDepot = decide (a.type = .depot) := by
  rw [Bool.eq_iff_iff]; simp [isDepot_iff]

theorem depotVisits_cons (a : Activity) (l : List Activity) :
    depotVisits (a :: l) = depotVisits l + if a.type = .depot then 1 else 0 := by
  simp [depotVisits, List.countP_cons]

theorem forward_trips (data : ProblemData) (v : VehicleType) (rt : List Int)
    (acts : List Activity) : ∀ (now : Int) (loc trip k : Nat), k < acts.length →
    ((forward data v rt now loc trip acts)[k]?).map (·.trip)
      = some (trip + depotVisits (acts.take (k + 1))) := by
  induction acts with
  | nil => intro _ _ _ k hk; simp at hk
  | cons a rest ih =>
    intro now loc trip k hk
    cases k with
    | zero =>
      simp only [forward, handle, List.getElem?_cons_zero, Option.map_some, isDepot_eq,
        decide_eq_true_eq, List.take_succ_cons, List.take_zero, depotVisits_cons]
      split <;> simp [depotVisits]
    | succ k =>
      simp only [List.length_cons, Nat.add_lt_add_iff_right] at hk
      simp only [forward, List.getElem?_cons_succ, List.take_succ_cons, depotVisits_cons]
      rw [ih _ _ _ k hk, isDepot_eq]
      simp only [decide_eq_true_eq]
      split <;> simp <;> omega

theorem forward_length (data : ProblemData) (v : VehicleType) (rt : List Int)
    (acts : List Activity) (now : Int) (loc trip : Nat) :
    (forward data v rt now loc trip acts).length = acts.length + 1 := by
  have := congrArg List.length (forward_activities data v rt acts now loc trip)
  simpa using this

theorem forward_ne_nil (data : ProblemData) (v : VehicleType) (rt : List Int)
    (acts : List Activity) (now : Int) (loc trip : Nat) :
    forward data v rt now loc trip acts ≠ [] := by
  intro h
  have := forward_length data v rt acts now loc trip
  rw [h] at this; simp at this

theorem forward_last (data : ProblemData) (v : VehicleType) (rt : List Int)
    (acts : List Activity) : ∀ (now : Int) (loc trip : Nat),
    ((forward data v rt now loc trip acts).getLast?).map (·.trip) = some rt.length := by
  induction acts with
  | nil => intros; simp [forward, handle]
  | cons a rest ih =>
    intro now loc trip
    simp only [forward]
    rw [List.getLast?_cons]
    have := ih (handle (now + data.dur v.profile loc (data.locationOf a)) a
        (if a.isDepot then trip + 1 else trip)
        (handleArgs data a (rt.getD (if a.isDepot then trip + 1 else trip) 0)).1
        (handleArgs data a (rt.getD (if a.isDepot then trip + 1 else trip) 0)).2.1
        (handleArgs data a (rt.getD (if a.isDepot then trip + 1 else trip) 0)).2.2).2
        (data.locationOf a) (if a.isDepot then trip + 1 else trip)
    revert this
    generalize (forward data v rt _ _ _ rest).getLast? = o
    cases o with
    | none => intro h; simp at h
    | some x => intro h; simpa using h

theorem back_releaseTimes_length (data : ProblemData) (v : VehicleType) (acts : List Activity) :
    (acts.foldr (backStep data v.profile) (backInit data v)).releaseTimes.length
      = depotVisits acts := by
  induction acts with
  | nil => rfl
  | cons a rest ih =>
    rw [List.foldr_cons, depotVisits_cons]
    obtain ⟨ty, i⟩ := a
    cases ty <;> simp [backStep, ih]

theorem backward_releaseTimes_length (data : ProblemData) (v : VehicleType)
    (acts : List Activity) :
    (backward data v acts).releaseTimes.length = depotVisits acts + 1 := by
  simp [backward, back_releaseTimes_length]

/-! ### Counts -/

theorem pickups_eq_deliveries {data : ProblemData} {v : VehicleType} {acts : List Activity}
    (h : WellFormed data v acts) :
    acts.countP (fun a => a.type = .pickup) = acts.countP (fun a => a.type = .delivery) := by
  have key : ∀ s, acts.count (pickupOf s) = acts.count (deliveryOf s) := by
    intro s
    rcases h.shipments s with h | ⟨p, m, x, he, _, hc⟩
    · rw [List.count_eq_zero.2 fun hh => h _ hh (.inl rfl),
        List.count_eq_zero.2 fun hh => h _ hh (.inr rfl)]
    · have hz : ∀ l : List Activity, (∀ a ∈ l, a ∈ p ++ m ++ x) →
          l.count (pickupOf s) = 0 ∧ l.count (deliveryOf s) = 0 :=
        fun l hl => ⟨List.count_eq_zero.2 fun hin => hc _ (hl _ hin) (.inl rfl),
          List.count_eq_zero.2 fun hin => hc _ (hl _ hin) (.inr rfl)⟩
      have h1 := hz p (by simp +contextual)
      have h2 := hz m (by simp +contextual)
      have h3 := hz x (by simp +contextual)
      rw [he]
      simp only [List.count_append, List.count_cons, h1, h2, h3]
      simp [pickupOf, deliveryOf]
  have hmap : ∀ (ty : ActivityType) (l : List Activity) (s : Nat),
      ((l.filter (fun a => a.type = ty)).map (·.idx)).count s = l.count ⟨ty, s⟩ := by
    intro ty l s
    induction l with
    | nil => rfl
    | cons a rest ih =>
      obtain ⟨t, i⟩ := a
      rw [List.filter_cons, List.count_cons]
      by_cases ht : t = ty
      · subst ht
        simp only [decide_true, if_true, List.map_cons, List.count_cons, ih]
        by_cases hs : i = s <;> simp [hs]
      · simp only [ht, decide_false, Bool.false_eq_true, if_false, ih]
        simp [ht]
  have hperm : ((acts.filter (fun a => a.type = .pickup)).map (·.idx)).Perm
      ((acts.filter (fun a => a.type = .delivery)).map (·.idx)) := by
    rw [List.perm_iff_count]
    intro s
    rw [hmap, hmap]
    exact key s
  have := hperm.length_eq
  simpa [List.countP_eq_length_filter] using this

theorem counts_total (acts : List Activity) :
    acts.length = acts.countP (fun a => a.type = .client) + acts.countP (fun a => a.type = .pickup)
      + acts.countP (fun a => a.type = .delivery) + depotVisits acts := by
  induction acts with
  | nil => rfl
  | cons a rest ih =>
    obtain ⟨t, i⟩ := a
    rw [depotVisits_cons]
    cases t <;> simp [List.countP_cons, ih] <;> omega

theorem numShipmentsOf_eq (l : List ScheduledActivity) :
    numShipmentsOf l = (l.map (·.activity)).countP (fun a => a.type = .pickup) := by
  have : ∀ (l : List ScheduledActivity) (n : Nat),
      l.foldl (fun n s => if s.activity.isPickup then n + 1 else n) n
        = n + (l.map (·.activity)).countP (fun a => a.type = .pickup) := by
    intro l
    induction l with
    | nil => intro n; rfl
    | cons s rest ih =>
      intro n
      simp only [List.foldl_cons, List.map_cons, List.countP_cons, ih]
      cases s with | mk a _ _ _ _ _ => cases a with | mk ty i =>
        cases ty <;> simp [Activity.isPickup] <;> omega
  simpa [numShipmentsOf] using this l 0

theorem countP_fullActs (v : VehicleType) (acts : List Activity) (ty : ActivityType) (h : ty ≠ .depot) :
    (fullActs v acts).countP (fun a => a.type = ty) = acts.countP (fun a => a.type = ty) := by
  have : (ActivityType.depot = ty) ↔ False := ⟨fun hh => h hh.symm, False.elim⟩
  simp [fullActs, List.countP_cons, List.countP_append, this]

/-! ### Distance -/

theorem distanceLoop_eq (data : ProblemData) (p : Nat) (l : List ScheduledActivity) :
    ∀ (frm : Nat) (acc : Int), distanceLoop data p frm acc l
      = acc + legSum (data.dist p) (frm :: (l.map (·.activity)).map (place data)) := by
  induction l with
  | nil => intro frm acc; simp [distanceLoop, legSum]
  | cons s rest ih =>
    intro frm acc
    simp only [distanceLoop, ih, List.map_cons, legSum, place_eq]
    omega

end Route
end PyVRP
