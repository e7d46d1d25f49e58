import Verif.Lemmas.RouteTime
import Verif.Spec.Schedule
/-!
# Lemmas on the forward pass: the reported schedule
-/
namespace PyVRP
open Spec

namespace Spec

/-- Release times of the trips that start at the reload depots, in order. -/
def reloadReleases (data : ProblemData) : List Activity → List Int
  | [] => []
  | a :: rest =>
    if a.type = .depot then tripRelease data rest :: reloadReleases data rest
    else reloadReleases data rest

end Spec

namespace Route

theorem back_releaseTimes {data : ProblemData} (ht : TimesOk data) (vt : Nat)
    (acts : List Activity) :
    (acts.foldr (backStep data (data.vehicleType vt).profile)
        (backInit data (data.vehicleType vt))).releaseTimes = reloadReleases data acts := by
  induction acts with
  | nil => rfl
  | cons a rest ih =>
    have hinv := back_inv ht vt rest
    have hb := tripRelease_bounds ht rest
    rw [List.foldr_cons]
    obtain ⟨ty, i⟩ := a
    cases ty with
    | depot =>
      simp only [backStep, reloadReleases, if_true, ih, DurSeg.merge, DurSeg.ofDepot, hinv.rel]
      rw [Int.max_eq_right hb.1]
    | client => simpa [backStep, reloadReleases] using ih
    | pickup => simpa [backStep, reloadReleases] using ih
    | delivery => simpa [backStep, reloadReleases] using ih

theorem backward_releaseTimes {data : ProblemData} (ht : TimesOk data) (vt : Nat)
    (acts : List Activity) :
    (backward data (data.vehicleType vt) acts).releaseTimes
      = tripRelease data acts :: reloadReleases data acts := by
  have := (total_inv ht vt acts).release
  simp only [backward] at this
  simp only [backward, back_releaseTimes ht, this]

theorem windows {data : ProblemData} (ht : TimesOk data) (a : Activity) :
    earliest data a ≤ latest data a := by
  obtain ⟨ty, i⟩ := a
  cases ty with
  | client => exact (ht.client i).1.el
  | depot => exact (ht.depot i 0 (Int.le_refl 0)).1.el
  | pickup => exact (ht.pickup i).el
  | delivery => exact (ht.delivery i).el

theorem handleArgs_eq (data : ProblemData) (a : Activity) (rel : Int) :
    handleArgs data a rel
      = (if a.type = .depot then max (earliest data a) (min rel (latest data a)) else earliest data a,
        latest data a, serviceTime data a) := by
  obtain ⟨ty, i⟩ := a
  cases ty <;> rfl

theorem forward_follows {data : ProblemData} (ht : TimesOk data) (vt : Nat) (rt : List Int)
    (acts : List Activity) : ∀ (now : Int) (loc trip : Nat),
    rt.drop (trip + 1) = reloadReleases data acts →
    Follows data (data.vehicleType vt) now loc acts
      (forward data (data.vehicleType vt) rt now loc trip acts) := by
  induction acts with
  | nil =>
    intro now loc trip _
    have := windows ht ⟨.depot, (data.vehicleType vt).endDepot⟩
    simp only [earliest, latest] at this
    refine ⟨_, rfl, ?_, ?_, ?_, ?_, ?_, ?_⟩ <;> simp only [handle] <;> omega
  | cons a rest ih =>
    intro now loc trip hrt
    have hw := windows ht a
    refine ⟨_, _, rfl, ?_⟩
    simp only [handleArgs_eq, place_eq]
    by_cases ha : a.type = .depot
    · have hd : a.isDepot = true := by simp [isDepot_iff, ha]
      simp only [reloadReleases, ha, if_true] at hrt
      have hget : rt.getD (trip + 1) 0 = tripRelease data rest := by
        have := congrArg List.head? hrt
        rw [List.head?_drop] at this
        rw [List.getD_eq_getElem?_getD, this]; rfl
      have hdrop : rt.drop (trip + 1 + 1) = reloadReleases data rest := by
        have := congrArg List.tail hrt
        rwa [List.tail_drop] at this
      have hnext := ih
        (handle (now + data.dur (data.vehicleType vt).profile loc (place data a)) a (trip + 1)
          (max (earliest data a) (min (tripRelease data rest) (latest data a))) (latest data a)
          (serviceTime data a)).2 (place data a) (trip + 1) hdrop
      simp only [ha, hd, if_true, hget]
      refine ⟨?_, ?_, ?_, ?_, ?_, ?_, ?_, hnext⟩
      all_goals simp only [handle]
      all_goals omega
    · have hd : a.isDepot = false := by simp [isDepot_eq, ha]
      simp only [reloadReleases, ha, if_false] at hrt
      have hnext := ih
        (handle (now + data.dur (data.vehicleType vt).profile loc (place data a)) a trip
          (earliest data a) (latest data a) (serviceTime data a)).2 (place data a) trip hrt
      simp only [ha, hd, if_false, Bool.false_eq_true]
      refine ⟨?_, ?_, ?_, ?_, ?_, ?_, ?_, hnext⟩
      all_goals simp only [handle]
      all_goals first | omega | (intro h; exact absurd h (by simp))

/-- Waits and time warps of the entries after the first, compared to the drive. -/
theorem forward_sums {data : ProblemData} (ht : TimesOk data) (vt : Nat) (rt : List Int)
    (acts : List Activity) : ∀ (now : Int) (loc trip : Nat),
    rt.drop (trip + 1) = reloadReleases data acts →
    ReloadsInTime data acts →
    ∀ es e, forward data (data.vehicleType vt) rt now loc trip acts = es →
    es.getLast? = some e →
    (drive now (stopsFrom data (data.vehicleType vt) loc acts)).wait
        = (es.map (·.waitDuration)).sum + max ((data.vehicleType vt).twEarly - e.endTime) 0
    ∧ (drive now (stopsFrom data (data.vehicleType vt) loc acts)).warp
        = (es.map (·.timeWarp)).sum
          + max (max e.endTime (data.vehicleType vt).twEarly - (data.vehicleType vt).twLate) 0 := by
  induction acts with
  | nil =>
    intro now loc trip _ _ es e hes he
    have := windows ht ⟨.depot, (data.vehicleType vt).endDepot⟩
    simp only [earliest, latest] at this
    subst hes
    simp only [forward, handle, List.getLast?_singleton, Option.some.injEq] at he
    subst he
    simp only [stopsFrom, drive, Stop.wait, Stop.warp, Stop.begin, Stop.arrive, forward, handle,
      List.map_cons, List.map_nil, List.sum_cons, List.sum_nil]
    omega
  | cons a rest ih =>
    intro now loc trip hrt hin es e hes he
    have hw := windows ht a
    obtain ⟨hin1, hin2⟩ := hin
    subst hes
    simp only [forward, handleArgs_eq, place_eq] at he ⊢
    rw [List.getLast?_cons] at he
    by_cases ha : a.type = .depot
    · have hd : a.isDepot = true := by simp [isDepot_iff, ha]
      have hin1 := hin1 ha
      simp only [reloadReleases, ha, if_true] at hrt
      have hget : rt.getD (trip + 1) 0 = tripRelease data rest := by
        have := congrArg List.head? hrt
        rw [List.head?_drop] at this
        rw [List.getD_eq_getElem?_getD, this]; rfl
      have hdrop : rt.drop (trip + 1 + 1) = reloadReleases data rest := by
        have := congrArg List.tail hrt
        rwa [List.tail_drop] at this
      simp only [ha, hd, if_true, hget] at he ⊢
      generalize hnow : (handle (now + data.dur (data.vehicleType vt).profile loc (place data a)) a
          (trip + 1) (max (earliest data a) (min (tripRelease data rest) (latest data a)))
          (latest data a) (serviceTime data a)).2 = now' at he ⊢
      have hne := forward_ne_nil data (data.vehicleType vt) rt rest now' (place data a) (trip + 1)
      cases hl : (forward data (data.vehicleType vt) rt now' (place data a) (trip + 1)
          rest).getLast? with
      | none => exact absurd (List.getLast?_eq_none_iff.1 hl) hne
      | some e' =>
        rw [hl] at he
        simp only [Option.getD_some, Option.some.injEq] at he
        subst he
        have := ih now' (place data a) (trip + 1) hdrop hin2 _ e' rfl hl
        have hb : (Stop.mk (data.dur (data.vehicleType vt).profile loc (place data a))
            (max (earliest data a) (tripRelease data rest)) (latest data a)
            (serviceTime data a)).begin now + serviceTime data a = now' := by
          rw [← hnow]
          simp only [Stop.begin, Stop.wait, Stop.warp, Stop.arrive, handle]
          omega
        simp only [stopsFrom, ha, if_true, drive, hb, this, List.map_cons, List.sum_cons]
        simp only [Stop.wait, Stop.warp, Stop.arrive, handle]
        omega
    · have hd : a.isDepot = false := by simp [isDepot_eq, ha]
      simp only [reloadReleases, ha, if_false] at hrt
      simp only [ha, hd, if_false, Bool.false_eq_true] at he ⊢
      generalize hnow : (handle (now + data.dur (data.vehicleType vt).profile loc (place data a)) a
          trip (earliest data a) (latest data a) (serviceTime data a)).2 = now' at he ⊢
      have hne := forward_ne_nil data (data.vehicleType vt) rt rest now' (place data a) trip
      cases hl : (forward data (data.vehicleType vt) rt now' (place data a) trip
          rest).getLast? with
      | none => exact absurd (List.getLast?_eq_none_iff.1 hl) hne
      | some e' =>
        rw [hl] at he
        simp only [Option.getD_some, Option.some.injEq] at he
        subst he
        have := ih now' (place data a) trip hrt hin2 _ e' rfl hl
        have hb : (Stop.mk (data.dur (data.vehicleType vt).profile loc (place data a))
            (earliest data a) (latest data a)
            (serviceTime data a)).begin now + serviceTime data a = now' := by
          rw [← hnow]
          simp only [Stop.begin, Stop.wait, Stop.warp, Stop.arrive, handle]
          omega
        simp only [stopsFrom, ha, if_false, drive, hb, this, List.map_cons, List.sum_cons]
        simp only [Stop.wait, Stop.warp, Stop.arrive, handle]
        omega

end Route
end PyVRP
