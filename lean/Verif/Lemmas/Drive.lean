import Verif.Lemmas.DurSeg
/-!
# Lemmas on driving, and how segments represent lists of stops
-/
namespace PyVRP
open Spec

namespace Spec

theorem drive_append (t : Int) (l₁ l₂ : List Stop) :
    drive t (l₁ ++ l₂) =
      { wait := (drive t l₁).wait + (drive (drive t l₁).finish l₂).wait
        warp := (drive t l₁).warp + (drive (drive t l₁).finish l₂).warp
        finish := (drive (drive t l₁).finish l₂).finish } := by
  induction l₁ generalizing t with
  | nil => simp [drive]
  | cons s rest ih => simp only [List.cons_append, drive, ih]; simp only [Int.add_assoc]

theorem totalTravel_append (l₁ l₂ : List Stop) :
    totalTravel (l₁ ++ l₂) = totalTravel l₁ + totalTravel l₂ := by
  simp [totalTravel]

theorem totalService_append (l₁ l₂ : List Stop) :
    totalService (l₁ ++ l₂) = totalService l₁ + totalService l₂ := by
  simp [totalService]

theorem driveDuration_append (t : Int) (l₁ l₂ : List Stop) :
    driveDuration t (l₁ ++ l₂)
      = driveDuration t l₁ + driveDuration (drive t l₁).finish l₂ := by
  simp only [driveDuration, totalTravel_append, totalService_append, drive_append]; omega

theorem driveWarp_append (t : Int) (l₁ l₂ : List Stop) :
    driveWarp t (l₁ ++ l₂) = driveWarp t l₁ + driveWarp (drive t l₁).finish l₂ := by
  simp only [driveWarp, drive_append]

theorem drive_finish (t : Int) (l : List Stop) :
    (drive t l).finish = t + driveDuration t l - driveWarp t l := by
  induction l generalizing t with
  | nil => simp [drive, driveDuration, driveWarp, totalTravel, totalService]
  | cons s rest ih =>
    have := ih (s.begin t + s.service)
    simp only [driveDuration, driveWarp, totalTravel, totalService, drive, List.map_cons,
      List.sum_cons, Stop.begin, Stop.arrive] at *
    omega

theorem drive_delay (e t : Int) (l : List Stop) (h : l ≠ []) :
    drive t (delay e l) = drive (t + e) l := by
  cases l with
  | nil => exact absurd rfl h
  | cons s rest =>
    have : (t + (s.travel + e)) = t + e + s.travel := by omega
    simp only [delay, drive, Stop.wait, Stop.warp, Stop.begin, Stop.arrive, this]

theorem totalTravel_delay (e : Int) (l : List Stop) (h : l ≠ []) :
    totalTravel (delay e l) = e + totalTravel l := by
  cases l with
  | nil => exact absurd rfl h
  | cons s rest => simp only [delay, totalTravel, List.map_cons, List.sum_cons]; omega

theorem totalService_delay (e : Int) (l : List Stop) :
    totalService (delay e l) = totalService l := by
  cases l <;> simp [delay, totalService]

theorem driveDuration_delay (e t : Int) (l : List Stop) (h : l ≠ []) :
    driveDuration t (delay e l) = e + driveDuration (t + e) l := by
  simp only [driveDuration, drive_delay e t l h, totalTravel_delay e l h, totalService_delay]
  omega

theorem driveWarp_delay (e t : Int) (l : List Stop) (h : l ≠ []) :
    driveWarp t (delay e l) = driveWarp (t + e) l := by
  simp only [driveWarp, drive_delay e t l h]

theorem delay_ne_nil {e : Int} {l : List Stop} (h : l ≠ []) : delay e l ≠ [] := by
  cases l <;> simp_all [delay]

theorem delay_append {e : Int} {l r : List Stop} (h : l ≠ []) :
    delay e (l ++ r) = delay e l ++ r := by
  cases l <;> simp_all [delay]

end Spec

namespace DurSeg

/-- The current-trip fields of segment `s` represent driving the stops `l`. -/
def Rep (s : DurSeg) (l : List Stop) : Prop :=
  ∀ t, driveDuration t l = s.D t ∧ driveWarp t l = s.W t

theorem Rep.finish {s : DurSeg} {l : List Stop} (h : s.Rep l) (t : Int) :
    (drive t l).finish = s.fin t := by
  rw [drive_finish, (h t).1, (h t).2]; rfl

theorem Rep.merge {e : Int} {a b : DurSeg} {la lb : List Stop} (he : 0 ≤ e)
    (ha : a.Ok) (hb : b.Ok) (hla : a.Rep la) (hlb : b.Rep lb) (hne : lb ≠ []) :
    (merge e a b).Rep (la ++ delay e lb) := by
  intro t
  rw [merge_D he ha hb, merge_W he ha hb, driveDuration_append, driveWarp_append,
    hla.finish, driveDuration_delay _ _ _ hne, driveWarp_delay _ _ _ hne,
    (hla t).1, (hla t).2, (hlb _).1, (hlb _).2]
  omega

/-- A single visit. -/
theorem Rep.single {s : DurSeg} (h : s.Ok) (hw : s.timeWarp_ = 0) :
    s.Rep [⟨0, s.startEarly_, s.startLate_, s.duration_⟩] := by
  intro t
  have := h.el
  simp only [driveDuration, driveWarp, totalTravel, totalService, drive, Stop.wait, Stop.warp,
    Stop.arrive, D, W, List.map_cons, List.map_nil, List.sum_cons, List.sum_nil]
  omega

theorem Ok.finaliseFront {s : DurSeg} (h : s.Ok) (hr : s.releaseTime_ ≤ HALF) :
    s.finaliseFront.Ok := by
  obtain ⟨a1, a2, a3, a4, a5, a6, a7, a8⟩ := h
  have := MAX_eq; have := HALF_eq
  constructor <;> simp only [DurSeg.finaliseFront, DurSeg.merge, DurSeg.startEarly,
    DurSeg.startLate] <;> omega

theorem finaliseFront_fields {s : DurSeg} (h : s.Ok) :
    s.finaliseFront =
      { duration_ := s.duration_
        timeWarp_ := s.timeWarp_ + max (s.releaseTime_ - s.startLate_) 0
        startEarly_ := s.startEarly
        startLate_ := s.startLate } := by
  obtain ⟨a1, a2, a3, a4, a5, a6, a7, a8⟩ := h
  have := MAX_eq; have := HALF_eq
  simp only [DurSeg.finaliseFront, DurSeg.merge, DurSeg.startEarly, DurSeg.startLate,
    DurSeg.mk.injEq]
  refine ⟨?_, ?_, ?_, ?_, ?_, ?_, ?_, ?_⟩ <;> first | trivial | omega

/-- Finalising at the front delays the first stop until the release time. -/
theorem Rep.finaliseFront {s : DurSeg} {tr e l sv : Int} {rest : List Stop} (h : s.Ok)
    (hs : s.Rep (⟨tr, e, l, sv⟩ :: rest)) (htr : tr = 0) :
    s.finaliseFront.Rep (⟨tr, max e s.releaseTime_, l, sv⟩ :: rest) := by
  subst htr
  intro t
  have h1 := hs (max t s.releaseTime_)
  rw [finaliseFront_fields h]
  obtain ⟨a1, a2, a3, a4, a5, a6, a7, a8⟩ := h
  simp only [driveDuration, driveWarp, totalTravel, totalService, drive, Stop.wait, Stop.warp,
    Stop.arrive, Stop.begin, D, W, List.map_cons, List.sum_cons, DurSeg.startEarly,
    DurSeg.startLate] at *
  have hb : t + 0 + max (max e s.releaseTime_ - (t + 0)) 0
        - max (max (t + 0) (max e s.releaseTime_) - l) 0 + sv
      = max t s.releaseTime_ + 0 + max (e - (max t s.releaseTime_ + 0)) 0
        - max (max (max t s.releaseTime_ + 0) e - l) 0 + sv := by omega
  rw [hb]
  omega

end DurSeg
end PyVRP
