import Verif.Lemmas.SearchSolution
import Verif.Props.C26
/-!
# Shipments along a route, as a state machine

`WellFormed` says of each shipment that it is not on the route, or picked up once and later delivered
once without a depot in between. Going along the route, this is a small state machine, which makes it
easy to say what happens when activities are moved.
-/
namespace PyVRP
open Spec

/-- State of a shipment along a route. -/
inductive Phase where
  | waiting | aboard | done | bad
deriving DecidableEq, Repr

namespace Phase

/-- The next state of shipment `s`. -/
def step (s : Nat) (q : Phase) (a : Activity) : Phase :=
  match a.type with
  | .depot => if q = .aboard then .bad else q
  | .client => q
  | .pickup => if a.idx = s then (if q = .waiting then .aboard else .bad) else q
  | .delivery => if a.idx = s then (if q = .aboard then .done else .bad) else q

/-- The state after some activities. -/
def run (s : Nat) (q : Phase) (acts : List Activity) : Phase := acts.foldl (step s) q

/-- No activity is about shipment `s`. -/
def Free (s : Nat) (acts : List Activity) : Prop := ∀ a ∈ acts, ¬ Concerns s a

/-- No activity is a depot visit. -/
def NoDepot (acts : List Activity) : Prop := ∀ a ∈ acts, a.type ≠ .depot

@[simp] theorem run_nil (s : Nat) (q : Phase) : run s q [] = q := rfl
@[simp] theorem run_cons (s : Nat) (q : Phase) (a : Activity) (l : List Activity) :
    run s q (a :: l) = run s (step s q a) l := rfl
@[simp] theorem run_append (s : Nat) (q : Phase) (l m : List Activity) :
    run s q (l ++ m) = run s (run s q l) m := by simp [run, List.foldl_append]

theorem step_bad (s : Nat) (a : Activity) : step s .bad a = .bad := by
  obtain ⟨ty, i⟩ := a
  cases ty <;> simp [step]

theorem run_bad (s : Nat) (l : List Activity) : run s .bad l = .bad := by
  induction l with
  | nil => rfl
  | cons a l ih => rw [run_cons, step_bad, ih]

theorem step_pickup (s : Nat) : step s .waiting (pickupOf s) = .aboard := by simp [step, pickupOf]
theorem step_delivery (s : Nat) : step s .aboard (deliveryOf s) = .done := by simp [step, deliveryOf]

theorem step_free {s : Nat} {a : Activity} (h : ¬ Concerns s a) {q : Phase}
    (hq : q ≠ .aboard ∨ a.type ≠ .depot) : step s q a = q := by
  obtain ⟨ty, i⟩ := a
  cases ty <;> simp [step, Concerns, pickupOf, deliveryOf] at *
  · intro h'; exact absurd h' hq
  · intro h'; exact absurd h' h
  · intro h'; exact absurd h' h

theorem run_free {s : Nat} {l : List Activity} (h : Free s l) {q : Phase}
    (hq : q ≠ .aboard ∨ NoDepot l) : run s q l = q := by
  induction l with
  | nil => rfl
  | cons a l ih =>
    rw [run_cons, step_free (h a (by simp)) (hq.imp id (fun hn => hn a (by simp)))]
    exact ih (fun b hb => h b (by simp [hb])) (hq.imp id (fun hn b hb => hn b (by simp [hb])))

theorem run_ne_bad_prefix {s : Nat} {q : Phase} {l m : List Activity} (h : run s q (l ++ m) ≠ .bad) :
    run s q l ≠ .bad := by
  intro hb
  rw [run_append, hb, run_bad] at h
  exact h rfl

/-- Nothing more happens to a shipment that is done. -/
theorem free_of_done {s : Nat} {l : List Activity} (h : run s .done l ≠ .bad) : Free s l := by
  induction l with
  | nil => intro a ha; cases ha
  | cons a l ih =>
    rw [run_cons] at h
    have hc : ¬ Concerns s a := by
      rintro (rfl | rfl)
      · simp [step, pickupOf, run_bad] at h
      · simp [step, deliveryOf, run_bad] at h
    rw [step_free hc (.inl (by decide))] at h
    intro b hb
    rcases List.mem_cons.1 hb with rfl | hb
    · exact hc
    · exact ih h b hb

theorem run_done {s : Nat} {l : List Activity} (h : run s .done l ≠ .bad) : run s .done l = .done :=
  run_free (free_of_done h) (.inl (by decide))

/-- From `aboard`, the delivery comes before any depot. -/
theorem aboard_split {s : Nat} {l : List Activity} (h : run s .aboard l ≠ .bad) :
    (run s .aboard l = .aboard ∧ Free s l ∧ NoDepot l)
    ∨ ∃ m r, l = m ++ deliveryOf s :: r ∧ Free s m ∧ NoDepot m ∧ Free s r
      ∧ run s .aboard l = .done := by
  induction l with
  | nil => exact .inl ⟨rfl, fun a ha => (by cases ha), fun a ha => (by cases ha)⟩
  | cons a l ih =>
    rw [run_cons] at h ⊢
    by_cases hd : a = deliveryOf s
    · subst hd
      rw [step_delivery] at h ⊢
      exact .inr ⟨[], l, rfl, fun a ha => (by cases ha), fun a ha => (by cases ha),
        free_of_done h, run_done h⟩
    · have hc : ¬ Concerns s a := by
        rintro (rfl | rfl)
        · simp [step, pickupOf, run_bad] at h
        · exact hd rfl
      have hnd : a.type ≠ .depot := by
        intro hdep
        obtain ⟨ty, i⟩ := a
        cases hdep
        simp [step, run_bad] at h
      rw [step_free hc (.inr hnd)] at h ⊢
      rcases ih h with ⟨h1, h2, h3⟩ | ⟨m, r, rfl, h2, h3, h4, h5⟩
      · refine .inl ⟨h1, ?_, ?_⟩
        · intro b hb; rcases List.mem_cons.1 hb with rfl | hb
          · exact hc
          · exact h2 b hb
        · intro b hb; rcases List.mem_cons.1 hb with rfl | hb
          · exact hnd
          · exact h3 b hb
      · refine .inr ⟨a :: m, r, rfl, ?_, ?_, h4, h5⟩
        · intro b hb; rcases List.mem_cons.1 hb with rfl | hb
          · exact hc
          · exact h2 b hb
        · intro b hb; rcases List.mem_cons.1 hb with rfl | hb
          · exact hnd
          · exact h3 b hb

/-- From `waiting`, the pickup comes first, if any. -/
theorem waiting_split {s : Nat} {l : List Activity} (h : run s .waiting l ≠ .bad) :
    (run s .waiting l = .waiting ∧ Free s l)
    ∨ ∃ m r, l = m ++ pickupOf s :: r ∧ Free s m ∧ run s .waiting l = run s .aboard r := by
  induction l with
  | nil => exact .inl ⟨rfl, fun a ha => (by cases ha)⟩
  | cons a l ih =>
    rw [run_cons] at h ⊢
    by_cases hd : a = pickupOf s
    · subst hd
      rw [step_pickup] at h ⊢
      exact .inr ⟨[], l, rfl, fun a ha => (by cases ha), rfl⟩
    · have hc : ¬ Concerns s a := by
        rintro (rfl | rfl)
        · exact hd rfl
        · simp [step, deliveryOf, run_bad] at h
      rw [step_free hc (.inl (by decide))] at h ⊢
      rcases ih h with ⟨h1, h2⟩ | ⟨m, r, rfl, h2, h3⟩
      · refine .inl ⟨h1, ?_⟩
        intro b hb; rcases List.mem_cons.1 hb with rfl | hb
        · exact hc
        · exact h2 b hb
      · refine .inr ⟨a :: m, r, rfl, ?_, h3⟩
        intro b hb; rcases List.mem_cons.1 hb with rfl | hb
        · exact hc
        · exact h2 b hb

/-- The state in which a shipment may be at the end of a route. -/
def Ok (q : Phase) : Prop := q = .waiting ∨ q = .done

theorem Ok.ne_bad {q : Phase} (h : Ok q) : q ≠ .bad := by rcases h with h | h <;> rw [h] <;> decide

instance (q : Phase) : Decidable (Ok q) := inferInstanceAs (Decidable (_ ∨ _))

theorem ok_iff (s : Nat) (acts : List Activity) :
    Ok (run s .waiting acts) ↔ (∀ a ∈ acts, ¬ Concerns s a) ∨ Served s acts := by
  constructor
  · intro h
    rcases waiting_split h.ne_bad with ⟨-, h2⟩ | ⟨m, r, rfl, h2, h3⟩
    · exact .inl h2
    · rw [h3] at h
      rcases aboard_split h.ne_bad with ⟨h4, -, -⟩ | ⟨m', r', rfl, h5, h6, h7, -⟩
      · rw [h4] at h; exact absurd h (by decide)
      · refine .inr ⟨m, m', r', by simp, h6, ?_⟩
        intro a ha
        simp only [List.mem_append] at ha
        rcases ha with (ha | ha) | ha
        · exact h2 a ha
        · exact h5 a ha
        · exact h7 a ha
  · rintro (h | ⟨before, between, after, rfl, hb, hc⟩)
    · left; exact run_free h (.inl (by decide))
    · right
      have h1 : Free s before := fun a ha => hc a (by simp [ha])
      have h2 : Free s between := fun a ha => hc a (by simp [ha])
      have h3 : Free s after := fun a ha => hc a (by simp [ha])
      simp only [List.append_assoc, List.cons_append, run_append, run_cons]
      rw [run_free h1 (.inl (by decide)), step_pickup, run_free h2 (.inr hb), step_delivery,
        run_free h3 (.inl (by decide))]

end Phase

/-! ## Routes that may be one of a solution -/

/-- What the search keeps true of the activities of a route. -/
structure RouteOk (data : ProblemData) (v : VehicleType) (acts : List Activity) : Prop where
  inRange : ∀ a ∈ acts, InRange data a
  ships : ∀ s, Phase.Ok (Phase.run s .waiting acts)
  trips : depotVisits acts + 1 ≤ v.maxTrips

theorem RouteOk.wellFormed {data : ProblemData} {v : VehicleType} {acts : List Activity}
    (h : RouteOk data v acts) : WellFormed data v acts := by
  refine ⟨h.inRange, fun s => (Phase.ok_iff s acts).1 (h.ships s), ?_⟩
  have := h.trips
  unfold VehicleType.maxTrips at this
  unfold reloadLimit
  split at this <;> simp_all
  omega

theorem Spec.WellFormed.routeOk {data : ProblemData} {v : VehicleType} {acts : List Activity}
    (h : WellFormed data v acts) (hs : depotVisits acts < SIZE_MAX) : RouteOk data v acts := by
  refine ⟨h.inRange, fun s => (Phase.ok_iff s acts).2 (h.shipments s), ?_⟩
  have h1 := h.reloads
  unfold VehicleType.maxTrips
  unfold reloadLimit at h1
  unfold SIZE_MAX at *
  split at h1 <;> simp_all
  omega

end PyVRP
