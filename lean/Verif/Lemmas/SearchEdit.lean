import Verif.Lemmas.Phase
import Verif.Model.SearchInsert
/-!
# Editing the routes of a search solution
-/
namespace PyVRP
open Spec

/-- Route `i` replaced by `acts`. -/
theorem getD_set (plan : List (List Activity)) (i : Nat) (acts : List Activity) (j : Nat) :
    (plan.set i acts).getD j [] = if j = i ∧ i < plan.length then acts else plan.getD j [] := by
  simp only [List.getD_eq_getElem?_getD, List.getElem?_set]
  by_cases h : i = j
  · subst h
    by_cases h' : i < plan.length
    · simp [h']
    · simp [h']
  · have : ¬ j = i := fun h' => h h'.symm
    simp [h, this]

theorem getD_set_self {plan : List (List Activity)} {i : Nat} (h : i < plan.length)
    (acts : List Activity) : (plan.set i acts).getD i [] = acts := by
  rw [getD_set, if_pos ⟨rfl, h⟩]

theorem getD_set_ne (plan : List (List Activity)) {i j : Nat} (h : j ≠ i) (acts : List Activity) :
    (plan.set i acts).getD j [] = plan.getD j [] := by
  rw [getD_set, if_neg (fun h' => h h'.1)]

theorem set_getD_self (plan : List (List Activity)) (i : Nat) :
    plan.set i (plan.getD i []) = plan := by
  apply List.ext_getElem?
  intro j
  simp only [List.getElem?_set, List.getD_eq_getElem?_getD]
  by_cases h : i = j
  · subst h
    by_cases h' : i < plan.length
    · simp [h']
    · simp [h']
  · simp [h]

namespace SSol

variable {data : ProblemData}

/-! ## Where a node is -/

theorem find_inner (a : Activity) : ∀ (xs ys : List Activity) (pos trip : Nat), a ∉ xs →
    ∃ n, (innerNodes pos trip (xs ++ a :: ys)).find? (fun n => n.activity == a) = some n
      ∧ n.pos = pos + xs.length := by
  intro xs
  induction xs with
  | nil =>
    intro ys pos trip _
    simp only [List.nil_append, innerNodes, List.find?_cons]
    simp
  | cons x xs ih =>
    intro ys pos trip h
    have hx : (x == a) = false := by
      simp only [beq_eq_false_iff_ne]; intro h'; exact h (by simp [h'])
    simp only [List.cons_append, innerNodes, List.find?_cons, hx]
    obtain ⟨n, h1, h2⟩ := ih ys (pos + 1) (if x.type = .depot then trip + 1 else trip)
      (fun h' => h (by simp [h']))
    exact ⟨n, h1, by rw [h2, List.length_cons]; omega⟩

theorem find_canon {v : VehicleType} {xs ys : List Activity} {a : Activity} (ha : a.type ≠ .depot)
    (h : a ∉ xs) :
    ((((canon v (xs ++ a :: ys)).find? (fun n => n.activity == a))).getD default).pos
      = xs.length + 1 := by
  obtain ⟨n, h1, h2⟩ := find_inner a xs ys 1 0 h
  have hs : ((startNode v).activity == a) = false := by
    simp only [beq_eq_false_iff_ne]; intro h'; rw [← h'] at ha; exact ha rfl
  unfold canon
  rw [List.find?_cons, hs, List.find?_append, h1]
  simp [h2]; omega

/-- A node that is in the plan is where the plan says. -/
theorem Holds.place {plan : List (List Activity)} {s : SSol} (h : Holds data plan s) {i : Nat}
    (hi : i < data.numVehicles) {xs ys : List Activity} {a : Activity} (ha : a.type ≠ .depot)
    (he : plan.getD i [] = xs ++ a :: ys) : s.place a = some (i, xs.length + 1) := by
  have ho : s.owner a = some i := (h.owner a ha i).2 (by rw [he]; simp)
  have hx : a ∉ xs := by
    intro hx
    have := h.once a ha i
    rw [he, List.count_append, List.count_cons_self] at this
    have := List.count_pos_iff.2 hx
    omega
  have hv := h.visits i hi
  rw [he] at hv
  unfold SRoute.Visits at hv
  simp only [SSol.place, ho, hv, find_canon ha hx]

theorem Holds.place_none {plan : List (List Activity)} {s : SSol} (h : Holds data plan s)
    {a : Activity} (ha : ∀ i, a ∉ plan.getD i []) : s.place a = none := by
  have ho : s.owner a = none := by
    by_cases hd : a.type = .depot
    · exact owner_depot s hd
    · cases ho : s.owner a with
      | none => rfl
      | some i => exact absurd ((h.owner a hd i).1 ho) (ha i)
  simp only [SSol.place, ho]

theorem Holds.lt_of_mem {plan : List (List Activity)} {s : SSol} (h : Holds data plan s) {i : Nat}
    {a : Activity} (ha : a ∈ plan.getD i []) : i < data.numVehicles := by
  rcases Nat.lt_or_ge i data.numVehicles with hi | hi
  · exact hi
  · rw [List.getD_eq_getElem?_getD, List.getElem?_eq_none (by rw [h.length]; exact hi)] at ha
    cases ha

/-- Where a node is, if it is anywhere. -/
theorem Holds.place_some {plan : List (List Activity)} {s : SSol} (h : Holds data plan s)
    {a : Activity} {i p : Nat} (hp : s.place a = some (i, p)) :
    i < data.numVehicles ∧ a.type ≠ .depot ∧
      ∃ xs ys, plan.getD i [] = xs ++ a :: ys ∧ p = xs.length + 1 := by
  have ha : a.type ≠ .depot := by
    intro hd
    simp [SSol.place, owner_depot s hd] at hp
  have ho : s.owner a = some i := by
    unfold SSol.place at hp
    cases ho : s.owner a with
    | none => simp [ho] at hp
    | some j => simp [ho] at hp; rw [hp.1]
  have hm := (h.owner a ha i).1 ho
  have hi := h.lt_of_mem hm
  obtain ⟨xs, ys, he⟩ := List.append_of_mem hm
  refine ⟨hi, ha, xs, ys, he, ?_⟩
  rw [h.place hi ha he] at hp
  simp at hp
  exact hp.symm

/-- A node is in at most one route. -/
theorem Holds.unique {plan : List (List Activity)} {s : SSol} (h : Holds data plan s) {i j : Nat}
    {a : Activity} (ha : a.type ≠ .depot) (hi : a ∈ plan.getD i []) (hj : a ∈ plan.getD j []) :
    i = j := by
  have h1 := (h.owner a ha i).2 hi
  have h2 := (h.owner a ha j).2 hj
  rw [h1] at h2
  exact Option.some.inj h2

theorem Holds.once' {plan : List (List Activity)} {s : SSol} (h : Holds data plan s) {i : Nat}
    {a : Activity} (ha : a.type ≠ .depot) {xs ys : List Activity}
    (he : plan.getD i [] = xs ++ a :: ys) : a ∉ xs ∧ a ∉ ys := by
  have := h.once a ha i
  rw [he, List.count_append, List.count_cons_self] at this
  constructor
  · intro hx; have := List.count_pos_iff.2 hx; omega
  · intro hx; have := List.count_pos_iff.2 hx; omega

/-! ## Inserting, removing, updating -/

/-- All statistics are up to date, except perhaps of routes in `D`. -/
def CleanBut (data : ProblemData) (D : Nat → Prop) (plan : List (List Activity)) (s : SSol) : Prop :=
  Holds data plan s ∧ ∀ i, i < data.numVehicles → ¬ D i →
    s.route i = SRoute.ofActs data (vehTypeAt data i) (plan.getD i [])

theorem Clean.but {plan : List (List Activity)} {s : SSol} (h : Clean data plan s) (D : Nat → Prop) :
    CleanBut data D plan s := ⟨h.1, fun i hi _ => h.2 i hi⟩

theorem CleanBut.clean {plan : List (List Activity)} {s : SSol} {D : Nat → Prop}
    (h : CleanBut data D plan s) (hD : ∀ i, i < data.numVehicles → ¬ D i) : Clean data plan s :=
  ⟨h.1, fun i hi => h.2 i hi (hD i hi)⟩

theorem CleanBut.weaken {plan : List (List Activity)} {s : SSol} {D D' : Nat → Prop}
    (h : CleanBut data D plan s) (hD : ∀ i, i < data.numVehicles → D i → D' i) :
    CleanBut data D' plan s := ⟨h.1, fun i hi hn => h.2 i hi (fun hd => hn (hD i hi hd))⟩

/-- Inserting an activity that is not in any route, or a depot. -/
theorem CleanBut.insert {plan : List (List Activity)} {s : SSol} {D : Nat → Prop}
    (h : CleanBut data D plan s) {i : Nat} (hi : i < data.numVehicles) {xs ys : List Activity}
    (he : plan.getD i [] = xs ++ ys) {a : Activity}
    (ha : a.type = .depot ∨ (IsTask data a ∧ ∀ j, a ∉ plan.getD j []))
    (htrips : depotVisits (xs ++ a :: ys) + 1 ≤ (data.vehicleType (vehTypeAt data i)).maxTrips) :
    ∃ s', s.insertAt data i (xs.length + 1) a = .ok s'
      ∧ CleanBut data (fun j => D j ∨ j = i) (plan.set i (xs ++ a :: ys)) s' := by
  obtain ⟨h, hclean⟩ := h
  have hv := h.visits i hi
  rw [he] at hv
  have hil : i < plan.length := by rw [h.length]; exact hi
  obtain ⟨s', k1, k2, k3, k4, k5, k6⟩ := insertAt_spec h.sized hi hv a (by rw [h.types i hi]; exact htrips)
  refine ⟨s', k1, ⟨k2, by simp [h.length], ?_, ?_, ?_, ?_⟩, ?_⟩
  · intro j hj
    by_cases hji : j = i
    · subst hji; rw [k4]; exact h.types j hj
    · rw [k5 j hji]; exact h.types j hj
  · intro j hj
    by_cases hji : j = i
    · subst hji; rw [getD_set_self hil]; exact k3
    · rw [k5 j hji, getD_set_ne _ hji]; exact h.visits j hj
  · intro b hb j
    rw [k6]
    have hown := h.owner b hb
    by_cases hba : b = a
    · subst hba
      rcases ha with ha | ⟨ht, hn⟩
      · exact absurd ha hb
      · rw [if_pos ⟨rfl, ht⟩]
        by_cases hji : j = i
        · subst hji; rw [getD_set_self hil]; simp
        · rw [getD_set_ne _ hji]
          constructor
          · intro h'; exact absurd (Option.some.inj h').symm hji
          · intro h'; exact absurd h' (hn j)
    · rw [if_neg (fun h' => hba h'.1), hown j]
      by_cases hji : j = i
      · subst hji; rw [getD_set_self hil, he]; simp [hba]
      · rw [getD_set_ne _ hji]
  · intro b hb j
    by_cases hji : j = i
    · subst hji
      rw [getD_set_self hil]
      have h1 := h.once b hb j
      rw [he] at h1
      simp only [List.count_append, List.count_cons] at h1 ⊢
      by_cases hba : a = b
      · subst hba
        rcases ha with ha | ⟨ht, hn⟩
        · exact absurd ha hb
        · have := hn j
          rw [he] at this
          have h2 : xs.count a = 0 := List.count_eq_zero.2 (fun h' => this (by simp [h']))
          have h3 : ys.count a = 0 := List.count_eq_zero.2 (fun h' => this (by simp [h']))
          simp [h2, h3]
      · simp [hba]; exact h1
    · rw [getD_set_ne _ hji]; exact h.once b hb j
  · intro j hj hD
    have hji : j ≠ i := fun h' => hD (.inr h')
    rw [k5 j hji, getD_set_ne _ hji]
    exact hclean j hj (fun h' => hD (.inl h'))

/-- Removing an activity. -/
theorem CleanBut.remove {plan : List (List Activity)} {s : SSol} {D : Nat → Prop}
    (h : CleanBut data D plan s) {i : Nat} (hi : i < data.numVehicles) {xs ys : List Activity}
    {a : Activity} (he : plan.getD i [] = xs ++ a :: ys) :
    CleanBut data (fun j => D j ∨ j = i) (plan.set i (xs ++ ys)) (s.removeAt i (xs.length + 1)) := by
  obtain ⟨h, hclean⟩ := h
  have hv := h.visits i hi
  rw [he] at hv
  have hil : i < plan.length := by rw [h.length]; exact hi
  obtain ⟨k2, k3, k4, k5, k6⟩ := removeAt_spec h.sized hi hv
  refine ⟨⟨k2, by simp [h.length], ?_, ?_, ?_, ?_⟩, ?_⟩
  · intro j hj
    by_cases hji : j = i
    · subst hji; rw [k4]; exact h.types j hj
    · rw [k5 j hji]; exact h.types j hj
  · intro j hj
    by_cases hji : j = i
    · subst hji; rw [getD_set_self hil]; exact k3
    · rw [k5 j hji, getD_set_ne _ hji]; exact h.visits j hj
  · intro b hb j
    rw [k6]
    have hown := h.owner b hb
    by_cases hba : b = a
    · subst hba
      have ho : s.owner b = some i := (hown i).2 (by rw [he]; simp)
      rw [if_pos ⟨rfl, owner_task h.sized ho⟩]
      constructor
      · intro h'; cases h'
      · intro h'
        by_cases hji : j = i
        · subst hji
          rw [getD_set_self hil] at h'
          obtain ⟨h1, h2⟩ := h.once' hb he
          rcases List.mem_append.1 h' with h' | h'
          · exact absurd h' h1
          · exact absurd h' h2
        · rw [getD_set_ne _ hji] at h'
          exact absurd (h.unique hb h' (by rw [he]; simp)) hji
    · rw [if_neg (fun h' => hba h'.1), hown j]
      by_cases hji : j = i
      · subst hji; rw [getD_set_self hil, he]; simp [hba]
      · rw [getD_set_ne _ hji]
  · intro b hb j
    by_cases hji : j = i
    · subst hji
      rw [getD_set_self hil]
      have h1 := h.once b hb j
      rw [he] at h1
      simp only [List.count_append, List.count_cons] at h1 ⊢
      omega
    · rw [getD_set_ne _ hji]; exact h.once b hb j
  · intro j hj hD
    have hji : j ≠ i := fun h' => hD (.inr h')
    rw [k5 j hji, getD_set_ne _ hji]
    exact hclean j hj (fun h' => hD (.inl h'))

/-- Updating a route. -/
theorem CleanBut.update {plan : List (List Activity)} {s : SSol} {D : Nat → Prop}
    (h : CleanBut data D plan s) {i : Nat} (hi : i < data.numVehicles) :
    CleanBut data (fun j => D j ∧ j ≠ i) plan (s.updateRoute data i) := by
  obtain ⟨h, hclean⟩ := h
  obtain ⟨k1, k2, k3, k4⟩ := updateRoute_spec h.sized hi (h.visits i hi)
  rw [h.types i hi] at k2
  refine ⟨⟨k1, h.length, ?_, ?_, ?_, h.once⟩, ?_⟩
  · intro j hj
    by_cases hji : j = i
    · subst hji; rw [k2]; rfl
    · rw [k3 j hji]; exact h.types j hj
  · intro j hj
    by_cases hji : j = i
    · subst hji; rw [k2]; exact (SRoute.ofActs_visits _ _ _).1
    · rw [k3 j hji]; exact h.visits j hj
  · intro b hb j; rw [k4]; exact h.owner b hb j
  · intro j hj hD
    by_cases hji : j = i
    · subst hji; exact k2
    · rw [k3 j hji]; exact hclean j hj (fun h' => hD ⟨h', hji⟩)

/-- Clearing an up-to-date route that holds no clients or shipments. -/
theorem CleanBut.clear {plan : List (List Activity)} {s : SSol} {D : Nat → Prop}
    (h : CleanBut data D plan s) {i : Nat} (hi : i < data.numVehicles) (hD : ¬ D i)
    (he : ∀ a ∈ plan.getD i [], a.type = .depot) :
    CleanBut data D (plan.set i []) (s.clearRoute data i) := by
  obtain ⟨h, hclean⟩ := h
  have hil : i < plan.length := by rw [h.length]; exact hi
  obtain ⟨k1, k2, k3, k4⟩ := clearRoute_spec h.sized hi (hclean i hi hD)
  have k4' : ∀ b, (s.clearRoute data i).owner b = s.owner b := by
    intro b
    rw [k4]
    split
    · rename_i hb
      exact (absurd (he b hb.2) (owner_task h.sized hb.1).1)
    · rfl
  refine ⟨⟨k1, by simp [h.length], ?_, ?_, ?_, ?_⟩, ?_⟩
  · intro j hj
    by_cases hji : j = i
    · subst hji; rw [k2]; rfl
    · rw [k3 j hji]; exact h.types j hj
  · intro j hj
    by_cases hji : j = i
    · subst hji; rw [k2, getD_set_self hil]; exact (SRoute.ofActs_visits _ _ _).1
    · rw [k3 j hji, getD_set_ne _ hji]; exact h.visits j hj
  · intro b hb j
    rw [k4', h.owner b hb j]
    by_cases hji : j = i
    · subst hji
      rw [getD_set_self hil]
      constructor
      · intro h'; exact absurd (he b h') hb
      · intro h'; cases h'
    · rw [getD_set_ne _ hji]
  · intro b hb j
    by_cases hji : j = i
    · subst hji; rw [getD_set_self hil]; simp
    · rw [getD_set_ne _ hji]; exact h.once b hb j
  · intro j hj hDj
    by_cases hji : j = i
    · subst hji; rw [k2, getD_set_self hil]
    · rw [k3 j hji, getD_set_ne _ hji]; exact hclean j hj hDj

end SSol
end PyVRP
