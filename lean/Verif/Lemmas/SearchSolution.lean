import Verif.Model.SearchSolution
import Verif.Lemmas.RandomSolution
import Verif.Props.C43
/-!
# Lemmas about the solutions of the local search
-/
namespace PyVRP
open Spec

instance (data : ProblemData) (a : Activity) : Decidable (InRange data a) := by
  unfold InRange; split <;> infer_instance

instance (data : ProblemData) (a : Activity) : Decidable (IsTask data a) :=
  inferInstanceAs (Decidable (_ ∧ _))

/-! ## Vehicle types of the routes -/

/-- The vehicle type of route `idx`. -/
def vehTypeAt (data : ProblemData) (idx : Nat) : Nat := (Solution.allVehTypes data).getD idx 0

/-- The vehicle types of the routes of the first `n` vehicle types. -/
def vehTypesUpTo (data : ProblemData) (n : Nat) : List Nat :=
  (List.range n).flatMap (fun v => List.replicate (data.vehicleType v).numAvailable v)

theorem vehTypesUpTo_succ (data : ProblemData) (n : Nat) :
    vehTypesUpTo data (n + 1)
      = vehTypesUpTo data n ++ List.replicate (data.vehicleType n).numAvailable n := by
  simp [vehTypesUpTo, List.range_succ]

theorem vehiclesBefore_succ (data : ProblemData) {n : Nat} (h : n < data.numVehicleTypes) :
    vehiclesBefore data (n + 1) = vehiclesBefore data n + (data.vehicleType n).numAvailable := by
  unfold vehiclesBefore
  have h' : n < data.vehicleTypes.length := h
  rw [List.take_succ_eq_append_getElem h', List.map_append, List.sum_append]
  simp [ProblemData.vehicleType, List.getD_eq_getElem?_getD, h']

theorem vehTypesUpTo_length (data : ProblemData) {n : Nat} (h : n ≤ data.numVehicleTypes) :
    (vehTypesUpTo data n).length = vehiclesBefore data n := by
  induction n with
  | zero => simp [vehTypesUpTo, vehiclesBefore]
  | succ n ih =>
    rw [vehTypesUpTo_succ, List.length_append, ih (by omega), vehiclesBefore_succ data (by omega)]
    simp

theorem vehTypesUpTo_prefix (data : ProblemData) {t n : Nat} (h : t ≤ n) :
    ∃ rest, vehTypesUpTo data n = vehTypesUpTo data t ++ rest := by
  induction n with
  | zero => exact ⟨[], by simp [Nat.le_zero.1 h]⟩
  | succ n ih =>
    rcases Nat.lt_or_ge n t with h' | h'
    · have : t = n + 1 := by omega
      subst this; exact ⟨[], by simp⟩
    · obtain ⟨rest, hr⟩ := ih h'
      exact ⟨rest ++ List.replicate (data.vehicleType n).numAvailable n, by
        rw [vehTypesUpTo_succ, hr, List.append_assoc]⟩

theorem vehiclesBefore_all (data : ProblemData) :
    vehiclesBefore data data.numVehicleTypes = data.numVehicles := by
  simp [vehiclesBefore, ProblemData.numVehicleTypes, ProblemData.numVehicles]

theorem vehiclesBefore_mono (data : ProblemData) {t n : Nat} (h : t ≤ n)
    (hn : n ≤ data.numVehicleTypes) : vehiclesBefore data t ≤ vehiclesBefore data n := by
  rw [← vehTypesUpTo_length data hn, ← vehTypesUpTo_length data (Nat.le_trans h hn)]
  obtain ⟨rest, hr⟩ := vehTypesUpTo_prefix data h
  rw [hr, List.length_append]
  omega

/-- The `k`th vehicle of type `t`. -/
theorem vehTypeAt_block (data : ProblemData) {t k : Nat} (ht : t < data.numVehicleTypes)
    (hk : k < (data.vehicleType t).numAvailable) :
    vehTypeAt data (vehiclesBefore data t + k) = t
    ∧ vehiclesBefore data t + k < data.numVehicles := by
  have hl := vehTypesUpTo_length data (n := t) (by omega)
  have hs := vehiclesBefore_succ data ht
  have hm := vehiclesBefore_mono data (t := t + 1) (n := data.numVehicleTypes) ht (Nat.le_refl _)
  rw [vehiclesBefore_all] at hm
  refine ⟨?_, by omega⟩
  obtain ⟨rest, hr⟩ := vehTypesUpTo_prefix data (t := t + 1) (n := data.numVehicleTypes) ht
  have : Solution.allVehTypes data = vehTypesUpTo data data.numVehicleTypes := rfl
  rw [vehTypeAt, this, hr, vehTypesUpTo_succ, List.append_assoc, List.getD_eq_getElem?_getD,
    List.getElem?_append_right (by omega), List.getElem?_append_left (by simp; omega), hl]
  simp [List.getElem?_replicate, hk]

/-- Every route index is that of some vehicle of some type. -/
theorem vehTypeAt_exists (data : ProblemData) {idx : Nat} (h : idx < data.numVehicles) :
    ∃ t k, t < data.numVehicleTypes ∧ k < (data.vehicleType t).numAvailable
      ∧ idx = vehiclesBefore data t + k ∧ vehTypeAt data idx = t := by
  have : ∀ n, n ≤ data.numVehicleTypes → idx < vehiclesBefore data n →
      ∃ t k, t < data.numVehicleTypes ∧ k < (data.vehicleType t).numAvailable
        ∧ idx = vehiclesBefore data t + k := by
    intro n
    induction n with
    | zero => intro _ h0; simp [vehiclesBefore] at h0
    | succ n ih =>
      intro hn hlt
      rcases Nat.lt_or_ge idx (vehiclesBefore data n) with h' | h'
      · exact ih (by omega) h'
      · have := vehiclesBefore_succ data (n := n) (by omega)
        exact ⟨n, idx - vehiclesBefore data n, by omega, by omega, by omega⟩
  obtain ⟨t, k, h1, h2, h3⟩ := this _ (Nat.le_refl _) (by rw [vehiclesBefore_all]; exact h)
  refine ⟨t, k, h1, h2, h3, ?_⟩
  rw [h3]
  exact (vehTypeAt_block data h1 h2).1

theorem vehTypeAt_lt (data : ProblemData) {idx : Nat} (h : idx < data.numVehicles) :
    vehTypeAt data idx < data.numVehicleTypes := by
  obtain ⟨t, k, h1, -, -, h4⟩ := vehTypeAt_exists data h
  omega

/-- Vehicles of different types, or different vehicles of a type, have different indices. -/
theorem block_inj (data : ProblemData) {t k t' k' : Nat} (ht : t < data.numVehicleTypes)
    (hk : k < (data.vehicleType t).numAvailable) (ht' : t' < data.numVehicleTypes)
    (hk' : k' < (data.vehicleType t').numAvailable)
    (h : vehiclesBefore data t + k = vehiclesBefore data t' + k') : t = t' ∧ k = k' := by
  have h1 := (vehTypeAt_block data ht hk).1
  have h2 := (vehTypeAt_block data ht' hk').1
  rw [h, h2] at h1
  subst h1
  exact ⟨rfl, by omega⟩

namespace SSol

/-! ## Which route a node is in -/

theorem owner_depot (s : SSol) {a : Activity} (h : a.type = .depot) : s.owner a = none := by
  simp [owner, h]

/-- There is a node for each client and two for each shipment. -/
structure Sized (data : ProblemData) (s : SSol) : Prop where
  clients : s.clients.length = data.numClients
  shipments : s.shipments.length = data.numShipments
  routes : s.routes.length = data.numVehicles

theorem owner_setOwner {data : ProblemData} {s : SSol} (hs : Sized data s) (a b : Activity)
    (x : Option Nat) :
    (s.setOwner a x).owner b = if b = a ∧ IsTask data a then x else s.owner b := by
  obtain ⟨h1, h2, -⟩ := hs
  obtain ⟨ty, i⟩ := a
  obtain ⟨ty', j⟩ := b
  have e1 : data.clients.length = s.clients.length := h1.symm
  have e2 : data.shipments.length = s.shipments.length := h2.symm
  cases ty <;> cases ty' <;>
    simp only [setOwner, owner, IsTask, InRange, e1, e2, Activity.mk.injEq, reduceCtorEq, ne_eq,
      not_true_eq_false, not_false_eq_true, false_and, and_false, true_and, if_false,
      List.getD_eq_getElem?_getD, List.getElem?_set, List.getElem?_modify]
  all_goals
    by_cases hij : j = i
    · subst hij
      simp only [if_true, true_and]
      by_cases hj : j < s.clients.length <;> by_cases hj' : j < s.shipments.length <;>
        simp [hj, hj']
    · have : ¬ i = j := fun h => hij h.symm
      simp [hij, this]

theorem setOwner_routes (s : SSol) (a : Activity) (x : Option Nat) :
    (s.setOwner a x).routes = s.routes := by
  unfold setOwner; split <;> rfl

theorem Sized.setOwner {data : ProblemData} {s : SSol} (hs : Sized data s) (a : Activity)
    (x : Option Nat) : Sized data (s.setOwner a x) := by
  obtain ⟨h1, h2, h3⟩ := hs
  refine ⟨?_, ?_, by rw [setOwner_routes]; exact h3⟩
  all_goals (unfold SSol.setOwner; split <;> simp_all)

theorem owner_task {data : ProblemData} {s : SSol} (hs : Sized data s) {a : Activity} {i : Nat}
    (h : s.owner a = some i) : IsTask data a := by
  obtain ⟨h1, h2, -⟩ := hs
  obtain ⟨ty, k⟩ := a
  have e1 : data.clients.length = s.clients.length := h1.symm
  have e2 : data.shipments.length = s.shipments.length := h2.symm
  cases ty <;> simp [owner, IsTask, InRange, e1, e2] at h ⊢
  all_goals
    rcases Nat.lt_or_ge k _ with hk | hk
    · exact hk
    · simp [List.getElem?_eq_none hk] at h

theorem route_setRoute (s : SSol) (idx : Nat) (r : SRoute) (j : Nat) :
    (s.setRoute idx r).route j = if j = idx ∧ idx < s.routes.length then r else s.route j := by
  simp only [route, setRoute, List.getD_eq_getElem?_getD, List.getElem?_set]
  by_cases h : idx = j
  · subst h
    by_cases h' : idx < s.routes.length
    · simp [h']
    · simp [h']
  · have : ¬ j = idx := fun h' => h h'.symm
    simp [h, this]

theorem owner_setRoute (s : SSol) (idx : Nat) (r : SRoute) (a : Activity) :
    (s.setRoute idx r).owner a = s.owner a := rfl

theorem route_setOwner (s : SSol) (a : Activity) (x : Option Nat) (j : Nat) :
    (s.setOwner a x).route j = s.route j := by
  unfold route; rw [setOwner_routes]

theorem Sized.setRoute {data : ProblemData} {s : SSol} (hs : Sized data s) (idx : Nat)
    (r : SRoute) : Sized data (s.setRoute idx r) :=
  ⟨hs.clients, hs.shipments, by simpa [SSol.setRoute] using hs.routes⟩

/-! ## What the operations do to owners and routes -/

theorem unassignNodes_spec {data : ProblemData} {s : SSol} (hs : Sized data s) (idx : Nat)
    (nodes : List SNode) :
    Sized data (unassignNodes idx s nodes)
    ∧ (unassignNodes idx s nodes).routes = s.routes
    ∧ ∀ a, (unassignNodes idx s nodes).owner a
        = if s.owner a = some idx ∧ a ∈ nodes.map (·.activity) then none else s.owner a := by
  induction nodes generalizing s with
  | nil => exact ⟨hs, rfl, fun a => by simp [unassignNodes]⟩
  | cons n rest ih =>
    simp only [unassignNodes]
    by_cases h : s.owner n.activity = some idx
    · rw [if_pos h]
      have ht := owner_task hs h
      obtain ⟨k1, k2, k3⟩ := ih (hs.setOwner n.activity none)
      refine ⟨k1, by rw [k2, setOwner_routes], fun a => ?_⟩
      rw [k3, owner_setOwner hs]
      by_cases ha : a = n.activity
      · subst ha; simp [ht, h]
      · simp [ha]
    · rw [if_neg h]
      obtain ⟨k1, k2, k3⟩ := ih hs
      refine ⟨k1, k2, fun a => ?_⟩
      rw [k3]
      by_cases ha : a = n.activity
      · subst ha; simp [h]
      · simp [ha]

/-- `insert` of a node that may be inserted. -/
theorem insertAt_spec {data : ProblemData} {s : SSol} (hs : Sized data s) {idx : Nat}
    (hidx : idx < data.numVehicles) {xs ys : List Activity}
    (hv : (s.route idx).Visits data (xs ++ ys)) (a : Activity)
    (htrips : depotVisits (xs ++ a :: ys) + 1
      ≤ (data.vehicleType (s.route idx).vehicleType).maxTrips) :
    ∃ s', s.insertAt data idx (xs.length + 1) a = .ok s' ∧ Sized data s'
      ∧ (s'.route idx).Visits data (xs ++ a :: ys)
      ∧ (s'.route idx).vehicleType = (s.route idx).vehicleType
      ∧ (∀ j, j ≠ idx → s'.route j = s.route j)
      ∧ (∀ b, s'.owner b = if b = a ∧ IsTask data a then some idx else s.owner b) := by
  have h := SRoute.insert_visits hv a
  simp only at h
  rw [if_neg (by omega)] at h
  obtain ⟨r', h1, h2, h3⟩ := h
  have hs' := hs.setOwner a (some idx)
  have hlen : idx < (s.setOwner a (some idx)).routes.length := by
    rw [setOwner_routes, hs.routes]; exact hidx
  refine ⟨_, by simp only [insertAt, h1]; rfl, hs'.setRoute _ _, ?_, ?_, ?_, ?_⟩
  · rw [route_setRoute, if_pos ⟨rfl, hlen⟩]; exact h3
  · rw [route_setRoute, if_pos ⟨rfl, hlen⟩]; exact h2
  · intro j hj; rw [route_setRoute, if_neg (fun h => hj h.1), route_setOwner]
  · intro b; rw [owner_setRoute, owner_setOwner hs]

/-- `insert` of a node that exceeds the number of trips. -/
theorem insertAt_error {data : ProblemData} {s : SSol} {idx : Nat} {xs ys : List Activity}
    (hv : (s.route idx).Visits data (xs ++ ys)) (a : Activity)
    (htrips : ¬ depotVisits (xs ++ a :: ys) + 1
      ≤ (data.vehicleType (s.route idx).vehicleType).maxTrips) :
    ∃ e, s.insertAt data idx (xs.length + 1) a = .error e := by
  have h := SRoute.insert_visits hv a
  simp only at h
  rw [if_pos (by omega)] at h
  exact ⟨_, by simp only [insertAt, h]; rfl⟩

theorem visits_node {data : ProblemData} {r : SRoute} {xs ys : List Activity} {a : Activity}
    (hv : r.Visits data (xs ++ a :: ys)) : (r.node (xs.length + 1)).activity = a := by
  have := SRoute.node_activity hv (pos := xs.length + 1) ⟨by omega, by simp⟩
  unfold SRoute.node
  rw [this]
  simp [RouteOp.actAt]

theorem removeAt_spec {data : ProblemData} {s : SSol} (hs : Sized data s) {idx : Nat}
    (hidx : idx < data.numVehicles) {xs ys : List Activity} {a : Activity}
    (hv : (s.route idx).Visits data (xs ++ a :: ys)) :
    let s' := s.removeAt idx (xs.length + 1)
    Sized data s'
      ∧ (s'.route idx).Visits data (xs ++ ys)
      ∧ (s'.route idx).vehicleType = (s.route idx).vehicleType
      ∧ (∀ j, j ≠ idx → s'.route j = s.route j)
      ∧ (∀ b, s'.owner b = if b = a ∧ IsTask data a then none else s.owner b) := by
  have h := SRoute.remove_visits hv
  have hn := visits_node hv
  have hs' := hs.setOwner a none
  have hlen : idx < (s.setOwner a none).routes.length := by
    rw [setOwner_routes, hs.routes]; exact hidx
  have he : s.removeAt idx (xs.length + 1)
      = (s.setOwner a none).setRoute idx ((s.route idx).remove (xs.length + 1)) := by
    simp only [removeAt, hn]
  intro s'
  rw [show s' = _ from he]
  refine ⟨hs'.setRoute _ _, ?_, ?_, ?_, ?_⟩
  · rw [route_setRoute, if_pos ⟨rfl, hlen⟩]; exact h.1
  · rw [route_setRoute, if_pos ⟨rfl, hlen⟩]; exact h.2
  · intro j hj; rw [route_setRoute, if_neg (fun h => hj h.1), route_setOwner]
  · intro b; rw [owner_setRoute, owner_setOwner hs]

theorem updateRoute_spec {data : ProblemData} {s : SSol} (hs : Sized data s) {idx : Nat}
    (hidx : idx < data.numVehicles) {acts : List Activity} (hv : (s.route idx).Visits data acts) :
    let s' := s.updateRoute data idx
    Sized data s'
      ∧ s'.route idx = SRoute.ofActs data (s.route idx).vehicleType acts
      ∧ (∀ j, j ≠ idx → s'.route j = s.route j)
      ∧ (∀ b, s'.owner b = s.owner b) := by
  have hlen : idx < s.routes.length := by rw [hs.routes]; exact hidx
  refine ⟨hs.setRoute _ _, ?_, ?_, ?_⟩
  · unfold updateRoute; rw [route_setRoute, if_pos ⟨rfl, hlen⟩]; exact SRoute.update_eq hv
  · intro j hj; unfold updateRoute; rw [route_setRoute, if_neg (fun h => hj h.1)]
  · intro b; rfl

theorem clearRoute_spec {data : ProblemData} {s : SSol} (hs : Sized data s) {idx : Nat}
    (hidx : idx < data.numVehicles) {acts : List Activity}
    (hv : s.route idx = SRoute.ofActs data (vehTypeAt data idx) acts) :
    let s' := s.clearRoute data idx
    Sized data s'
      ∧ s'.route idx = SRoute.ofActs data (vehTypeAt data idx) []
      ∧ (∀ j, j ≠ idx → s'.route j = s.route j)
      ∧ (∀ b, s'.owner b = if s.owner b = some idx ∧ b ∈ acts then none else s.owner b) := by
  have hnodes : (s.route idx).nodes = canon (data.vehicleType (vehTypeAt data idx)) acts := by
    rw [hv]; rfl
  have hlen : idx < s.routes.length := by rw [hs.routes]; exact hidx
  have hcl : (s.route idx).nodes.length = acts.length + 2 := by rw [hnodes, canon_length]
  intro s'
  by_cases h2 : (s.route idx).nodes.length = 2
  · have hnil : acts = [] := List.length_eq_zero_iff.1 (by omega)
    subst hnil
    have : s' = s := by show s.clearRoute data idx = s; simp [clearRoute, h2]
    rw [this]
    exact ⟨hs, hv, fun _ _ => rfl, fun b => by simp⟩
  · obtain ⟨k1, k2, k3⟩ := unassignNodes_spec hs idx (s.route idx).nodes
    have he : s' = (unassignNodes idx s (s.route idx).nodes).setRoute idx
        ((s.route idx).clear data) := by
      show s.clearRoute data idx = _
      simp [clearRoute, h2]
    have hclear : (s.route idx).clear data = SRoute.ofActs data (vehTypeAt data idx) [] := by
      unfold SRoute.clear
      rw [if_neg h2]
      have hvt : (s.route idx).vehicleType = vehTypeAt data idx := by rw [hv]; rfl
      unfold SRoute.ofActs
      rw [← SRoute.emptyNodes_eq, hvt]
      rfl
    have e : ∀ j, s'.route j = if j = idx ∧ idx < s.routes.length then
        SRoute.ofActs data (vehTypeAt data idx) [] else s.route j := by
      intro j
      rw [he, route_setRoute, k2, hclear]
      split
      · rfl
      · exact congrArg (fun l : List SRoute => l.getD j _) k2
    refine ⟨?_, ?_, ?_, ?_⟩
    · rw [he]; exact k1.setRoute _ _
    · rw [e]; simp [hlen]
    · intro j hj; rw [e]; simp [hj]
    · intro b
      rw [he, owner_setRoute, k3, hnodes, SRoute.canon_activities]
      by_cases hb : s.owner b = some idx
      · have ht := (owner_task hs hb).1
        have : b ∈ fullActs (data.vehicleType (vehTypeAt data idx)) acts ↔ b ∈ acts := by
          simp only [fullActs, List.mem_cons, List.mem_append, List.not_mem_nil, or_false]
          constructor
          · rintro ((h | h) | h)
            · rw [h] at ht; exact absurd rfl ht
            · exact h
            · rw [h] at ht; exact absurd rfl ht
          · exact fun h => .inl (.inr h)
        simp [hb, this]
      · simp [hb]

/-- Appending activities to a route. -/
theorem pushAll_spec {data : ProblemData} {idx : Nat} (hidx : idx < data.numVehicles)
    (acts : List Activity) : ∀ {s : SSol}, Sized data s → ∀ {xs : List Activity},
    (s.route idx).Visits data xs →
    depotVisits (xs ++ acts) + 1 ≤ (data.vehicleType (s.route idx).vehicleType).maxTrips →
    (∀ a ∈ acts, InRange data a) →
    ∃ s', pushAll data idx s acts = .ok s' ∧ Sized data s'
      ∧ (s'.route idx).Visits data (xs ++ acts)
      ∧ (s'.route idx).vehicleType = (s.route idx).vehicleType
      ∧ (∀ j, j ≠ idx → s'.route j = s.route j)
      ∧ (∀ b, s'.owner b = if b ∈ acts ∧ b.type ≠ .depot then some idx else s.owner b) := by
  induction acts with
  | nil =>
    intro s hs xs hv _ _
    exact ⟨s, rfl, hs, by simpa using hv, rfl, fun _ _ => rfl, fun b => by simp⟩
  | cons a rest ih =>
    intro s hs xs hv ht hr
    have hlen : (s.route idx).nodes.length - 1 = xs.length + 1 := by
      unfold SRoute.Visits at hv; rw [hv, canon_length]; omega
    have hpre : depotVisits (xs ++ [a]) ≤ depotVisits (xs ++ a :: rest) := by
      have : xs ++ a :: rest = (xs ++ [a]) ++ rest := by simp
      rw [this, depotVisits_append (xs ++ [a])]; omega
    obtain ⟨s1, k1, k2, k3, k4, k5, k6⟩ := insertAt_spec hs hidx (xs := xs) (ys := []) (by simpa using hv)
      a (by omega)
    obtain ⟨s2, m1, m2, m3, m4, m5, m6⟩ := ih k2 k3 (by rw [k4]; simpa using ht)
      (fun b hb => hr b (by simp [hb]))
    refine ⟨s2, ?_, m2, by simpa using m3, by rw [m4, k4], ?_, ?_⟩
    · simp only [pushAll, hlen, k1, m1]
    · intro j hj; rw [m5 j hj, k5 j hj]
    · intro b
      rw [m6, k6]
      by_cases hb : b ∈ rest ∧ b.type ≠ .depot
      · simp [hb]
      · rw [if_neg hb]
        by_cases hba : b = a
        · subst hba
          by_cases hbd : b.type = .depot
          · simp [hbd, IsTask]
          · have : IsTask data b := ⟨hbd, hr b (by simp)⟩
            simp [hbd, this]
        · have : ¬ (b ∈ a :: rest ∧ b.type ≠ .depot) := by
            intro hc
            rcases List.mem_cons.1 hc.1 with h | h
            · exact hba h
            · exact hb ⟨h, hc.2⟩
          rw [if_neg this, if_neg (fun hc => hba hc.1)]

/-! ## States of the search solution -/

/-- The search solution holds the given routes, and knows where each client and shipment is. -/
structure Holds (data : ProblemData) (plan : List (List Activity)) (s : SSol) : Prop where
  sized : Sized data s
  length : plan.length = data.numVehicles
  types : ∀ i, i < data.numVehicles → (s.route i).vehicleType = vehTypeAt data i
  visits : ∀ i, i < data.numVehicles → (s.route i).Visits data (plan.getD i [])
  owner : ∀ a, a.type ≠ .depot → ∀ i, s.owner a = some i ↔ a ∈ plan.getD i []
  once : ∀ a, a.type ≠ .depot → ∀ i, (plan.getD i []).count a ≤ 1

/-- All statistics of all routes are up to date. -/
def Clean (data : ProblemData) (plan : List (List Activity)) (s : SSol) : Prop :=
  Holds data plan s ∧ ∀ i, i < data.numVehicles →
    s.route i = SRoute.ofActs data (vehTypeAt data i) (plan.getD i [])

end SSol
end PyVRP
