import Verif.Model.Solution
import Verif.Spec.SolutionSpec
import Verif.Props.C07
/-!
# Lemmas on the `Solution` constructor
-/
namespace PyVRP
open Spec

theorem Spec.Built.cons {data : ProblemData} {p : Nat × List Activity} {plan : RoutePlan} {r : Route}
    {routes : List Route} (h : Built data (p :: plan) (r :: routes)) :
    Route.make data p.2 p.1 = .ok r ∧ p.1 < data.vehicleTypes.length
      ∧ p.2.length < SIZE_MAX ∧ (data.vehicleType p.1).maxReloads ≤ SIZE_MAX
      ∧ Built data plan routes := by
  obtain ⟨h1, h2, h3, h4⟩ := h
  simp only [List.map_cons, List.cons.injEq] at h1
  have ht := h2 p (by simp)
  refine ⟨h1.1, ht, h3 p (by simp), ?_, h1.2, fun q hq => h2 q (by simp [hq]),
    fun q hq => h3 q (by simp [hq]), h4⟩
  have : data.vehicleType p.1 ∈ data.vehicleTypes := by
    simp [ProblemData.vehicleType, List.getD_eq_getElem?_getD, List.getElem?_eq_getElem ht]
  exact h4 _ this

theorem Spec.Built.length {data : ProblemData} {plan : RoutePlan} {routes : List Route}
    (h : Built data plan routes) : plan.length = routes.length := by
  have := congrArg List.length h.made
  simpa using this

/-- Induction over a plan together with its routes. -/
theorem Spec.Built.induction {data : ProblemData} {motive : RoutePlan → List Route → Prop}
    (nil : motive [] [])
    (cons : ∀ p plan r routes, Route.make data p.2 p.1 = .ok r → p.1 < data.vehicleTypes.length →
      p.2.length < SIZE_MAX → (data.vehicleType p.1).maxReloads ≤ SIZE_MAX →
      Built data plan routes → motive plan routes → motive (p :: plan) (r :: routes))
    {plan : RoutePlan} {routes : List Route} (h : Built data plan routes) : motive plan routes := by
  induction plan generalizing routes with
  | nil =>
    cases routes with
    | nil => exact nil
    | cons r rs => have := h.length; simp at this
  | cons p ps ih =>
    cases routes with
    | nil => have := h.length; simp at this
    | cons r rs =>
      obtain ⟨h1, h2, h3, h4, h5⟩ := h.cons
      exact cons p ps r rs h1 h2 h3 h4 h5 (ih h5)

namespace Solution

theorem visited_cons (p : Nat × List Activity) (plan : RoutePlan) :
    visited (p :: plan) = p.2 ++ visited plan := by simp [visited]

/-- Activities of which each may occur once. -/
def Counted (a : Activity) : Prop := a.type = .client ∨ a.type = .pickup

def Once (l : List Activity) : Prop := ∀ a, Counted a → l.count a ≤ 1

structure Inv (data : ProblemData) (st : SState) (seen : List Activity) : Prop where
  cl : st.clientVisited.length = data.clients.length
  sl : st.shipmentVisited.length = data.shipments.length
  c : ∀ i, st.clientVisited.getD i false = true ↔ ⟨.client, i⟩ ∈ seen
  s : ∀ i, st.shipmentVisited.getD i false = true ↔ ⟨.pickup, i⟩ ∈ seen

theorem getD_set (l : List Bool) (i j : Nat) (h : i < l.length) :
    (l.set i true).getD j false = true ↔ (j = i ∨ l.getD j false = true) := by
  simp only [List.getD_eq_getElem?_getD, List.getElem?_set]
  by_cases hij : i = j
  · subst hij; simp [h]
  · have : ¬ j = i := fun hh => hij hh.symm
    simp [hij, this]

theorem visitLoop_spec (data : ProblemData) (acts : List Activity) :
    ∀ (st : SState) (seen : List Activity), Inv data st seen → Once seen →
    (∀ a ∈ acts, InRange data a) →
    (∃ st', visitLoop st acts = .ok st' ∧ Inv data st' (seen ++ acts)
      ∧ st'.usedVehicles = st.usedVehicles ∧ Once (seen ++ acts))
    ∨ (∃ m, visitLoop st acts = .error (.runtimeError m) ∧ ¬ Once (seen ++ acts)) := by
  induction acts with
  | nil => intro st seen hi ho _; left; exact ⟨st, rfl, by simpa using hi, rfl, by simpa using ho⟩
  | cons a rest ih =>
    intro st seen hi ho hr
    have hra := hr a (by simp)
    have hrr : ∀ a ∈ rest, InRange data a := fun b hb => hr b (by simp [hb])
    have happ : seen ++ a :: rest = (seen ++ [a]) ++ rest := by simp
    have hdup : Counted a → a ∈ seen → ¬ Once (seen ++ a :: rest) := by
      intro hc hm hh
      have h1 := hh a hc
      rw [List.count_append, List.count_cons_self] at h1
      have : 0 < seen.count a := List.count_pos_iff.2 hm
      omega
    have honce : (Counted a → a ∉ seen) → Once (seen ++ [a]) := by
      intro hc b hb
      rw [List.count_append]
      by_cases hab : a = b
      · subst hab
        rw [List.count_eq_zero.2 (hc hb)]; simp
      · have : [a].count b = 0 := by simp [List.count_eq_zero]; exact fun h => hab h.symm
        have := ho b hb; omega
    have hmem : ∀ b, b ∈ seen ++ [a] ↔ b = a ∨ b ∈ seen := by intro b; simp [or_comm]
    obtain ⟨ty, i⟩ := a
    unfold visitLoop visitStep
    rw [happ]
    cases ty with
    | depot =>
      refine ih st _ ⟨hi.cl, hi.sl, fun j => ?_, fun j => ?_⟩ (honce ?_) hrr
      · rw [hmem, hi.c]; simp
      · rw [hmem, hi.s]; simp
      · rintro (h | h) <;> simp at h
    | delivery =>
      refine ih st _ ⟨hi.cl, hi.sl, fun j => ?_, fun j => ?_⟩ (honce ?_) hrr
      · rw [hmem, hi.c]; simp
      · rw [hmem, hi.s]; simp
      · rintro (h | h) <;> simp at h
    | client =>
      simp only [InRange] at hra
      by_cases hv : st.clientVisited.getD i false = true
      · right
        simp only [hv, if_true]
        refine ⟨_, rfl, ?_⟩
        rw [← happ]
        exact hdup (.inl rfl) ((hi.c i).1 hv)
      · simp only [hv]
        refine ih _ _ ⟨by simp [hi.cl], hi.sl, fun j => ?_, fun j => ?_⟩ (honce ?_) hrr
        · show (st.clientVisited.set i true).getD j false = true ↔ _
          rw [getD_set _ _ _ (by rw [hi.cl]; exact hra), hmem, hi.c]; simp
        · rw [hmem]; show st.shipmentVisited.getD j false = true ↔ _; rw [hi.s]; simp
        · intro _ hm; exact hv ((hi.c i).2 hm)
    | pickup =>
      simp only [InRange] at hra
      by_cases hv : st.shipmentVisited.getD i false = true
      · right
        simp only [hv, if_true]
        refine ⟨_, rfl, ?_⟩
        rw [← happ]
        exact hdup (.inr rfl) ((hi.s i).1 hv)
      · simp only [hv]
        refine ih _ _ ⟨hi.cl, by simp [hi.sl], fun j => ?_, fun j => ?_⟩ (honce ?_) hrr
        · rw [hmem]; show st.clientVisited.getD j false = true ↔ _; rw [hi.c]; simp
        · show (st.shipmentVisited.set i true).getD j false = true ↔ _
          rw [getD_set _ _ _ (by rw [hi.sl]; exact hra), hmem, hi.s]; simp
        · intro _ hm; exact hv ((hi.s i).2 hm)

/-- The activities of a route's schedule and of the plan agree up to depots. -/
theorem inv_fullActs {data : ProblemData} {st : SState} {seen acts : List Activity}
    {v : VehicleType} : Inv data st (seen ++ fullActs v acts) ↔ Inv data st (seen ++ acts) := by
  have h : ∀ ty i, ty ≠ ActivityType.depot →
      ((⟨ty, i⟩ : Activity) ∈ seen ++ fullActs v acts ↔ ⟨ty, i⟩ ∈ seen ++ acts) := by
    intro ty i hty; simp [fullActs, hty]
  constructor
  · rintro ⟨a, b, c, d⟩
    exact ⟨a, b, fun i => by rw [c, h _ _ (by simp)], fun i => by rw [d, h _ _ (by simp)]⟩
  · rintro ⟨a, b, c, d⟩
    exact ⟨a, b, fun i => by rw [c, h _ _ (by simp)], fun i => by rw [d, h _ _ (by simp)]⟩

theorem once_fullActs {seen acts : List Activity} {v : VehicleType} :
    Once (seen ++ fullActs v acts) ↔ Once (seen ++ acts) := by
  have h : ∀ a, Counted a → (seen ++ fullActs v acts).count a = (seen ++ acts).count a := by
    intro a ha
    have h1 : ∀ i, ((⟨.depot, i⟩ : Activity) == a) = false := by
      intro i
      rw [beq_eq_false_iff_ne]
      rintro rfl
      rcases ha with ha | ha <;> simp at ha
    simp [fullActs, List.count_append, List.count_cons, h1]
  exact ⟨fun hh a ha => h a ha ▸ hh a ha, fun hh a ha => (h a ha).symm ▸ hh a ha⟩

theorem modify_getD (l : List Nat) (i j : Nat) (h : i < l.length) :
    (l.modify i (· + 1)).getD j 0 = l.getD j 0 + if i = j then 1 else 0 := by
  simp only [List.getD_eq_getElem?_getD, List.getElem?_modify]
  by_cases hij : i = j
  · subst hij; simp [List.getElem?_eq_getElem h]
  · simp [hij]

/-- The outcome of the loop over the routes of a plan. -/
def LoopSpec (data : ProblemData) (plan : RoutePlan) (routes : List Route) : Prop :=
  ∀ (st : SState) (seen : List Activity),
    Inv data st seen → Once seen → st.usedVehicles.length = data.vehicleTypes.length →
    (∃ st', routeLoop st routes = .ok st' ∧ Inv data st' (seen ++ visited plan)
      ∧ (∀ t, st'.usedVehicles.getD t 0
          = st.usedVehicles.getD t 0 + plan.countP (fun p => p.1 = t))
      ∧ Once (seen ++ visited plan) ∧ ∀ p ∈ plan, ∃ a ∈ p.2, a.type ≠ .depot)
    ∨ (∃ m, routeLoop st routes = .error (.runtimeError m)
        ∧ ¬ (Once (seen ++ visited plan) ∧ ∀ p ∈ plan, ∃ a ∈ p.2, a.type ≠ .depot))

theorem routeLoop_spec (data : ProblemData) {plan : RoutePlan} {routes : List Route}
    (hb : Built data plan routes) : LoopSpec data plan routes := by
  refine Built.induction (motive := LoopSpec data) ?_ ?_ hb
  · intro st seen hi ho _
    left
    exact ⟨st, rfl, by simpa [visited] using hi, by simp, by simpa [visited] using ho, by simp⟩
  · intro p plan r routes hm ht hs hr hb ih st seen hi ho hu
    have hcounts := C07_counts data p.2 p.1 r hs hr hm
    have hempty := hcounts.2.2.2.2.2
    have hacts := (C07_schedule_lists_activities data p.2 p.1 r hm).1
    have hwf : WellFormed data (data.vehicleType p.1) p.2 :=
      (C05_route_accepts_exactly_wellformed data p.2 p.1 hs hr).1.1 ⟨r, hm⟩
    have hvt : r.vehicleType = p.1 := by rw [Route.make_eq_ok hm]; rfl
    have happ : seen ++ visited (p :: plan) = (seen ++ p.2) ++ visited plan := by
      simp [visited_cons]
    unfold routeLoop routeStep
    by_cases he : r.empty = true
    · right
      simp only [he, if_true]
      refine ⟨_, rfl, fun hh => ?_⟩
      obtain ⟨a, ha, hd⟩ := hh.2 p (by simp)
      exact hd (hempty.1 he a ha)
    · simp only [he]
      have hne : ∃ a ∈ p.2, a.type ≠ .depot := by
        false_or_by_contra
        rename_i hc
        apply he
        rw [hempty]
        intro a ha
        false_or_by_contra
        rename_i hd
        exact hc ⟨a, ha, hd⟩
      rw [hacts, hvt]
      have hrange : ∀ a ∈ p.2, InRange data a := hwf.inRange
      -- the loop over `fullActs` may be replaced by the one over the activities
      have hloop : ∀ st : SState, visitLoop st (fullActs (data.vehicleType p.1) p.2)
          = visitLoop st p.2 := by
        intro st
        have happend : ∀ (l : List Activity) (st : SState) (d : Nat),
            visitLoop st (l ++ [⟨.depot, d⟩]) = visitLoop st l := by
          intro l
          induction l with
          | nil => intro st d; rfl
          | cons a l ih =>
            intro st d
            simp only [List.cons_append, visitLoop]
            cases visitStep st a with
            | error e => rfl
            | ok st' => exact ih st' d
        show visitLoop st (_ :: (p.2 ++ [_])) = _
        rw [visitLoop]
        exact happend p.2 st _
      simp only [Bool.false_eq_true, if_false]
      rw [hloop]
      rcases visitLoop_spec data p.2
        { st with usedVehicles := st.usedVehicles.modify p.1 (· + 1) } seen
        ⟨hi.cl, hi.sl, hi.c, hi.s⟩ ho hrange with ⟨st', h1, h2, h3, h4⟩ | ⟨m, h1, h2⟩
      · rw [h1]
        simp only
        rcases ih st' (seen ++ p.2) h2 h4 (by rw [h3]; simp [hu])
          with ⟨st2, k1, k2, k3, k4, k5⟩ | ⟨m, k1, k2⟩
        · left
          refine ⟨st2, k1, by rw [happ]; exact k2, fun t => ?_, by rw [happ]; exact k4, ?_⟩
          · rw [k3, h3]
            show (st.usedVehicles.modify p.1 (· + 1)).getD t 0 + _ = _
            rw [modify_getD _ _ _ (by rw [hu]; exact ht), List.countP_cons]
            simp only [decide_eq_true_eq]
            omega
          · intro q hq
            rcases List.mem_cons.1 hq with rfl | hq
            · exact hne
            · exact k5 q hq
        · right
          refine ⟨m, k1, fun hh => k2 ⟨by rw [← happ]; exact hh.1, fun q hq => hh.2 q (by simp [hq])⟩⟩
      · right
        rw [h1]
        refine ⟨m, rfl, fun hh => h2 fun a ha => ?_⟩
        have := hh.1 a ha
        rw [happ, List.count_append] at this
        omega

/-! ### Groups and vehicle types -/

theorem countP_le_one_iff {α : Type} (p : α → Bool) (l : List α) (h : l.Nodup) :
    l.countP p ≤ 1 ↔ ∀ i ∈ l, ∀ j ∈ l, p i = true → p j = true → i = j := by
  induction l with
  | nil => simp
  | cons x xs ih =>
    have hx := (List.nodup_cons.1 h)
    rw [List.countP_cons]
    constructor
    · intro hc i hi j hj pi pj
      rcases List.mem_cons.1 hi with hix | hi' <;> rcases List.mem_cons.1 hj with hjx | hj'
      · rw [hix, hjx]
      · subst hix
        have : 0 < xs.countP p := List.countP_pos_iff.2 ⟨j, hj', pj⟩
        rw [if_pos pi] at hc; omega
      · subst hjx
        have : 0 < xs.countP p := List.countP_pos_iff.2 ⟨i, hi', pi⟩
        rw [if_pos pj] at hc; omega
      · exact (ih hx.2).1 (by split at hc <;> omega) i hi' j hj' pi pj
    · intro hall
      have h1 := (ih hx.2).2 fun i hi j hj => hall i (by simp [hi]) j (by simp [hj])
      by_cases px : p x = true
      · have : xs.countP p = 0 := by
          rw [List.countP_eq_zero]
          intro a ha pa
          exact hx.1 (hall x (by simp) a (by simp [ha]) px pa ▸ ha)
        simp [px, this]
      · simp [px, h1]

theorem groupLoop_spec (data : ProblemData) (st : SState) (seen : List Activity)
    (hi : Inv data st seen) (groups : List ClientGroup) (hn : ∀ g ∈ groups, g.clients.Nodup) :
    ∀ sol : Solution,
    ((∀ g ∈ groups, ∀ i ∈ g.clients, ∀ j ∈ g.clients,
        ⟨.client, i⟩ ∈ seen → ⟨.client, j⟩ ∈ seen → i = j)
      ∧ groupLoop st sol groups = .ok { sol with
        numMissingGroups := sol.numMissingGroups + groups.countP
          (fun g => g.required && g.clients.all (fun i => decide (⟨.client, i⟩ ∉ seen))) })
    ∨ (¬ (∀ g ∈ groups, ∀ i ∈ g.clients, ∀ j ∈ g.clients,
        ⟨.client, i⟩ ∈ seen → ⟨.client, j⟩ ∈ seen → i = j)
      ∧ ∃ m, groupLoop st sol groups = .error (.runtimeError m)) := by
  induction groups with
  | nil => intro sol; left; simp [groupLoop]
  | cons g rest ih =>
    intro sol
    have h1 := countP_le_one_iff (fun c => st.clientVisited.getD c false) g.clients (hn g (by simp))
    have hrest : ∀ g ∈ rest, g.clients.Nodup := fun g' hg' => hn g' (by simp [hg'])
    unfold groupLoop
    simp only
    by_cases hc : g.clients.countP (fun c => st.clientVisited.getD c false) > 1
    · right
      rw [if_pos hc]
      refine ⟨fun hh => ?_, _, rfl⟩
      have : g.clients.countP (fun c => st.clientVisited.getD c false) ≤ 1 := h1.2 fun i hi' j hj pi pj =>
        hh g (by simp) i hi' j hj ((hi.c i).1 pi) ((hi.c j).1 pj)
      omega
    · rw [if_neg hc]
      have hg : ∀ i ∈ g.clients, ∀ j ∈ g.clients,
          (⟨.client, i⟩ : Activity) ∈ seen → ⟨.client, j⟩ ∈ seen → i = j := fun i hi' j hj pi pj =>
        h1.1 (by omega) i hi' j hj ((hi.c i).2 pi) ((hi.c j).2 pj)
      have hz : (g.clients.countP (fun c => st.clientVisited.getD c false) == 0)
          = g.clients.all (fun i => decide ((⟨.client, i⟩ : Activity) ∉ seen)) := by
        rw [Bool.eq_iff_iff]
        simp only [beq_iff_eq, List.countP_eq_zero, List.all_eq_true, decide_eq_true_eq, hi.c]
      rw [hz]
      have hall : ∀ q : Prop, (q ↔ ∀ g ∈ rest, ∀ i ∈ g.clients, ∀ j ∈ g.clients,
          (⟨.client, i⟩ : Activity) ∈ seen → ⟨.client, j⟩ ∈ seen → i = j) →
          ((∀ g' ∈ g :: rest, ∀ i ∈ g'.clients, ∀ j ∈ g'.clients,
          (⟨.client, i⟩ : Activity) ∈ seen → ⟨.client, j⟩ ∈ seen → i = j) ↔ q) := by
        intro q hq
        rw [hq, List.forall_mem_cons]
        exact and_iff_right hg
      rw [hall _ Iff.rfl, List.countP_cons]
      cases hcond : (g.required && g.clients.all (fun i => decide ((⟨.client, i⟩ : Activity) ∉ seen)))
      · simpa using ih hrest sol
      · rcases ih hrest { sol with numMissingGroups := sol.numMissingGroups + 1 } with ⟨k1, k2⟩ | ⟨k1, k2⟩
        · left
          refine ⟨k1, ?_⟩
          simp only [if_true]
          rw [k2]
          simp [Nat.add_assoc, Nat.add_comm 1]
        · right
          exact ⟨k1, by simpa using k2⟩

theorem vehicleLoop_spec (data : ProblemData) (st : SState) (l : List Nat) :
    ((∀ t ∈ l, st.usedVehicles.getD t 0 ≤ (data.vehicleType t).numAvailable)
      ∧ vehicleLoop data st l = .ok ())
    ∨ (¬ (∀ t ∈ l, st.usedVehicles.getD t 0 ≤ (data.vehicleType t).numAvailable)
      ∧ ∃ m, vehicleLoop data st l = .error (.runtimeError m)) := by
  induction l with
  | nil => left; simp [vehicleLoop]
  | cons t rest ih =>
    unfold vehicleLoop
    by_cases h : st.usedVehicles.getD t 0 > (data.vehicleType t).numAvailable
    · right
      rw [if_pos h]
      exact ⟨fun hh => by have := hh t (by simp); omega, _, rfl⟩
    · rw [if_neg h, List.forall_mem_cons]
      rcases ih with ⟨k1, k2⟩ | ⟨k1, k2⟩
      · exact .inl ⟨⟨by omega, k1⟩, k2⟩
      · exact .inr ⟨fun hh => k1 hh.2, k2⟩

/-! ### Missing clients and shipments -/

theorem missingClients_spec (data : ProblemData) (st : SState) (seen : List Activity)
    (hi : Inv data st seen) (l : List Nat) : ∀ sol : Solution,
    l.foldl (missingClient data st) sol = { sol with
      numMissingClients := sol.numMissingClients + l.countP
        (fun i => (data.client i).required && decide ((⟨.client, i⟩ : Activity) ∉ seen))
      unplanned := sol.unplanned ++
        (l.filter (fun i => decide ((⟨.client, i⟩ : Activity) ∉ seen))).map (⟨.client, ·⟩) } := by
  induction l with
  | nil => intro sol; simp
  | cons i rest ih =>
    intro sol
    rw [List.foldl_cons, ih, missingClient, List.countP_cons, List.filter_cons]
    have h : (!st.clientVisited.getD i false) = decide ((⟨.client, i⟩ : Activity) ∉ seen) := by
      rw [Bool.eq_iff_iff]; simp only [decide_eq_true_eq, ← hi.c]; simp
    rw [h]
    cases hd : decide ((⟨.client, i⟩ : Activity) ∉ seen)
    · simp
    · cases hq : (data.client i).required <;> simp
      omega

theorem missingShipments_spec (data : ProblemData) (st : SState) (seen : List Activity)
    (hi : Inv data st seen) (l : List Nat) : ∀ sol : Solution,
    l.foldl (missingShipment data st) sol = { sol with
      numMissingShipments := sol.numMissingShipments + l.countP
        (fun i => (data.shipment i).required && decide ((⟨.pickup, i⟩ : Activity) ∉ seen))
      unplanned := sol.unplanned ++
        (l.filter (fun i => decide ((⟨.pickup, i⟩ : Activity) ∉ seen))).flatMap
          (fun i => [⟨.pickup, i⟩, ⟨.delivery, i⟩]) } := by
  induction l with
  | nil => intro sol; simp
  | cons i rest ih =>
    intro sol
    rw [List.foldl_cons, ih, missingShipment, List.countP_cons, List.filter_cons]
    have h : (!st.shipmentVisited.getD i false) = decide ((⟨.pickup, i⟩ : Activity) ∉ seen) := by
      rw [Bool.eq_iff_iff]; simp only [decide_eq_true_eq, ← hi.s]; simp
    rw [h]
    cases hd : decide ((⟨.pickup, i⟩ : Activity) ∉ seen)
    · simp
    · cases hq : (data.shipment i).required <;> simp
      omega

/-! ### The constructor -/

/-- The fields of an accepted solution before `evaluate`. -/
def bare (data : ProblemData) (plan : RoutePlan) (routes : List Route) : Solution :=
  { routes := routes
    numMissingClients := (List.range data.clients.length).countP
      (fun i => (data.client i).required && decide ((⟨.client, i⟩ : Activity) ∉ visited plan))
    numMissingShipments := (List.range data.shipments.length).countP
      (fun i => (data.shipment i).required && decide ((⟨.pickup, i⟩ : Activity) ∉ visited plan))
    numMissingGroups := data.groups.countP
      (fun g => g.required && g.clients.all (fun i => decide (⟨.client, i⟩ ∉ visited plan)))
    unplanned :=
      ((List.range data.clients.length).filter
        (fun i => decide ((⟨.client, i⟩ : Activity) ∉ visited plan))).map (⟨.client, ·⟩)
      ++ ((List.range data.shipments.length).filter
        (fun i => decide ((⟨.pickup, i⟩ : Activity) ∉ visited plan))).flatMap
          (fun i => [⟨.pickup, i⟩, ⟨.delivery, i⟩]) }

theorem make_spec (data : ProblemData) {plan : RoutePlan} {routes : List Route}
    (hb : Built data plan routes) (hn : ∀ g ∈ data.groups, g.clients.Nodup) :
    (ValidPlan data plan ∧ make data routes = .ok (evaluate data (bare data plan routes)))
    ∨ (¬ ValidPlan data plan ∧ ∃ m, make data routes = .error (.runtimeError m)) := by
  unfold make
  have hlen := hb.length
  have honce : ∀ l, Once l ↔
      (∀ i, l.count (⟨.client, i⟩ : Activity) ≤ 1) ∧ ∀ i, l.count (⟨.pickup, i⟩ : Activity) ≤ 1 := by
    intro l
    constructor
    · intro h; exact ⟨fun i => h _ (.inl rfl), fun i => h _ (.inr rfl)⟩
    · rintro ⟨h1, h2⟩ ⟨ty, i⟩ (h | h)
      · obtain rfl : ty = .client := h; exact h1 i
      · obtain rfl : ty = .pickup := h; exact h2 i
  have hveh : data.numVehicles = (data.vehicleTypes.map (·.numAvailable)).sum := rfl
  by_cases hf : routes.length > data.numVehicles
  · right
    rw [if_pos hf]
    exact ⟨fun h => by have := h.fleet; omega, _, rfl⟩
  · rw [if_neg hf]
    simp only
    rcases routeLoop_spec data hb
      { clientVisited := List.replicate data.numClients false
        shipmentVisited := List.replicate data.numShipments false
        usedVehicles := List.replicate data.numVehicleTypes 0 } []
      ⟨by simp [ProblemData.numClients], by simp [ProblemData.numShipments],
        by simp [List.getD_eq_getElem?_getD, List.getElem?_replicate]; intros; split <;> simp,
        by simp [List.getD_eq_getElem?_getD, List.getElem?_replicate]; intros; split <;> simp⟩
      (by intro a _; simp) (by simp [ProblemData.numVehicleTypes])
      with ⟨st, h1, h2, h3, h4, h5⟩ | ⟨m, h1, h2⟩
    · rw [h1]
      simp only
      simp only [List.nil_append] at h2 h4
      rw [missingClients_spec data st _ h2, missingShipments_spec data st _ h2]
      have hused : ∀ t, st.usedVehicles.getD t 0 = plan.countP (fun p => p.1 = t) := by
        intro t
        rw [h3]
        simp only [List.getD_eq_getElem?_getD, List.getElem?_replicate]
        split <;> simp
      have havail : (∀ t ∈ List.range data.numVehicleTypes,
          st.usedVehicles.getD t 0 ≤ (data.vehicleType t).numAvailable) ↔
          ∀ (t : Nat) (v : VehicleType), data.vehicleTypes[t]? = some v →
            plan.countP (fun p => p.1 = t) ≤ v.numAvailable := by
        constructor
        · intro h t v htv
          obtain ⟨hlt, rfl⟩ := List.getElem?_eq_some_iff.1 htv
          have := h t (by simpa [ProblemData.numVehicleTypes] using hlt)
          rw [hused] at this
          simpa [ProblemData.vehicleType, List.getD_eq_getElem?_getD, htv] using this
        · intro h t ht
          have hlt : t < data.vehicleTypes.length := by simpa [ProblemData.numVehicleTypes] using ht
          rw [hused]
          have := h t _ (List.getElem?_eq_getElem hlt)
          simpa [ProblemData.vehicleType, List.getD_eq_getElem?_getD,
            List.getElem?_eq_getElem hlt] using this
      rcases groupLoop_spec data st _ h2 data.groups hn
        ({ routes := routes, numMissingClients := _, unplanned := _,
           numMissingShipments := _ } : Solution) with ⟨g1, g2⟩ | ⟨g1, m, g2⟩
      · rw [g2]
        simp only
        rcases vehicleLoop_spec data st (List.range data.numVehicleTypes) with ⟨v1, v2⟩ | ⟨v1, m, v2⟩
        · left
          rw [v2]
          refine ⟨⟨by omega, h5, ((honce _).1 h4).1, ((honce _).1 h4).2, g1, havail.1 v1⟩, ?_⟩
          simp [bare, ProblemData.numClients, ProblemData.numShipments]
        · right
          rw [v2]
          exact ⟨fun h => v1 (havail.2 h.available), m, rfl⟩
      · right
        rw [g2]
        exact ⟨fun h => g1 h.groups, m, rfl⟩
    · right
      rw [h1]
      exact ⟨fun h => h2 ⟨(honce _).2 ⟨h.clientsOnce, h.shipmentsOnce⟩, h.nonempty⟩, m, rfl⟩

end Solution
end PyVRP
