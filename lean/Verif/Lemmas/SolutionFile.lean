import Verif.Lemmas.PyText
import Verif.Lemmas.Proposal
import Verif.Props.C26
/-!
# Lemmas about writing and reading solution files
-/
namespace PyVRP
open Csv Spec
namespace SolutionFile

/-- The visits of the route of one vehicle, if it has one. -/
def slotVisits (data : ProblemData) : Option (Nat × List Activity) → List Nat
  | none => []
  | some p => p.2.map data.locationOf

/-- One line for each vehicle. -/
def linesOf (data : ProblemData) (slots : List (Option (Nat × List Activity))) : List Text :=
  slots.zipIdx.map fun q => lineText (q.2 + 1) (slotVisits data q.1)

theorem visits_eq {data : ProblemData} {p : Nat × List Activity} {r : Route}
    (h : Route.make data p.2 p.1 = .ok r) : visits data r = p.2.map data.locationOf := by
  have h1 := (C07_schedule_lists_activities data p.2 p.1 r h).1
  unfold visits
  have : (r.schedule.map fun a => data.locationOf a.activity)
      = (r.schedule.map (·.activity)).map data.locationOf := by
    rw [List.map_map]; rfl
  rw [this, h1]
  simp [fullActs]

theorem type_eq {data : ProblemData} {p : Nat × List Activity} {r : Route}
    (h : Route.make data p.2 p.1 = .ok r) : r.vehicleType = p.1 := by
  rw [Route.make_eq_ok h]; rfl

/-! ## The lines for one vehicle type -/

theorem plainLines_eq {data : ProblemData} {plan : RoutePlan} {routes : List Route}
    (hb : Built data plan routes) : (∀ p ∈ plan, p.2 ≠ []) → ∀ k,
    plainLines data (k + 1) routes
      = ((((plan.map some).zipIdx k).map fun q => lineText (q.2 + 1) (slotVisits data q.1)).map
          (· ++ ['\n'])).flatten := by
  refine hb.induction (motive := fun plan routes => (∀ p ∈ plan, p.2 ≠ []) → ∀ k,
    plainLines data (k + 1) routes
      = ((((plan.map some).zipIdx k).map fun q => lineText (q.2 + 1) (slotVisits data q.1)).map
          (· ++ ['\n'])).flatten) ?_ ?_
  · intro _ k; rfl
  · intro p plan r routes hm _ _ _ _ ih hne k
    have hp := hne p (by simp)
    rw [plainLines, ih (fun q hq => hne q (by simp [hq])) (k + 1), visits_eq hm]
    simp only [List.map_cons, List.zipIdx_cons, List.flatten_cons]
    congr 2
    unfold lineText slotVisits
    rw [if_neg (by simpa using hp)]
    simp

/-! ## Assigning routes to vehicles -/

theorem flatten_set {α : Type} {rem : List (List α)} {t : Nat} {v : α} {l : List α}
    (h : rem[t]? = some (v :: l)) : rem.flatten.Perm (v :: (rem.set t l).flatten) := by
  induction rem generalizing t with
  | nil => simp at h
  | cons r rem ih =>
    cases t with
    | zero =>
      simp only [List.getElem?_cons_zero, Option.some.injEq] at h
      subst h
      simp
    | succ t =>
      simp only [List.getElem?_cons_succ] at h
      rw [List.set_cons_succ, List.flatten_cons, List.flatten_cons]
      exact ((ih h).append_left r).trans List.perm_middle

theorem filterMap_set {α : Type} {slots : List (Option α)} {v : Nat} {p : α}
    (h : slots[v]? = some none) :
    ((slots.set v (some p)).filterMap id).Perm (p :: slots.filterMap id) := by
  induction slots generalizing v with
  | nil => simp at h
  | cons s slots ih =>
    cases v with
    | zero =>
      simp only [List.getElem?_cons_zero, Option.some.injEq] at h
      subst h
      simp
    | succ v =>
      simp only [List.getElem?_cons_succ] at h
      rw [List.set_cons_succ]
      cases s with
      | none => simpa using ih h
      | some q =>
        simp only [List.filterMap_cons, id]
        exact ((ih h).cons q).trans (List.Perm.swap _ _ _)

theorem linesOf_get {data : ProblemData} {slots : List (Option (Nat × List Activity))} {v : Nat}
    {s : Option (Nat × List Activity)} (h : slots[v]? = some s) :
    (linesOf data slots)[v]? = some (lineText (v + 1) (slotVisits data s)) := by
  unfold linesOf
  rw [List.getElem?_map, List.getElem?_zipIdx, h]
  simp

theorem linesOf_set {data : ProblemData} {slots : List (Option (Nat × List Activity))} {v : Nat}
    {s : Option (Nat × List Activity)} :
    (linesOf data slots).set v (lineText (v + 1) (slotVisits data s)) = linesOf data (slots.set v s) := by
  apply List.ext_getElem?
  intro i
  unfold linesOf
  rw [List.getElem?_set, List.getElem?_map, List.getElem?_map, List.getElem?_zipIdx,
    List.getElem?_zipIdx, List.getElem?_set]
  by_cases hi : v = i
  · subst hi
    rw [if_pos rfl, if_pos rfl]
    by_cases hl : v < slots.length
    · rw [if_pos (by simpa using hl), if_pos hl]; simp
    · rw [if_neg (by simpa using hl), if_neg hl]; rfl
  · rw [if_neg hi, if_neg hi]

theorem assign_spec {data : ProblemData} {plan : RoutePlan} {routes : List Route}
    (hb : Built data plan routes) : ∀ (rem : List (List Nat)) (slots : List (Option (Nat × List Activity))),
    (∀ p ∈ plan, p.2 ≠ []) →
    (∀ t, plan.countP (fun p => p.1 = t) ≤ (rem.getD t []).length) →
    rem.flatten.Nodup → (∀ v ∈ rem.flatten, slots[v]? = some none) →
    ∃ slots', assignRoutes data (rem.map (·.map decimal)) (linesOf data slots) routes
        = .ok (linesOf data slots')
      ∧ slots'.length = slots.length
      ∧ (slots'.filterMap id).Perm (slots.filterMap id ++ plan)
      ∧ ∀ v p, slots'[v]? = some (some p) →
        slots[v]? = some (some p) ∨ (p ∈ plan ∧ v ∈ rem.getD p.1 []) := by
  refine hb.induction (motive := fun plan routes => ∀ (rem : List (List Nat))
    (slots : List (Option (Nat × List Activity))), (∀ p ∈ plan, p.2 ≠ []) →
    (∀ t, plan.countP (fun p => p.1 = t) ≤ (rem.getD t []).length) →
    rem.flatten.Nodup → (∀ v ∈ rem.flatten, slots[v]? = some none) →
    ∃ slots', assignRoutes data (rem.map (·.map decimal)) (linesOf data slots) routes
        = .ok (linesOf data slots')
      ∧ slots'.length = slots.length
      ∧ (slots'.filterMap id).Perm (slots.filterMap id ++ plan)
      ∧ ∀ v p, slots'[v]? = some (some p) →
        slots[v]? = some (some p) ∨ (p ∈ plan ∧ v ∈ rem.getD p.1 [])) ?_ ?_
  · intro rem slots _ _ _ _
    exact ⟨slots, rfl, rfl, by simp, fun v p h => .inl h⟩
  · intro p plan r routes hm _ _ _ _ ih rem slots hne hcount hnd hfree
    have hc := hcount p.1
    rw [List.countP_cons, if_pos (by simp)] at hc
    obtain ⟨v, l, hrem⟩ : ∃ v l, rem[p.1]? = some (v :: l) := by
      rw [List.getD_eq_getElem?_getD] at hc
      cases hr : rem[p.1]? with
      | none => rw [hr] at hc; simp at hc
      | some x =>
        cases x with
        | nil => rw [hr] at hc; simp at hc
        | cons v l => exact ⟨v, l, rfl⟩
    have hperm := flatten_set hrem
    have hv : slots[v]? = some none := hfree v (hperm.mem_iff.2 (by simp))
    have hnd' := hperm.nodup_iff.1 hnd
    rw [List.nodup_cons] at hnd'
    have hlen : v < slots.length := (List.getElem?_eq_some_iff.1 hv).1
    obtain ⟨slots', h1, h2, h3, h4⟩ := ih (rem.set p.1 l) (slots.set v (some p))
      (fun q hq => hne q (by simp [hq])) (by
        intro t
        have ht := hcount t
        rw [List.countP_cons] at ht
        rw [List.getD_eq_getElem?_getD] at ht ⊢
        rw [List.getElem?_set]
        by_cases he : p.1 = t
        · subst he
          have hl : p.1 < rem.length := (List.getElem?_eq_some_iff.1 hrem).1
          rw [if_pos (by simp), hrem, Option.getD_some, List.length_cons] at ht
          rw [if_pos rfl, if_pos hl, Option.getD_some]
          omega
        · rw [if_neg (by simpa using he)] at ht
          rw [if_neg he]
          exact ht) hnd'.2 (by
        intro w hw
        have hwv : v ≠ w := fun h => hnd'.1 (h ▸ hw)
        rw [List.getElem?_set_ne hwv]
        exact hfree w (hperm.mem_iff.2 (by simp [hw])))
    refine ⟨slots', ?_, by rw [h2, List.length_set], ?_, ?_⟩
    · rw [assignRoutes, nextVehicle, type_eq hm, List.getElem?_map, hrem, Option.map_some,
        List.map_cons]
      dsimp only
      rw [Py.int_decimal]
      dsimp only
      rw [Py.modify_nat (linesOf_get hv)]
      dsimp only
      have e1 : lineText (v + 1) (slotVisits data none) ++ [' '] ++ visitText (visits data r)
          = lineText (v + 1) (slotVisits data (some p)) := by
        rw [visits_eq hm]
        unfold lineText slotVisits
        rw [if_pos rfl, if_neg (by simpa using hne p (by simp))]
        simp
      rw [e1, linesOf_set]
      have e2 : (rem.map (·.map decimal)).set p.1 (l.map decimal)
          = (rem.set p.1 l).map (·.map decimal) := by
        rw [List.map_set]
      rw [e2]
      exact h1
    · refine h3.trans ?_
      refine ((filterMap_set hv).append_right plan).trans ?_
      rw [List.cons_append]
      exact (List.perm_middle).symm
    · intro w q hq
      rcases h4 w q hq with h | ⟨hqp, h⟩
      · rw [List.getElem?_set] at h
        by_cases hwv : v = w
        · subst hwv
          rw [if_pos rfl, if_pos hlen] at h
          simp only [Option.some.injEq] at h
          subst h
          right
          refine ⟨by simp, ?_⟩
          rw [List.getD_eq_getElem?_getD, hrem]
          simp
        · rw [if_neg hwv] at h
          exact .inl h
      · right
        refine ⟨by simp [hqp], ?_⟩
        rw [List.getD_eq_getElem?_getD, List.getElem?_set] at h
        rw [List.getD_eq_getElem?_getD]
        by_cases he : p.1 = q.1
        · have hl : q.1 < rem.length := he ▸ (List.getElem?_eq_some_iff.1 hrem).1
          rw [if_pos he, if_pos (by rw [he]; exact hl), Option.getD_some] at h
          rw [← he, hrem]
          simp [h]
        · rw [if_neg he] at h
          exact h

/-! ## Reading back -/

theorem setAll_spec (t : Nat) : ∀ (vs : List Nat) (veh2type : List Nat), (∀ v ∈ vs, v < veh2type.length) →
    ∃ out, setAll veh2type t (vs.map Int.ofNat) = .ok out ∧ out.length = veh2type.length
      ∧ ∀ i, out[i]? = if i ∈ vs then some t else veh2type[i]? := by
  intro vs
  induction vs with
  | nil => intro l _; exact ⟨l, rfl, rfl, fun i => by simp⟩
  | cons v vs ih =>
    intro l h
    have hv := h v (by simp)
    obtain ⟨out, h1, h2, h3⟩ := ih (l.set v t) (by simpa using fun w hw => h w (by simp [hw]))
    refine ⟨out, ?_, by simpa using h2, fun i => ?_⟩
    · rw [List.map_cons, setAll, Int.ofNat_eq_natCast,
        Py.modify_nat (List.getElem?_eq_getElem hv)]
      exact h1
    · rw [h3 i]
      by_cases hi : i ∈ vs
      · rw [if_pos hi, if_pos (by simp [hi])]
      · rw [if_neg hi, List.getElem?_set]
        by_cases he : v = i
        · subst he; rw [if_pos rfl, if_pos hv, if_pos (by simp)]
        · rw [if_neg he, if_neg (by simp [hi, Ne.symm he])]

theorem vehicleTypes_spec {types : List VehicleType} {idcs : List (List Nat)}
    (hn : All2 (fun (v : VehicleType) l => v.name.toList = Py.join [','] (l.map decimal) ∧ l ≠ [])
      types idcs) :
    ∀ (veh2type : List Nat) (idx : Nat), idcs.flatten.Nodup →
    (∀ v ∈ idcs.flatten, v < veh2type.length) →
    ∃ out, vehicleTypes veh2type idx types = .ok out ∧ out.length = veh2type.length
      ∧ (∀ j l, idcs[j]? = some l → ∀ v ∈ l, out[v]? = some (idx + j))
      ∧ ∀ v, v ∉ idcs.flatten → out[v]? = veh2type[v]? := by
  induction hn with
  | nil => intro l idx _ _; exact ⟨l, rfl, rfl, fun j l h => by simp at h, fun _ _ => rfl⟩
  | @cons v l types idcs hv _ ih =>
    intro veh2type idx hnd hlt
    rw [List.flatten_cons] at hnd hlt
    obtain ⟨hd1, hd2, hd3⟩ := List.nodup_append.1 hnd
    obtain ⟨out, h1, h2, h3⟩ := setAll_spec idx l veh2type fun w hw => hlt w (by simp [hw])
    obtain ⟨out', k1, k2, k3, k4⟩ := ih out (idx + 1) hd2 fun w hw => by
      rw [h2]; exact hlt w (by simp [hw])
    refine ⟨out', ?_, by rw [k2, h2], ?_, ?_⟩
    · have hint : Py.mapE Py.int (Py.split ',' v.name.toList) = .ok (l.map Int.ofNat) := by
        rw [hv.1, Py.split_join (by simpa using hv.2)]
        · exact Py.mapE_ok Py.int decimal Int.ofNat l fun n _ => Py.int_decimal n
        · intro t ht
          obtain ⟨n, _, rfl⟩ := List.mem_map.1 ht
          exact Py.not_mem_decimal digit_chars.2.2.2.1 n
      rw [vehicleTypes, hint]
      dsimp only
      rw [h1]
      exact k1
    · intro j m hj w hw
      cases j with
      | zero =>
        simp only [List.getElem?_cons_zero, Option.some.injEq] at hj
        subst hj
        rw [k4 w (fun h => hd3 w hw w h rfl), h3 w, if_pos hw, Nat.add_zero]
      | succ j =>
        simp only [List.getElem?_cons_succ] at hj
        rw [k3 j m hj w hw]
        congr 1
        omega
    · intro w hw
      rw [List.flatten_cons, List.mem_append, not_or] at hw
      rw [k4 w hw.2, h3 w, if_neg hw.1]

/-- Writing entries into a list of activities. -/
def setMany (l : List (Option Activity)) (as : List (Nat × Activity)) : List (Option Activity) :=
  as.foldl (fun l a => l.set a.1 (some a.2)) l

theorem setMany_append (l : List (Option Activity)) (as bs : List (Nat × Activity)) :
    setMany l (as ++ bs) = setMany (setMany l as) bs := by
  unfold setMany; rw [List.foldl_append]

theorem setMany_length (l : List (Option Activity)) (as : List (Nat × Activity)) :
    (setMany l as).length = l.length := by
  induction as generalizing l with
  | nil => rfl
  | cons a as ih =>
    show (setMany (l.set a.1 (some a.2)) as).length = l.length
    rw [ih, List.length_set]

theorem setMany_keep {l : List (Option Activity)} {as : List (Nat × Activity)} {i : Nat} {a : Activity}
    (h : l[i]? = some (some a)) (has : ∀ p ∈ as, p.1 = i → p.2 = a) :
    (setMany l as)[i]? = some (some a) := by
  induction as generalizing l with
  | nil => exact h
  | cons p as ih =>
    show (setMany (l.set p.1 (some p.2)) as)[i]? = some (some a)
    refine ih ?_ fun q hq => has q (by simp [hq])
    have hi := (List.getElem?_eq_some_iff.1 h).1
    rw [List.getElem?_set]
    by_cases he : p.1 = i
    · rw [if_pos he, he, if_pos hi, has p (by simp) he]
    · rw [if_neg he]; exact h

theorem setMany_get {l : List (Option Activity)} {as : List (Nat × Activity)}
    (hd : ∀ p ∈ as, ∀ q ∈ as, p.1 = q.1 → p.2 = q.2) {p : Nat × Activity} (hp : p ∈ as)
    (hl : p.1 < l.length) : (setMany l as)[p.1]? = some (some p.2) := by
  induction as generalizing l with
  | nil => cases hp
  | cons q as ih =>
    show (setMany (l.set q.1 (some q.2)) as)[p.1]? = some (some p.2)
    rcases List.mem_cons.1 hp with rfl | hp'
    · refine setMany_keep (by rw [List.getElem?_set_self hl]) fun r hr he => ?_
      exact hd r (by simp [hr]) p (by simp) he
    · exact ih (fun a ha b hb => hd a (by simp [ha]) b (by simp [hb])) hp' (by simpa using hl)

/-- All activities with their locations, in the order in which they are entered. -/
def entries (data : ProblemData) : List (Nat × Activity) :=
  (data.depots.zipIdx.map fun d => (d.1.location, (⟨.depot, d.2⟩ : Activity)))
  ++ (data.clients.zipIdx.map fun c => (c.1.location, (⟨.client, c.2⟩ : Activity)))
  ++ (data.shipments.zipIdx.flatMap fun s => [(s.1.pickup.location, (⟨.pickup, s.2⟩ : Activity)),
    (s.1.delivery.location, ⟨.delivery, s.2⟩)])

theorem loc2activity_eq (data : ProblemData) :
    loc2activity data = setMany (List.replicate data.numLocations none) (entries data) := by
  unfold loc2activity entries
  rw [setMany_append, setMany_append]
  unfold setMany
  rw [List.foldl_map, List.foldl_map, List.foldl_flatMap]
  rfl

theorem mem_entries {data : ProblemData} {p : Nat × Activity} :
    p ∈ entries data ↔ Spec.InRange data p.2 ∧ p.1 = data.locationOf p.2 := by
  obtain ⟨loc, a⟩ := p
  obtain ⟨ty, idx⟩ := a
  unfold entries
  simp only [List.mem_append, List.mem_map, List.mem_flatMap, List.mem_cons, List.not_mem_nil,
    or_false, Prod.exists, List.mem_zipIdx_iff_getElem?, Prod.mk.injEq, Activity.mk.injEq]
  have hget : ∀ {α : Type} [Inhabited α] (l : List α) (i : Nat) (x : α), l[i]? = some x ↔
      i < l.length ∧ x = l.getD i default := by
    intro α _ l i x
    rw [List.getElem?_eq_some_iff]
    constructor
    · rintro ⟨h, rfl⟩
      exact ⟨h, by simp [h]⟩
    · rintro ⟨h, rfl⟩
      exact ⟨h, by simp [h]⟩
  simp only [hget]
  cases ty <;> simp only [reduceCtorEq, false_and, and_false, or_false, false_or, exists_false, Spec.InRange,
    ProblemData.locationOf, true_and]
  · constructor
    · rintro ⟨d, i, ⟨h1, rfl⟩, rfl, rfl⟩; exact ⟨h1, rfl⟩
    · rintro ⟨h1, rfl⟩; exact ⟨_, _, ⟨h1, rfl⟩, rfl, rfl⟩
  · constructor
    · rintro ⟨d, i, ⟨h1, rfl⟩, rfl, rfl⟩; exact ⟨h1, rfl⟩
    · rintro ⟨h1, rfl⟩; exact ⟨_, _, ⟨h1, rfl⟩, rfl, rfl⟩
  · constructor
    · rintro ⟨d, i, ⟨h1, rfl⟩, rfl, rfl⟩; exact ⟨h1, rfl⟩
    · rintro ⟨h1, rfl⟩; exact ⟨_, _, ⟨h1, rfl⟩, rfl, rfl⟩
  · constructor
    · rintro ⟨d, i, ⟨h1, rfl⟩, rfl, rfl⟩; exact ⟨h1, rfl⟩
    · rintro ⟨h1, rfl⟩; exact ⟨_, _, ⟨h1, rfl⟩, rfl, rfl⟩

theorem readRoutes_spec {data : ProblemData} (veh2type : List Nat) (l : List (Option Activity))
    (hl : ∀ a, Spec.InRange data a → l[data.locationOf a]? = some (some a)) :
    ∀ (slots : List (Option (Nat × List Activity))) (idx : Nat),
    (∀ (k : Nat) (p : Nat × List Activity), slots[k]? = some (some p) → p.2 ≠ [] ∧ (∀ a ∈ p.2, Spec.InRange data a)
      ∧ (∃ r, Route.make data p.2 p.1 = .ok r) ∧ veh2type[idx + k]? = some p.1) →
    ∃ rs, readRoutes data veh2type l idx (slots.map fun s => (slotVisits data s).map Int.ofNat) = .ok rs
      ∧ (slots.filterMap id).map (fun p => Route.make data p.2 p.1) = rs.map Except.ok := by
  intro slots
  induction slots with
  | nil => intro idx _; exact ⟨[], rfl, rfl⟩
  | cons s slots ih =>
    intro idx h
    obtain ⟨rs, h1, h2⟩ := ih (idx + 1) (by
      intro k p hk
      obtain ⟨a, b, c, d⟩ := h (k + 1) p (by simpa using hk)
      exact ⟨a, b, c, by rw [← d]; congr 1; omega⟩)
    cases s with
    | none =>
      refine ⟨rs, ?_, by simpa using h2⟩
      rw [List.map_cons, slotVisits, List.map_nil, readRoutes, if_pos rfl]
      exact h1
    | some p =>
      obtain ⟨hne, hr, ⟨r, hm⟩, hv⟩ := h 0 p rfl
      refine ⟨r :: rs, ?_, by rw [List.filterMap_cons_some (by rfl), List.map_cons, List.map_cons, hm, h2]⟩
      rw [List.map_cons, slotVisits, List.map_map, readRoutes, if_neg (by simpa using hne)]
      have hacts : Py.mapE (activityAt l) (p.2.map (Int.ofNat ∘ data.locationOf)) = .ok p.2 := by
        have := Py.mapE_ok (activityAt l) (Int.ofNat ∘ data.locationOf) id p.2 (by
          intro a ha
          unfold activityAt
          rw [Function.comp_apply, Int.ofNat_eq_natCast, Py.get_nat (hl a (hr a ha))]
          rfl)
        rwa [List.map_id] at this
      rw [hacts]
      dsimp only
      rw [Nat.add_zero] at hv
      rw [Py.get_nat hv]
      dsimp only
      rw [hm]
      dsimp only
      rw [h1]

end SolutionFile
end PyVRP
