import Verif.Lemmas.SolutionFile
import Verif.Props.C37
/-!
# C51: a solution written to a file is read back as the same solution
-/
namespace PyVRP
open Csv Spec

namespace Spec

/-- Data as `read` makes it: each place is visited for one reason only, and the name of a vehicle type
lists its vehicles, `names t`, where the vehicles are numbered from zero. -/
structure FileData (data : ProblemData) (names : List (List Nat)) : Prop where
  places : ∀ a b, Spec.InRange data a → Spec.InRange data b →
    data.locationOf a = data.locationOf b → a = b
  known : ∀ a, Spec.InRange data a → data.locationOf a < data.numLocations
  named : All2 (fun (v : VehicleType) l => v.name.toList = Py.join [','] (l.map decimal)
    ∧ l.length = v.numAvailable ∧ l ≠ []) data.vehicleTypes names
  vehicles : names.flatten.Perm (List.range data.numVehicles)

end Spec

namespace SolutionFile

theorem names_get {data : ProblemData} {names : List (List Nat)} (h : FileData data names) {t : Nat}
    {v : VehicleType} (hv : data.vehicleTypes[t]? = some v) :
    ∃ l, names[t]? = some l ∧ l.length = v.numAvailable := by
  have := h.named
  generalize data.vehicleTypes = types at this hv
  clear h
  induction this generalizing t with
  | nil => simp at hv
  | cons hp _ ih =>
    cases t with
    | zero =>
      simp only [List.getElem?_cons_zero, Option.some.injEq] at hv ⊢
      subst hv
      exact ⟨_, rfl, hp.2.1⟩
    | succ t => simpa using ih (by simpa using hv)

theorem all2_mono {α β : Type} {P Q : α → β → Prop} {l : List α} {m : List β} (h : All2 P l m)
    (hpq : ∀ a b, P a b → Q a b) : All2 Q l m := by
  induction h with
  | nil => exact .nil
  | cons hp _ ih => exact .cons (hpq _ _ hp) ih

theorem all2_map {α β γ : Type} {P : α → β → Prop} {f : α → γ} {g : β → γ} {l : List α} {m : List β}
    (h : All2 P l m) (hfg : ∀ a b, P a b → f a = g b) : l.map f = m.map g := by
  induction h with
  | nil => rfl
  | cons hp _ ih => rw [List.map_cons, List.map_cons, hfg _ _ hp, ih]

/-- Reading lines for vehicles that have the right routes. -/
theorem read_slots {data : ProblemData} {names : List (List Nat)} (h : FileData data names)
    {plan : RoutePlan} {routes : List Route} (hb : Built data plan routes) {cost : Text}
    (hc : '\n' ∉ cost) (hR : 'R' ∉ cost) (hv : ValidPlan data plan)
    (hg : ∀ g ∈ data.groups, g.clients.Nodup) (slots : List (Option (Nat × List Activity)))
    (hp : (slots.filterMap id).Perm plan)
    (hs : ∀ k p, slots[k]? = some (some p) → k ∈ names.getD p.1 []) :
    ∃ rs s, Built data (slots.filterMap id) rs ∧ Solution.make data rs = .ok s
      ∧ read data (((linesOf data slots).map (· ++ ['\n'])).flatten ++ costLine cost) = .ok s := by
  have hnd : names.flatten.Nodup := h.vehicles.nodup_iff.2 List.nodup_range
  obtain ⟨v2t, h1, h2, h3, _⟩ := vehicleTypes_spec
    (all2_mono h.named fun v l hh => ⟨hh.1, hh.2.2⟩) (List.replicate data.numVehicles 0) 0 hnd (by
      intro v hv'
      rw [List.length_replicate]
      exact List.mem_range.1 (h.vehicles.mem_iff.1 hv'))
  have hl : ∀ a, Spec.InRange data a → (loc2activity data)[data.locationOf a]? = some (some a) := by
    intro a ha
    rw [loc2activity_eq]
    refine setMany_get (p := (data.locationOf a, a)) ?_ (mem_entries.2 ⟨ha, rfl⟩)
      (by rw [List.length_replicate]; exact h.known a ha)
    intro p hp q hq he
    obtain ⟨p1, p2⟩ := mem_entries.1 hp
    obtain ⟨q1, q2⟩ := mem_entries.1 hq
    exact h.places _ _ p1 q1 (by rw [← p2, ← q2, he])
  have hmem : ∀ (k : Nat) p, slots[k]? = some (some p) → p ∈ plan := by
    intro k p hk
    refine hp.mem_iff.1 ?_
    rw [List.mem_filterMap]
    exact ⟨some p, List.mem_of_getElem? hk, rfl⟩
  have hmade : ∀ p ∈ plan, ∃ r, Route.make data p.2 p.1 = .ok r := by
    intro p hp'
    have : Route.make data p.2 p.1 ∈ routes.map Except.ok := by
      rw [← hb.made]; exact List.mem_map.2 ⟨p, hp', rfl⟩
    obtain ⟨r, _, hr⟩ := List.mem_map.1 this
    exact ⟨r, hr.symm⟩
  obtain ⟨rs, k1, k2⟩ := readRoutes_spec v2t (loc2activity data) hl slots 0 (by
    intro k p hk
    have hpm := hmem k p hk
    obtain ⟨r, hr⟩ := hmade p hpm
    refine ⟨?_, ?_, ⟨r, hr⟩, ?_⟩
    · obtain ⟨a, ha, _⟩ := hv.nonempty p hpm
      intro h0
      rw [h0] at ha
      cases ha
    · have hty := hb.types p hpm
      have hw := ((C05_route_accepts_exactly_wellformed data p.2 p.1 (hb.sizes p hpm)
        (hb.reloads _ (SSol.vehicleType_mem data hty))).1.1 ⟨r, hr⟩)
      exact hw.inRange
    · have hk' := hs k p hk
      rw [List.getD_eq_getElem?_getD] at hk'
      cases hn : names[p.1]? with
      | none => rw [hn] at hk'; simp at hk'
      | some l =>
        rw [hn] at hk'
        have := h3 p.1 l hn k hk'
        rw [Nat.zero_add] at this ⊢
        exact this)
  have hbuilt : Built data (slots.filterMap id) rs :=
    ⟨k2, fun p h => hb.types p (hp.mem_iff.1 h), fun p h => hb.sizes p (hp.mem_iff.1 h), hb.reloads⟩
  obtain ⟨s, hs'⟩ := (C13_solution_accepts_exactly_valid data _ rs hbuilt hg).1.2 (hv.perm hp.symm)
  refine ⟨rs, s, hbuilt, hs', ?_⟩
  have hparse := parse_file (slots.zipIdx.map fun q => (q.2 + 1, slotVisits data q.1)) cost hc hR
  have e1 : (slots.zipIdx.map fun q => (q.2 + 1, slotVisits data q.1)).map
      (fun p : Nat × List Nat => lineText p.1 p.2) = linesOf data slots := by
    rw [List.map_map]; rfl
  have e2 : (slots.zipIdx.map fun q => (q.2 + 1, slotVisits data q.1)).map
      (fun p : Nat × List Nat => p.2.map Int.ofNat)
      = slots.map fun s => (slotVisits data s).map Int.ofNat := by
    rw [List.map_map]
    have : ((fun p : Nat × List Nat => p.2.map Int.ofNat)
        ∘ fun q : Option (Nat × List Activity) × Nat => (q.2 + 1, slotVisits data q.1))
        = (fun s => (slotVisits data s).map Int.ofNat) ∘ Prod.fst := rfl
    rw [this, ← List.map_map, List.zipIdx_map_fst]
  rw [e1, e2] at hparse
  unfold read
  rw [hparse]
  dsimp only
  rw [h1]
  dsimp only
  rw [k1]
  exact hs'

theorem filterMap_some {α : Type} (l : List α) : (l.map some).filterMap id = l := by
  induction l with
  | nil => rfl
  | cons a l ih => rw [List.map_cons, List.filterMap_cons_some (by rfl), ih]

theorem linesOf_empty (data : ProblemData) (n : Nat) :
    linesOf data (List.replicate n none) = (List.range n).map fun i => label (i + 1) := by
  apply List.ext_getElem?
  intro i
  unfold linesOf
  rw [List.getElem?_map, List.getElem?_map, List.getElem?_zipIdx, List.getElem?_replicate]
  by_cases hi : i < n
  · rw [if_pos hi, List.getElem?_range hi]
    simp [lineText, slotVisits]
  · rw [if_neg hi, List.getElem?_eq_none (by simpa using hi)]
    rfl

end SolutionFile

open SolutionFile in
/-- **C51.** For data as `read` makes it, the file that is written for a solution can be read, and what is
read equals the solution that was written: the same routes, with the same visits and vehicle types, up to
their order. If there is one vehicle type the routes also come back in the same order. -/
theorem C51_written_solution_reads_back (data : ProblemData) (names : List (List Nat))
    (h : FileData data names) (hg : ∀ g ∈ data.groups, g.clients.Nodup) (plan : RoutePlan)
    (routes : List Route) (hb : Built data plan routes) (s : Solution)
    (hs : Solution.make data routes = .ok s) (cost : Text) (hc : '\n' ∉ cost) (hR : 'R' ∉ cost) :
    ∃ file s', SolutionFile.write data s cost = .ok file ∧ SolutionFile.read data file = .ok s'
      ∧ Solution.eq s s' = true ∧ (data.vehicleTypes.length = 1 → s' = s)
      ∧ ∃ plan' routes', Built data plan' routes' ∧ Solution.make data routes' = .ok s' ∧ plan.Perm plan' := by
  have hv := (C13_solution_accepts_exactly_valid data plan routes hb hg).1.1 ⟨s, hs⟩
  have hr : s.routes = routes := (C15_totals data plan routes s hb hg hs).1
  have hne : ∀ p ∈ plan, p.2 ≠ [] := by
    intro p hp h0
    obtain ⟨a, ha, _⟩ := hv.nonempty p hp
    rw [h0] at ha
    cases ha
  unfold SolutionFile.write
  by_cases h1 : data.numVehicleTypes = 1
  · rw [if_pos h1, hr]
    obtain ⟨rs, s', k1, k2, k3⟩ := read_slots h hb hc hR hv hg (plan.map some)
      (by rw [filterMap_some]) (by
        intro k p hk
        obtain ⟨hk1, hk2⟩ := List.getElem?_eq_some_iff.1 hk
        rw [List.length_map] at hk1
        have hpm : p ∈ plan := by
          have := List.mem_of_getElem? hk
          obtain ⟨q, hq, he⟩ := List.mem_map.1 this
          injection he with he
          exact he ▸ hq
        have ht := hb.types p hpm
        have hlen : names.length = 1 := by
          rw [← h1]
          have := congrArg List.length (all2_map (f := fun _ => ()) (g := fun _ => ()) h.named
            fun _ _ _ => rfl)
          rw [List.length_map, List.length_map] at this
          exact this.symm
        obtain ⟨l, rfl⟩ := List.length_eq_one_iff.1 hlen
        have ht0 : p.1 = 0 := by
          have : data.vehicleTypes.length = 1 := h1
          omega
        rw [ht0]
        have : k ∈ [l].flatten := h.vehicles.mem_iff.2 (List.mem_range.2 (Nat.lt_of_lt_of_le hk1 hv.fleet))
        simpa using this)
    rw [filterMap_some] at k1
    have hrs : rs = routes := by
      have e := k1.made.symm.trans hb.made
      have inj : ∀ (a b : List Route), a.map (Except.ok (ε := Error)) = b.map Except.ok → a = b := by
        intro a
        induction a with
        | nil => intro b hb; cases b with
          | nil => rfl
          | cons => simp at hb
        | cons x a ih =>
          intro b hb
          cases b with
          | nil => simp at hb
          | cons y b =>
            simp only [List.map_cons, List.cons.injEq, Except.ok.injEq] at hb
            rw [hb.1, ih b hb.2]
      exact inj _ _ e
    subst hrs
    rw [hs] at k2
    injection k2 with k2
    subst k2
    refine ⟨_, s, rfl, ?_, ?_, fun _ => rfl, plan, _, hb, hs, List.Perm.refl _⟩
    · rw [plainLines_eq hb hne 0]
      exact k3
    · exact (C17_equal_iff data plan plan _ _ s s hb hb hg hs hs).2 (List.Perm.refl _)
  · rw [if_neg h1, hr]
    dsimp only
    have e1 : (data.vehicleTypes.map fun v => Py.split ',' v.name.toList) = names.map (·.map decimal) := by
      refine all2_map h.named fun v l hh => ?_
      rw [hh.1, Py.split_join (by simpa using hh.2.2)]
      intro t ht
      obtain ⟨n, _, rfl⟩ := List.mem_map.1 ht
      exact Py.not_mem_decimal digit_chars.2.2.2.1 n
    have hnd : names.flatten.Nodup := h.vehicles.nodup_iff.2 List.nodup_range
    obtain ⟨slots, a1, a2, a3, a4⟩ := assign_spec hb names (List.replicate data.numVehicles none) hne (by
        intro t
        cases ht : data.vehicleTypes[t]? with
        | none =>
          have : plan.countP (fun p => p.1 = t) = 0 := by
            rw [List.countP_eq_zero]
            intro p hp he
            have := hb.types p hp
            have he' : p.1 = t := by simpa using he
            rw [he'] at this
            rw [List.getElem?_eq_none_iff] at ht
            omega
          omega
        | some v =>
          obtain ⟨l, hl1, hl2⟩ := names_get h ht
          rw [List.getD_eq_getElem?_getD, hl1, Option.getD_some, hl2]
          exact hv.available t v ht) hnd (by
        intro v hv'
        have := List.mem_range.1 (h.vehicles.mem_iff.1 hv')
        rw [List.getElem?_replicate, if_pos this])
    rw [e1, ← linesOf_empty, a1]
    dsimp only
    have hnone : (List.replicate data.numVehicles (none : Option (Nat × List Activity))).filterMap id = [] := by
      rw [List.filterMap_eq_nil_iff]
      intro a ha
      rw [List.eq_of_mem_replicate ha]; rfl
    rw [hnone, List.nil_append] at a3
    obtain ⟨rs, s', k1, k2, k3⟩ := read_slots h hb hc hR hv hg slots a3 (by
      intro k p hk
      rcases a4 k p hk with h' | h'
      · rw [List.getElem?_replicate] at h'
        split at h' <;> cases h'
      · exact h'.2)
    refine ⟨_, s', rfl, k3, ?_, fun h' => absurd h' h1, _, rs, k1, k2, a3.symm⟩
    exact (C17_equal_iff data plan _ routes rs s s' hb k1 hg hs k2).2 a3.symm

namespace SolutionFile

theorem make_routes {data : ProblemData} {routes : List Route} {s : Solution}
    (h : Solution.make data routes = .ok s) : s.routes = routes := by
  have hc : ∀ st (l : List Nat) (x : Solution), (l.foldl (Solution.missingClient data st) x).routes = x.routes := by
    intro st l
    induction l with
    | nil => intro x; rfl
    | cons a l ih =>
      intro x
      rw [List.foldl_cons, ih]
      unfold Solution.missingClient
      split <;> rfl
  have hs : ∀ st (l : List Nat) (x : Solution), (l.foldl (Solution.missingShipment data st) x).routes = x.routes := by
    intro st l
    induction l with
    | nil => intro x; rfl
    | cons a l ih =>
      intro x
      rw [List.foldl_cons, ih]
      unfold Solution.missingShipment
      split <;> rfl
  have hg : ∀ st l (x y : Solution), Solution.groupLoop st x l = .ok y → y.routes = x.routes := by
    intro st l
    induction l with
    | nil => intro x y h; cases h; rfl
    | cons a l ih =>
      intro x y h
      rw [Solution.groupLoop] at h
      split at h
      · cases h
      · split at h
        · exact (ih _ _ h).trans rfl
        · exact ih _ _ h
  unfold Solution.make at h
  split at h
  · cases h
  · dsimp only at h
    split at h
    · cases h
    · split at h
      · cases h
      · rename_i st _ _ sol hgl
        split at h
        · cases h
        · injection h with h
          subst h
          simp only [Solution.evaluate]
          rw [Solution.foldl_constField (·.routes) (fun _ _ => rfl)]
          have := hg _ _ _ _ hgl
          rw [this, hs, hc]

theorem setMany_inv {l : List (Option Activity)} {as : List (Nat × Activity)} {i : Nat} {a : Activity}
    (h : (setMany l as)[i]? = some (some a)) : l[i]? = some (some a) ∨ (i, a) ∈ as := by
  induction as generalizing l with
  | nil => exact .inl h
  | cons p as ih =>
    rcases ih (l := l.set p.1 (some p.2)) h with h' | h'
    · rw [List.getElem?_set] at h'
      by_cases he : p.1 = i
      · rw [if_pos he] at h'
        split at h'
        · simp only [Option.some.injEq] at h'
          right
          rw [← he, ← h']
          simp
        · cases h'
      · rw [if_neg he] at h'
        exact .inl h'
    · exact .inr (by simp [h'])

theorem get_inv {α : Type} {l : List α} {i : Int} {a : α} (hi : 0 ≤ i) (h : Py.get l i = .ok a) :
    ∃ k : Nat, i = k ∧ l[k]? = some a := by
  unfold Py.get Py.position at h
  rw [if_pos hi] at h
  by_cases hl : i < l.length
  · rw [if_pos hl, Option.bind_some] at h
    refine ⟨i.toNat, by omega, ?_⟩
    cases hk : l[i.toNat]? with
    | none => rw [hk] at h; cases h
    | some b => rw [hk] at h; injection h with h; rw [h]
  · rw [if_neg hl] at h
    cases h

theorem activities_inv {data : ProblemData} : ∀ (route : List Int) (acts : List Activity),
    (∀ v ∈ route, 0 ≤ v) → Py.mapE (activityAt (loc2activity data)) route = .ok acts →
    (acts.map data.locationOf).map Int.ofNat = route := by
  intro route
  induction route with
  | nil => intro acts _ h; cases h; rfl
  | cons v route ih =>
    intro acts hpos h
    rw [Py.mapE] at h
    cases ha : activityAt (loc2activity data) v with
    | error e => rw [ha] at h; cases h
    | ok a =>
      rw [ha] at h
      dsimp only at h
      cases hr : Py.mapE (activityAt (loc2activity data)) route with
      | error e => rw [hr] at h; cases h
      | ok as =>
        rw [hr] at h
        injection h with h
        subst h
        rw [List.map_cons, List.map_cons, ih as (fun w hw => hpos w (by simp [hw])) hr]
        congr 1
        unfold activityAt at ha
        cases hg : Py.get (loc2activity data) v with
        | error e => rw [hg] at ha; cases ha
        | ok o =>
          rw [hg] at ha
          cases o with
          | none => cases ha
          | some b =>
            injection ha with ha
            subst ha
            obtain ⟨k, rfl, hk⟩ := get_inv (hpos v (by simp)) hg
            rw [loc2activity_eq] at hk
            rcases setMany_inv hk with h' | h'
            · rw [List.getElem?_replicate] at h'
              split at h' <;> cases h'
            · rw [← (mem_entries.1 h').2]
              rfl

theorem readRoutes_inv {data : ProblemData} {veh2type : List Nat} : ∀ (lines : List (List Int))
    (idx : Nat) (rs : List Route), (∀ l ∈ lines, ∀ v ∈ l, 0 ≤ v) →
    readRoutes data veh2type (loc2activity data) idx lines = .ok rs →
    All2 (fun r (q : List Int × Nat) => (visits data r).map Int.ofNat = q.1
      ∧ veh2type[q.2]? = some r.vehicleType) rs ((lines.zipIdx idx).filter fun q => q.1 ≠ []) := by
  intro lines
  induction lines with
  | nil => intro idx rs _ h; cases h; exact .nil
  | cons l lines ih =>
    intro idx rs hpos h
    have hpos' : ∀ l ∈ lines, ∀ v ∈ l, (0 : Int) ≤ v := fun m hm => hpos m (by simp [hm])
    rw [readRoutes] at h
    rw [List.zipIdx_cons]
    by_cases hl : l = []
    · rw [if_pos hl] at h
      rw [List.filter_cons_of_neg (by simp [hl])]
      exact ih _ _ hpos' h
    · rw [if_neg hl] at h
      rw [List.filter_cons_of_pos (by simpa using hl)]
      cases ha : Py.mapE (activityAt (loc2activity data)) l with
      | error e => rw [ha] at h; cases h
      | ok acts =>
        rw [ha] at h
        dsimp only at h
        cases hv : Py.get veh2type (idx : Int) with
        | error e => rw [hv] at h; cases h
        | ok t =>
          rw [hv] at h
          dsimp only at h
          cases hm : Route.make data acts t with
          | error e => rw [hm] at h; cases h
          | ok r =>
            rw [hm] at h
            dsimp only at h
            cases hr : readRoutes data veh2type (loc2activity data) (idx + 1) lines with
            | error e => rw [hr] at h; cases h
            | ok rest =>
              rw [hr] at h
              injection h with h
              subst h
              refine .cons ⟨?_, ?_⟩ (ih _ _ hpos' hr)
              · rw [visits_eq (p := (t, acts)) hm]
                exact activities_inv l acts (hpos l (by simp)) ha
              · obtain ⟨k, hk, hk'⟩ := get_inv (by omega) hv
                have : idx = k := by omega
                subst this
                rw [hk', type_eq (p := (t, acts)) hm]

theorem unnamed_raises {types : List VehicleType} (h : ∃ v ∈ types, v.name = "") (l : List Nat)
    (idx : Nat) : ∃ e, vehicleTypes l idx types = .error e := by
  induction types generalizing l idx with
  | nil => obtain ⟨v, hv, _⟩ := h; cases hv
  | cons v types ih =>
    rw [vehicleTypes]
    split
    · exact ⟨_, rfl⟩
    · rename_i idcs hi
      split
      · exact ⟨_, rfl⟩
      · refine ih ?_ _ _
        obtain ⟨w, hw, hn⟩ := h
        rcases List.mem_cons.1 hw with rfl | hw
        · rw [hn] at hi
          have : Py.mapE Py.int (Py.split ',' "".toList)
            = .error (.invalidArgument "invalid literal for int()") := by decide
          rw [this] at hi
          cases hi
        · exact ⟨w, hw, hn⟩

end SolutionFile

open SolutionFile in
/-- **C51, reading.** Whatever solution is read from a file, its routes are the routes in the file, in
order and without the empty ones. Each of them visits the places that the file lists, and has the
vehicle type to which the vehicle belongs whose number is that of the line, counting from zero. (The
numbers in the file must not be negative: those would count from the end.) -/
theorem C51_reads_what_the_file_says (data : ProblemData) (names : List (List Nat))
    (h : FileData data names) (file : Text) (lines : List (List Int))
    (hl : SolutionFile.parseRoutes file = .ok lines) (hpos : ∀ l ∈ lines, ∀ v ∈ l, 0 ≤ v)
    (s : Solution) (hs : SolutionFile.read data file = .ok s) :
    All2 (fun r (q : List Int × Nat) =>
        ((r.schedule.map fun a => (data.locationOf a.activity : Int)).drop 1).dropLast = q.1
        ∧ q.2 ∈ names.getD r.vehicleType [])
      s.routes (lines.zipIdx.filter fun q => q.1 ≠ []) := by
  unfold SolutionFile.read at hs
  rw [hl] at hs
  dsimp only at hs
  have hnd : names.flatten.Nodup := h.vehicles.nodup_iff.2 List.nodup_range
  obtain ⟨v2t, h1, h2, h3, h4⟩ := vehicleTypes_spec
    (all2_mono h.named fun v l hh => ⟨hh.1, hh.2.2⟩) (List.replicate data.numVehicles 0) 0 hnd (by
      intro v hv'
      rw [List.length_replicate]
      exact List.mem_range.1 (h.vehicles.mem_iff.1 hv'))
  rw [h1] at hs
  dsimp only at hs
  cases hr : readRoutes data v2t (loc2activity data) 0 lines with
  | error e => rw [hr] at hs; cases hs
  | ok rs =>
    rw [hr] at hs
    rw [make_routes hs]
    refine all2_mono (readRoutes_inv lines 0 rs hpos hr) fun r q hq => ⟨?_, ?_⟩
    · rw [← hq.1]
      unfold visits
      rw [List.map_dropLast, List.map_drop, List.map_map]
      rfl
    · have hlt : q.2 < data.numVehicles := by
        have := (List.getElem?_eq_some_iff.1 hq.2).1
        rw [h2, List.length_replicate] at this
        exact this
      have hm := h.vehicles.mem_iff.2 (List.mem_range.2 hlt)
      obtain ⟨l, hl1, hl2⟩ := List.mem_flatten.1 hm
      obtain ⟨j, hj⟩ := List.getElem?_of_mem hl1
      have := h3 j l hj q.2 hl2
      rw [hq.2, Nat.zero_add] at this
      injection this with this
      rw [List.getD_eq_getElem?_getD, this, hj]
      exact hl2

/-- **C51, the limit.** The vehicle types that a user makes have no name by default. Files can then not be
read at all, not even those that were just written. -/
theorem C51_unnamed_vehicles_cannot_be_read (data : ProblemData)
    (h : ∃ v ∈ data.vehicleTypes, v.name = "") (file : Text) :
    ∃ e, SolutionFile.read data file = .error e := by
  unfold SolutionFile.read
  split
  · exact ⟨_, rfl⟩
  · obtain ⟨e, he⟩ := SolutionFile.unnamed_raises h (List.replicate data.numVehicles 0) 0
    rw [he]
    exact ⟨e, rfl⟩

/-! ### Examples -/
namespace Demo

/-- Two depots, three clients, a shipment and two vehicle types, where the vehicles 0 and 2 are of the
second type and vehicle 1 is of the first. -/
def fileData : ProblemData :=
  { locations := List.replicate 7 ⟨0, 0, ""⟩
    clients := [⟨2, [4], [0], 2, 0, 50, 0, 0, true, none, ""⟩, ⟨3, [3], [5], 2, 0, 60, 0, 0, true, none, ""⟩,
      ⟨4, [1], [1], 1, 0, 500, 0, 7, false, none, ""⟩]
    depots := [⟨0, 0, 1000, 3, ""⟩, ⟨1, 0, 1000, 0, ""⟩]
    vehicleTypes := [
      { numAvailable := 1, startDepot := 0, endDepot := 0, capacity := [10], twEarly := 0, twLate := MAX
        shiftDuration := MAX, maxDistance := MAX, fixedCost := 20, unitDistanceCost := 1
        unitDurationCost := 0, profile := 0, startLate := MAX, initialLoad := [0], reloadDepots := [1]
        maxReloads := 2, maxOvertime := 0, unitOvertimeCost := 0, maxDuration := MAX, name := "1" },
      { numAvailable := 2, startDepot := 0, endDepot := 1, capacity := [20], twEarly := 0, twLate := MAX
        shiftDuration := MAX, maxDistance := MAX, fixedCost := 0, unitDistanceCost := 1
        unitDurationCost := 0, profile := 0, startLate := MAX, initialLoad := [0], reloadDepots := []
        maxReloads := 0, maxOvertime := 0, unitOvertimeCost := 0, maxDuration := MAX, name := "0,2" }]
    dists := [⟨7, 7, List.replicate 49 0⟩]
    durs := [⟨7, 7, List.replicate 49 0⟩]
    groups := []
    shipments := [⟨⟨5, 0, 300, 1⟩, ⟨6, 0, 300, 1⟩, [3], 4, true, ""⟩] }

def filePlan : RoutePlan :=
  [(1, [client 2]), (1, [pickup 0, delivery 0]), (0, [client 1, depot 1, client 0])]

theorem fileData_ok : FileData fileData [[1], [0, 2]] := by
  have inv : ∀ a, Spec.InRange fileData a → a ∈ [depot 0, depot 1, client 0, client 1, client 2, pickup 0,
      delivery 0] := by
    rintro ⟨ty, i⟩ h
    cases ty <;> simp only [Spec.InRange, fileData, List.length_cons, List.length_nil] at h
    · rcases (by omega : i = 0 ∨ i = 1) with rfl | rfl <;> decide
    · rcases (by omega : i = 0 ∨ i = 1 ∨ i = 2) with rfl | rfl | rfl <;> decide
    · rcases (by omega : i = 0) with rfl; decide
    · rcases (by omega : i = 0) with rfl; decide
  refine ⟨?_, ?_, ?_, ?_⟩
  · intro a b ha hb
    exact (by decide : ∀ a ∈ [depot 0, depot 1, client 0, client 1, client 2, pickup 0, delivery 0],
      ∀ b ∈ [depot 0, depot 1, client 0, client 1, client 2, pickup 0, delivery 0],
      fileData.locationOf a = fileData.locationOf b → a = b) a (inv a ha) b (inv b hb)
  · intro a ha
    exact (by decide : ∀ a ∈ [depot 0, depot 1, client 0, client 1, client 2, pickup 0, delivery 0],
      fileData.locationOf a < fileData.numLocations) a (inv a ha)
  · exact .cons (by decide +kernel) (.cons (by decide +kernel) .nil)
  · decide

def okOr {α : Type} (d : α) : Except Error α → α
  | .ok a => a
  | .error _ => d

def fileRoutes : List Route :=
  filePlan.flatMap fun p => okOr [] ((Route.make fileData p.2 p.1).map ([·]))

theorem fileBuilt : Built fileData filePlan fileRoutes :=
  ⟨by decide, by decide, by decide, by decide⟩

def fileSolution : Solution := okOr ({ routes := [] } : Solution) (Solution.make fileData fileRoutes)

example : ProblemData.make fileData = .ok fileData := by decide

example : Solution.make fileData fileRoutes = .ok fileSolution := by decide

/-- The file: the routes are in a different order than in the solution. -/
example : SolutionFile.write fileData fileSolution "12.5".toList
    = .ok "Route #1: 4\nRoute #2: 3 1 2\nRoute #3: 5 6\nCost: 12.5\n".toList := by decide +kernel

/-- What is read back from it: the same solution, with its routes in the order of the vehicles. -/
example : let s := okOr ({ routes := [] } : Solution) (SolutionFile.read fileData
      "Route #1: 4\nRoute #2: 3 1 2\nRoute #3: 5 6\nCost: 12.5\n".toList)
    s.routes.map (fun r => (r.vehicleType, (r.schedule.map (·.activity)).drop 1 |>.dropLast))
      = [(1, [client 2]), (0, [client 1, depot 1, client 0]), (1, [pickup 0, delivery 0])]
    ∧ Solution.eq fileSolution s = true := by decide +kernel

example : ∃ file s', SolutionFile.write fileData fileSolution "12.5".toList = .ok file
    ∧ SolutionFile.read fileData file = .ok s' ∧ Solution.eq fileSolution s' = true
    ∧ (fileData.vehicleTypes.length = 1 → s' = fileSolution)
    ∧ ∃ plan' routes', Built fileData plan' routes' ∧ Solution.make fileData routes' = .ok s'
      ∧ filePlan.Perm plan' :=
  C51_written_solution_reads_back fileData _ fileData_ok (by decide) filePlan fileRoutes fileBuilt
    fileSolution (by decide) "12.5".toList (by decide +kernel) (by decide +kernel)

/-- A file with an empty line for a vehicle meets the assumptions of the theorem about reading. -/
example : SolutionFile.parseRoutes "Route #1:\nRoute #2: 2\n".toList = .ok [[], [2]]
    ∧ (okOr ({ routes := [] } : Solution) (SolutionFile.read fileData "Route #1:\nRoute #2: 2\n".toList)).numRoutes = 1 := by
  decide +kernel

/-- Types without a name. -/
example : ∃ v ∈ Demo.data.vehicleTypes, v.name = "" := by decide

end Demo
end PyVRP
