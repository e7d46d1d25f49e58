import Verif.Lemmas.Read
import Verif.Spec.File
import Verif.Lemmas.Perturbation
/-!
# What is read is what the file says
-/
namespace PyVRP
open Csv ModelApi Spec SolutionFile

namespace Read

theorem trunc_zero : trunc 0 = 0 := by decide +kernel

theorem trunc_int (x : Int) : trunc (x : Rat) = x := by
  unfold trunc
  split
  · exact Rat.floor_intCast x
  · have : (-(x : Rat)).floor = -x := by rw [← Rat.intCast_neg, Rat.floor_intCast]
    omega

theorem numDepots_eq (inst : Vrplib) : numDepots inst = File.numDepots inst := by
  unfold numDepots File.numDepots
  cases inst.depot <;> rfl

theorem numClients_eq (inst : Vrplib) : numClients inst = File.numClients inst := by
  unfold numClients numShipments File.numClients
  rw [numDepots_eq]
  cases inst.pickupDelivery with
  | none => dsimp only; omega
  | some l => dsimp only; omega

theorem numVehicles_eq (inst : Vrplib) : numVehicles inst = File.numVehicles inst := by
  unfold numVehicles File.numVehicles
  rw [numClients_eq]
  cases inst.vehicles <;> rfl

theorem getD_some {α : Type} {l : List α} {i : Nat} {a d : α} (h : l[i]? = some a) : l.getD i d = a := by
  rw [List.getD_eq_getElem?_getD, h]; rfl

theorem toRows_amount {R : Rat → Rat} (h0 : R 0 = 0) {t : Table Rat} {loc : Nat} {row : List Rat}
    (h : (t.map R).toRows[loc]? = some row) (d : Nat) :
    (row.map trunc).getD d 0 = trunc (R (File.amount (some t) loc d)) := by
  cases t with
  | flat l =>
    simp only [Table.map, Table.toRows, List.getElem?_map, Option.map_eq_some_iff] at h
    obtain ⟨x, ⟨y, hy, rfl⟩, rfl⟩ := h
    unfold File.amount
    dsimp only
    cases d with
    | zero => rw [if_pos rfl, getD_some hy]; rfl
    | succ d => rw [if_neg (by omega), h0, trunc_zero]; rfl
  | rows l =>
    simp only [Table.map, Table.toRows, List.getElem?_map, Option.map_eq_some_iff] at h
    obtain ⟨x, hx, rfl⟩ := h
    unfold File.amount
    dsimp only
    rw [getD_some hx]
    rw [List.getD_eq_getElem?_getD, List.getD_eq_getElem?_getD, List.map_map, List.getElem?_map]
    cases x[d]? with
    | none => simp [h0, trunc_zero]
    | some y => rfl

theorem zeros_amount {n loc : Nat} {row : List Rat} (h : (zeros n).toRows[loc]? = some row) (d : Nat) :
    (row.map trunc).getD d 0 = 0 := by
  simp only [zeros, Table.toRows] at h
  rw [List.getElem?_replicate] at h
  split at h
  · injection h with h
    subst h
    cases d <;> simp [trunc_zero]
  · cases h

theorem demands_amount {R : Rat → Rat} (h0 : R 0 = 0) {inst : Vrplib} {loc : Nat} {row : List Rat}
    (h : (demands R inst).toRows[loc]? = some row) (d : Nat) :
    (row.map trunc).getD d 0 = trunc (R (File.delivery inst loc d)) := by
  unfold demands at h
  unfold File.delivery
  cases h1 : inst.demand with
  | some t => rw [h1] at h; exact toRows_amount h0 h d
  | none =>
    rw [h1] at h
    dsimp only at h ⊢
    cases h2 : inst.linehaul with
    | some t => rw [h2] at h; exact toRows_amount h0 h d
    | none =>
      rw [h2] at h
      rw [zeros_amount h d, File.amount, h0, trunc_zero]

theorem backhauls_amount {R : Rat → Rat} (h0 : R 0 = 0) {inst : Vrplib} {loc : Nat} {row : List Rat}
    (h : (backhauls R inst).toRows[loc]? = some row) (d : Nat) :
    (row.map trunc).getD d 0 = trunc (R (File.amount inst.backhaul loc d)) := by
  unfold backhauls at h
  cases h1 : inst.backhaul with
  | some t => rw [h1] at h; exact toRows_amount h0 h d
  | none =>
    rw [h1] at h
    rw [zeros_amount h d, File.amount, h0, trunc_zero]

theorem serviceTimes_number {R : Rat → Rat} {inst : Vrplib} {loc : Nat} {x : Rat}
    (h : (serviceTimes R inst)[loc]? = some x) (h1 : numDepots inst ≤ loc) (h2 : 0 < numDepots inst) :
    x = R (File.number inst.serviceTime 0 loc) := by
  unfold serviceTimes at h
  have key : ∀ y : Rat, ((List.range inst.dimension).map fun i => R (if i < numDepots inst then 0 else y))[loc]?
      = some x → x = R y := by
    intro y hy
    rw [List.getElem?_map, Option.map_eq_some_iff] at hy
    obtain ⟨i, hi, rfl⟩ := hy
    have : i = loc := by
      obtain ⟨hl, he⟩ := List.getElem?_eq_some_iff.1 hi
      rw [List.getElem_range] at he
      omega
    rw [this, if_neg (by omega)]
  cases hs : inst.serviceTime with
  | none => rw [hs] at h; exact key _ h
  | some v =>
    rw [hs] at h
    cases v with
    | one y => exact key _ h
    | many l =>
      simp only [Option.getD_some, List.getElem?_map, Option.map_eq_some_iff] at h
      obtain ⟨y, hy, rfl⟩ := h
      congr 1
      unfold File.number
      have hl := (List.getElem?_eq_some_iff.1 hy).1
      split
      · rename_i heq; cases heq
      · rename_i heq; cases heq
      · rename_i heq
        cases heq
        simp at hl
        omega
      · rename_i heq
        injection heq with heq
        injection heq with heq
        subst heq
        rw [getD_some hy]

theorem timeWindows_window {R : Rat → Rat} {inst : Vrplib} {loc : Nat} {tw : Rat × Rat}
    (h : (timeWindows R inst)[loc]? = some tw) : tw = File.window R inst loc := by
  unfold timeWindows at h
  unfold File.window
  cases h1 : inst.pickupDelivery with
  | some rows =>
    rw [h1] at h
    simp only [List.getElem?_map, Option.map_eq_some_iff] at h
    obtain ⟨r, hr, rfl⟩ := h
    dsimp only
    rw [getD_some hr]
  | none =>
    rw [h1] at h
    dsimp only at h ⊢
    cases h2 : inst.timeWindow with
    | some l =>
      rw [h2] at h
      simp only [List.getElem?_map, Option.map_eq_some_iff] at h
      obtain ⟨r, hr, rfl⟩ := h
      dsimp only
      rw [getD_some hr]
    | none =>
      rw [h2] at h
      dsimp only at h
      rw [List.getElem?_replicate] at h
      split at h
      · injection h with h; exact h.symm
      · cases h

theorem broadcast_number {n : Nat} {v : Values} {l : List Rat} (h : broadcast n v = .ok l) {i : Nat}
    {x : Rat} (hx : l[i]? = some x) (d : Rat) : x = File.number (some v) d i := by
  obtain ⟨h1, h2⟩ := broadcast_ok h
  have hi : i < l.length := (List.getElem?_eq_some_iff.1 hx).1
  have := h2 i (by omega)
  rw [getD_some hx] at this
  rw [this]
  cases v with
  | one y => rfl
  | many m =>
    dsimp only
    rcases m with _ | ⟨a, m⟩
    · by_cases hl : ([] : List Rat).length = n
      · rw [if_pos hl]; rfl
      · rw [if_neg hl]; rfl
    · rcases m with _ | ⟨b, m⟩
      · by_cases hl : ([a] : List Rat).length = n
        · have : i = 0 := by simp at hl; omega
          rw [if_pos hl, this]; rfl
        · rw [if_neg hl]; rfl
      · by_cases hl : (a :: b :: m).length = n
        · rw [if_pos hl]; rfl
        · rw [broadcast, if_neg hl, if_neg (by simp)] at h
          cases h

theorem broadcast_map {R : Rat → Rat} {n : Nat} {v : Values} {l : List Rat}
    (h : (broadcast n v).map (·.map R) = .ok l) {i : Nat} {x : Rat} (hx : l[i]? = some x) (d : Rat) :
    x = R (File.number (some v) d i) := by
  obtain ⟨m, hm, rfl⟩ := map_ok h
  rw [List.getElem?_map, Option.map_eq_some_iff] at hx
  obtain ⟨y, hy, rfl⟩ := hx
  rw [broadcast_number hm hy d]

theorem number_default (section_ : Option Values) (d : Rat) (i : Nat) :
    File.number (some (section_.getD (.one d))) 0 i = File.number section_ d i := by
  cases section_ with
  | none => rfl
  | some v =>
    cases v with
    | one x => rfl
    | many l => cases l with
      | nil => rfl
      | cons a l => cases l <;> rfl

theorem releaseTimes_number {R : Rat → Rat} {inst : Vrplib} {l : List Rat} (h : releaseTimes R inst = .ok l)
    {loc : Nat} {x : Rat} (hx : l[loc]? = some x) : x = R (File.number inst.releaseTime 0 loc) := by
  rw [← number_default]
  exact broadcast_map h hx 0

theorem prizes_prize {R : Rat → Rat} (h0 : R 0 = 0) {inst : Vrplib} {loc : Nat} {x : Rat}
    (h : (prizes R inst)[loc]? = some x) : x = R (File.prize inst loc) := by
  unfold prizes at h
  unfold File.prize
  cases h1 : inst.prize with
  | none =>
    rw [h1] at h
    dsimp only at h ⊢
    rw [List.getElem?_replicate] at h
    split at h
    · injection h with h; rw [h0, h]
    · cases h
  | some l =>
    rw [h1] at h
    simp only [List.getElem?_map, Option.map_eq_some_iff] at h
    obtain ⟨y, hy, rfl⟩ := h
    dsimp only
    rw [getD_some hy]

/-! ## Groups -/

theorem groupRows {inst : Vrplib} {rows : List (List Int)} (h : mutuallyExclusiveGroups inst = .ok rows) :
    rows.map (·.map (· + (numDepots inst : Int) + 1)) = File.groups inst := by
  unfold mutuallyExclusiveGroups at h
  unfold File.groups
  cases h1 : inst.groups with
  | none => rw [h1] at h; injection h with h; subst h; rfl
  | some t =>
    rw [h1] at h
    dsimp only at h
    split at h
    · cases h
    · injection h with h
      subst h
      cases t with
      | flat l =>
        simp only [Table.toRows, List.map_map]
        have : ((l.map ((fun x => x.map (· - (numDepots inst : Int) - 1)) ∘ fun x => [x])).filter
            (1 < ·.length)) = [] := by
          rw [List.filter_eq_nil_iff]
          intro a ha
          obtain ⟨b, _, rfl⟩ := List.mem_map.1 ha
          simp
        rw [this]; rfl
      | rows l =>
        simp only [Table.toRows]
        clear * -
        induction l with
        | nil => rfl
        | cons r l ih =>
          have e : (r.map (· - (numDepots inst : Int) - 1)).map (· + (numDepots inst : Int) + 1) = r := by
            rw [List.map_map]
            have : ((· + (numDepots inst : Int) + 1) ∘ (· - (numDepots inst : Int) - 1)) = id := by
              funext x; simp only [Function.comp, id]; omega
            rw [this, List.map_id]
          by_cases hr : 1 < r.length
          · rw [List.map_cons, List.filter_cons_of_pos (by simpa using hr),
              List.filter_cons_of_pos (by simpa using hr), List.map_cons, ih, e]
          · rw [List.map_cons, List.filter_cons_of_neg (by simpa using hr),
              List.filter_cons_of_neg (by simpa using hr), ih]

/-! ## Vehicles -/

theorem indices_line {t : Table Int} {l : List (List Int)} (h : indices t = .ok l) {i : Nat} {r : List Int}
    (hr : l[i]? = some r) : r = File.line t i := by
  unfold indices at h
  split at h
  · cases h
  · injection h with h
    subst h
    cases t with
    | flat m =>
      simp only [Table.toRows, List.getElem?_map, Option.map_eq_some_iff] at hr
      obtain ⟨x, ⟨y, hy, rfl⟩, rfl⟩ := hr
      rw [File.line, getD_some hy]; rfl
    | rows m =>
      simp only [Table.toRows, List.getElem?_map, Option.map_eq_some_iff] at hr
      obtain ⟨x, hx, rfl⟩ := hr
      rw [File.line, getD_some hx]

theorem replicate_get {α : Type} {n i : Nat} {a x : α} (h : (List.replicate n a)[i]? = some x) : x = a := by
  rw [List.getElem?_replicate] at h
  split at h
  · injection h with h; exact h.symm
  · cases h

theorem allowed_line {inst : Vrplib} {l : List (List Int)} (h : allowedClients inst = .ok l) {v : Nat}
    {r : List Int} (hr : l[v]? = some r) (R : Rat → Rat) : r = (File.vehicle R inst v).clients := by
  unfold allowedClients at h
  unfold File.vehicle
  dsimp only
  cases h1 : inst.allowedClients with
  | none =>
    rw [h1] at h
    injection h with h
    subst h
    rw [replicate_get hr, numDepots_eq]
  | some t =>
    rw [h1] at h
    exact indices_line h hr

theorem limits_limit {R : Rat → Rat} {inst : Vrplib} {s : Option Values} {l : List Rat}
    (h : limits R inst s = .ok l) {v : Nat} {x : Rat} (hx : l[v]? = some x) : x = File.limit R s v := by
  unfold limits at h
  unfold File.limit
  cases s with
  | none =>
    injection h with h
    subst h
    exact replicate_get hx
  | some s => exact broadcast_map h hx 0

theorem attributes_vehicle {R : Rat → Rat} {inst : Vrplib} {attrs : List Attrs}
    (h : attributes R inst = .ok attrs) (hd : depotIdcs inst = (List.range (numDepots inst)).map Int.ofNat)
    {v : Nat} {a : Attrs} (ha : attrs[v]? = some a) : a = File.vehicle R inst v := by
  obtain ⟨clients, reloads, depots, distances, durations, maxR, fixed, unit, e1, e2, e3, e4, e5, e6, e7, e8,
    _, _, _, hall⟩ := attributes_ok h
  obtain ⟨hv, k1, k2, k3, k4, k5, k6, k7, k8, k9⟩ := hall v a ha
  obtain ⟨capacity, clients', reloads', depot, maxDistance, shiftDuration, maxReloads', fixedCost, unitCost⟩ := a
  dsimp only at k1 k2 k3 k4 k5 k6 k7 k8 k9
  have q2 := allowed_line e1 k2 R
  have q5 := limits_limit e4 k5
  have q6 := limits_limit e5 k6
  have q8 : fixedCost = R (File.number inst.fixedCost 0 v) := by
    rw [← number_default]; exact broadcast_map e7 k8 0
  have q9 : unitCost = File.number inst.unitDistanceCost 1 v := by
    rw [← number_default]; exact broadcast_number e8 k9 0
  have q1 : capacity = (File.vehicle R inst v).capacity := by
    unfold capacities at k1
    unfold File.vehicle
    dsimp only
    cases h1 : inst.capacity with
    | none => rw [h1] at k1; exact replicate_get k1
    | some c =>
      rw [h1] at k1
      cases c with
      | one x => exact replicate_get k1
      | table t =>
        cases t with
        | flat l =>
          simp only [Table.map, Table.toRows, List.getElem?_map, Option.map_eq_some_iff] at k1
          obtain ⟨x, ⟨y, hy, rfl⟩, rfl⟩ := k1
          dsimp only
          rw [getD_some hy]
        | rows l =>
          simp only [Table.map, Table.toRows, List.getElem?_map, Option.map_eq_some_iff] at k1
          obtain ⟨x, hx, rfl⟩ := k1
          dsimp only
          rw [getD_some hx]
  have q3 : reloads' = (File.vehicle R inst v).reloads := by
    unfold reloadDepots at e2
    unfold File.vehicle
    dsimp only
    cases h1 : inst.reloadDepot with
    | none =>
      rw [h1] at e2
      injection e2 with e2
      subst e2
      exact replicate_get k3
    | some t => rw [h1] at e2; exact indices_line e2 k3
  have q4 : depot = (File.vehicle R inst v).depot := by
    unfold vehiclesDepots at e3
    unfold File.vehicle
    dsimp only
    cases h1 : inst.vehiclesDepot with
    | none =>
      rw [h1] at e3
      dsimp only at e3
      obtain ⟨x, hx, rfl⟩ := map_ok e3
      rw [hd] at hx
      have hx' := Py.get_nat_inv (i := 0) hx
      rw [List.getElem?_map, Option.map_eq_some_iff] at hx'
      obtain ⟨y, hy, rfl⟩ := hx'
      obtain ⟨_, he⟩ := List.getElem?_eq_some_iff.1 hy
      rw [List.getElem_range] at he
      subst he
      exact replicate_get k4
    | some l =>
      rw [h1] at e3
      injection e3 with e3
      subst e3
      rw [List.getElem?_map, Option.map_eq_some_iff] at k4
      obtain ⟨y, hy, rfl⟩ := k4
      dsimp only
      rw [getD_some hy]
  have q7 : maxReloads' = (File.vehicle R inst v).maxReloads := by
    unfold maxReloads at e6
    unfold File.vehicle
    dsimp only
    cases h1 : inst.maxReloads with
    | none =>
      rw [h1] at e6
      injection e6 with e6
      subst e6
      exact replicate_get k7
    | some l =>
      rw [h1] at e6
      dsimp only at e6
      split at e6
      · rename_i hl
        injection e6 with e6
        subst e6
        cases hl' : l with
        | nil => rw [hl'] at k7; simp at k7
        | cons a m =>
          cases m with
          | nil =>
            rw [hl'] at k7 hl
            have : v = 0 := by simp at hl; omega
            subst this
            simpa using k7.symm
          | cons b m => rw [hl'] at k7; dsimp only; rw [getD_some k7]
      · split at e6
        · rename_i hl
          obtain ⟨x, rfl⟩ := List.length_eq_one_iff.1 hl
          injection e6 with e6
          subst e6
          exact replicate_get k7
        · cases e6
  subst q2 q5 q6 q8 q9 q1 q3 q4 q7
  rfl

/-! ## Distances -/

/-- An entry of a matrix. -/
def entry (m : List (List Rat)) (i j : Nat) : Rat := (m.getD i []).getD j 0

/-- A square matrix. -/
def IsSquare (n : Nat) (m : List (List Rat)) : Prop := m.length = n ∧ ∀ r ∈ m, r.length = n

theorem IsSquare.get {n : Nat} {m : List (List Rat)} (h : IsSquare n m) {i j : Nat} (hi : i < n) (hj : j < n) :
    ∃ r, m[i]? = some r ∧ r[j]? = some (entry m i j) ∧ r.length = n := by
  have h1 : i < m.length := by rw [h.1]; exact hi
  have h2 : m[i].length = n := h.2 _ (List.getElem_mem h1)
  refine ⟨m[i], List.getElem?_eq_getElem h1, ?_, h2⟩
  rw [entry, getD_some (List.getElem?_eq_getElem h1), List.getD_eq_getElem?_getD,
    List.getElem?_eq_getElem (by omega)]
  rfl

theorem mapEntries_square {n : Nat} {m : List (List Rat)} (h : IsSquare n m) (f : Nat → Nat → Rat → Rat) :
    IsSquare n (mapEntries f m) ∧ ∀ i j, i < n → j < n →
      entry (mapEntries f m) i j = f i j (entry m i j) := by
  refine ⟨⟨by simp [mapEntries, h.1], ?_⟩, ?_⟩
  · intro r hr
    unfold mapEntries at hr
    obtain ⟨p, hp, rfl⟩ := List.mem_map.1 hr
    have := List.mem_zipIdx_iff_getElem?.1 hp
    simp [h.2 _ (List.mem_of_getElem? this)]
  · intro i j hi hj
    obtain ⟨r, hr, hx, _⟩ := h.get hi hj
    obtain ⟨r', h1, _, h3⟩ := mapEntries_get f m i j r _ hr hx
    rw [entry, getD_some h1, getD_some h3]

theorem flatten_entry : ∀ {n : Nat} {m : List (List Rat)}, (∀ r ∈ m, r.length = n) → ∀ i j, i < m.length →
    j < n → (m.flatten.map trunc).getD (n * i + j) 0 = trunc (entry m i j) := by
  intro n m
  induction m with
  | nil => intro _ i j hi; simp at hi
  | cons r m ih =>
    intro h i j hi hj
    have hr : r.length = n := h r (by simp)
    rw [List.flatten_cons, List.map_append]
    cases i with
    | zero =>
      rw [getD_append_lt _ _ _ _ (by rw [List.length_map]; omega)]
      unfold entry
      simp only [List.getD_eq_getElem?_getD, List.getElem?_map, Nat.mul_zero, Nat.zero_add,
        List.getElem?_cons_zero, Option.getD_some]
      rw [List.getElem?_eq_getElem (by omega)]
      rfl
    | succ i =>
      have e : n * (i + 1) + j = n + (n * i + j) := by rw [Nat.mul_succ]; omega
      rw [getD_append_ge _ _ _ _ (by rw [List.length_map]; omega), List.length_map, hr, e,
        Nat.add_sub_cancel_left, ih (fun r hr => h r (by simp [hr])) i j (by simpa using hi) hj]
      rfl

theorem matrix_get {n : Nat} {m : List (List Rat)} (h : IsSquare n m) {i j : Nat} (hi : i < n) (hj : j < n) :
    (matrix m).get i j = trunc (entry m i j) := by
  have h0 : (m.getD 0 []).length = n := by
    have hm := h.1
    cases m with
    | nil => simp at hm; omega
    | cons r m => exact h.2 r (by simp)
  rw [Matrix.get, matrix]
  dsimp only
  rw [h0]
  exact flatten_entry h.2 i j (by rw [h.1]; exact hi) hj

theorem edgeWeight_square {R : Rat → Rat} {inst : Vrplib} (h : File.Square inst) :
    IsSquare inst.dimension (edgeWeight R inst) ∧ ∀ i j, i < inst.dimension → j < inst.dimension →
      entry (edgeWeight R inst) i j = R ((inst.edgeWeight.getD i []).getD j 0) := by
  refine ⟨⟨by simp [edgeWeight, h.1], ?_⟩, ?_⟩
  · intro r hr
    obtain ⟨r', hr', rfl⟩ := List.mem_map.1 hr
    rw [List.length_map, h.2 r' hr']
  · intro i j hi hj
    obtain ⟨r, h1, h2, _⟩ := IsSquare.get (m := inst.edgeWeight) ⟨h.1, h.2⟩ hi hj
    have h3 : (edgeWeight R inst)[i]? = some (r.map R) := by rw [edgeWeight, List.getElem?_map, h1]; rfl
    have h4 : (r.map R)[j]? = some (R (entry inst.edgeWeight i j)) := by rw [List.getElem?_map, h2]; rfl
    rw [entry, getD_some h3, getD_some h4]
    rfl

theorem flat_getD {R : Rat → Rat} (h0 : R 0 = 0) (l : List Rat) (j : Nat) :
    (l.map R).getD j 0 = R (l.getD j 0) := by
  rw [List.getD_eq_getElem?_getD, List.getD_eq_getElem?_getD, List.getElem?_map]
  cases l[j]? with
  | none => exact h0.symm
  | some x => rfl

theorem map_flatOnly {R : Rat → Rat} (h0 : R 0 = 0) {t : Table Rat} {l : List Rat}
    (h : flatOnly (t.map R) = .ok l) (j : Nat) : l.getD j 0 = R (File.amount (some t) j 0) := by
  cases t with
  | rows m => cases h
  | flat m =>
    injection h with h
    subst h
    exact flat_getD h0 m j

theorem square_iff {n : Nat} {m : List (List Rat)} (h : square n m = true) : IsSquare n m := by
  unfold square at h
  simp only [Bool.and_eq_true, decide_eq_true_eq, List.all_eq_true, beq_iff_eq] at h
  exact h

open Classical in
/-- The distances before the clients of a vehicle are taken into account. -/
theorem base_ok {R : Rat → Rat} (h0 : R 0 = 0) {inst : Vrplib} (hs : File.Square inst)
    {base : List (List Rat)}
    (h : (if inst.type = "VRPB" then vrpb R inst (edgeWeight R inst) else .ok (edgeWeight R inst)) = .ok base) :
    IsSquare inst.dimension base ∧ ∀ i j, i < inst.dimension → j < inst.dimension →
      entry base i j = if File.Closed R inst i j then (MAX_VALUE : Rat)
        else R ((inst.edgeWeight.getD i []).getD j 0) := by
  obtain ⟨e1, e2⟩ := edgeWeight_square (R := R) hs
  by_cases ht : inst.type = "VRPB"
  · rw [if_pos ht] at h
    unfold vrpb at h
    cases h1 : flatOnly (demands R inst) with
    | error e => rw [h1] at h; cases h
    | ok lh =>
    rw [h1] at h; dsimp only at h
    cases h2 : flatOnly (backhauls R inst) with
    | error e => rw [h2] at h; cases h
    | ok bh =>
    rw [h2] at h; dsimp only at h
    split at h
    · cases h
    · injection h with h
      subst h
      have hl : ∀ j, lh.getD j 0 = R (File.delivery inst j 0) := by
        intro j
        unfold demands at h1
        unfold File.delivery
        cases k1 : inst.demand with
        | some t => rw [k1] at h1; exact map_flatOnly h0 h1 j
        | none =>
          rw [k1] at h1
          dsimp only at h1 ⊢
          cases k2 : inst.linehaul with
          | some t => rw [k2] at h1; exact map_flatOnly h0 h1 j
          | none => rw [k2] at h1; cases h1
      have hb : ∀ j, bh.getD j 0 = R (File.amount inst.backhaul j 0) := by
        intro j
        unfold backhauls at h2
        cases k1 : inst.backhaul with
        | some t => rw [k1] at h2; exact map_flatOnly h0 h2 j
        | none => rw [k1] at h2; cases h2
      obtain ⟨q1, q2⟩ := mapEntries_square e1 (fun i j x =>
        if i = 0 ∧ bh.getD j 0 > 0 then (MAX_VALUE : Rat)
        else if bh.getD i 0 > 0 ∧ lh.getD j 0 > 0 then (MAX_VALUE : Rat) else x)
      refine ⟨q1, fun i j hi hj => ?_⟩
      rw [q2 i j hi hj, e2 i j hi hj]
      simp only [hl, hb]
      by_cases c1 : i = 0 ∧ R (File.amount inst.backhaul j 0) > 0
      · rw [if_pos c1, if_pos ⟨ht, .inl c1⟩]
      · rw [if_neg c1]
        by_cases c2 : R (File.amount inst.backhaul i 0) > 0 ∧ R (File.delivery inst j 0) > 0
        · rw [if_pos c2, if_pos ⟨ht, .inr c2⟩]
        · rw [if_neg c2, if_neg (by rintro ⟨_, h | h⟩ <;> contradiction)]
  · rw [if_neg ht] at h
    injection h with h
    subst h
    refine ⟨e1, fun i j hi hj => ?_⟩
    rw [e2 i j hi hj, if_neg (fun hc => ht hc.1)]

/-- A line that is as long as the number of clients lists them all. -/
theorem lists_all {R : Rat → Rat} {inst : Vrplib} {v : Nat}
    (hl : File.ListsClients inst (File.vehicle R inst v))
    (hp : inst.pickupDelivery = none ∨ inst.allowedClients = none)
    (h : ((File.vehicle R inst v).clients.length : Int) = numClients inst) (i : Nat)
    (hi : i < inst.dimension) : File.Visits inst (File.vehicle R inst v) i := by
  by_cases hd : i < File.numDepots inst
  · exact .inl hd
  right
  rcases hp with hp | hp
  · rw [numClients_eq, File.numClients, hp] at h
    dsimp only at h
    apply Classical.byContradiction
    intro hc
    have := length_le_of_nodup (l := (i : Int) :: (File.vehicle R inst v).clients)
      (m := (List.range' (File.numDepots inst) (inst.dimension - File.numDepots inst)).map Int.ofNat)
      (List.nodup_cons.2 ⟨hc, hl.1⟩) (by
        intro a ha
        rcases List.mem_cons.1 ha with rfl | ha
        · refine List.mem_map.2 ⟨i, ?_, rfl⟩
          rw [List.mem_range'_1]; omega
        · have := hl.2 a ha
          refine List.mem_map.2 ⟨a.toNat, ?_, ?_⟩
          · rw [List.mem_range'_1]; omega
          · show ((a.toNat : Nat) : Int) = a
            omega)
    rw [List.length_cons, List.length_map, List.length_range'] at this
    omega
  · rw [File.vehicle, hp]
    dsimp only
    refine List.mem_map.2 ⟨i, ?_, rfl⟩
    rw [List.mem_range'_1]; omega

theorem profileDistances_ok {R : Rat → Rat} (h0 : R 0 = 0) {inst : Vrplib} (hs : File.Square inst)
    {base m : List (List Rat)}
    (hb : (if inst.type = "VRPB" then vrpb R inst (edgeWeight R inst) else .ok (edgeWeight R inst)) = .ok base)
    {v : Nat} (hl : File.ListsClients inst (File.vehicle R inst v))
    (hp : inst.pickupDelivery = none ∨ inst.allowedClients = none)
    (h : profileDistances inst base (File.vehicle R inst v).clients = .ok m) :
    IsSquare inst.dimension m ∧ ∀ i j, i < inst.dimension → j < inst.dimension → i ≠ j →
      entry m i j = File.distance R inst (File.vehicle R inst v) i j := by
  obtain ⟨b1, b2⟩ := base_ok h0 hs hb
  unfold profileDistances at h
  by_cases hc : ((File.vehicle R inst v).clients.length : Int) = numClients inst
  · rw [if_pos hc] at h
    injection h with h
    subst h
    refine ⟨b1, fun i j hi hj hij => ?_⟩
    have vi := lists_all hl hp hc i hi
    have vj := lists_all hl hp hc j hj
    have hn : ¬ (¬ File.Visits inst (File.vehicle R inst v) i ∨ ¬ File.Visits inst (File.vehicle R inst v) j) := by
      rintro (h | h)
      · exact h vi
      · exact h vj
    rw [b2 i j hi hj, File.distance, if_neg hij, if_neg hn]
  · rw [if_neg hc] at h
    cases ha : allow ((List.range inst.dimension).map fun i => decide (i < numDepots inst))
        (File.vehicle R inst v).clients with
    | error e => rw [ha] at h; cases h
    | ok allowed =>
    rw [ha] at h; dsimp only at h
    split at h
    · cases h
    · injection h with h
      subst h
      obtain ⟨_, a2⟩ := allow_ok _ _ _ (fun c hc => by have := hl.2 c hc; omega) ha
      have hv : ∀ i, i < inst.dimension →
          (allowed.getD i false = true ↔ File.Visits inst (File.vehicle R inst v) i) := by
        intro i hi
        rw [a2 i, File.Visits, List.getD_eq_getElem?_getD, List.getElem?_map, List.getElem?_range hi,
          ← numDepots_eq]
        simp
      obtain ⟨q1, q2⟩ := mapEntries_square b1 (fun i j x =>
        if i = j then 0
        else if !allowed.getD i false || !allowed.getD j false then (MAX_VALUE : Rat) else x)
      refine ⟨q1, fun i j hi hj hij => ?_⟩
      rw [q2 i j hi hj, if_neg hij, File.distance, if_neg hij]
      by_cases vi : File.Visits inst (File.vehicle R inst v) i
      · by_cases vj : File.Visits inst (File.vehicle R inst v) j
        · rw [if_neg (by rw [(hv i hi).2 vi, (hv j hj).2 vj]; decide), if_neg (by
            rintro (h | h)
            · exact h vi
            · exact h vj), b2 i j hi hj]
        · rw [if_pos (by
            cases hh : allowed.getD j false with
            | true => exact absurd ((hv j hj).1 hh) vj
            | false => simp), if_pos (.inr vj)]
      · rw [if_pos (by
            cases hh : allowed.getD i false with
            | true => exact absurd ((hv i hi).1 hh) vi
            | false => simp), if_pos (.inl vi)]

theorem distanceMatrices_ok {R : Rat → Rat} {inst : Vrplib} {ms : List (List (List Rat))}
    (h : distanceMatrices R inst = .ok ms) :
    ∃ base allowed,
      (if inst.type = "VRPB" then vrpb R inst (edgeWeight R inst) else .ok (edgeWeight R inst)) = .ok base
      ∧ allowedClients inst = .ok allowed
      ∧ All2 (fun cs m => profileDistances inst base cs = .ok m) (profiles allowed) ms := by
  unfold distanceMatrices at h
  cases h1 : (if inst.type = "VRPB" then vrpb R inst (edgeWeight R inst) else .ok (edgeWeight R inst)) with
  | error e => rw [h1] at h; cases h
  | ok base =>
  rw [h1] at h; dsimp only at h
  cases h2 : allowedClients inst with
  | error e => rw [h2] at h; cases h
  | ok allowed =>
  rw [h2] at h; dsimp only at h
  exact ⟨base, allowed, rfl, rfl, Py.mapE_all2 h⟩

end Read
end PyVRP
