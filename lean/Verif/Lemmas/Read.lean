import Verif.Model.Read
import Verif.Props.C51
/-!
# Lemmas about reading instances
-/
namespace PyVRP
open Csv ModelApi Spec SolutionFile

theorem Py.mapE_all2 {α β : Type} {f : α → Except Error β} {l : List α} {l' : List β}
    (h : Py.mapE f l = .ok l') : All2 (fun a b => f a = .ok b) l l' := by
  induction l generalizing l' with
  | nil => cases h; exact .nil
  | cons a l ih =>
    rw [Py.mapE] at h
    cases ha : f a with
    | error e => rw [ha] at h; cases h
    | ok b =>
      rw [ha] at h
      dsimp only at h
      cases hl : Py.mapE f l with
      | error e => rw [hl] at h; cases h
      | ok bs =>
        rw [hl] at h
        injection h with h
        subst h
        exact .cons ha (ih hl)

theorem Py.get_nat_inv {α : Type} {l : List α} {i : Nat} {a : α} (h : Py.get l (i : Int) = .ok a) :
    l[i]? = some a := by
  obtain ⟨k, hk, h'⟩ := get_inv (by omega) h
  have : i = k := by omega
  rw [this]; exact h'

theorem All2.length {α β : Type} {P : α → β → Prop} {l : List α} {m : List β} (h : All2 P l m) :
    l.length = m.length := by
  induction h with
  | nil => rfl
  | cons _ _ ih => rw [List.length_cons, List.length_cons, ih]

theorem All2.get {α β : Type} {P : α → β → Prop} {l : List α} {m : List β} (h : All2 P l m) {i : Nat}
    {a : α} {b : β} (ha : l[i]? = some a) (hb : m[i]? = some b) : P a b := by
  induction h generalizing i with
  | nil => simp at ha
  | cons hp _ ih =>
    cases i with
    | zero =>
      simp only [List.getElem?_cons_zero, Option.some.injEq] at ha hb
      subst ha hb; exact hp
    | succ i => exact ih (by simpa using ha) (by simpa using hb)

theorem All2.mem_right {α β : Type} {P : α → β → Prop} {l : List α} {m : List β} (h : All2 P l m)
    {b : β} (hb : b ∈ m) : ∃ a ∈ l, P a b := by
  induction h with
  | nil => cases hb
  | cons hp _ ih =>
    rcases List.mem_cons.1 hb with rfl | hb
    · exact ⟨_, by simp, hp⟩
    · obtain ⟨a, ha, h'⟩ := ih hb
      exact ⟨a, by simp [ha], h'⟩

theorem checked_ok {α : Type} {e : Option Error} {x y : α} (h : checked e x = .ok y) : y = x := by
  cases e with
  | none => injection h with h; exact h.symm
  | some e => cases h

namespace Read

theorem build_ok {R : Rat → Rat} {inst : Vrplib} {data : ProblemData} {w : Bool}
    (h : build R inst = .ok (data, w)) :
    ∃ dists, clients R inst = .ok data.clients ∧ depots inst = .ok data.depots
      ∧ vehicleTypes R inst = .ok data.vehicleTypes ∧ distanceMatrices R inst = .ok dists
      ∧ data.dists = dists.map matrix ∧ data.durs = data.dists ∧ groups inst = .ok data.groups
      ∧ shipments R inst = .ok data.shipments ∧ data.locations = locations R inst
      ∧ ProblemData.make data = .ok data ∧ w = warns dists := by
  unfold build at h
  cases h1 : clients R inst with
  | error e => rw [h1] at h; cases h
  | ok cs =>
  rw [h1] at h; dsimp only at h
  cases h2 : depots inst with
  | error e => rw [h2] at h; cases h
  | ok ds =>
  rw [h2] at h; dsimp only at h
  cases h3 : vehicleTypes R inst with
  | error e => rw [h3] at h; cases h
  | ok ts =>
  rw [h3] at h; dsimp only at h
  cases h4 : distanceMatrices R inst with
  | error e => rw [h4] at h; cases h
  | ok ms =>
  rw [h4] at h; dsimp only at h
  cases h5 : groups inst with
  | error e => rw [h5] at h; cases h
  | ok gs =>
  rw [h5] at h; dsimp only at h
  cases h6 : shipments R inst with
  | error e => rw [h6] at h; cases h
  | ok ss =>
  rw [h6] at h; dsimp only at h
  cases h7 : ProblemData.make
        { locations := locations R inst, clients := cs, depots := ds, vehicleTypes := ts
          dists := ms.map matrix, durs := ms.map matrix, groups := gs, shipments := ss } with
  | error e => rw [h7] at h; cases h
  | ok d =>
  rw [h7] at h
  injection h with h
  rw [Prod.mk.injEq] at h
  obtain ⟨rfl, rfl⟩ := h
  have hd := checked_ok h7
  subst hd
  exact ⟨ms, rfl, rfl, rfl, rfl, rfl, rfl, rfl, rfl, rfl, h7, rfl⟩

/-! ## Depots -/

theorem depots_ok {inst : Vrplib} {ds : List Depot} (h : depots inst = .ok ds) :
    0 < numDepots inst ∧ depotIdcs inst = (List.range (numDepots inst)).map Int.ofNat
      ∧ ds = (List.range (numDepots inst)).map fun idx => ⟨idx, 0, MAX, 0, ""⟩ := by
  unfold depots at h
  split at h
  · cases h
  · rename_i hc
    injection h with h
    rw [not_or] at hc
    exact ⟨Nat.pos_of_ne_zero hc.1, Decidable.not_not.1 hc.2, h.symm⟩

/-! ## Clients -/

theorem pad_getD (v1 v2 : List Int) (d : Nat) : (pad v1 v2).getD d 0 = v1.getD d 0 := by
  unfold pad
  by_cases h : d < v1.length
  · rw [getD_append_lt _ _ _ _ h]
  · rw [getD_append_ge _ _ _ _ (by omega)]
    have h1 : v1.getD d 0 = 0 := by simp [List.getElem?_eq_none (by omega : v1.length ≤ d)]
    rw [h1, List.getD_eq_getElem?_getD, List.getElem?_replicate]
    split <;> rfl

theorem client_ok {s : ClientSections} {nd idx : Nat} {c : Client} (h : client s nd idx = .ok c) :
    ∃ delivery pickup service tw release prize group,
      s.demands.toRows[idx]? = some delivery ∧ s.backhauls.toRows[idx]? = some pickup
      ∧ s.serviceDuration[idx]? = some service ∧ s.timeWindows[idx]? = some tw
      ∧ s.releaseTimes[idx]? = some release ∧ s.prizes[idx]? = some prize
      ∧ s.idx2group[idx - nd]? = some group
      ∧ c.location = idx ∧ (∀ d, c.delivery.getD d 0 = (delivery.map trunc).getD d 0)
      ∧ (∀ d, c.pickup.getD d 0 = (pickup.map trunc).getD d 0)
      ∧ c.serviceDuration = trunc service ∧ c.twEarly = trunc tw.1 ∧ c.twLate = trunc tw.2
      ∧ c.releaseTime = trunc release ∧ c.prize = trunc prize
      ∧ c.required = (isZero prize && group.isNone) ∧ c.group = group := by
  unfold client row at h
  cases h1 : Py.get s.demands.toRows (idx : Int) with
  | error e => rw [h1] at h; cases h
  | ok delivery =>
  rw [h1] at h; dsimp only at h
  cases h2 : Py.get s.backhauls.toRows (idx : Int) with
  | error e => rw [h2] at h; cases h
  | ok pickup =>
  rw [h2] at h; dsimp only at h
  cases h3 : Py.get s.serviceDuration (idx : Int) with
  | error e => rw [h3] at h; cases h
  | ok service =>
  rw [h3] at h; dsimp only at h
  cases h4 : Py.get s.timeWindows (idx : Int) with
  | error e => rw [h4] at h; cases h
  | ok tw =>
  rw [h4] at h; dsimp only at h
  cases h5 : Py.get s.releaseTimes (idx : Int) with
  | error e => rw [h5] at h; cases h
  | ok release =>
  rw [h5] at h; dsimp only at h
  cases h6 : Py.get s.prizes (idx : Int) with
  | error e => rw [h6] at h; cases h
  | ok prize =>
  rw [h6] at h; dsimp only at h
  cases h7 : Py.get s.idx2group ((idx - nd : Nat) : Int) with
  | error e => rw [h7] at h; cases h
  | ok group =>
  rw [h7] at h; dsimp only at h
  have hc := checked_ok h
  subst hc
  exact ⟨delivery, pickup, service, tw, release, prize, group, Py.get_nat_inv h1, Py.get_nat_inv h2,
    Py.get_nat_inv h3, Py.get_nat_inv h4, Py.get_nat_inv h5, Py.get_nat_inv h6, Py.get_nat_inv h7, rfl,
    fun d => pad_getD _ _ d, fun d => pad_getD _ _ d, rfl, rfl, rfl, rfl, rfl, rfl, rfl⟩

theorem clients_ok {R : Rat → Rat} {inst : Vrplib} {cs : List Client} (h : clients R inst = .ok cs) :
    ∃ idx2group release, releaseTimes R inst = .ok release ∧ cs.length = (numClients inst).toNat
      ∧ ∀ i c, cs[i]? = some c →
        client
          { idx2group := idx2group, demands := demands R inst, backhauls := backhauls R inst
            serviceDuration := serviceTimes R inst, timeWindows := timeWindows R inst
            releaseTimes := release, prizes := prizes R inst } (numDepots inst) (numDepots inst + i)
          = .ok c := by
  unfold clients at h
  cases h1 : mutuallyExclusiveGroups inst with
  | error e => rw [h1] at h; cases h
  | ok gs =>
  rw [h1] at h; dsimp only at h
  cases h2 : enterAll (List.replicate (numClients inst).toNat none) 0 gs with
  | error e => rw [h2] at h; cases h
  | ok i2g =>
  rw [h2] at h; dsimp only at h
  cases h3 : releaseTimes R inst with
  | error e => rw [h3] at h; cases h
  | ok release =>
  rw [h3] at h; dsimp only at h
  have ha := Py.mapE_all2 h
  have hl := ha.length
  rw [List.length_range'] at hl
  refine ⟨i2g, release, rfl, hl.symm, fun i c hc => ?_⟩
  refine ha.get (i := i) ?_ hc
  have hi : i < cs.length := (List.getElem?_eq_some_iff.1 hc).1
  rw [List.getElem?_range' (by omega)]
  simp

/-! ## Groups -/

theorem size_ok {i : Int} {n : Nat} (h : size i = .ok n) : i = n := by
  unfold size at h
  split at h
  · injection h with h; omega
  · cases h

theorem size_le {i : Int} {n : Nat} (h : size i = .ok n) : n ≤ SIZE_MAX := by
  unfold size at h
  split at h
  · injection h with h; omega
  · cases h

theorem sizes_ok {l : List Int} {m : List Nat} (h : Py.mapE size l = .ok m) : m.map Int.ofNat = l := by
  have ha := Py.mapE_all2 h
  clear h
  induction ha with
  | nil => rfl
  | cons hp _ ih => rw [List.map_cons, ih, size_ok hp]; rfl

theorem groups_ok {inst : Vrplib} {gs : List ClientGroup} (h : groups inst = .ok gs) :
    ∃ rows, mutuallyExclusiveGroups inst = .ok rows
      ∧ All2 (fun row g => g.clients.map Int.ofNat = row ∧ g.required = true ∧ g.clients.Nodup) rows gs := by
  unfold groups at h
  cases h1 : mutuallyExclusiveGroups inst with
  | error e => rw [h1] at h; cases h
  | ok rows =>
  rw [h1] at h; dsimp only at h
  refine ⟨rows, rfl, all2_mono (Py.mapE_all2 h) fun row g hg => ?_⟩
  cases h2 : Py.mapE size row with
  | error e => rw [h2] at hg; cases hg
  | ok cs =>
    rw [h2] at hg
    obtain ⟨rfl, hn⟩ := ((C36_group_accepts _).1 g).1 hg
    exact ⟨sizes_ok h2, rfl, hn⟩

/-! ## Vehicles -/

theorem addVehicle_perm (types : List (Attrs × List Nat)) (a : Attrs) (v : Nat) :
    ((addVehicle types a v).map (·.2)).flatten.Perm (v :: (types.map (·.2)).flatten) := by
  induction types with
  | nil => simp [addVehicle]
  | cons p types ih =>
    obtain ⟨b, vs⟩ := p
    rw [addVehicle]
    by_cases h : b = a
    · rw [if_pos h]
      simp only [List.map_cons, List.flatten_cons, List.append_assoc, List.singleton_append]
      exact List.perm_middle
    · rw [if_neg h]
      simp only [List.map_cons, List.flatten_cons]
      exact (ih.append_left vs).trans List.perm_middle

theorem addVehicle_keys (types : List (Attrs × List Nat)) (a : Attrs) (v : Nat) :
    (addVehicle types a v).map (·.1)
      = if a ∈ types.map (·.1) then types.map (·.1) else types.map (·.1) ++ [a] := by
  induction types with
  | nil => simp [addVehicle]
  | cons p types ih =>
    obtain ⟨b, vs⟩ := p
    rw [addVehicle]
    by_cases h : b = a
    · subst h
      rw [if_pos rfl]
      simp
    · rw [if_neg h, List.map_cons, ih]
      by_cases h' : a ∈ types.map (·.1)
      · rw [if_pos h', if_pos (by simp only [List.map_cons, List.mem_cons]; exact .inr h')]
        rfl
      · rw [if_neg h', if_neg (by
          simp only [List.map_cons, List.mem_cons, not_or]; exact ⟨fun e => h e.symm, h'⟩)]
        rfl

theorem addVehicle_mem {types : List (Attrs × List Nat)} {a : Attrs} {v : Nat}
    (hne : ∀ p ∈ types, p.2 ≠ []) :
    ∀ p ∈ addVehicle types a v, p.2 ≠ [] ∧ ∀ w ∈ p.2,
      (w = v ∧ p.1 = a) ∨ ∃ q ∈ types, q.1 = p.1 ∧ w ∈ q.2 := by
  induction types with
  | nil =>
    intro p hp
    simp only [addVehicle, List.mem_singleton] at hp
    subst hp
    exact ⟨by simp, fun w hw => .inl ⟨by simpa using hw, rfl⟩⟩
  | cons q types ih =>
    obtain ⟨b, vs⟩ := q
    intro p hp
    rw [addVehicle] at hp
    by_cases h : b = a
    · rw [if_pos h] at hp
      rcases List.mem_cons.1 hp with rfl | hp
      · refine ⟨by simp, fun w hw => ?_⟩
        rcases List.mem_append.1 hw with hw | hw
        · exact .inr ⟨(b, vs), by simp, rfl, hw⟩
        · exact .inl ⟨by simpa using hw, h⟩
      · exact ⟨hne p (by simp [hp]), fun w hw => .inr ⟨p, by simp [hp], rfl, hw⟩⟩
    · rw [if_neg h] at hp
      rcases List.mem_cons.1 hp with rfl | hp
      · exact ⟨hne _ (by simp), fun w hw => .inr ⟨(b, vs), by simp, rfl, hw⟩⟩
      · obtain ⟨h1, h2⟩ := ih (fun p hp => hne p (by simp [hp])) p hp
        refine ⟨h1, fun w hw => ?_⟩
        rcases h2 w hw with h' | ⟨q, hq, h'⟩
        · exact .inl h'
        · exact .inr ⟨q, by simp [hq], h'⟩

theorem type2idcs_spec (attrs : List Attrs) :
    ((type2idcs attrs).map (·.2)).flatten.Perm (List.range attrs.length)
      ∧ ((type2idcs attrs).map (·.1)).Nodup
      ∧ (∀ p ∈ type2idcs attrs, p.2 ≠ [] ∧ ∀ v ∈ p.2, attrs[v]? = some p.1) := by
  unfold type2idcs
  induction attrs using snoc_induction with
  | h0 => exact ⟨by simp, by simp, by simp⟩
  | hs attrs a ih =>
    obtain ⟨h1, h2, h3⟩ := ih
    rw [List.zipIdx_append, List.foldl_append]
    simp only [List.zipIdx_cons, List.zipIdx_nil, List.foldl_cons, List.foldl_nil, Nat.zero_add]
    refine ⟨?_, ?_, ?_⟩
    · refine (addVehicle_perm _ _ _).trans ?_
      rw [List.length_append, List.length_singleton, List.range_succ]
      exact (h1.cons _).trans (List.perm_append_singleton _ _).symm
    · rw [addVehicle_keys]
      split
      · exact h2
      · rename_i h
        rw [List.nodup_append]
        exact ⟨h2, by simp, by
          intro x hx y hy he
          simp only [List.mem_singleton] at hy
          subst hy he
          exact h hx⟩
    · intro p hp
      obtain ⟨k1, k2⟩ := addVehicle_mem (fun p hp => (h3 p hp).1) p hp
      refine ⟨k1, fun v hv => ?_⟩
      rcases k2 v hv with ⟨rfl, h⟩ | ⟨q, hq, he, hw⟩
      · rw [List.getElem?_append_right (Nat.le_refl _), h]; simp
      · have := (h3 q hq).2 v hw
        rw [List.getElem?_append_left (List.getElem?_eq_some_iff.1 this).1, this, he]

theorem profiles_mem (allowed : List (List Int)) : ∀ c, c ∈ profiles allowed ↔ c ∈ allowed := by
  have : ∀ (allowed keys : List (List Int)) c, c ∈ allowed.foldl
      (fun keys clients => if clients ∈ keys then keys else keys ++ [clients]) keys
      ↔ c ∈ keys ∨ c ∈ allowed := by
    intro allowed
    induction allowed with
    | nil => intro keys c; simp
    | cons a allowed ih =>
      intro keys c
      rw [List.foldl_cons, ih]
      by_cases h : a ∈ keys
      · rw [if_pos h]; grind
      · rw [if_neg h]; grind
  intro c
  unfold profiles
  rw [this]
  simp

theorem broadcast_ok {n : Nat} {v : Values} {l : List Rat} (h : broadcast n v = .ok l) :
    l.length = n ∧ ∀ i, i < n → l.getD i 0 =
      match v with
      | .one x => x
      | .many m => if m.length = n then m.getD i 0 else m.getD 0 0 := by
  cases v with
  | one x =>
    injection h with h
    subst h
    refine ⟨List.length_replicate, fun i hi => ?_⟩
    rw [List.getD_eq_getElem?_getD, List.getElem?_replicate, if_pos hi]
    rfl
  | many m =>
    rw [broadcast] at h
    by_cases h1 : m.length = n
    · rw [if_pos h1] at h
      injection h with h
      subst h
      exact ⟨h1, fun i _ => by dsimp only; rw [if_pos h1]⟩
    · rw [if_neg h1] at h
      split at h
      · injection h with h
        subst h
        refine ⟨List.length_replicate, fun i hi => ?_⟩
        dsimp only
        rw [if_neg h1, List.getD_eq_getElem?_getD, List.getElem?_replicate, if_pos hi]
        rfl
      · cases h

theorem map_ok {α β : Type} {f : α → β} {x : Except Error α} {y : β} (h : x.map f = .ok y) :
    ∃ a, x = .ok a ∧ y = f a := by
  cases x with
  | error e => cases h
  | ok a => injection h with h; exact ⟨a, rfl, h.symm⟩

theorem attributes_ok {R : Rat → Rat} {inst : Vrplib} {attrs : List Attrs}
    (h : attributes R inst = .ok attrs) :
    ∃ clients reloads depots distances durations maxR fixed unit,
      allowedClients inst = .ok clients ∧ reloadDepots inst = .ok reloads
      ∧ vehiclesDepots inst = .ok depots ∧ limits R inst inst.maxDistance = .ok distances
      ∧ limits R inst inst.maxDuration = .ok durations ∧ maxReloads inst = .ok maxR
      ∧ fixedCosts R inst = .ok fixed ∧ unitDistanceCosts inst = .ok unit
      ∧ 0 ≤ numVehicles inst ∧ attrs.length = (numVehicles inst).toNat
      ∧ clients.length = (numVehicles inst).toNat
      ∧ ∀ v a, attrs[v]? = some a → v < (numVehicles inst).toNat
        ∧ (capacities R inst)[v]? = some a.capacity ∧ clients[v]? = some a.clients
        ∧ reloads[v]? = some a.reloads ∧ depots[v]? = some a.depot ∧ distances[v]? = some a.maxDistance
        ∧ durations[v]? = some a.shiftDuration ∧ maxR[v]? = some a.maxReloads
        ∧ fixed[v]? = some a.fixedCost ∧ unit[v]? = some a.unitDistanceCost := by
  unfold attributes at h
  cases h1 : allowedClients inst with
  | error e => rw [h1] at h; cases h
  | ok clients =>
  rw [h1] at h; dsimp only at h
  cases h2 : reloadDepots inst with
  | error e => rw [h2] at h; cases h
  | ok reloads =>
  rw [h2] at h; dsimp only at h
  cases h3 : vehiclesDepots inst with
  | error e => rw [h3] at h; cases h
  | ok depots =>
  rw [h3] at h; dsimp only at h
  cases h4 : limits R inst inst.maxDistance with
  | error e => rw [h4] at h; cases h
  | ok distances =>
  rw [h4] at h; dsimp only at h
  cases h5 : limits R inst inst.maxDuration with
  | error e => rw [h5] at h; cases h
  | ok durations =>
  rw [h5] at h; dsimp only at h
  cases h6 : maxReloads inst with
  | error e => rw [h6] at h; cases h
  | ok maxR =>
  rw [h6] at h; dsimp only at h
  cases h7 : fixedCosts R inst with
  | error e => rw [h7] at h; cases h
  | ok fixed =>
  rw [h7] at h; dsimp only at h
  cases h8 : unitDistanceCosts inst with
  | error e => rw [h8] at h; cases h
  | ok unit =>
  rw [h8] at h; dsimp only at h
  split at h
  · cases h
  · rename_i hc
    injection h with h
    simp only [not_or, Decidable.not_not] at hc
    obtain ⟨c1, c2, c3, c4, c5, c6, c7, c8, c9⟩ := hc
    subst h
    refine ⟨clients, reloads, depots, distances, durations, maxR, fixed, unit, rfl, rfl, rfl, rfl, rfl, rfl,
      rfl, rfl, by omega, by simp, by omega, ?_⟩
    intro v a ha
    rw [List.getElem?_map] at ha
    have hv : v < (numVehicles inst).toNat := by
      cases hr : (List.range (numVehicles inst).toNat)[v]? with
      | none => rw [hr] at ha; cases ha
      | some x =>
        have := (List.getElem?_eq_some_iff.1 hr).1
        simpa using this
    rw [List.getElem?_range hv, Option.map_some] at ha
    injection ha with ha
    subst ha
    have key : ∀ {α : Type} (l : List α) (d : α), (l.length : Int) = numVehicles inst →
        l[v]? = some (l.getD v d) := by
      intro α l d hl
      rw [List.getD_eq_getElem?_getD, List.getElem?_eq_getElem (by omega)]
      rfl
    exact ⟨hv, key _ _ c1, key _ _ c2, key _ _ c3, key _ _ c4, key _ _ c5, key _ _ c6, key _ _ c7, key _ _ c8,
      key _ _ c9⟩

theorem vehicleType_ok {keys : List (List Int)} {windows : List (Rat × Rat)} {p : Attrs × List Nat}
    {t : VehicleType} (h : vehicleType keys windows p = .ok t) :
    ∃ tw, windows[t.startDepot]? = some tw ∧ (t.startDepot : Int) = p.1.depot ∧ t.endDepot = t.startDepot
      ∧ t.reloadDepots.map Int.ofNat = p.1.reloads ∧ (t.maxReloads : Int) = p.1.maxReloads
      ∧ t.numAvailable = p.2.length ∧ t.capacity = p.1.capacity.map trunc
      ∧ t.fixedCost = trunc p.1.fixedCost ∧ t.twEarly = trunc tw.1 ∧ t.twLate = trunc tw.2
      ∧ t.startLate = t.twLate ∧ t.shiftDuration = trunc p.1.shiftDuration
      ∧ t.maxDistance = trunc p.1.maxDistance ∧ t.unitDistanceCost = trunc p.1.unitDistanceCost
      ∧ t.unitDurationCost = 0 ∧ t.maxOvertime = 0 ∧ t.unitOvertimeCost = 0
      ∧ (∀ d, t.initialLoad.getD d 0 = 0) ∧ t.profile = keys.idxOf p.1.clients
      ∧ t.name.toList = Py.join [','] (p.2.map decimal) := by
  unfold vehicleType at h
  cases h1 : Py.get windows p.1.depot with
  | error e => rw [h1] at h; cases h
  | ok tw =>
  rw [h1] at h; dsimp only at h
  cases h2 : size p.1.depot with
  | error e => rw [h2] at h; cases h
  | ok depot =>
  rw [h2] at h; dsimp only at h
  cases h3 : Py.mapE size p.1.reloads with
  | error e => rw [h3] at h; cases h
  | ok reloads =>
  rw [h3] at h; dsimp only at h
  cases h4 : size p.1.maxReloads with
  | error e => rw [h4] at h; cases h
  | ok maxR =>
  rw [h4] at h; dsimp only at h
  have ht := checked_ok h
  subst ht
  have e2 := size_ok h2
  rw [e2] at h1
  refine ⟨tw, Py.get_nat_inv h1, e2.symm, rfl, sizes_ok h3, (size_ok h4).symm, rfl, ?_, rfl, rfl, rfl, rfl, rfl,
    rfl, rfl, rfl, rfl, rfl, ?_, rfl, by simp⟩
  · simp [pad]
  · intro d
    rw [pad_getD]
    rfl

theorem vehicleTypes_ok {R : Rat → Rat} {inst : Vrplib} {ts : List VehicleType}
    (h : vehicleTypes R inst = .ok ts) :
    ∃ attrs allowed, attributes R inst = .ok attrs ∧ allowedClients inst = .ok allowed
      ∧ All2 (fun p t => vehicleType (profiles allowed) (timeWindows R inst) p = .ok t)
        (type2idcs attrs) ts := by
  unfold vehicleTypes at h
  cases h1 : attributes R inst with
  | error e => rw [h1] at h; cases h
  | ok attrs =>
  rw [h1] at h; dsimp only at h
  cases h2 : allowedClients inst with
  | error e => rw [h2] at h; cases h
  | ok allowed =>
  rw [h2] at h; dsimp only at h
  exact ⟨attrs, allowed, rfl, rfl, Py.mapE_all2 h⟩

/-! ## Distances -/

theorem mapEntries_get (f : Nat → Nat → Rat → Rat) (m : List (List Rat)) (i j : Nat) (r : List Rat) (x : Rat)
    (hr : m[i]? = some r) (hx : r[j]? = some x) :
    ∃ r', (mapEntries f m)[i]? = some r' ∧ r'.length = r.length ∧ r'[j]? = some (f i j x) := by
  unfold mapEntries
  refine ⟨r.zipIdx.map fun y => f i y.2 y.1, ?_, by simp, ?_⟩
  · rw [List.getElem?_map, List.getElem?_zipIdx, hr]
    simp
  · rw [List.getElem?_map, List.getElem?_zipIdx, hx]
    simp

theorem allow_ok : ∀ (cs : List Int) (allowed out : List Bool), (∀ c ∈ cs, 0 ≤ c) →
    allow allowed cs = .ok out → out.length = allowed.length
      ∧ ∀ i, out.getD i false = true ↔ allowed.getD i false = true ∨ (i : Int) ∈ cs := by
  intro cs
  induction cs with
  | nil => intro allowed out _ h; cases h; exact ⟨rfl, fun i => by simp⟩
  | cons c cs ih =>
    intro allowed out hpos h
    rw [allow] at h
    have hc := hpos c (by simp)
    unfold Py.modify Py.position at h
    rw [if_pos hc] at h
    by_cases hl : c < allowed.length
    · rw [if_pos hl] at h
      dsimp only at h
      rw [List.getElem?_eq_getElem (by omega)] at h
      dsimp only at h
      obtain ⟨h1, h2⟩ := ih _ _ (fun c hc => hpos c (by simp [hc])) h
      refine ⟨by rw [h1, List.length_set], fun i => ?_⟩
      rw [h2 i, List.getD_eq_getElem?_getD, List.getElem?_set]
      by_cases he : c.toNat = i
      · rw [if_pos he, if_pos (by omega)]
        have : (i : Int) = c := by omega
        simp [this]
      · rw [if_neg he, List.mem_cons]
        have : (i : Int) ≠ c := by omega
        simp [this]
    · rw [if_neg hl] at h
      cases h

end Read
end PyVRP
