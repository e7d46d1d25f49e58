import Verif.Lemmas.ReadFile
/-!
# C52: reading an instance gives the problem that the file describes
-/
namespace PyVRP
open Csv ModelApi Spec SolutionFile

/-- **C52, rounding.** The named rounding functions, and what they do to zero. Any other name raises. -/
theorem C52_rounding (name : String) :
    (∀ R, Read.roundFunc name = some R → R 0 = 0)
    ∧ ((Read.roundFunc name).isSome ↔ name ∈ ["round", "trunc", "dimacs", "exact", "none"])
    ∧ (Read.roundFunc name = none → ∀ inst, ∃ e, Read.read inst name = .error e) := by
  refine ⟨?_, ?_, ?_⟩
  · intro R h
    unfold Read.roundFunc at h
    split at h <;> first | (injection h with h; subst h; decide +kernel) | cases h
  · unfold Read.roundFunc
    split <;> simp_all
  · intro h inst
    unfold Read.read
    rw [h]
    exact ⟨_, rfl⟩

namespace Spec

/-- `n` is an integer nearest to `x`; of two, the even one. -/
def IsRounded (x : Rat) (n : Int) : Prop :=
  x - 1 / 2 ≤ (n : Rat) ∧ (n : Rat) ≤ x + 1 / 2
  ∧ ((n : Rat) = x - 1 / 2 ∨ (n : Rat) = x + 1 / 2 → n % 2 = 0)

/-- `n` is the integer next to `x` in the direction of zero. -/
def IsTruncated (x : Rat) (n : Int) : Prop :=
  (0 ≤ x → (n : Rat) ≤ x ∧ x < (n : Rat) + 1) ∧ (x ≤ 0 → x ≤ (n : Rat) ∧ (n : Rat) - 1 < x)

end Spec

theorem Read.nearest_rounded (x : Rat) : IsRounded x (Read.nearest x) := by
  have h1 := Rat.floor_le x
  have h2 := Rat.lt_floor_add_one x
  have e : ((x.floor + 1 : Int) : Rat) = (x.floor : Rat) + 1 := by push_cast; rfl
  unfold Read.nearest
  split
  · refine ⟨?_, ?_, ?_⟩ <;> grind
  · split
    · refine ⟨?_, ?_, ?_⟩ <;> grind
    · have : x - x.floor = 1 / 2 := by grind
      split
      · refine ⟨?_, ?_, fun _ => by assumption⟩ <;> grind
      · refine ⟨?_, ?_, fun _ => by omega⟩ <;> grind

theorem Read.trunc_truncated (x : Rat) : IsTruncated x (Read.trunc x) := by
  have h1 := Rat.floor_le x
  have h2 := Rat.lt_floor_add_one x
  have h3 := Rat.floor_le (-x)
  have h4 := Rat.lt_floor_add_one (-x)
  unfold Read.trunc
  split
  · refine ⟨fun _ => ⟨by grind, by grind⟩, fun hx => ?_⟩
    have : x = 0 := by grind
    subst this
    decide +kernel
  · refine ⟨fun hx => by grind, fun hx => ?_⟩
    rw [Rat.intCast_neg]
    constructor <;> grind

/-- **C52, rounding.** What the named rounding functions do: `round` gives the nearest integer, `trunc`
drops decimals, `dimacs` does so after multiplication by ten, and `exact` gives the nearest integer after
multiplication by a thousand. -/
theorem C52_round_functions (x : Rat) :
    (∃ R n, Read.roundFunc "round" = some R ∧ R x = ((n : Int) : Rat) ∧ IsRounded x n)
    ∧ (∃ R n, Read.roundFunc "trunc" = some R ∧ R x = ((n : Int) : Rat) ∧ IsTruncated x n)
    ∧ (∃ R n, Read.roundFunc "dimacs" = some R ∧ R x = ((n : Int) : Rat) ∧ IsTruncated (10 * x) n)
    ∧ (∃ R n, Read.roundFunc "exact" = some R ∧ R x = ((n : Int) : Rat) ∧ IsRounded (1000 * x) n)
    ∧ ∃ R, Read.roundFunc "none" = some R ∧ R x = x :=
  ⟨⟨_, _, rfl, rfl, Read.nearest_rounded x⟩, ⟨_, _, rfl, rfl, Read.trunc_truncated x⟩,
    ⟨_, _, rfl, rfl, Read.trunc_truncated _⟩, ⟨_, _, rfl, rfl, Read.nearest_rounded _⟩, _, rfl, rfl⟩

/-- Ties go to the even integer; negative numbers are truncated towards zero. -/
example : (Read.nearest (5 / 2), Read.nearest (7 / 2), Read.nearest (-8 / 5), Read.trunc (-8 / 5))
    = (2, 4, -2, -1) := by decide +kernel

/-- **C52, places.** The depots are the first places, they are always open, and every place has the
coordinates that the file gives it. -/
theorem C52_places (R : Rat → Rat) (inst : Vrplib) (data : ProblemData) (w : Bool)
    (h : Read.build R inst = .ok (data, w)) :
    data.depots = (List.range (File.numDepots inst)).map (fun i => ⟨i, 0, MAX, 0, ""⟩)
    ∧ (∀ l, inst.nodeCoord = some l →
      data.locations = l.map fun p => ⟨Read.trunc (R p.1), Read.trunc (R p.2), ""⟩)
    ∧ (inst.nodeCoord = none → data.locations = List.replicate inst.dimension ⟨0, 0, ""⟩) := by
  obtain ⟨dists, h1, h2, h3, h4, h5, h6, h7, h8, h9, h10, h11⟩ := Read.build_ok h
  obtain ⟨_, _, d3⟩ := Read.depots_ok h2
  refine ⟨by rw [d3, Read.numDepots_eq], ?_, ?_⟩
  · intro l hl
    rw [h9, Read.locations, Read.coords, hl]
    dsimp only
    rw [List.map_map]
    rfl
  · intro hn
    rw [h9, Read.locations, Read.coords, hn]
    dsimp only
    rw [List.map_replicate, Read.trunc_zero]

/-- **C52, depots.** A file whose depots are not its first places is rejected. -/
theorem C52_depots_first (R : Rat → Rat) (inst : Vrplib) (l : List Int) (hl : inst.depot = some l)
    (h : l = [] ∨ l ≠ (List.range l.length).map Int.ofNat) : ∃ e, Read.build R inst = .error e := by
  cases hb : Read.build R inst with
  | error e => exact ⟨e, rfl⟩
  | ok p =>
    exfalso
    obtain ⟨data, w⟩ := p
    obtain ⟨dists, _, h2, _⟩ := Read.build_ok hb
    obtain ⟨d1, d2, _⟩ := Read.depots_ok h2
    rw [Read.numDepots, hl] at d1
    rw [Read.depotIdcs, Read.numDepots, hl] at d2
    rcases h with rfl | h
    · simp at d1
    · exact h d2

/-- **C52, clients.** The clients are the places after the depots, in order, and every number of a client
is the rounded number that the file gives for its place. A client is required if and only if its rounded
prize is zero and it is in no group. -/
theorem C52_clients (R : Rat → Rat) (h0 : R 0 = 0) (inst : Vrplib) (data : ProblemData) (w : Bool)
    (h : Read.build R inst = .ok (data, w)) :
    data.clients.length = (File.numClients inst).toNat
    ∧ ∀ i c, data.clients[i]? = some c → ∃ loc, loc = File.numDepots inst + i ∧ c.location = loc
      ∧ (∀ d, c.delivery.getD d 0 = Read.trunc (R (File.delivery inst loc d)))
      ∧ (∀ d, c.pickup.getD d 0 = Read.trunc (R (File.amount inst.backhaul loc d)))
      ∧ c.serviceDuration = Read.trunc (R (File.number inst.serviceTime 0 loc))
      ∧ c.twEarly = Read.trunc (File.window R inst loc).1
      ∧ c.twLate = Read.trunc (File.window R inst loc).2
      ∧ c.releaseTime = Read.trunc (R (File.number inst.releaseTime 0 loc))
      ∧ c.prize = Read.trunc (R (File.prize inst loc))
      ∧ (c.required = true ↔ (-(1 / 100000000) ≤ R (File.prize inst loc)
          ∧ R (File.prize inst loc) ≤ 1 / 100000000) ∧ c.group = none) := by
  obtain ⟨dists, h1, h2, h3, h4, h5, h6, h7, h8, h9, h10, h11⟩ := Read.build_ok h
  obtain ⟨d1, _, _⟩ := Read.depots_ok h2
  obtain ⟨i2g, release, c1, c2, c3⟩ := Read.clients_ok h1
  refine ⟨by rw [c2, Read.numClients_eq], fun i c hc => ?_⟩
  obtain ⟨delivery, pickup, service, tw, rel, prize, group, k1, k2, k3, k4, k5, k6, k7, e1, e2, e3, e4, e5,
    e6, e7, e8, e9, e10⟩ := Read.client_ok (c3 i c hc)
  dsimp only at k1 k2 k3 k4 k5 k6 k7
  rw [Read.numDepots_eq] at *
  have hp := Read.prizes_prize h0 k6
  have hw := Read.timeWindows_window k4
  refine ⟨_, rfl, e1, fun d => ?_, fun d => ?_, ?_, ?_, ?_, ?_, ?_, ?_⟩
  · rw [e2 d, Read.demands_amount h0 k1 d]
  · rw [e3 d, Read.backhauls_amount h0 k2 d]
  · rw [e4, Read.serviceTimes_number k3 (by rw [Read.numDepots_eq]; omega) (by rw [Read.numDepots_eq]; exact d1)]
  · rw [e5, hw]
  · rw [e6, hw]
  · rw [e7, Read.releaseTimes_number c1 k5]
  · rw [e8, hp]
  · rw [e9, e10, hp, Read.isZero]
    simp

/-- **C52, groups.** The groups are those of the file that have several members, in the file's order and
with their members, and exactly one client of each must be visited. A client is in the group that lists
it. -/
theorem C52_groups (R : Rat → Rat) (inst : Vrplib) (data : ProblemData) (w : Bool)
    (h : Read.build R inst = .ok (data, w)) :
    (data.groups.map fun g => g.clients.map fun (i : Nat) => (i : Int) + File.numDepots inst + 1) = File.groups inst
    ∧ (∀ g ∈ data.groups, g.required = true ∧ g.clients.Nodup)
    ∧ ∀ i c, data.clients[i]? = some c → ∀ g, c.group = some g ↔
      ∃ members, (File.groups inst)[g]? = some members ∧ ((i + File.numDepots inst + 1 : Nat) : Int) ∈ members := by
  obtain ⟨dists, h1, h2, h3, h4, h5, h6, h7, h8, h9, h10, h11⟩ := Read.build_ok h
  obtain ⟨rows, g1, g2⟩ := Read.groups_ok h7
  have hcons := ((C37_accepts_exactly_consistent data data).1 h10).2
  have e : (data.groups.map fun g => g.clients.map fun (i : Nat) => (i : Int) + File.numDepots inst + 1)
      = File.groups inst := by
    rw [← Read.groupRows g1, ← Read.numDepots_eq]
    refine (all2_map g2 fun row g hg => ?_).symm
    rw [← hg.1, List.map_map]
    rfl
  refine ⟨e, ?_, ?_⟩
  · intro g hg
    obtain ⟨row, _, hr⟩ := g2.mem_right hg
    exact hr.2
  · intro i c hc g
    constructor
    · intro hg
      obtain ⟨grp, k1, k2, _⟩ := hcons.clientGroup i c g hc hg
      refine ⟨grp.clients.map fun (i : Nat) => (i : Int) + File.numDepots inst + 1, ?_, ?_⟩
      · rw [← e, List.getElem?_map, k1]; rfl
      · exact List.mem_map.2 ⟨i, k2, by omega⟩
    · rintro ⟨members, k1, k2⟩
      rw [← e, List.getElem?_map, Option.map_eq_some_iff] at k1
      obtain ⟨grp, k3, rfl⟩ := k1
      obtain ⟨j, hj, he⟩ := List.mem_map.1 k2
      have : j = i := by omega
      subst this
      obtain ⟨c', k4, k5⟩ := (hcons.groupClients g grp k3).2 j hj
      rw [hc] at k4
      injection k4 with k4
      rw [k4]; exact k5

namespace Read

theorem idxOf_get {l : List (List Int)} {c : List Int} (h : c ∈ l) : l[l.idxOf c]? = some c := by
  have := List.idxOf_lt_length_of_mem h
  rw [List.getElem?_eq_getElem this]
  simp

theorem all2_get_left {α β : Type} {P : α → β → Prop} {l : List α} {m : List β} (h : All2 P l m) {i : Nat}
    {a : α} (ha : l[i]? = some a) : ∃ b, m[i]? = some b ∧ P a b := by
  have hi := (List.getElem?_eq_some_iff.1 ha).1
  have hm : i < m.length := by rw [← h.length]; exact hi
  exact ⟨m[i], List.getElem?_eq_getElem hm, h.get ha (List.getElem?_eq_getElem hm)⟩

theorem all2_swap {α β γ : Type} {P : α → β → Prop} {Q : β → γ → Prop} (f : α → γ) {l : List α} {m : List β}
    (h : All2 P l m) (hpq : ∀ a ∈ l, ∀ b ∈ m, P a b → Q b (f a)) : All2 Q m (l.map f) := by
  induction h with
  | nil => exact .nil
  | cons hp _ ih =>
    exact .cons (hpq _ (by simp) _ (by simp) hp)
      (ih fun a ha b hb => hpq a (by simp [ha]) b (by simp [hb]))

end Read

open Read in
/-- **C52, vehicles.** The vehicles of the file are divided over the vehicle types: every vehicle belongs to
exactly one type, whose name lists its vehicles. All numbers of a type are those that the file gives for
each of its vehicles, and vehicles for which the file gives the same numbers have the same type. The
distances and durations of the type are the file's edge weights between the places that the vehicle may
visit, and prohibitive otherwise. -/
theorem C52_vehicles (R : Rat → Rat) (h0 : R 0 = 0) (inst : Vrplib) (data : ProblemData) (w : Bool)
    (h : Read.build R inst = .ok (data, w)) :
    ∃ names : List (List Nat), names.flatten.Perm (List.range (File.numVehicles inst).toNat)
    ∧ All2 (fun (t : VehicleType) l => t.name.toList = Py.join [','] (l.map decimal)
        ∧ l.length = t.numAvailable ∧ l ≠ []
        ∧ ∀ v ∈ l, File.TypeFits R inst (File.vehicle R inst v) t
          ∧ (File.Clear inst (File.vehicle R inst v) →
            ∀ i j, i < inst.dimension → j < inst.dimension →
              (data.dists.getD t.profile default).get i j
                = Read.trunc (File.distance R inst (File.vehicle R inst v) i j)
              ∧ (data.durs.getD t.profile default).get i j
                = Read.trunc (File.distance R inst (File.vehicle R inst v) i j)))
      data.vehicleTypes names
    ∧ ∀ l ∈ names, ∀ l' ∈ names, ∀ v ∈ l, ∀ v' ∈ l',
        File.vehicle R inst v = File.vehicle R inst v' → l = l' := by
  obtain ⟨dists, h1, h2, h3, h4, h5, h6, h7, h8, h9, h10, h11⟩ := build_ok h
  obtain ⟨attrs, allowed, a1, a2, a3⟩ := vehicleTypes_ok h3
  obtain ⟨_, dd, _⟩ := depots_ok h2
  obtain ⟨base, allowed', m1, m2, m3⟩ := distanceMatrices_ok h4
  rw [a2] at m2
  injection m2 with m2
  subst m2
  have hcons := ((C37_accepts_exactly_consistent data data).1 h10).2
  obtain ⟨clients, _, _, _, _, _, _, _, e1, _, _, _, _, _, _, _, e9, e10, e11, hall⟩ := attributes_ok a1
  rw [a2] at e1
  injection e1 with e1
  subst e1
  obtain ⟨s1, s2, s3⟩ := type2idcs_spec attrs
  have hat : ∀ p ∈ type2idcs attrs, ∀ v ∈ p.2, p.1 = File.vehicle R inst v := fun p hp v hv =>
    attributes_vehicle a1 dd ((s3 p hp).2 v hv)
  refine ⟨(type2idcs attrs).map (·.2), ?_, ?_, ?_⟩
  · rw [e10, numVehicles_eq] at s1
    exact s1
  · refine all2_swap (·.2) a3 fun p hp t ht hpt => ?_
    obtain ⟨tw, t1, t2, t3, t4, t5, t6, t7, t8, t9, t10, t11, t12, t13, t14, t15, t16, t17, t18, t19, t20⟩ :=
      vehicleType_ok hpt
    refine ⟨t20, t6.symm, (s3 p hp).1, fun v hv => ?_⟩
    have ha := hat p hp v hv
    have hwin := timeWindows_window t1
    refine ⟨⟨?_, ?_, ?_, ?_, ?_, ?_, ?_, ?_, t15, t16, t17, t18⟩, ?_⟩
    · rw [← ha]; exact t7
    · rw [← ha]; exact ⟨t2, t3⟩
    · rw [← ha]; exact t4
    · rw [← ha]; exact t5
    · rw [← hwin]; exact ⟨t9, t10, t11⟩
    · rw [← ha]; exact t12
    · rw [← ha]; exact t13
    · rw [← ha]; exact ⟨t8, t14⟩
    · intro hclear
      have hk : p.1.clients ∈ profiles allowed := by
        rw [profiles_mem]
        obtain ⟨_, _, hc, _⟩ := hall v p.1 ((s3 p hp).2 v hv)
        exact List.mem_of_getElem? hc
      have hk' := idxOf_get hk
      obtain ⟨m, q1, q2⟩ := all2_get_left m3 hk'
      rw [ha] at q2
      obtain ⟨r1, r2⟩ := profileDistances_ok h0 hclear.square m1 hclear.lists hclear.noShipments q2
      have hd : data.dists[t.profile]? = some (matrix m) := by
        rw [h5, List.getElem?_map, t19, q1]; rfl
      intro i j hi hj
      have key : (data.dists.getD t.profile default).get i j
          = trunc (File.distance R inst (File.vehicle R inst v) i j) := by
        rw [getD_some hd]
        by_cases hij : i = j
        · subst hij
          have hsq := hcons.square (matrix m) (List.mem_append_left _ (List.mem_of_getElem? hd))
          rw [hsq.2.2 i (by rw [← hsq.1]; show i < m.length; rw [r1.1]; exact hi), File.distance,
            if_pos rfl, trunc_zero]
        · rw [matrix_get r1 hi hj, r2 i j hi hj hij]
      rw [h6]
      exact ⟨key, key⟩
  · intro l hl l' hl' v hv v' hv' he
    obtain ⟨p, hp, rfl⟩ := List.mem_map.1 hl
    obtain ⟨p', hp', rfl⟩ := List.mem_map.1 hl'
    have e : p.1 = p'.1 := by rw [hat p hp v hv, hat p' hp' v' hv', he]
    obtain ⟨i, hi⟩ := List.getElem?_of_mem hp
    obtain ⟨i', hi'⟩ := List.getElem?_of_mem hp'
    have q := (List.getElem?_inj (i := i) (j := i') (by
      rw [List.length_map]; exact (List.getElem?_eq_some_iff.1 hi).1) s2).1 (by
        rw [List.getElem?_map, List.getElem?_map, hi, hi', Option.map_some, Option.map_some, e])
    rw [q, hi'] at hi
    injection hi with hi
    rw [hi]


namespace Read

theorem all2_map_left {α β γ : Type} {P : γ → β → Prop} {f : α → γ} {l : List α} {m : List β}
    (h : All2 P (l.map f) m) : All2 (fun a b => P (f a) b) l m := by
  induction l generalizing m with
  | nil => cases h; exact .nil
  | cons a l ih =>
    cases h with
    | cons hp h => exact .cons hp (ih h)

theorem all2_mono_mem {α β : Type} {P Q : α → β → Prop} {l : List α} {m : List β} (h : All2 P l m)
    (hpq : ∀ a ∈ l, ∀ b ∈ m, P a b → Q a b) : All2 Q l m := by
  induction h with
  | nil => exact .nil
  | cons hp _ ih =>
    exact .cons (hpq _ (by simp) _ (by simp) hp)
      (ih fun a ha b hb => hpq a (by simp [ha]) b (by simp [hb]))

theorem zipIdx_range {α : Type} (l : List α) (d : α) :
    l.zipIdx = (List.range l.length).map fun k => (l.getD k d, k) := by
  apply List.ext_getElem?
  intro k
  rw [List.getElem?_zipIdx, List.getElem?_map]
  by_cases hk : k < l.length
  · rw [List.getElem?_range hk, List.getElem?_eq_getElem hk]
    simp [List.getElem?_eq_getElem hk]
  · rw [List.getElem?_eq_none (by omega), List.getElem?_eq_none (by simpa using hk)]
    rfl

/-- The lines of the section with rounded numbers. -/
def rounded (R : Rat → Rat) (r : PdRow) : PdRow :=
  { r with demand := R r.demand, early := R r.early, late := R r.late, service := R r.service }

theorem shipments_ok {R : Rat → Rat} {inst : Vrplib} {ss : List Shipment} (h : shipments R inst = .ok ss) :
    All2 (fun k s => shipment (pdRows R inst) (numDepots inst) k (rounded R (File.pdRow inst k)) = .ok s)
      (File.pickups inst) ss := by
  have ha := Py.mapE_all2 h
  rw [zipIdx_range _ (rounded R default), List.filter_map] at ha
  have ha := all2_map_left ha
  have hl : (pdRows R inst).length = (inst.pickupDelivery.getD []).length := by
    rw [pdRows, List.length_map]
  have hg : ∀ k, (pdRows R inst).getD k (rounded R default) = rounded R (File.pdRow inst k) := by
    intro k
    rw [pdRows, File.pdRow, List.getD_eq_getElem?_getD, List.getD_eq_getElem?_getD, List.getElem?_map]
    cases (inst.pickupDelivery.getD [])[k]? <;> rfl
  have hf : (List.range (pdRows R inst).length).filter
      ((fun p : PdRow × Nat => decide (p.1.pick = 0 ∧ p.1.deliv > 0))
        ∘ fun k => ((pdRows R inst).getD k (rounded R default), k)) = File.pickups inst := by
    rw [hl, File.pickups]
    congr 1
    funext k
    simp only [Function.comp, hg]
    rfl
  rw [hf] at ha
  refine all2_mono ha fun k s hks => ?_
  dsimp only at hks
  rw [hg k] at hks
  exact hks

theorem shipment_make_ok {a s : Shipment} (h : Shipment.make a = .ok s) : s = a := by
  unfold Shipment.make at h
  split at h
  · cases h
  · rename_i p hp
    split at h
    · cases h
    · rename_i d hd
      have e1 : p = a.pickup := checked_ok hp
      have e2 : d = a.delivery := checked_ok hd
      have e3 := checked_ok h
      rw [e3, e1, e2]

theorem pdRows_get {R : Rat → Rat} {inst : Vrplib} {k : Nat} {r : PdRow} (h : (pdRows R inst)[k]? = some r) :
    r = rounded R (File.pdRow inst k) := by
  rw [pdRows, List.getElem?_map, Option.map_eq_some_iff] at h
  obtain ⟨x, hx, rfl⟩ := h
  rw [File.pdRow, getD_some hx]
  rfl

end Read

open Read in
/-- **C52, shipments.** With one depot, the shipments are the pickups of the file, in order. Each of them is
picked up and delivered at the places that the file names, with their time windows and service durations.
(The full property is about any number of depots, which is false: see the next theorem.) -/
theorem C52_shipments_partial (R : Rat → Rat) (inst : Vrplib) (data : ProblemData) (w : Bool)
    (h : Read.build R inst = .ok (data, w)) (h1 : File.numDepots inst = 1) :
    All2 (File.ShipmentFits R inst) (File.pickups inst) data.shipments := by
  obtain ⟨dists, _, _, _, _, _, _, _, h8, _⟩ := build_ok h
  refine all2_mono_mem (shipments_ok h8) fun k hk s _ hs => ?_
  have hk' := (List.mem_filter.1 hk).2
  simp only [decide_eq_true_eq] at hk'
  unfold shipment at hs
  rw [numDepots_eq, h1] at hs
  have hpos : 0 ≤ (rounded R (File.pdRow inst k)).deliv - ((1 : Nat) : Int) := by
    show 0 ≤ (File.pdRow inst k).deliv - ((1 : Nat) : Int)
    omega
  cases hg : Py.get (pdRows R inst) ((rounded R (File.pdRow inst k)).deliv - ((1 : Nat) : Int)) with
  | error e => rw [hg] at hs; cases hs
  | ok delivery =>
  rw [hg] at hs; dsimp only at hs
  obtain ⟨j, hj, hj'⟩ := get_inv hpos hg
  cases hz : size ((rounded R (File.pdRow inst k)).deliv - ((1 : Nat) : Int)) with
  | error e => rw [hz] at hs; cases hs
  | ok location =>
  rw [hz] at hs; dsimp only at hs
  have hl := size_ok hz
  have e : j = location := by omega
  subst e
  have hs := shipment_make_ok hs
  have hd := pdRows_get hj'
  subst hs
  refine ⟨rfl, ?_, ?_, rfl, rfl, rfl⟩
  · show ((j : Nat) : Int) + 1 = (File.pdRow inst k).deliv
    have : (rounded R (File.pdRow inst k)).deliv = (File.pdRow inst k).deliv := rfl
    omega
  · rw [hd]; rfl

namespace Read

theorem trunc_zero_lt {x : Rat} (h : trunc x = 0) : x < 1 := by
  unfold trunc at h
  split at h
  · have := Rat.lt_floor_add_one x
    rw [h] at this
    simpa using this
  · grind

theorem entries_any {n : Nat} {m : List (List Rat)} (hm : IsSquare n m) (q : Rat → Bool) :
    (m.any fun r => r.any q) = true ↔ ∃ i j, i < n ∧ j < n ∧ q (entry m i j) = true := by
  simp only [List.any_eq_true]
  constructor
  · rintro ⟨r, hr, x, hx, hq⟩
    obtain ⟨i, hi⟩ := List.getElem?_of_mem hr
    obtain ⟨j, hj⟩ := List.getElem?_of_mem hx
    refine ⟨i, j, ?_, ?_, ?_⟩
    · rw [← hm.1]; exact (List.getElem?_eq_some_iff.1 hi).1
    · rw [← hm.2 r hr]; exact (List.getElem?_eq_some_iff.1 hj).1
    · rw [entry, getD_some hi, getD_some hj]; exact hq
  · rintro ⟨i, j, hi, hj, hq⟩
    obtain ⟨r, h1, h2, _⟩ := hm.get hi hj
    exact ⟨r, List.mem_of_getElem? h1, _, List.mem_of_getElem? h2, hq⟩

end Read

open Read in
/-- **C52, the warning.** There is a warning about large distances if and only if some distance of some
vehicle is larger than the number that stands for a prohibitive distance. -/
theorem C52_warning (R : Rat → Rat) (h0 : R 0 = 0) (inst : Vrplib) (data : ProblemData) (w : Bool)
    (h : Read.build R inst = .ok (data, w))
    (hc : ∀ v : Nat, v < (File.numVehicles inst).toNat → File.Clear inst (File.vehicle R inst v)) :
    w = true ↔ ∃ v i j, v < (File.numVehicles inst).toNat ∧ i < inst.dimension ∧ j < inst.dimension
      ∧ (MAX_VALUE : Rat) < File.distance R inst (File.vehicle R inst v) i j := by
  obtain ⟨dists, h1, h2, h3, h4, h5, h6, h7, h8, h9, h10, h11⟩ := build_ok h
  obtain ⟨attrs, allowed, a1, a2, a3⟩ := vehicleTypes_ok h3
  obtain ⟨base, allowed', m1, m2, m3⟩ := distanceMatrices_ok h4
  rw [a2] at m2
  injection m2 with m2
  subst m2
  have hcons := ((C37_accepts_exactly_consistent data data).1 h10).2
  obtain ⟨clients, _, _, _, _, _, _, _, e1, _, _, _, _, _, _, _, e9, e10, e11, hall⟩ := attributes_ok a1
  rw [a2] at e1
  injection e1 with e1
  subst e1
  rw [numVehicles_eq] at e11
  have hmax : (1 : Rat) < (MAX_VALUE : Rat) := by decide +kernel
  have hdiag : ∀ m ∈ dists, IsSquare inst.dimension m → ∀ i, i < inst.dimension → entry m i i < 1 := by
    intro m hm hs i hi
    have hsq := hcons.square (matrix m) (List.mem_append_left _ (by rw [h5]; exact List.mem_map.2 ⟨m, hm, rfl⟩))
    have := hsq.2.2 i (by rw [← hsq.1]; show i < m.length; rw [hs.1]; exact hi)
    rw [matrix_get hs hi hi] at this
    exact trunc_zero_lt this
  rw [h11, warns, List.any_eq_true]
  constructor
  · rintro ⟨m, hm, hany⟩
    obtain ⟨cs, hcs, hp⟩ := m3.mem_right hm
    rw [profiles_mem] at hcs
    obtain ⟨v, hv⟩ := List.getElem?_of_mem hcs
    have hvl : v < (File.numVehicles inst).toNat := by
      rw [← e11]; exact (List.getElem?_eq_some_iff.1 hv).1
    have hcl := hc v hvl
    rw [allowed_line a2 hv R] at hp
    obtain ⟨r1, r2⟩ := profileDistances_ok h0 hcl.square m1 hcl.lists hcl.noShipments hp
    obtain ⟨i, j, hi, hj, hq⟩ := (entries_any r1 _).1 hany
    simp only [decide_eq_true_eq] at hq
    by_cases hij : i = j
    · subst hij
      have := hdiag m hm r1 i hi
      grind
    · exact ⟨v, i, j, hvl, hi, hj, by rw [← r2 i j hi hj hij]; exact hq⟩
  · rintro ⟨v, i, j, hvl, hi, hj, hq⟩
    have hcl := hc v hvl
    have hv : ∃ cs, allowed[v]? = some cs := by
      rw [← e11] at hvl
      exact ⟨_, List.getElem?_eq_getElem hvl⟩
    obtain ⟨cs, hv⟩ := hv
    have hk := idxOf_get ((profiles_mem allowed cs).2 (List.mem_of_getElem? hv))
    obtain ⟨m, q1, q2⟩ := all2_get_left m3 hk
    rw [allowed_line a2 hv R] at q2
    obtain ⟨r1, r2⟩ := profileDistances_ok h0 hcl.square m1 hcl.lists hcl.noShipments q2
    refine ⟨m, List.mem_of_getElem? q1, (entries_any r1 _).2 ⟨i, j, hi, hj, ?_⟩⟩
    simp only [decide_eq_true_eq]
    by_cases hij : i = j
    · subst hij
      rw [File.distance, if_pos rfl] at hq
      grind
    · rw [r2 i j hi hj hij]; exact hq

namespace Read

theorem pickups_nodup (inst : Vrplib) : (File.pickups inst).Nodup := List.nodup_range.filter _

theorem getD_of_lt {α : Type} {l : List α} {i : Nat} (h : i < l.length) (d : α) :
    l[i]? = some (l.getD i d) := by
  rw [List.getD_eq_getElem?_getD, List.getElem?_eq_getElem h]; rfl

end Read

open Read in
/-- **C52, places are unique.** What is read is data as the reader of solutions needs it: each place is
visited for one reason only, and the vehicles are named. Files with shipments must have one depot, and the
lines of a pickup and its delivery must refer to each other. -/
theorem C52_file_data (R : Rat → Rat) (h0 : R 0 = 0) (inst : Vrplib) (data : ProblemData) (w : Bool)
    (h : Read.build R inst = .ok (data, w))
    (hp : ∀ rows, inst.pickupDelivery = some rows →
      File.numDepots inst = 1 ∧ rows.length = inst.dimension ∧ File.Paired inst) :
    ∃ names, FileData data names ∧ ∀ g ∈ data.groups, g.clients.Nodup := by
  obtain ⟨names, n1, n2, _⟩ := C52_vehicles R h0 inst data w h
  obtain ⟨p1, _, _⟩ := C52_places R inst data w h
  obtain ⟨c1, c2⟩ := C52_clients R h0 inst data w h
  obtain ⟨dists, _, h2, _, _, _, _, _, h8, _, h10, _⟩ := build_ok h
  have hcons := ((C37_accepts_exactly_consistent data data).1 h10).2
  have named : All2 (fun (v : VehicleType) l => v.name.toList = Py.join [','] (l.map decimal)
    ∧ l.length = v.numAvailable ∧ l ≠ []) data.vehicleTypes names :=
    all2_mono n2 fun v l hh => ⟨hh.1, hh.2.1, hh.2.2.1⟩
  have hdep : ∀ i, i < data.depots.length → (data.depot i).location = i ∧ i < File.numDepots inst := by
    intro i hi
    rw [p1, List.length_map, List.length_range] at hi
    refine ⟨?_, hi⟩
    rw [ProblemData.depot, p1, List.getD_eq_getElem?_getD, List.getElem?_map, List.getElem?_range hi]
    rfl
  have hcli : ∀ i, i < data.clients.length → (data.client i).location = File.numDepots inst + i := by
    intro i hi
    obtain ⟨loc, e1, e2, _⟩ := c2 i _ (getD_of_lt hi default)
    rw [← e1]; exact e2
  refine ⟨names, ⟨?_, ?_, named, ?_⟩, fun g hg => ((C52_groups R inst data w h).2.1 g hg).2⟩
  · cases hpd : inst.pickupDelivery with
    | none =>
      have hsh : data.shipments = [] := by
        have := (shipments_ok h8).length
        rw [File.pickups, hpd] at this
        exact List.length_eq_zero_iff.1 this.symm
      rintro ⟨ta, a⟩ ⟨tb, b⟩ ha hb he
      cases ta <;> cases tb <;> simp only [Spec.InRange, hsh, List.length_nil, Nat.not_lt_zero] at ha hb <;>
        simp only [ProblemData.locationOf] at he
      · rw [(hdep a ha).1, (hdep b hb).1] at he; rw [he]
      · have := hdep a ha
        rw [this.1, hcli b hb] at he; omega
      · have := hdep b hb
        rw [this.1, hcli a ha] at he; omega
      · rw [hcli a ha, hcli b hb] at he
        have : a = b := by omega
        rw [this]
    | some rows =>
      obtain ⟨q1, q2, q3⟩ := hp rows hpd
      have hcl : data.clients.length = 0 := by
        rw [c1, File.numClients, hpd]
        dsimp only
        omega
      have hs := C52_shipments_partial R inst data w h q1
      have hlen := hs.length
      have ship : ∀ i, i < data.shipments.length →
          (File.pickups inst)[i]? = some (data.shipment i).pickup.location
          ∧ File.ShipmentFits R inst (data.shipment i).pickup.location (data.shipment i)
          ∧ (File.pdRow inst (data.shipment i).delivery.location).pick
            = ((data.shipment i).pickup.location : Int) + 1
          ∧ (File.pdRow inst (data.shipment i).pickup.location).pick = 0
          ∧ 0 < (File.pdRow inst (data.shipment i).pickup.location).deliv := by
        intro i hi
        have hk : (File.pickups inst)[i]? = some ((File.pickups inst)[i]'(by omega)) :=
          List.getElem?_eq_getElem _
        have hf := hs.get hk (getD_of_lt hi default)
        have e : (data.shipment i).pickup.location = (File.pickups inst)[i]'(by omega) := by
          have := congrArg Step.location hf.pickup
          exact this
        rw [← e] at hk hf
        have hm := List.mem_of_getElem? hk
        have hm' := (List.mem_filter.1 hm).2
        simp only [decide_eq_true_eq] at hm'
        exact ⟨hk, hf, q3.partner _ hm _ hf.place, hm'⟩
      have inj : ∀ i j, i < data.shipments.length → j < data.shipments.length →
          (data.shipment i).pickup.location = (data.shipment j).pickup.location → i = j := by
        intro i j hi hj he
        have := (ship i hi).1
        rw [he, ← (ship j hj).1] at this
        exact (List.getElem?_inj (by omega) (pickups_nodup inst)).1 this
      have d0 := q3.depot
      rintro ⟨ta, a⟩ ⟨tb, b⟩ ha hb he
      cases ta <;> cases tb <;> simp only [Spec.InRange, hcl, Nat.not_lt_zero] at ha hb <;>
        simp only [ProblemData.locationOf] at he
      · rw [(hdep a ha).1, (hdep b hb).1] at he; rw [he]
      · obtain ⟨k1, k2⟩ := hdep a ha
        obtain ⟨_, _, s3, s4, s5⟩ := ship b hb
        have : a = 0 := by omega
        rw [← he, k1, this] at s5; omega
      · obtain ⟨k1, k2⟩ := hdep a ha
        obtain ⟨_, _, s3, s4, s5⟩ := ship b hb
        have : a = 0 := by omega
        rw [← he, k1, this] at s3; omega
      · obtain ⟨k1, k2⟩ := hdep b hb
        obtain ⟨_, _, s3, s4, s5⟩ := ship a ha
        have : b = 0 := by omega
        rw [he, k1, this] at s5; omega
      · rw [inj a b ha hb he]
      · obtain ⟨_, _, _, s4, _⟩ := ship a ha
        obtain ⟨_, _, s3, _, _⟩ := ship b hb
        rw [← he] at s3; omega
      · obtain ⟨k1, k2⟩ := hdep b hb
        obtain ⟨_, _, s3, s4, s5⟩ := ship a ha
        have : b = 0 := by omega
        rw [he, k1, this] at s3; omega
      · obtain ⟨_, _, _, s4, _⟩ := ship b hb
        obtain ⟨_, _, s3, _, _⟩ := ship a ha
        rw [he] at s3; omega
      · obtain ⟨_, _, s3, _, _⟩ := ship a ha
        obtain ⟨_, _, s3', _, _⟩ := ship b hb
        rw [he] at s3
        rw [inj a b ha hb (by omega)]
  · intro a ha
    obtain ⟨ta, i⟩ := a
    cases ta <;> simp only [Spec.InRange] at ha <;> simp only [ProblemData.locationOf, ProblemData.numLocations]
    · exact hcons.depotLocation _ (List.mem_of_getElem? (getD_of_lt ha default))
    · exact hcons.clientLocation _ (List.mem_of_getElem? (getD_of_lt ha default))
    · exact hcons.pickupLocation _ (List.mem_of_getElem? (getD_of_lt ha default))
    · exact hcons.deliveryLocation _ (List.mem_of_getElem? (getD_of_lt ha default))
  · have hl : data.numVehicles = names.flatten.length := by
      rw [ProblemData.numVehicles, List.length_flatten]
      exact congrArg List.sum (all2_map named fun v l hh => hh.2.1.symm)
    rw [hl, n1.length_eq, List.length_range]
    exact n1

/-- **C52, with C51.** A solution of a problem that was read from a file can be written, and reading it gives
an equal solution. -/
theorem C52_solutions_read_back (R : Rat → Rat) (h0 : R 0 = 0) (inst : Vrplib) (data : ProblemData)
    (w : Bool) (h : Read.build R inst = .ok (data, w))
    (hp : ∀ rows, inst.pickupDelivery = some rows →
      File.numDepots inst = 1 ∧ rows.length = inst.dimension ∧ File.Paired inst)
    (plan : RoutePlan) (routes : List Route) (hb : Built data plan routes) (s : Solution)
    (hs : Solution.make data routes = .ok s) (cost : Text) (hc : '\n' ∉ cost) (hR : 'R' ∉ cost) :
    ∃ file s', SolutionFile.write data s cost = .ok file ∧ SolutionFile.read data file = .ok s'
      ∧ Solution.eq s s' = true
      ∧ ∃ plan' routes', Built data plan' routes' ∧ Solution.make data routes' = .ok s' ∧ plan.Perm plan' := by
  obtain ⟨names, hf, hg⟩ := C52_file_data R h0 inst data w h hp
  obtain ⟨file, s', h1, h2, h3, _, h4⟩ :=
    C51_written_solution_reads_back data names hf hg plan routes hb s hs cost hc hR
  exact ⟨file, s', h1, h2, h3, h4⟩

/-! ## Where it goes wrong -/
namespace Demo

/-- Two depots and one shipment, which goes from place 3 to place 4 in the file's numbering. -/
def twoDepots : Vrplib :=
  { dimension := 4, depot := some [0, 1], vehicles := some 1
    edgeWeight := [[0, 1, 2, 3], [1, 0, 1, 2], [2, 1, 0, 1], [3, 2, 1, 0]]
    pickupDelivery := some [⟨0, 0, 100, 0, 0, 0⟩, ⟨0, 0, 100, 0, 0, 0⟩, ⟨5, 0, 50, 3, 0, 4⟩,
      ⟨-5, 0, 90, 7, 3, 0⟩] }

/-- Three clients and a vehicle that may visit two of them, where one is listed twice. -/
def twice : Vrplib :=
  { dimension := 4, vehicles := some 1
    edgeWeight := [[0, 1, 2, 3], [1, 0, 1, 2], [2, 1, 0, 1], [3, 2, 1, 0]]
    allowedClients := some (.rows [[2, 3, 3]]) }

/-- A vehicle whose distances cost a half. -/
def half : Vrplib :=
  { dimension := 2, vehicles := some 1, edgeWeight := [[0, 10], [10, 0]]
    unitDistanceCost := some (.many [1 / 2]) }

def dataOf (inst : Vrplib) : ProblemData × Bool :=
  okOr ({ locations := [], clients := [], depots := [], vehicleTypes := [], dists := [], durs := []
          groups := [], shipments := [] }, false) (Read.read inst)

end Demo

/-- **C52, the limit (shipments).** With two depots, shipments are read wrongly: the index of the delivery
is shifted by the number of depots instead of by one. Here the shipment goes from place 3 of the file to
place 4, but it is read as one from place 3 to place 3, with the time window and service duration of the
pickup. -/
theorem C52_shipments_negation : ∃ inst data w, Read.read inst = .ok (data, w)
    ∧ File.Paired inst ∧ File.pickups inst = [2] ∧ (File.pdRow inst 2).deliv = 4
    ∧ data.shipments.map (fun s => (s.pickup.location, s.delivery.location)) = [(2, 2)] := by
  refine ⟨Demo.twoDepots, (Demo.dataOf Demo.twoDepots).1, (Demo.dataOf Demo.twoDepots).2, ?_, ⟨?_, ?_⟩, ?_, ?_, ?_⟩
  · have : (match Read.read Demo.twoDepots with | .ok _ => true | .error _ => false) = true := by
      decide +kernel
    unfold Demo.dataOf
    cases h : Read.read Demo.twoDepots with
    | error e => rw [h] at this; cases this
    | ok p => rfl
  · decide +kernel
  · have : File.pickups Demo.twoDepots = [2] := by decide +kernel
    rw [this]
    intro k hk j hj
    simp only [List.mem_singleton] at hk
    subst hk
    have e : (File.pdRow Demo.twoDepots 2).deliv = 4 := by decide +kernel
    have : j = 3 := by omega
    subst this
    decide +kernel
  · decide +kernel
  · decide +kernel
  · decide +kernel

namespace Demo

theorem dataOf_ok {inst : Vrplib}
    (h : (match Read.read inst with | .ok _ => true | .error _ => false) = true) :
    Read.read inst = .ok (dataOf inst) := by
  unfold dataOf
  cases h' : Read.read inst with
  | error e => rw [h'] at h; cases h
  | ok p => rfl

end Demo

/-- **C52, the limit (allowed clients).** If a line of allowed clients lists a client twice and is as long as
the number of clients, the restriction is ignored: here the vehicle may not visit the last place, but gets
the file's distance to it. -/
theorem C52_allowed_clients_negation : ∃ inst data w, Read.read inst = .ok (data, w)
    ∧ (File.vehicle id inst 0).clients = [1, 2, 2] ∧ ¬ File.Visits inst (File.vehicle id inst 0) 3
    ∧ (data.dists.getD 0 default).get 0 3 = 3 := by
  refine ⟨Demo.twice, _, _, Demo.dataOf_ok (by decide +kernel), by decide +kernel, ?_, by decide +kernel⟩
  rintro (h | h)
  · exact absurd h (by decide +kernel)
  · have e : (File.vehicle id Demo.twice 0).clients = [1, 2, 2] := by decide +kernel
    rw [e] at h
    exact absurd h (by decide)

/-- **C52, the limit (costs).** Unit distance costs are not rounded, but truncated all the same: a half
becomes nothing, so that distances cost nothing. -/
theorem C52_unit_costs_truncated : ∃ inst data w, Read.read inst = .ok (data, w)
    ∧ (File.vehicle id inst 0).unitDistanceCost = 1 / 2
    ∧ data.vehicleTypes.map (·.unitDistanceCost) = [0] :=
  ⟨Demo.half, _, _, Demo.dataOf_ok (by decide +kernel), by decide +kernel, by decide +kernel⟩

/-! ## Examples -/
namespace Demo

/-- Two depots, three clients and three vehicles, two of which are alike. The third may not visit the last
client. Two clients form a group. -/
def okSmall : Vrplib :=
  { dimension := 5, depot := some [0, 1], vehicles := some 3, capacity := some (.one 10)
    nodeCoord := some [(2334, 726), (226, 1297), (590, 530), (435, 718), (1191, 639)]
    edgeWeight := [[0, 1544, 1944, 1931, 1476], [1726, 0, 1992, 1427, 1593], [1965, 1975, 0, 621, 1090],
      [2063, 1433, 647, 0, 818], [1475, 1594, 1090, 828, 0]]
    demand := some (.flat [0, 0, 5, 3, 5])
    timeWindow := some [(0, 45000), (5000, 20000), (12000, 19500), (8400, 15300), (12000, 19500)]
    serviceTime := some (.many [0, 0, 360, 420, 360])
    prize := some [0, 0, 0, 17 / 2, 0]
    vehiclesDepot := some [1, 2, 1]
    allowedClients := some (.rows [[3, 4, 5], [3, 4], [3, 4, 5]])
    groups := some (.rows [[3], [4, 5]]) }

/-- One depot and two shipments; one of them is delivered at a place before its pickup. -/
def smallShipments : Vrplib :=
  { dimension := 5, type := "PDPTW", vehicles := some 2, capacity := some (.one 50)
    edgeWeight := [[0, 3785, 2109, 8993, 7823], [3785, 0, 3677, 6332, 5780], [2109, 3677, 0, 9811, 6000],
      [8993, 6332, 9811, 0, 10916], [7823, 5780, 6000, 10916, 0]]
    depot := some [0]
    pickupDelivery := some [⟨0, 0, 135100, 0, 0, 0⟩, ⟨-20, 7500, 80900, 900, 3, 0⟩, ⟨20, 12800, 17900, 900, 0, 2⟩,
      ⟨30, 14700, 21900, 900, 0, 5⟩, ⟨-30, 61600, 66100, 900, 4, 0⟩] }

theorem okSmall_ok : Read.read okSmall = .ok (dataOf okSmall) := dataOf_ok (by decide +kernel)

theorem smallShipments_ok : Read.read smallShipments = .ok (dataOf smallShipments) := dataOf_ok (by decide +kernel)

/-- What is read from the first file. -/
example : (dataOf okSmall).2 = false
    ∧ (dataOf okSmall).1.clients.map (fun c => (c.location, c.delivery, c.required, c.group, c.prize))
      = [(2, [5], true, none, 0), (3, [3], false, some 0, 8), (4, [5], false, some 0, 0)]
    ∧ (dataOf okSmall).1.groups.map (fun g => (g.clients, g.required)) = [([1, 2], true)]
    ∧ (dataOf okSmall).1.vehicleTypes.map (fun t => (t.name, t.numAvailable, t.startDepot, t.twLate, t.profile))
      = [("0,2", 2, 0, 45000, 0), ("1", 1, 1, 20000, 1)]
    ∧ ((dataOf okSmall).1.dists.map fun m => (m.get 0 3, m.get 0 4))
      = [(1931, 1476), (1931, MAX_VALUE)] := by
  refine ⟨?_, ?_, ?_, ?_, ?_⟩ <;> decide +kernel

/-- The lines of clients of the first file are lists of clients. -/
example : ∀ v : Nat, v < (File.numVehicles okSmall).toNat → File.Clear okSmall (File.vehicle id okSmall v) := by
  intro v hv
  have hn : (File.numVehicles okSmall).toNat = 3 := by decide
  rw [hn] at hv
  refine ⟨⟨by decide, by decide⟩, ?_, .inl rfl⟩
  rcases (by omega : v = 0 ∨ v = 1 ∨ v = 2) with rfl | rfl | rfl <;>
    exact ⟨by decide, by decide⟩

/-- What is read from the second. -/
example : (dataOf smallShipments).1.shipments.map (fun s => (s.pickup.location, s.delivery.location, s.amount))
      = [(2, 1, [20]), (3, 4, [30])]
    ∧ (dataOf smallShipments).1.clients = []
    ∧ File.pickups smallShipments = [2, 3] := by decide +kernel

example : ∀ rows, smallShipments.pickupDelivery = some rows →
    File.numDepots smallShipments = 1 ∧ rows.length = smallShipments.dimension ∧ File.Paired smallShipments := by
  intro rows h
  refine ⟨rfl, by injection h with h; rw [← h]; rfl, ⟨by decide, by decide⟩, ?_⟩
  have : File.pickups smallShipments = [2, 3] := by decide +kernel
  rw [this]
  intro k hk j hj
  simp only [List.mem_cons, List.not_mem_nil, or_false] at hk
  rcases hk with rfl | rfl
  · have e : (File.pdRow smallShipments 2).deliv = 2 := by decide +kernel
    have : j = 1 := by omega
    subst this; decide +kernel
  · have e : (File.pdRow smallShipments 3).deliv = 5 := by decide +kernel
    have : j = 4 := by omega
    subst this; decide +kernel

/-- A file with its only depot in the second place. -/
example : ∃ e, Read.build id { okSmall with depot := some [1] } = .error e :=
  C52_depots_first id _ [1] rfl (.inr (by decide))

/-- A file with a distance that is too large. -/
example : (dataOf { half with edgeWeight := [[0, 20000000000000], [10, 0]] }).2 = true := by decide +kernel

/-- A solution of the first problem. -/
def okPlan : RoutePlan := [(0, [client 2, client 0])]

def okRoutes : List Route :=
  okPlan.flatMap fun p => okOr [] ((Route.make (dataOf okSmall).1 p.2 p.1).map ([·]))

example : Built (dataOf okSmall).1 okPlan okRoutes :=
  ⟨by decide +kernel, by decide +kernel, by decide +kernel, by decide +kernel⟩

example : (match Solution.make (dataOf okSmall).1 okRoutes with | .ok _ => true | .error _ => false) = true := by
  decide +kernel

end Demo
end PyVRP
