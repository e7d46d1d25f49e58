import Verif.Lemmas.ReadGood
import Verif.Props.C52
/-!
# C64: well-formed instance files are read, malformed ones are refused
-/
namespace PyVRP
open Csv ModelApi Spec

/-- **C64, files that are read.** A well-formed file without shipments is read without an error, with each
of the named rounding functions. -/
theorem C64_well_formed_file_is_read (name : String) (R : Rat → Rat) (hR : Read.roundFunc name = some R)
    (inst : Vrplib) (hg : File.Good R inst) : ∃ data w, Read.read inst name = .ok (data, w) := by
  unfold Read.read
  rw [hR]
  exact Read.build_of_good ((C52_rounding name).1 R hR) hg

namespace Read

theorem indices_lines {t : Table Int} {l : List (List Int)} (h : indices t = .ok l) :
    l.length = File.lines t := by
  unfold indices at h
  split at h
  · cases h
  · injection h with h
    rw [← h, List.length_map, lines_eq]

/-- The sections that go with a list of attributes have one line for each vehicle. -/
theorem attributes_lines {R : Rat → Rat} {inst : Vrplib} {attrs : List Attrs}
    (h : attributes R inst = .ok attrs) :
    ∃ clients reloads depots, allowedClients inst = .ok clients ∧ reloadDepots inst = .ok reloads
      ∧ vehiclesDepots inst = .ok depots ∧ ((capacities R inst).length : Int) = numVehicles inst
      ∧ (clients.length : Int) = numVehicles inst ∧ (reloads.length : Int) = numVehicles inst
      ∧ (depots.length : Int) = numVehicles inst := by
  obtain ⟨clients, reloads, depots, distances, durations, maxR, fixed, unit, h1, h2, h3, h4, h5, h6, h7, h8,
    _⟩ := attributes_ok h
  refine ⟨clients, reloads, depots, h1, h2, h3, ?_⟩
  unfold attributes at h
  rw [h1] at h; dsimp only at h
  rw [h2] at h; dsimp only at h
  rw [h3] at h; dsimp only at h
  rw [h4] at h; dsimp only at h
  rw [h5] at h; dsimp only at h
  rw [h6] at h; dsimp only at h
  rw [h7] at h; dsimp only at h
  rw [h8] at h; dsimp only at h
  split at h
  · cases h
  · rename_i hc
    simp only [not_or, Decidable.not_not] at hc
    exact ⟨hc.1, hc.2.1, hc.2.2.1, hc.2.2.2.1⟩

/-- A client that is read was accepted. -/
theorem client_accepted {s : ClientSections} {nd idx : Nat} {c : Client} (h : client s nd idx = .ok c) :
    0 ≤ c.serviceDuration ∧ 0 ≤ c.twEarly ∧ c.twEarly ≤ c.twLate ∧ 0 ≤ c.releaseTime
      ∧ c.releaseTime ≤ c.twLate ∧ 0 ≤ c.prize ∧ (∀ d, 0 ≤ c.delivery.getD d 0) ∧ ∀ d, 0 ≤ c.pickup.getD d 0 := by
  have key : ∃ a, Client.make a = .ok c := by
    unfold client row at h
    cases h1 : Py.get s.demands.toRows (idx : Int) with
    | error e => rw [h1] at h; cases h
    | ok delivery =>
    rw [h1] at h; dsimp only at h
    cases h2 : Py.get s.backhauls.toRows (idx : Int) with
    | error e => rw [h2] at h; cases h
    | ok pickup =>
    rw [h2] at h; dsimp only at h
    cases h3 : Py.get s.serviceDuration (idx : Int) with
    | error e => rw [h3] at h; cases h
    | ok service =>
    rw [h3] at h; dsimp only at h
    cases h4 : Py.get s.timeWindows (idx : Int) with
    | error e => rw [h4] at h; cases h
    | ok tw =>
    rw [h4] at h; dsimp only at h
    cases h5 : Py.get s.releaseTimes (idx : Int) with
    | error e => rw [h5] at h; cases h
    | ok release =>
    rw [h5] at h; dsimp only at h
    cases h6 : Py.get s.prizes (idx : Int) with
    | error e => rw [h6] at h; cases h
    | ok prize =>
    rw [h6] at h; dsimp only at h
    cases h7 : Py.get s.idx2group ((idx - nd : Nat) : Int) with
    | error e => rw [h7] at h; cases h
    | ok group =>
    rw [h7] at h
    exact ⟨_, h⟩
  obtain ⟨a, ha⟩ := key
  obtain ⟨k1, k2, k3, k4, k5, k6, k7⟩ := (C36_client_accepts a).1.1 ⟨c, ha⟩
  have hc := checked_ok ha
  subst hc
  have nn : ∀ {l : List Int}, Nonneg l → ∀ d, 0 ≤ l.getD d 0 := by
    intro l hl d
    rw [List.getD_eq_getElem?_getD]
    cases hx : l[d]? with
    | none => exact Int.le_refl _
    | some x => exact hl x (List.mem_of_getElem? hx)
  exact ⟨k3, k4, k5, k6.1, k6.2, k7, fun d => by rw [pad_getD]; exact nn k1 d,
    fun d => by rw [pad_getD]; exact nn k2 d⟩

end Read

/-- **C64, files that are refused.** A file that is read has its depots in the first places, a vehicle, and a
line for each vehicle in the sections about vehicles. The numbers of its clients are not negative, time
windows are in order, clients are released before their time windows end, and the places of a group are
clients, none of them listed twice. A file that breaks one of these is refused with an error. -/
theorem C64_malformed_file_is_refused (name : String) (R : Rat → Rat) (hR : Read.roundFunc name = some R)
    (inst : Vrplib) (data : ProblemData) (w : Bool) (h : Read.read inst name = .ok (data, w)) :
    (∀ l, inst.depot = some l → l ≠ [] ∧ l = (List.range l.length).map Int.ofNat)
    ∧ 0 < File.numVehicles inst
    ∧ (∀ t, inst.capacity = some (.table t) → (File.lines t : Int) = File.numVehicles inst)
    ∧ (∀ t, inst.allowedClients = some t → (File.lines t : Int) = File.numVehicles inst)
    ∧ (∀ t, inst.reloadDepot = some t → (File.lines t : Int) = File.numVehicles inst)
    ∧ (∀ l, inst.vehiclesDepot = some l → (l.length : Int) = File.numVehicles inst)
    ∧ (∀ loc : Nat, File.numDepots inst ≤ loc → (loc : Int) < File.numDepots inst + File.numClients inst →
      File.GoodClient R inst loc ∧ 0 ≤ Read.trunc (File.window R inst loc).1
        ∧ Read.trunc (File.window R inst loc).1 ≤ Read.trunc (File.window R inst loc).2)
    ∧ (∀ ms ∈ File.groups inst, ms.Nodup
      ∧ ∀ m ∈ ms, (File.numDepots inst : Int) < m ∧ m ≤ File.numDepots inst + File.numClients inst)
    ∧ ∀ (g g' : Nat) (ms ms' : List Int) (m : Int), (File.groups inst)[g]? = some ms →
      (File.groups inst)[g']? = some ms' → m ∈ ms → m ∈ ms' → g = g' := by
  have h0 := (C52_rounding name).1 R hR
  unfold Read.read at h
  rw [hR] at h
  obtain ⟨dists, b1, b2, b3, b4, b5, b6, b7, b8, b9, b10, b11⟩ := Read.build_ok h
  obtain ⟨d1, d2, d3⟩ := Read.depots_ok b2
  obtain ⟨attrs, allowed, v1, v2, v3⟩ := Read.vehicleTypes_ok b3
  obtain ⟨clients, reloads, depots, a1, a2, a3, a4, a5, a6, a7⟩ := Read.attributes_lines v1
  have hcons := ((C37_accepts_exactly_consistent _ _).1 b10).2
  rw [Read.numVehicles_eq] at a4 a5 a6 a7
  obtain ⟨q1, q2, _⟩ := C52_groups R inst data w h
  have hlen := (C52_clients R h0 inst data w h).1
  have hmember : ∀ (g : Nat) (ms : List Int) (m : Int), (File.groups inst)[g]? = some ms → m ∈ ms →
      ∃ (i : Nat) (c : Client), m = (i : Int) + File.numDepots inst + 1 ∧ data.clients[i]? = some c
        ∧ c.group = some g := by
    intro g ms m hms hm
    rw [← q1, List.getElem?_map, Option.map_eq_some_iff] at hms
    obtain ⟨grp, h1, rfl⟩ := hms
    obtain ⟨i, hi, rfl⟩ := List.mem_map.1 hm
    obtain ⟨c, h2, h3⟩ := (hcons.groupClients g grp h1).2 i hi
    exact ⟨i, c, rfl, h2, h3⟩
  refine ⟨?_, ?_, ?_, ?_, ?_, ?_, ?_, ?_, ?_⟩
  · intro l hl
    unfold Read.numDepots Read.depotIdcs at *
    rw [hl, Option.getD_some] at d1 d2
    exact ⟨List.length_pos_iff.1 d1, d2⟩
  · have hne := hcons.hasVehicle
    have hlen := v3.length
    rw [← a5]
    rw [a1] at v2
    injection v2 with v2
    subst v2
    apply Classical.byContradiction
    intro hc
    have hz : attrs = [] := by
      obtain ⟨_, _, _, _, _, _, _, _, _, _, _, _, _, _, _, _, _, e, _⟩ := Read.attributes_ok v1
      rw [Read.numVehicles_eq, ← a5] at e
      exact List.length_eq_zero_iff.1 (by omega)
    rw [hz] at hlen
    exact hne (List.length_eq_zero_iff.1 hlen.symm)
  · intro t ht
    unfold Read.capacities at a4
    rw [ht] at a4
    dsimp only at a4
    rwa [Read.lines_map] at a4
  · intro t ht
    unfold Read.allowedClients at a1
    rw [ht] at a1
    rw [← Read.indices_lines a1, a5]
  · intro t ht
    unfold Read.reloadDepots at a2
    rw [ht] at a2
    rw [← Read.indices_lines a2, a6]
  · intro l hl
    unfold Read.vehiclesDepots at a3
    rw [hl] at a3
    injection a3 with a3
    rw [← a3, List.length_map] at a7
    exact a7
  · intro loc hlo hhi
    have hi : loc - File.numDepots inst < data.clients.length := by omega
    obtain ⟨loc', e1, _, e2, e3, e4, e5, e6, e7, e8, _⟩ :=
      (C52_clients R h0 inst data w h).2 _ _ (List.getElem?_eq_getElem hi)
    have : loc' = loc := by omega
    subst this
    obtain ⟨_, _, _, _, c3⟩ := Read.clients_ok b1
    obtain ⟨k1, k2, k3, k4, k5, k6, k7, k8⟩ := Read.client_accepted (c3 _ _ (List.getElem?_eq_getElem hi))
    rw [e4] at k1
    rw [e5] at k2 k3
    rw [e6] at k3 k5
    rw [e7] at k4 k5
    rw [e8] at k6
    exact ⟨⟨fun d => by rw [← e2]; exact k7 d, fun d => by rw [← e3]; exact k8 d, k1, ⟨k4, k5⟩, k6⟩, k2, k3⟩
  · intro ms hms
    constructor
    · rw [← q1] at hms
      obtain ⟨grp, h1, rfl⟩ := List.mem_map.1 hms
      refine List.Pairwise.map _ (fun a b hab => ?_) (q2 grp h1).2
      omega
    · intro m hm
      obtain ⟨g, hg⟩ := List.getElem?_of_mem hms
      obtain ⟨i, c, h1, h2, _⟩ := hmember g ms m hg hm
      have := (List.getElem?_eq_some_iff.1 h2).1
      omega
  · intro g g' ms ms' m hg hg' hm hm'
    obtain ⟨i, c, h1, h2, h3⟩ := hmember g ms m hg hm
    obtain ⟨i', c', h1', h2', h3'⟩ := hmember g' ms' m hg' hm'
    have : i = i' := by omega
    subst this
    rw [h2] at h2'
    injection h2' with h2'
    subst h2'
    rw [h3] at h3'
    injection h3'

/-! ## Examples -/
namespace Demo

/-- The file of C52 is well-formed. It has two depots, three vehicles with different depots and clients, and
groups. -/
theorem okSmall_good : File.Good (fun x => x) okSmall := by
  have e1 : File.numVehicles okSmall = 3 := by decide
  have e2 : File.numDepots okSmall = 2 := by decide
  have e3 : okSmall.dimension = 5 := rfl
  have hw : ∀ loc, loc < 5 → 0 ≤ Read.trunc (File.window (fun x => x) okSmall loc).1
      ∧ Read.trunc (File.window (fun x => x) okSmall loc).1 ≤ Read.trunc (File.window (fun x => x) okSmall loc).2
      ∧ Read.trunc (File.window (fun x => x) okSmall loc).1 ≤ MAX := by decide +kernel
  constructor
  all_goals try rw [e1]
  all_goals try rw [e2]
  all_goals try rw [e3]
  case noShipments => rfl
  case depots => intro l h; cases h; decide
  case places => decide
  case vehicles => decide
  case amounts => rintro t (h | h) <;> cases h; rfl
  case coords => intro l h; cases h; rfl
  case services => intro l h; cases h; rfl
  case windows => intro l h; cases h; rfl
  case releases => intro l h; cases h
  case prizes => intro l h; cases h; rfl
  case capacities => intro t h; cases h
  case allowed => intro t h; cases h; rfl
  case reloads => intro t h; cases h
  case vehiclesDepots => intro l h; cases h; rfl
  case maxDistances => intro l h; cases h
  case maxDurations => intro l h; cases h
  case maxReloads => intro l h; cases h
  case fixedCosts => intro l h; cases h
  case unitDistanceCosts => intro l h; cases h
  case window => exact hw
  case client =>
    intro loc h1 h2
    have hd : ∀ d, 0 ≤ Read.trunc (File.delivery okSmall loc d) := by
      intro d
      cases d with
      | zero => rcases (by omega : loc = 2 ∨ loc = 3 ∨ loc = 4) with rfl | rfl | rfl <;> decide +kernel
      | succ d => exact Int.le_of_eq Read.trunc_zero.symm
    rcases (by omega : loc = 2 ∨ loc = 3 ∨ loc = 4) with rfl | rfl | rfl <;>
      exact ⟨hd, fun _ => Int.le_of_eq Read.trunc_zero.symm, by decide +kernel, by decide +kernel,
        by decide +kernel⟩
  case vehicle =>
    intro v hv
    rcases (by omega : v = 0 ∨ v = 1 ∨ v = 2) with rfl | rfl | rfl <;>
      exact ⟨by decide +kernel, by decide +kernel, by decide +kernel, by decide +kernel, by decide +kernel,
        by decide +kernel, by decide +kernel, by decide +kernel⟩
  case dimensions =>
    refine ⟨1, fun v _ => rfl, fun loc h1 h2 => ?_⟩
    rcases (by omega : loc = 2 ∨ loc = 3 ∨ loc = 4) with rfl | rfl | rfl <;> rfl
  case groupLines => intro t h; cases h; decide
  case groups => decide
  case square => exact ⟨by decide, by decide⟩
  case diagonal => decide +kernel
  case vrpb => intro h; exact absurd h (by decide)
  case open_ => intro i h; exact absurd h.1 (by decide)

example : ∃ data w, Read.read okSmall "none" = .ok (data, w) :=
  C64_well_formed_file_is_read "none" _ rfl okSmall okSmall_good

/-- Two groups that share a client are refused. -/
example : ¬ ∃ data w, Read.read { okSmall with groups := some (.rows [[3, 4], [4, 5]]) } = .ok (data, w) := by
  rintro ⟨data, w, h⟩
  have := (C64_malformed_file_is_refused "none" _ rfl _ data w h).2.2.2.2.2.2.2.2 0 1 [3, 4] [4, 5] 4
    (by decide) (by decide) (by decide) (by decide)
  exact absurd this (by decide)

/-- A client that is released after its time window is refused. -/
example : ¬ ∃ data w, Read.read { okSmall with releaseTime := some (.many [0, 0, 0, 16000, 0]) }
    = .ok (data, w) := by
  rintro ⟨data, w, h⟩
  have := ((C64_malformed_file_is_refused "none" _ rfl _ data w h).2.2.2.2.2.2.1 3 (by decide) (by decide)).1
  exact absurd this.release (by decide +kernel)

end Demo

end PyVRP
