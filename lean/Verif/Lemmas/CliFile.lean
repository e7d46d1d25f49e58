import Verif.Lemmas.Cli
/-!
# What an instance file with sensible numbers gives
-/
namespace PyVRP
open Spec

namespace Spec.File

/-- The numbers of the file are in the range that the library works with: times do not begin after half of
the largest number or end after it, and edge weights are not negative. -/
structure InRange (R : Rat → Rat) (inst : Vrplib) : Prop where
  windows : ∀ loc, Read.trunc (window R inst loc).1 ≤ HALF ∧ Read.trunc (window R inst loc).2 ≤ MAX
  releases : ∀ loc, Read.trunc (R (number inst.releaseTime 0 loc)) ≤ HALF
  weights : ∀ r ∈ inst.edgeWeight, ∀ x ∈ r, 0 ≤ R x

/-- If the file has a section on pickups and deliveries, then it has one depot, one line for each place,
and the lines of a pickup and its delivery point to each other. -/
def PickupsOk (inst : Vrplib) : Prop :=
  ∀ rows, inst.pickupDelivery = some rows → numDepots inst = 1 ∧ rows.length = inst.dimension ∧ Paired inst

end Spec.File

theorem All2.mem_left {α β : Type} {R : α → β → Prop} {as : List α} {bs : List β} (h : All2 R as bs) {a : α}
    (ha : a ∈ as) : ∃ b ∈ bs, R a b := by
  induction h with
  | nil => cases ha
  | cons hab _ ih =>
    rcases List.mem_cons.1 ha with rfl | ha
    · exact ⟨_, List.mem_cons_self, hab⟩
    · obtain ⟨b, hb, hr⟩ := ih ha
      exact ⟨b, List.mem_cons_of_mem _ hb, hr⟩

namespace Read

theorem trunc_nonneg {x : Rat} (h : 0 ≤ x) : 0 ≤ trunc x := by
  unfold trunc
  rw [if_pos h]
  exact Rat.le_floor_iff.2 (by simpa using h)

theorem client_made {s : ClientSections} {nd idx : Nat} {c : Client} (h : client s nd idx = .ok c) :
    ∃ a, Client.make a = .ok c := by
  unfold client at h
  repeat' split at h
  all_goals first | cases h | exact ⟨_, h⟩

theorem vehicleType_made {keys : List (List Int)} {windows : List (Rat × Rat)} {p : Attrs × List Nat}
    {t : VehicleType} (h : vehicleType keys windows p = .ok t) :
    (∃ a, VehicleType.make a = .ok t) ∧ t.maxReloads ≤ SIZE_MAX := by
  unfold vehicleType at h
  split at h
  · cases h
  · split at h
    · cases h
    · split at h
      · cases h
      · split at h
        · cases h
        · rename_i hm
          refine ⟨⟨_, h⟩, ?_⟩
          obtain ⟨-, -, -, -, -, -, -, -, -, -, -, -, e, -⟩ := C36_vehicle_fields _ _ h
          rw [e]
          exact size_le hm

theorem shipment_made {rows : List PdRow} {nd idx : Nat} {p : PdRow} {s : Shipment}
    (h : shipment rows nd idx p = .ok s) : ∃ a, Shipment.make a = .ok s := by
  unfold shipment at h
  repeat' split at h
  all_goals first | cases h | exact ⟨_, h⟩

theorem mapEntries_mem {f : Nat → Nat → Rat → Rat} {m : List (List Rat)} {Q : Rat → Prop}
    (hf : ∀ i j x, Q x → Q (f i j x)) (h : ∀ r ∈ m, ∀ x ∈ r, Q x) : ∀ r ∈ mapEntries f m, ∀ x ∈ r, Q x := by
  unfold mapEntries
  intro r hr x hx
  obtain ⟨⟨r0, i⟩, hr0, rfl⟩ := List.mem_map.1 hr
  obtain ⟨⟨x0, j⟩, hx0, rfl⟩ := List.mem_map.1 hx
  exact hf _ _ _ (h r0 (List.fst_mem_of_mem_zipIdx hr0) x0 (List.fst_mem_of_mem_zipIdx hx0))

/-- Distances that are not changed by rules about who may go where are those of the file. -/
theorem distances_nonneg {R : Rat → Rat} {inst : Vrplib} (hw : ∀ r ∈ inst.edgeWeight, ∀ x ∈ r, 0 ≤ R x)
    {ms : List (List (List Rat))} (h : distanceMatrices R inst = .ok ms) :
    ∀ m ∈ ms, ∀ r ∈ m, ∀ x ∈ r, 0 ≤ x := by
  obtain ⟨base, allowed, h1, _, h3⟩ := distanceMatrices_ok h
  have he : ∀ r ∈ edgeWeight R inst, ∀ x ∈ r, 0 ≤ x := by
    intro r hr x hx
    obtain ⟨r0, hr0, rfl⟩ := List.mem_map.1 hr
    obtain ⟨x0, hx0, rfl⟩ := List.mem_map.1 hx
    exact hw r0 hr0 x0 hx0
  have hM : (0 : Rat) ≤ ((ModelApi.MAX_VALUE : Int) : Rat) := by decide +kernel
  have hb : ∀ r ∈ base, ∀ x ∈ r, 0 ≤ x := by
    split at h1
    · unfold vrpb at h1
      split at h1
      · cases h1
      · split at h1
        · cases h1
        · split at h1
          · cases h1
          · injection h1 with h1
            subst h1
            refine mapEntries_mem (fun i j x hx => ?_) he
            split
            · exact hM
            · split
              · exact hM
              · exact hx
    · injection h1 with h1
      subst h1; exact he
  intro m hm
  obtain ⟨cs, _, hp⟩ := h3.mem_right hm
  unfold profileDistances at hp
  split at hp
  · injection hp with hp; subst hp; exact hb
  · split at hp
    · cases hp
    · split at hp
      · cases hp
      · injection hp with hp
        subst hp
        refine mapEntries_mem (fun i j x hx => ?_) hb
        split
        · exact Rat.le_refl
        · split
          · exact hM
          · exact hx

/-- The data that is read from a file with sensible numbers is good. -/
theorem build_good {R : Rat → Rat} (h0 : R 0 = 0) {inst : Vrplib} {data : ProblemData} {w : Bool}
    (h : build R inst = .ok (data, w)) (hr : File.InRange R inst) (hp : File.PickupsOk inst) :
    GoodData data ∧ (∀ v ∈ data.vehicleTypes, v.maxReloads ≤ SIZE_MAX)
      ∧ ∀ g ∈ data.groups, g.clients.Nodup := by
  obtain ⟨dists, h1, h2, h3, h4, h5, h6, h7, h8, h9, h10, h11⟩ := build_ok h
  obtain ⟨attrs, allowed, _, _, v1⟩ := vehicleTypes_ok h3
  have hveh : ∀ v ∈ data.vehicleTypes, (∃ a, VehicleType.make a = .ok v) ∧ v.maxReloads ≤ SIZE_MAX := by
    intro v hv
    obtain ⟨p, _, e⟩ := v1.mem_right hv
    exact vehicleType_made e
  refine ⟨⟨h10, fun v hv => (hveh v hv).1, ?_⟩, fun v hv => (hveh v hv).2,
    fun g hg => ((C52_groups R inst data w h).2.1 g hg).2⟩
  have hH : (HALF : Int) ≤ MAX := by decide
  constructor
  · intro c hc
    obtain ⟨i, hi⟩ := List.getElem?_of_mem hc
    obtain ⟨loc, _, _, _, _, _, e1, e2, e3, _⟩ := (C52_clients R h0 inst data w h).2 i c hi
    obtain ⟨_, _, _, _, c3⟩ := clients_ok h1
    obtain ⟨a, ha⟩ := client_made (c3 i c hi)
    have hok := (C36_client_accepts a).1.1 ⟨c, ha⟩
    have hf := (C36_client_fields a c ha).2.2
    have hw := hr.windows loc
    have hl := hr.releases loc
    have k1 : c.twEarly = a.twEarly := by rw [hf]
    have k2 : c.twLate = a.twLate := by rw [hf]
    have k3 : c.releaseTime = a.releaseTime := by rw [hf]
    have k4 : c.serviceDuration = a.serviceDuration := by rw [hf]
    have o1 := hok.early; have o2 := hok.window; have o3 := hok.release; have o4 := hok.service
    refine ⟨?_, ?_, ?_, ?_, ?_, ?_, ?_⟩ <;> omega
  · intro d hd
    rw [(C52_places R inst data w h).1] at hd
    obtain ⟨i, _, rfl⟩ := List.mem_map.1 hd
    dsimp only
    decide
  · intro s hs
    obtain ⟨k, hk, hk2⟩ := (shipments_ok h8).mem_right hs
    cases hpd : inst.pickupDelivery with
    | none => rw [File.pickups, hpd] at hk; simp at hk
    | some rows =>
      obtain ⟨n1, _, _⟩ := hp rows hpd
      obtain ⟨k', _, hfit⟩ := (C52_shipments_partial R inst data w h n1).mem_right hs
      obtain ⟨a, ha⟩ := shipment_made hk2
      obtain ⟨rfl, hok⟩ := ((C36_shipment_accepts a).1 s).1 ha
      have hw := hr.windows k'
      rw [File.window, hpd] at hw
      have hpr : File.pdRow inst k' = rows.getD k' default := by rw [File.pdRow, hpd]; rfl
      have e := hfit.pickup
      rw [hpr] at e
      have o := hok.pickup
      have o1 := o.early; have o2 := o.window; have o3 := o.service
      rw [e] at o1 o2 o3 ⊢
      exact ⟨o1, o2, hw.2, hw.1, o3⟩
  · intro s hs
    obtain ⟨k, hk, hk2⟩ := (shipments_ok h8).mem_right hs
    cases hpd : inst.pickupDelivery with
    | none => rw [File.pickups, hpd] at hk; simp at hk
    | some rows =>
      obtain ⟨n1, _, _⟩ := hp rows hpd
      obtain ⟨k', _, hfit⟩ := (C52_shipments_partial R inst data w h n1).mem_right hs
      obtain ⟨a, ha⟩ := shipment_made hk2
      obtain ⟨rfl, hok⟩ := ((C36_shipment_accepts a).1 s).1 ha
      have hw := hr.windows s.delivery.location
      rw [File.window, hpd] at hw
      have hpr : File.pdRow inst s.delivery.location = rows.getD s.delivery.location default := by
        rw [File.pdRow, hpd]; rfl
      have e := hfit.delivery
      rw [hpr] at e
      have o := hok.delivery
      have o1 := o.early; have o2 := o.window; have o3 := o.service
      have e1 : s.delivery.twEarly = trunc (R (rows.getD s.delivery.location default).early) := congrArg Step.twEarly e
      have e2 : s.delivery.twLate = trunc (R (rows.getD s.delivery.location default).late) := congrArg Step.twLate e
      dsimp only at hw
      exact ⟨o1, o2, by omega, by omega, o3⟩
  · intro v hv
    obtain ⟨a, ha⟩ := (hveh v hv).1
    have hok := (C36_vehicle_accepts a).1.1 ⟨v, ha⟩
    obtain ⟨names, _, n2, _⟩ := C52_vehicles R h0 inst data w h
    obtain ⟨l, _, hl⟩ := n2.mem_left hv
    obtain ⟨_, _, hne, hfit⟩ := hl
    obtain ⟨x, hx⟩ := List.exists_mem_of_ne_nil _ hne
    obtain ⟨w1, w2, w3⟩ := (hfit x hx).1.window
    have hw := hr.windows v.startDepot
    obtain ⟨-, -, -, f1, f2, -⟩ := C36_vehicle_fields a v ha
    have o1 := hok.early; have o2 := hok.window
    refine ⟨?_, ?_, ?_, ?_, ?_⟩ <;> omega
  · rw [h6, h5]
    intro m hm x hx
    obtain ⟨m0, hm0, rfl⟩ := List.mem_map.1 hm
    obtain ⟨x0, hx0, rfl⟩ := List.mem_map.1 hx
    obtain ⟨r, hr1, hr2⟩ := List.mem_flatten.1 hx0
    exact trunc_nonneg (distances_nonneg hr.weights h4 m0 hm0 r hr1 x0 hr2)

end Read
end PyVRP
