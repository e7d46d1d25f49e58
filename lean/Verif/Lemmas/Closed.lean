import Verif.Lemmas.SearchInsert
import Verif.Lemmas.Perturbation
/-!
# Parts of routes without open shipments, and what the nodes of a route know
-/
namespace PyVRP
open Spec

/-! ## Closed parts -/

/-- All shipments that are picked up or delivered here are picked up and later delivered here. -/
def Closed (l : List Activity) : Prop := ∀ s, Phase.Ok (Phase.run s .waiting l)

/-- No client, pickup or delivery is in both lists. -/
def Apart (l m : List Activity) : Prop := ∀ a, a.type ≠ .depot → a ∈ l → a ∉ m

theorem Apart.symm {l m : List Activity} (h : Apart l m) : Apart m l := fun a ha hm hl => h a ha hl hm

theorem Apart.append_left {l m k : List Activity} :
    Apart (l ++ m) k ↔ Apart l k ∧ Apart m k := by
  constructor
  · intro h
    exact ⟨fun a ha hl => h a ha (by simp [hl]), fun a ha hl => h a ha (by simp [hl])⟩
  · rintro ⟨h1, h2⟩ a ha hl
    rcases List.mem_append.1 hl with hl | hl
    · exact h1 a ha hl
    · exact h2 a ha hl

theorem Apart.append_right {l m k : List Activity} :
    Apart l (m ++ k) ↔ Apart l m ∧ Apart l k := by
  constructor
  · intro h
    exact ⟨fun a ha hl hm => h a ha hl (by simp [hm]), fun a ha hl hm => h a ha hl (by simp [hm])⟩
  · rintro ⟨h1, h2⟩ a ha hl hm
    rcases List.mem_append.1 hm with hm | hm
    · exact h1 a ha hl hm
    · exact h2 a ha hl hm

namespace Closed

theorem nil : Closed [] := fun _ => .inl rfl

theorem depot (d : Nat) : Closed [⟨.depot, d⟩] := fun _ => .inl rfl

theorem client (c : Nat) : Closed [⟨.client, c⟩] := fun _ => .inl rfl

theorem shipment (k : Nat) : Closed [pickupOf k, deliveryOf k] := by
  intro s
  by_cases h : k = s
  · subst h
    right
    simp only [Phase.run_cons, Phase.run_nil, Phase.step_pickup, Phase.step_delivery]
  · left
    simp [Phase.step, pickupOf, deliveryOf, h]

/-- The remaining part is closed, too. -/
theorem right {l m : List Activity} (hl : Closed l) (h : Closed (l ++ m)) : Closed m := by
  intro s
  have h1 := h s
  rw [Phase.run_append] at h1
  rcases hl s with h2 | h2
  · rwa [h2] at h1
  · rw [h2] at h1
    have := Phase.free_of_done h1.ne_bad
    left
    exact Phase.run_free this (.inl (by decide))

theorem both {l : List Activity} (h : Closed l) {s : Nat} (hs : ¬ Phase.Free s l) :
    pickupOf s ∈ l ∧ deliveryOf s ∈ l ∧ Phase.run s .waiting l = .done := by
  rcases (Phase.ok_iff s l).1 (h s) with h1 | ⟨b, m, a, rfl, h2, h3⟩
  · exact absurd h1 hs
  · refine ⟨by simp, by simp, ?_⟩
    rcases h s with h4 | h4
    · exfalso
      have hb : Phase.Free s b := fun x hx => h3 x (by simp [hx])
      have hm : Phase.Free s m := fun x hx => h3 x (by simp [hx])
      have ha : Phase.Free s a := fun x hx => h3 x (by simp [hx])
      simp only [List.append_assoc, List.cons_append, Phase.run_append, Phase.run_cons] at h4
      rw [Phase.run_free hb (.inl (by decide)), Phase.step_pickup, Phase.run_free hm (.inr h2),
        Phase.step_delivery, Phase.run_free ha (.inl (by decide))] at h4
      cases h4
    · exact h4

theorem free_or {l m : List Activity} (hl : Closed l) (h : Apart l m) (s : Nat) :
    Phase.Free s l ∨ Phase.Free s m := by
  by_cases hf : Phase.Free s l
  · exact .inl hf
  · right
    obtain ⟨h1, h2, -⟩ := hl.both hf
    rintro a ha (rfl | rfl)
    · exact h _ (by simp [pickupOf]) h1 ha
    · exact h _ (by simp [deliveryOf]) h2 ha

theorem append {l m : List Activity} (hl : Closed l) (hm : Closed m) (h : Apart l m) :
    Closed (l ++ m) := by
  intro s
  rw [Phase.run_append]
  rcases hl.free_or h s with hf | hf
  · rw [Phase.run_free hf (.inl (by decide))]; exact hm s
  · rcases hl s with h1 | h1
    · rw [h1]; exact hm s
    · rw [h1, Phase.run_free hf (.inl (by decide))]; exact .inr rfl

/-- Inserting a closed part without depots, anywhere. -/
theorem insert {l m k : List Activity} (h : Closed (l ++ k)) (hm : Closed m) (hd : Phase.NoDepot m)
    (ha : Apart m (l ++ k)) : Closed (l ++ m ++ k) := by
  intro s
  rw [Phase.run_append, Phase.run_append]
  rcases hm.free_or ha s with hf | hf
  · rw [Phase.run_free hf (.inr hd), ← Phase.run_append]; exact h s
  · have h1 : Phase.Free s l := fun x hx => hf x (by simp [hx])
    have h2 : Phase.Free s k := fun x hx => hf x (by simp [hx])
    rw [Phase.run_free h1 (.inl (by decide))]
    rcases hm s with h3 | h3
    · rw [h3, Phase.run_free h2 (.inl (by decide))]; exact .inl rfl
    · rw [h3, Phase.run_free h2 (.inl (by decide))]; exact .inr rfl

end Closed

theorem nodup_idx (ty : ActivityType) : ∀ {l : List Activity}, l.Nodup → (∀ a ∈ l, a.type = ty) →
    (l.map (·.idx)).Nodup := by
  intro l
  induction l with
  | nil => intro _ _; exact List.nodup_nil
  | cons a l ih =>
    intro hn ht
    obtain ⟨h1, h2⟩ := List.nodup_cons.1 hn
    rw [List.map_cons, List.nodup_cons]
    refine ⟨?_, ih h2 (fun b hb => ht b (by simp [hb]))⟩
    intro hm
    obtain ⟨b, hb, hi⟩ := List.mem_map.1 hm
    have hta := ht a (by simp)
    have htb := ht b (by simp [hb])
    obtain ⟨ta, ia⟩ := a
    obtain ⟨tb, ib⟩ := b
    simp only at hta htb hi
    subst hta; subst htb; subst hi
    exact h1 hb

/-- As many deliveries as pickups so far: no shipment is open. -/
theorem closed_of_counts {l m : List Activity} (h : Closed (l ++ m))
    (honce : ∀ a : Activity, a.type ≠ .depot → (l ++ m).count a ≤ 1)
    (hc : l.countP (fun a => a.type = .pickup) = l.countP (fun a => a.type = .delivery)) :
    Closed l := by
  intro s
  have hnb : ∀ s, Phase.run s .waiting l ≠ .bad := fun s =>
    Phase.run_ne_bad_prefix (m := m) (h s).ne_bad
  cases hq : Phase.run s .waiting l with
  | waiting => exact .inl rfl
  | done => exact .inr rfl
  | bad => exact absurd hq (hnb s)
  | aboard =>
    exfalso
    -- indices of the pickups and deliveries
    have hmap : ∀ (ty : ActivityType), (l.filter (fun a => a.type = ty)).length
        = l.countP (fun a => a.type = ty) := fun ty => by rw [List.countP_eq_length_filter]
    have hnd : ∀ (ty : ActivityType), ty ≠ .depot →
        ((l.filter (fun a => a.type = ty)).map (·.idx)).Nodup := by
      intro ty hty
      have h1 : (l.filter (fun a => a.type = ty)).Nodup := by
        rw [List.nodup_iff_count]
        intro a
        by_cases ha : a.type = ty
        · rw [List.count_filter (by simp [ha])]
          have := honce a (by rw [ha]; exact hty)
          rw [List.count_append] at this
          omega
        · rw [List.count_eq_zero.2]
          · omega
          · intro hm; simp at hm; exact ha hm.2
      exact nodup_idx ty h1 (fun a ha => by simpa using (List.mem_filter.1 ha).2)
    have hmem : ∀ (ty : ActivityType) (k : Nat),
        k ∈ (l.filter (fun a => a.type = ty)).map (·.idx) ↔ (⟨ty, k⟩ : Activity) ∈ l := by
      intro ty k
      simp only [List.mem_map, List.mem_filter, decide_eq_true_eq]
      constructor
      · rintro ⟨⟨t, i⟩, ⟨h1, h2⟩, h3⟩
        simp only at h2 h3
        subst h2; subst h3; exact h1
      · intro hk; exact ⟨_, ⟨hk, rfl⟩, rfl⟩
    have hs : s ∈ (l.filter (fun a => a.type = .pickup)).map (·.idx) := by
      rw [hmem]
      rcases Phase.waiting_split (hnb s) with ⟨h1, -⟩ | ⟨b, r, rfl, -, -⟩
      · rw [hq] at h1; cases h1
      · exact List.mem_append_right _ (by simp [pickupOf])
    have hsub : ∀ k ∈ (l.filter (fun a => a.type = .delivery)).map (·.idx),
        k ∈ ((l.filter (fun a => a.type = .pickup)).map (·.idx)).erase s := by
      intro k hk
      rw [hmem] at hk
      rcases Phase.waiting_split (hnb k) with ⟨-, h2⟩ | ⟨b, r, hl, h2, h3⟩
      · exact absurd (.inr rfl) (h2 _ hk)
      · have hks : k ≠ s := by
          rintro rfl
          rw [hq] at h3
          rcases Phase.aboard_split (s := k) (l := r) (by rw [← h3]; decide) with
            ⟨-, hf, -⟩ | ⟨_, _, -, -, -, -, h5⟩
          · rw [hl] at hk
            rcases List.mem_append.1 hk with hk | hk
            · exact h2 _ hk (.inr rfl)
            · rcases List.mem_cons.1 hk with hk | hk
              · cases hk
              · exact hf _ hk (.inr rfl)
          · rw [← h3] at h5; cases h5
        rw [List.mem_erase_of_ne hks, hmem, hl]
        exact List.mem_append_right _ (by simp [pickupOf])
    have h1 := length_le_of_nodup (hnd .delivery (by decide)) hsub
    rw [List.length_erase_of_mem hs, List.length_map, List.length_map, hmap, hmap] at h1
    have h2 := List.length_pos_of_mem hs
    rw [List.length_map, hmap] at h2
    omega

end PyVRP
