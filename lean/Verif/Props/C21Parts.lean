import Verif.Props.C21
/-!
# C21: what a segment says about its activities

Besides its distance, duration and load, a segment of a proposal tells its first and last activities,
where these take place, how many activities, clients and pickups it has, and whether it starts or ends
at a reload depot. The theorems here say that all of this is true of the activities the segment stands
for.
-/
namespace PyVRP
open Spec

namespace Spec

/-- What the rest of the search reads off a segment, in terms of the activities it stands for. -/
structure Describes (data : ProblemData) (seg : Seg) (part : List Activity) : Prop where
  front : part.head? = some seg.frontActivity
  back : part.getLast? = some seg.backActivity
  frontLoc : seg.frontLoc = place data seg.frontActivity
  backLoc : seg.backLoc = place data seg.backActivity
  size : seg.size = part.length
  clients : seg.numClients = part.countP (·.type = .client)
  pickups : seg.numPickups = part.countP (·.type = .pickup)

/-- There is a depot at position `k` of the route that visits `acts`, which is neither its start nor its
end depot. Position 0 is the start depot. -/
def ReloadAt (acts : List Activity) (k : Nat) : Prop :=
  1 ≤ k ∧ ∃ a, acts[k - 1]? = some a ∧ a.type = .depot

end Spec

theorem counts_len (p : SNode → Bool) (nodes : List SNode) :
    (SRoute.counts p nodes).length = nodes.length := by
  cases nodes with
  | nil => rfl
  | cons n rest => exact scanNodes_length _ _ _ _

/-- The number of nodes of a kind up to position `k`. -/
theorem counts_take (p : Activity → Bool) (v : VehicleType) (acts : List Activity) (k : Nat)
    (hp : p ⟨.depot, v.startDepot⟩ = false) (hk : k < acts.length + 2) :
    (SRoute.counts (fun n => p n.activity) (canon v acts)).getD k 0
      = ((fullActs v acts).take (k + 1)).countP p := by
  rw [← SRoute.canon_activities v acts]
  have hl := canon_length v acts
  unfold canon at hl ⊢
  generalize hrest : innerNodes 1 0 acts ++ [endNode v (acts.length + 1) (depotVisits acts + 1)]
    = rest at hl ⊢
  have hk' : k ≤ rest.length := by simp at hl; omega
  show (scanNodes _ _ _ _).getD k 0 = _
  rw [scanNodes_getD _ _ _ _ _ hk', SRoute.foldNodes_count]
  have hs : p (startNode v).activity = false := hp
  rw [List.map_cons, List.take_succ_cons, List.countP_cons, hs, ← List.map_take, List.countP_map]
  simp
  rfl

theorem countP_part (p : Activity → Bool) (l : List Activity) (s e : Nat) (a : Activity)
    (hs : l[s]? = some a) (hse : s ≤ e) :
    ((l.take (e + 1)).drop s).countP p
      = (l.take (e + 1)).countP p - (l.take (s + 1)).countP p + SRoute.one (p a) := by
  have h1 : (l.take (e + 1)).countP p
      = (l.take s).countP p + ((l.take (e + 1)).drop s).countP p := by
    rw [← List.countP_append]
    congr 1
    conv => lhs; rw [← List.take_append_drop s (l.take (e + 1))]
    rw [List.take_take, Nat.min_eq_left (by omega)]
  have h2 : (l.take (s + 1)).countP p = (l.take s).countP p + SRoute.one (p a) := by
    rw [List.take_add_one, hs, List.countP_append]
    simp [SRoute.one, List.countP_cons]
  have h3 : SRoute.one (p a) ≤ ((l.take (e + 1)).drop s).countP p := by
    have : (l.take (e + 1)).drop s = a :: ((l.take (e + 1)).drop (s + 1)) := by
      have hlt : s < (l.take (e + 1)).length := by
        have := (List.getElem?_eq_some_iff.1 hs).1
        simp; omega
      rw [List.drop_eq_getElem_cons hlt]
      congr 1
      have := (List.getElem?_eq_some_iff.1 hs).2
      simpa using this
    rw [this, List.countP_cons, SRoute.one]
    omega
  omega

/-- What can be read off the nodes of a route. -/
theorem ofActs_read (data : ProblemData) (vt : Nat) (acts : List Activity) (k : Nat)
    (hk : k < acts.length + 2) :
    (fullActs (data.vehicleType vt) acts)[k]?
      = some ((SRoute.ofActs data vt acts).node k).activity
    ∧ (SRoute.ofActs data vt acts).locations.getD k 0
      = place data ((SRoute.ofActs data vt acts).node k).activity
    ∧ (SRoute.ofActs data vt acts).numClients_.getD k 0
      = ((fullActs (data.vehicleType vt) acts).take (k + 1)).countP (·.type = .client)
    ∧ (SRoute.ofActs data vt acts).numPickups_.getD k 0
      = ((fullActs (data.vehicleType vt) acts).take (k + 1)).countP (·.type = .pickup) := by
  have hl := canon_length (data.vehicleType vt) acts
  have hk' : k < (canon (data.vehicleType vt) acts).length := by omega
  have hn : (SRoute.ofActs data vt acts).node k = (canon (data.vehicleType vt) acts)[k] := by
    show (canon (data.vehicleType vt) acts).getD k default = _
    simp [hk']
  have hc : ∀ (ty : ActivityType) (p : SNode → Bool), ty ≠ .depot →
      p = (fun n => (fun a : Activity => decide (a.type = ty)) n.activity) →
      (SRoute.counts p (canon (data.vehicleType vt) acts)).getD k 0
        = ((fullActs (data.vehicleType vt) acts).take (k + 1)).countP (·.type = ty) := by
    intro ty p hty hp
    rw [hp]
    exact counts_take (fun a => decide (a.type = ty)) _ _ k (by simpa using fun h => hty h.symm) hk
  refine ⟨?_, ?_, ?_, ?_⟩
  · rw [← SRoute.canon_activities, hn]; simp [hk']
  · rw [hn, ← Route.place_eq]
    show ((canon (data.vehicleType vt) acts).map (fun n => data.locationOf n.activity)).getD k 0 = _
    simp [hk']
  · refine hc .client _ (by simp) ?_
    funext n; cases h : n.activity.type <;> simp [SNode.isClient, Activity.isClient, h]
  · refine hc .pickup _ (by simp) ?_
    funext n; cases h : n.activity.type <;> simp [SNode.isPickup, Activity.isPickup, h]

/-- The parts of a route describe the activities at their positions. -/
theorem ofActs_describes (data : ProblemData) (vt : Nat) (acts : List Activity) (s e : Nat)
    (hse : s ≤ e) (he : e < acts.length + 2) :
    Describes data ((SRoute.ofActs data vt acts).between data s e)
      (((fullActs (data.vehicleType vt) acts).take (e + 1)).drop s)
    ∧ Describes data ((SRoute.ofActs data vt acts).before e)
      ((fullActs (data.vehicleType vt) acts).take (e + 1))
    ∧ Describes data ((SRoute.ofActs data vt acts).after s)
      ((fullActs (data.vehicleType vt) acts).drop s) := by
  have hlen : (fullActs (data.vehicleType vt) acts).length = acts.length + 2 := by simp [fullActs]
  have hsize : (SRoute.ofActs data vt acts).size = acts.length + 2 :=
    canon_length (data.vehicleType vt) acts
  have hloc : (SRoute.ofActs data vt acts).locations.length = acts.length + 2 := by
    show ((canon (data.vehicleType vt) acts).map _).length = _
    rw [List.length_map, canon_length]
  have hcl : (SRoute.ofActs data vt acts).numClients_.length = acts.length + 2 :=
    (by
    exact (counts_len _ _).trans (canon_length _ _))
  have hpl : (SRoute.ofActs data vt acts).numPickups_.length = acts.length + 2 :=
    (by
    exact (counts_len _ _).trans (canon_length _ _))
  obtain ⟨s1, s2, s3, s4⟩ := ofActs_read data vt acts s (by omega)
  obtain ⟨e1, e2, e3, e4⟩ := ofActs_read data vt acts e he
  obtain ⟨z1, z2, -, -⟩ := ofActs_read data vt acts 0 (by omega)
  obtain ⟨l1, l2, l3, l4⟩ := ofActs_read data vt acts (acts.length + 1) (by omega)
  have hlast : ∀ {α : Type} (l : List α) (d : α), l.length = acts.length + 2 →
      l.getLastD d = l.getD (acts.length + 1) d := by
    intro α l d hl
    rw [List.getLastD_eq_getLast?, List.getLast?_eq_getElem?, hl]
    rfl
  have hall : (fullActs (data.vehicleType vt) acts).take (acts.length + 1 + 1)
      = fullActs (data.vehicleType vt) acts := List.take_of_length_le (by omega)
  rw [hall] at l3 l4
  generalize hF : fullActs (data.vehicleType vt) acts = full at *
  have ha : ∀ n : SNode, n.isClient = decide (n.activity.type = .client) := by
    intro n; cases h : n.activity.type <;> simp [SNode.isClient, Activity.isClient, h]
  have hb : ∀ n : SNode, n.isPickup = decide (n.activity.type = .pickup) := by
    intro n; cases h : n.activity.type <;> simp [SNode.isPickup, Activity.isPickup, h]
  refine ⟨⟨?_, ?_, s2, e2, ?_, ?_, ?_⟩, ⟨?_, ?_, z2, e2, ?_, e3, e4⟩, ⟨?_, ?_, s2, ?_, ?_, ?_, ?_⟩⟩
  · rw [List.head?_drop, List.getElem?_take, if_pos (by omega), s1]; rfl
  · rw [List.getLast?_drop, if_neg (by simp; omega), List.getLast?_take, if_neg (by omega), Nat.add_sub_cancel, e1]; rfl
  · show e - s + 1 = _
    simp [hlen]; omega
  · show (SRoute.ofActs data vt acts).numClients_.getD e 0 - (SRoute.ofActs data vt acts).numClients_.getD s 0 + _ = _
    rw [countP_part _ full s e _ s1 hse, e3, s3, ha]
  · show (SRoute.ofActs data vt acts).numPickups_.getD e 0 - (SRoute.ofActs data vt acts).numPickups_.getD s 0 + _ = _
    rw [countP_part _ full s e _ s1 hse, e4, s4, hb]
  · rw [List.head?_take, if_neg (by omega), List.head?_eq_getElem?, z1]; rfl
  · rw [List.getLast?_take, if_neg (by omega), Nat.add_sub_cancel, e1]; rfl
  · show e + 1 = _
    simp [hlen]; omega
  · rw [List.head?_drop, s1]; rfl
  · rw [List.getLast?_drop, if_neg (by omega), List.getLast?_eq_getElem?, hlen]
    show _ = some ((SRoute.ofActs data vt acts).node ((SRoute.ofActs data vt acts).size - 1)).activity
    rw [hsize]; exact l1
  · show (SRoute.ofActs data vt acts).locations.getLastD 0
      = place data ((SRoute.ofActs data vt acts).node ((SRoute.ofActs data vt acts).size - 1)).activity
    rw [hsize, hlast _ _ hloc]; exact l2
  · show (SRoute.ofActs data vt acts).size - s = _
    simp [hlen, hsize]
  · show (SRoute.ofActs data vt acts).numClients_.getLastD 0 - (SRoute.ofActs data vt acts).numClients_.getD s 0 + _ = _
    have := countP_part (·.type = .client) full s (acts.length + 1) _ s1 (by omega)
    rw [hall] at this
    rw [this, hlast _ _ hcl, l3, s3, ha]
  · show (SRoute.ofActs data vt acts).numPickups_.getLastD 0 - (SRoute.ofActs data vt acts).numPickups_.getD s 0 + _ = _
    have := countP_part (·.type = .pickup) full s (acts.length + 1) _ s1 (by omega)
    rw [hall] at this
    rw [this, hlast _ _ hpl, l4, s4, hb]

/-- The node at a position is a reload depot exactly if the activity there is a depot that is neither
the start nor the end depot. -/
theorem ofActs_reload (data : ProblemData) (vt : Nat) (acts : List Activity) (k : Nat)
    (hk : k < acts.length + 2) :
    ((SRoute.ofActs data vt acts).node k).isReloadDepot = true
      ↔ 1 ≤ k ∧ ∃ a, acts[k - 1]? = some a ∧ a.type = .depot := by
  cases k with
  | zero =>
    show (startNode (data.vehicleType vt)).isReloadDepot = true ↔ _
    simp [startNode, SNode.isReloadDepot, SNode.isStartDepot]
  | succ k =>
    by_cases h : k < acts.length
    · obtain ⟨hi, ha⟩ := SRoute.ofActs_node data vt (acts.take k) acts[k] (acts.drop (k + 1))
      have hx : acts.take k ++ acts[k] :: acts.drop (k + 1) = acts := by
        rw [← List.drop_eq_getElem_cons h, List.take_append_drop]
      rw [hx] at hi ha
      have hkl : (acts.take k).length = k := by simp; omega
      rw [hkl] at hi ha
      rw [Inner.reload hi]
      simp [SNode.isDepot, Activity.isDepot, ha, h]
    · have hk' : k = acts.length := by omega
      subst hk'
      have : (SRoute.ofActs data vt acts).node (acts.length + 1)
          = endNode (data.vehicleType vt) (acts.length + 1) (depotVisits acts + 1) := by
        show (canon (data.vehicleType vt) acts).getD (acts.length + 1) default = _
        simp [canon, innerNodes_length]
      rw [this]
      simp [endNode, SNode.isReloadDepot, SNode.isEndDepot]

/-- Any part of a route with its start and end depots, the beginning of a route up to any position, and
the end of a route from any position on, describe the activities at these positions. -/
theorem C21_parts (data : ProblemData) (vt : Nat) (acts : List Activity) (r : SRoute)
    (h : History data vt acts r) (s e : Nat) (hse : s ≤ e) (he : e ≤ acts.length + 1) :
    Describes data ((r.update data).between data s e)
      (((fullActs (data.vehicleType vt) acts).take (e + 1)).drop s)
    ∧ Describes data ((r.update data).before e) ((fullActs (data.vehicleType vt) acts).take (e + 1))
    ∧ Describes data ((r.update data).after s) ((fullActs (data.vehicleType vt) acts).drop s) := by
  rw [SRoute.update_of_history h]
  exact ofActs_describes data vt acts s e hse (by omega)

/-- A part of a route says that it starts (or ends) at a reload depot exactly if there is a depot at
that position which is neither the start nor the end depot of the route. The beginning of a route never
starts at a reload depot, and the end of a route never ends at one. -/
theorem C21_parts_reload (data : ProblemData) (vt : Nat) (acts : List Activity) (r : SRoute)
    (h : History data vt acts r) (s e : Nat) (hse : s ≤ e) (he : e ≤ acts.length + 1) :
    (((r.update data).between data s e).startsAtReloadDepot = true ↔ ReloadAt acts s)
    ∧ (((r.update data).between data s e).endsAtReloadDepot = true ↔ ReloadAt acts e)
    ∧ ((r.update data).before e).startsAtReloadDepot = false
    ∧ (((r.update data).before e).endsAtReloadDepot = true ↔ ReloadAt acts e)
    ∧ (((r.update data).after s).startsAtReloadDepot = true ↔ ReloadAt acts s)
    ∧ ((r.update data).after s).endsAtReloadDepot = false := by
  rw [SRoute.update_of_history h]
  have h1 := ofActs_reload data vt acts s (by omega)
  have h2 := ofActs_reload data vt acts e (by omega)
  exact ⟨h1, h2, rfl, h2, h1, rfl⟩

/-- Every piece in the middle of a proposal describes the activities it stands for, and says that it
starts (or ends) at a reload depot exactly if its first (or last) activity is a depot. -/
theorem C21_pieces (data : ProblemData) (seg : Seg) (part : List Activity) (h : Piece data seg part) :
    Describes data seg part
    ∧ (seg.startsAtReloadDepot = true ↔ seg.frontActivity.type = .depot)
    ∧ (seg.endsAtReloadDepot = true ↔ seg.backActivity.type = .depot) := by
  cases h with
  | @between vt acts r h s e hs hse he _ =>
    have hd := (C21_parts data vt acts r h s e hse (by omega)).1
    obtain ⟨h1, h2, -⟩ := C21_parts_reload data vt acts r h s e hse (by omega)
    have hpart : ((fullActs (data.vehicleType vt) acts).take (e + 1)).drop s
        = (acts.take e).drop (s - 1) := by
      obtain ⟨s, rfl⟩ : ∃ s', s = s' + 1 := ⟨s - 1, by omega⟩
      simp [fullActs, List.take_append_of_le_length he]
    rw [hpart] at hd
    have hf := hd.front
    have hb := hd.back
    rw [List.head?_drop, List.getElem?_take, if_pos (by omega)] at hf
    rw [List.getLast?_drop, if_neg (by simp; omega), List.getLast?_take, if_neg (by omega)] at hb
    have hbe : acts[e - 1]? = some acts[e - 1] := by simp
    rw [hbe, Option.some_or, ← hbe] at hb
    refine ⟨hd, h1.trans ?_, h2.trans ?_⟩
    · constructor
      · rintro ⟨_, a, ha, hty⟩
        rw [hf] at ha
        cases ha; exact hty
      · intro hty; exact ⟨hs, _, hf, hty⟩
    · constructor
      · rintro ⟨_, a, ha, hty⟩
        rw [hb] at ha
        cases ha; exact hty
      · intro hty; exact ⟨by omega, _, hb, hty⟩
  | client i => exact ⟨⟨rfl, rfl, rfl, rfl, rfl, rfl, rfl⟩, by simp [Seg.client], by simp [Seg.client]⟩
  | depot i => exact ⟨⟨rfl, rfl, rfl, rfl, rfl, rfl, rfl⟩, by simp [Seg.depot], by simp [Seg.depot]⟩
  | pickup i => exact ⟨⟨rfl, rfl, rfl, rfl, rfl, rfl, rfl⟩, by simp [Seg.pickup], by simp [Seg.pickup]⟩
  | delivery i =>
    exact ⟨⟨rfl, rfl, rfl, rfl, rfl, rfl, rfl⟩, by simp [Seg.delivery], by simp [Seg.delivery]⟩

namespace Demo

/-- A piece of the demo route that ends at its reload depot. -/
example : ∃ seg, Piece data seg [delivery 0, depot 0] := by
  obtain ⟨r, hr⟩ := history_of_inserts data 0 acts (by decide)
  exact ⟨_, .between hr 4 5 (by decide) (by decide) (by decide) (by decide)⟩

end Demo
end PyVRP
