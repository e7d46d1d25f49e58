import Verif.Model.SearchSpace
import Verif.Lemmas.Rng
import Verif.Props.C20
import Verif.Props.C34
import Verif.Props.Demo
/-!
# C43: search space bookkeeping
-/
namespace PyVRP

/-! ## Specification -/

namespace Spec

/-- The two activities are about the same client, or the same shipment. -/
def SameTask (a b : Activity) : Prop :=
  match a.type with
  | .depot => False
  | .client => b.type = .client ∧ a.idx = b.idx
  | .pickup | .delivery => (b.type = .pickup ∨ b.type = .delivery) ∧ a.idx = b.idx

/-- The activity is a client or a shipment of the problem. -/
def IsTask (data : ProblemData) (a : Activity) : Prop := a.type ≠ .depot ∧ InRange data a

/-- All clients, and all pickups. -/
def allTasks (data : ProblemData) : List Activity :=
  (List.range data.clients.length).map (fun i => ⟨.client, i⟩)
  ++ (List.range data.shipments.length).map (fun i => ⟨.pickup, i⟩)

/-- How many vehicles there are of the types before `vt`. -/
def vehiclesBefore (data : ProblemData) (vt : Nat) : Nat :=
  ((data.vehicleTypes.take vt).map (·.numAvailable)).sum

/-- Neighbourhoods the search space should accept: those of clients and pickups, that do not contain
themselves. -/
def NeighboursOk (ns : Neighbours) : Prop :=
  ∀ entry ∈ ns, (entry.1.type = .client ∨ entry.1.type = .pickup) ∧ entry.1 ∉ entry.2

/-- A search space after any sequence of operations: `m` is what should be promising, and `ns` are the
neighbourhoods. Nodes are marked in search routes with any history. -/
inductive SpaceHistory (data : ProblemData) :
    SearchSpace → (Activity → Prop) → Neighbours → Prop where
  | new {s : SearchSpace} {ns : Neighbours} (h : SearchSpace.make data ns = .ok s) :
      SpaceHistory data s (fun _ => False) ns
  | mark {s : SearchSpace} {m : Activity → Prop} {ns : Neighbours} (a : Activity)
      (h : SpaceHistory data s m ns) (ha : IsTask data a) :
      SpaceHistory data (s.markPromising a) (fun b => m b ∨ SameTask a b) ns
  | markNode {s : SearchSpace} {m : Activity → Prop} {ns : Neighbours} (vt : Nat)
      (acts : List Activity) (r : SRoute) (pos : Nat) (h : SpaceHistory data s m ns)
      (hr : History data vt acts r) (hacts : ∀ a ∈ acts, InRange data a)
      (hpos : pos ≤ acts.length + 1) :
      SpaceHistory data (s.markPromisingNode r pos)
        (fun b => m b ∨ ∃ k, pos ≤ k + 1 ∧ k ≤ pos + 1 ∧ 1 ≤ k ∧ k ≤ acts.length
          ∧ SameTask (acts.getD (k - 1) default) b) ns
  | markAll {s : SearchSpace} {m : Activity → Prop} {ns : Neighbours}
      (h : SpaceHistory data s m ns) :
      SpaceHistory data s.markAllPromising (fun _ => True) ns
  | unmarkAll {s : SearchSpace} {m : Activity → Prop} {ns : Neighbours}
      (h : SpaceHistory data s m ns) :
      SpaceHistory data s.unmarkAllPromising (fun _ => False) ns
  | shuffle {s : SearchSpace} {m : Activity → Prop} {ns : Neighbours} {σ : Type}
      (next : σ → Nat × σ) (rng : σ) (h : SpaceHistory data s m ns) :
      SpaceHistory data (s.shuffle next rng).1 m ns
  | setNeighbours {s s' : SearchSpace} {m : Activity → Prop} {ns ns' : Neighbours}
      (h : SpaceHistory data s m ns) (hs : s.setNeighbours ns' = .ok s') :
      SpaceHistory data s' m ns'

end Spec

open Spec

namespace SearchSpace

theorem checkNeighbours_eq_none (ns : Neighbours) : checkNeighbours ns = none ↔ NeighboursOk ns := by
  induction ns with
  | nil => simp [checkNeighbours, NeighboursOk]
  | cons entry rest ih =>
    obtain ⟨a, l⟩ := entry
    simp only [checkNeighbours, throwIf_orElse_eq_none, ih]
    simp only [NeighboursOk, List.forall_mem_cons, Bool.and_eq_true, Bool.not_eq_true',
      Activity.isClient, Activity.isPickup, beq_eq_false_iff_ne, not_and, List.any_eq_true,
      beq_iff_eq]
    constructor
    · rintro ⟨h1, h2, h3⟩
      refine ⟨⟨?_, ?_⟩, h3⟩
      · by_cases h : a.type = .client
        · exact .inl h
        · exact .inr (Classical.not_not.1 (h1 h))
      · exact fun hm => h2 ⟨a, hm, rfl⟩
    · rintro ⟨⟨h1, h2⟩, h3⟩
      refine ⟨?_, ?_, h3⟩
      · intro h h'
        rcases h1 with h1 | h1
        · exact h h1
        · exact h' h1
      · rintro ⟨x, hm, rfl⟩; exact h2 hm

/-- The index of an activity's bit. -/
def bitOf (size : Nat) (a : Activity) : Nat :=
  if a.isClient then a.idx else size - a.idx - 1

theorem isPromising_eq (s : SearchSpace) (a : Activity) :
    s.isPromising a = s.promising.get (bitOf s.promising.size a) := by
  unfold isPromising bitOf; split <;> rfl

theorem markPromising_eq (s : SearchSpace) (a : Activity) :
    s.markPromising a = { s with promising := s.promising.put (bitOf s.promising.size a) true } := by
  unfold markPromising bitOf; split <;> rfl

theorem bitOf_lt {data : ProblemData} {a : Activity} {size : Nat}
    (hs : data.clients.length + data.shipments.length ≤ size) (ha : IsTask data a) :
    bitOf size a < size := by
  obtain ⟨ty, i⟩ := a
  unfold bitOf
  cases ty <;> simp [IsTask, InRange, Activity.isClient] at * <;> omega

theorem bitOf_eq {data : ProblemData} {a b : Activity} {size : Nat}
    (hs : data.clients.length + data.shipments.length ≤ size) (ha : IsTask data a)
    (hb : IsTask data b) : bitOf size b = bitOf size a ↔ SameTask a b := by
  obtain ⟨ty, i⟩ := a
  obtain ⟨ty', j⟩ := b
  unfold bitOf
  cases ty <;> cases ty' <;> simp [IsTask, InRange, Activity.isClient, SameTask] at * <;> omega

theorem isPromising_mark {data : ProblemData} {s : SearchSpace} {a b : Activity}
    (hs : data.clients.length + data.shipments.length ≤ s.promising.size) (ha : IsTask data a)
    (hb : IsTask data b) :
    (s.markPromising a).isPromising b = true ↔ s.isPromising b = true ∨ SameTask a b := by
  rw [isPromising_eq, markPromising_eq, isPromising_eq]
  simp only [Bitset.size_put]
  rw [Bitset.get_put _ _ _ _ (bitOf_lt hs ha)]
  have := bitOf_eq hs ha hb
  split
  · next h => simp [this.1 h]
  · next h => rw [← this]; simp [h]

theorem vehTypeOffsets_eq (vs : List VehicleType) (k off : Nat) :
    vehTypeOffsets vs k off
      = (List.range vs.length).map (fun i => (k + i, off + ((vs.take i).map (·.numAvailable)).sum)) := by
  induction vs generalizing k off with
  | nil => rfl
  | cons v rest ih =>
    rw [vehTypeOffsets, ih, List.length_cons, List.range_succ_eq_map, List.map_cons, List.map_map]
    congr 1
    apply List.map_congr_left
    intro i _
    simp only [Function.comp, Nat.succ_eq_add_one, List.take_succ_cons, List.map_cons, List.sum_cons]
    simp only [Prod.mk.injEq]
    omega

/-- The task part of marking a node. -/
theorem isPromising_markIfTask {data : ProblemData} {s : SearchSpace} {n : SNode} {b : Activity}
    (hs : data.clients.length + data.shipments.length ≤ s.promising.size)
    (hn : n.activity.type = .depot ∨ IsTask data n.activity) (hb : IsTask data b) :
    ((s.markIfTask n).isPromising b = true ↔ s.isPromising b = true ∨ SameTask n.activity b)
    ∧ (s.markIfTask n).promising.size = s.promising.size := by
  unfold markIfTask
  split
  · next h =>
    have ha : IsTask data n.activity := by
      rcases hn with hn | hn
      · exfalso
        simp [SNode.isClient, SNode.isShipment, Activity.isClient, Activity.isShipment,
          Activity.isPickup, Activity.isDelivery, hn] at h
      · exact hn
    refine ⟨isPromising_mark hs ha hb, ?_⟩
    rw [markPromising_eq]; exact Bitset.size_put _ _ _
  · next h =>
    refine ⟨?_, rfl⟩
    have : ¬ SameTask n.activity b := by
      cases hty : n.activity.type <;>
        simp [SameTask, SNode.isClient, SNode.isShipment, Activity.isClient, Activity.isShipment,
          Activity.isPickup, Activity.isDelivery, hty] at h ⊢
    simp [this]

theorem markIfTask_rest (s : SearchSpace) (n : SNode) :
    (s.markIfTask n).activityOrder = s.activityOrder
    ∧ (s.markIfTask n).vehTypeOrder = s.vehTypeOrder
    ∧ (s.markIfTask n).neighbours = s.neighbours := by
  unfold markIfTask
  split
  · rw [markPromising_eq]; exact ⟨rfl, rfl, rfl⟩
  · exact ⟨rfl, rfl, rfl⟩

theorem markPromisingNode_rest (s : SearchSpace) (r : SRoute) (pos : Nat) :
    (s.markPromisingNode r pos).activityOrder = s.activityOrder
    ∧ (s.markPromisingNode r pos).vehTypeOrder = s.vehTypeOrder
    ∧ (s.markPromisingNode r pos).neighbours = s.neighbours := by
  unfold markPromisingNode
  dsimp only
  split <;> split <;> simp only [markIfTask_rest, and_self]

/-- Roles and activities of the nodes of a route. -/
theorem node_facts {data : ProblemData} {vt : Nat} {acts : List Activity} {r : SRoute}
    (h : History data vt acts r) (k : Nat) (hk : k ≤ acts.length + 1) :
    ((r.node k).isStartDepot = true ↔ k = 0)
    ∧ ((r.node k).isEndDepot = true ↔ k = acts.length + 1)
    ∧ (1 ≤ k → k ≤ acts.length → (r.node k).activity = acts.getD (k - 1) default)
    ∧ (k = 0 ∨ k = acts.length + 1 → (r.node k).activity.type = .depot) := by
  obtain ⟨hv, _, _, _, _, _, _, hvis⟩ := C20_nodes data vt acts r h
  have hn : r.nodes = canon (data.vehicleType r.vehicleType) acts := hvis
  unfold SRoute.node
  rw [hn]
  cases k with
  | zero => simp [canon, startNode, SNode.isStartDepot, SNode.isEndDepot]
  | succ k =>
    simp only [canon, List.getD_cons_succ]
    have hlen := innerNodes_length 1 0 acts
    by_cases hl : k < acts.length
    · rw [getD_append_lt _ _ _ _ (by omega)]
      have hmem : (innerNodes 1 0 acts).getD k default ∈ innerNodes 1 0 acts := by
        rw [List.getD_eq_getElem?_getD, List.getElem?_eq_getElem (by omega)]
        exact List.getElem_mem _
      have hin : ((innerNodes 1 0 acts).getD k default).role = .inner :=
        innerNodes_inner 1 0 acts _ hmem
      have hact : ((innerNodes 1 0 acts).getD k default).activity = acts.getD k default := by
        have : (innerNodes 1 0 acts).map SNode.activity = acts := innerNodes_activity 1 0 acts
        rw [show acts.getD k default = ((innerNodes 1 0 acts).map SNode.activity).getD k default by
          rw [this]]
        rw [List.getD_eq_getElem?_getD, List.getD_eq_getElem?_getD, List.getElem?_map,
          List.getElem?_eq_getElem (by omega)]
        rfl
      simp only [SNode.isStartDepot, SNode.isEndDepot, hin, Nat.add_sub_cancel, hact]
      refine ⟨?_, ?_, fun _ _ => trivial, fun h => ?_⟩
      · simp
      · simp; omega
      · omega
    · have hk' : k = acts.length := by omega
      subst hk'
      rw [getD_append_ge _ _ _ _ (by omega)]
      simp [hlen, endNode, SNode.isStartDepot, SNode.isEndDepot]
      omega

end SearchSpace

/-! ## C43 -/

/-- **C43.** The constructor accepts exactly neighbourhoods of clients and pickups that do not contain
themselves, as many as there are clients and shipments. -/
theorem C43_accepts (data : ProblemData) (ns : Neighbours) :
    (∃ s, SearchSpace.make data ns = .ok s)
      ↔ ns.length = data.clients.length + data.shipments.length ∧ NeighboursOk ns := by
  unfold SearchSpace.make SearchSpace.setNeighbours
  rw [← SearchSpace.checkNeighbours_eq_none]
  by_cases hl : ns.length = data.numClients + data.numShipments
  · rw [if_neg (by simp [hl])]
    have : ns.length = data.clients.length + data.shipments.length := hl
    cases hc : SearchSpace.checkNeighbours ns with
    | none => simp [checked, throwIf, this]
    | some e => simp [checked, throwIf, this]
  · rw [if_pos hl]
    have : ¬ ns.length = data.clients.length + data.shipments.length := hl
    simp [this]

namespace SearchSpace

theorem setNeighbours_ok {s s' : SearchSpace} {ns' : Neighbours} :
    s.setNeighbours ns' = .ok s' ↔
      (s.neighbours = [] ∨ ns'.length = s.neighbours.length) ∧ NeighboursOk ns'
        ∧ s' = { s with neighbours := ns' } := by
  unfold setNeighbours
  rw [checked_eq_ok, throwIf_orElse_eq_none, checkNeighbours_eq_none, and_assoc]
  refine and_congr ?_ (and_congr Iff.rfl ⟨Eq.symm, Eq.symm⟩)
  cases hn : s.neighbours with
  | nil => simp
  | cons a l => simp

theorem make_ok {data : ProblemData} {s : SearchSpace} {ns : Neighbours}
    (h : make data ns = .ok s) :
    s = { neighbours := ns, promising := Bitset.new (data.clients.length + data.shipments.length)
          activityOrder := allTasks data
          vehTypeOrder := (List.range data.vehicleTypes.length).map
            (fun vt => (vt, vehiclesBefore data vt)) } := by
  unfold make at h
  split at h
  · cases h
  · split at h
    · cases h
    · next s0 hs0 =>
      obtain ⟨_, _, rfl⟩ := setNeighbours_ok.1 hs0
      cases h
      simp only [vehTypeOffsets_eq, Nat.zero_add]
      rfl

end SearchSpace

/-- **C43.** The neighbourhoods are those that were set last. New ones are accepted exactly if they are
those of clients and pickups, do not contain themselves, and are as many as before (if there were
any). -/
theorem C43_neighbours (data : ProblemData) (s : SearchSpace) (m : Activity → Prop)
    (ns ns' : Neighbours) (h : SpaceHistory data s m ns) :
    s.neighbours = ns
    ∧ (0 < data.clients.length + data.shipments.length →
        ns.length = data.clients.length + data.shipments.length)
    ∧ NeighboursOk ns
    ∧ ((∃ s', s.setNeighbours ns' = .ok s')
        ↔ (ns = [] ∨ ns'.length = ns.length) ∧ NeighboursOk ns') := by
  have key : s.neighbours = ns ∧ (0 < data.clients.length + data.shipments.length →
      ns.length = data.clients.length + data.shipments.length) ∧ NeighboursOk ns := by
    induction h with
    | @new s ns h =>
      have hl := (C43_accepts data ns).1 ⟨s, h⟩
      refine ⟨?_, fun _ => hl.1, hl.2⟩
      rw [SearchSpace.make_ok h]
    | mark a h ha ih => rw [SearchSpace.markPromising_eq]; exact ih
    | markNode vt acts r pos h hr hacts hpos ih =>
      rw [(SearchSpace.markPromisingNode_rest _ r pos).2.2]; exact ih
    | markAll h ih => exact ih
    | unmarkAll h ih => exact ih
    | shuffle next rng h ih => exact ih
    | setNeighbours h hs ih =>
      obtain ⟨h2, h3, rfl⟩ := SearchSpace.setNeighbours_ok.1 hs
      refine ⟨rfl, ?_, h3⟩
      intro h0
      have := ih.2.1 h0
      rcases h2 with h2 | h2
      · rw [ih.1] at h2; rw [h2] at this; simp only [List.length_nil] at this; omega
      · rw [h2, ih.1, this]
  refine ⟨key.1, key.2.1, key.2.2, ?_⟩
  simp only [SearchSpace.setNeighbours_ok, key.1]
  constructor
  · rintro ⟨s', h1, h2, _⟩; exact ⟨h1, h2⟩
  · rintro ⟨h1, h2⟩; exact ⟨_, h1, h2, rfl⟩

/-- **C43.** After any sequence of operations, a client, pickup or delivery is promising exactly if
it was marked, itself, as the other activity of its shipment, or as a node of a route or a direct
neighbour of one, since the last time everything was unmarked, or everything was marked. -/
theorem C43_promising (data : ProblemData) (s : SearchSpace) (m : Activity → Prop)
    (ns : Neighbours) (h : SpaceHistory data s m ns) (b : Activity) (hb : IsTask data b) :
    s.isPromising b = true ↔ m b := by
  have key : data.clients.length + data.shipments.length ≤ s.promising.size
      ∧ ∀ b, IsTask data b → (s.isPromising b = true ↔ m b) := by
    clear hb b
    induction h with
    | @new s ns h =>
      rw [SearchSpace.make_ok h]
      obtain ⟨h1, _, _, h4⟩ := C34_new (data.clients.length + data.shipments.length)
      refine ⟨h1, fun b hb => ?_⟩
      rw [SearchSpace.isPromising_eq]
      have hlt := SearchSpace.bitOf_lt h1 hb
      have := h4 (SearchSpace.bitOf (Bitset.new (data.clients.length + data.shipments.length)).size b)
      rw [if_pos hlt, Bitset.getItem_of_lt hlt] at this
      injection this with this
      simp [this]
    | mark a h ha ih =>
      refine ⟨?_, fun b hb => ?_⟩
      · rw [SearchSpace.markPromising_eq]; simp only [Bitset.size_put]; exact ih.1
      · rw [SearchSpace.isPromising_mark ih.1 ha hb, ih.2 b hb]
    | @markNode s m ns vt acts r pos h hr hacts hpos ih =>
      -- what marking the node at position `k` does
      have hk : ∀ (s : SearchSpace) (k : Nat), k ≤ acts.length + 1 →
          data.clients.length + data.shipments.length ≤ s.promising.size →
          (∀ b, IsTask data b → ((s.markIfTask (r.node k)).isPromising b = true
            ↔ s.isPromising b = true ∨ (1 ≤ k ∧ k ≤ acts.length
              ∧ SameTask (acts.getD (k - 1) default) b)))
          ∧ (s.markIfTask (r.node k)).promising.size = s.promising.size := by
        intro s k hk hs
        obtain ⟨_, _, h3, h4⟩ := SearchSpace.node_facts hr k hk
        have hn : (r.node k).activity.type = .depot ∨ IsTask data (r.node k).activity := by
          by_cases hd : (r.node k).activity.type = .depot
          · exact .inl hd
          · refine .inr ⟨hd, ?_⟩
            have h1 : 1 ≤ k := by
              apply Classical.byContradiction; intro hc; exact hd (h4 (.inl (by omega)))
            have h2 : k ≤ acts.length := by
              apply Classical.byContradiction; intro hc; exact hd (h4 (.inr (by omega)))
            rw [h3 h1 h2]
            rw [List.getD_eq_getElem?_getD, List.getElem?_eq_getElem (by omega)]
            exact hacts _ (List.getElem_mem _)
        refine ⟨fun b hb => ?_, ?_⟩
        · rw [(SearchSpace.isPromising_markIfTask hs hn hb).1]
          by_cases hin : 1 ≤ k ∧ k ≤ acts.length
          · rw [h3 hin.1 hin.2]; simp [hin.1, hin.2]
          · have hd := h4 (by omega)
            have : ¬ SameTask (r.node k).activity b := by simp [SameTask, hd]
            simp only [this, or_false]
            constructor
            · exact .inl
            · rintro (h | ⟨h1, h2, _⟩)
              · exact h
              · exact absurd ⟨h1, h2⟩ hin
        · by_cases hne : ∃ b, IsTask data b
          · obtain ⟨b, hb⟩ := hne
            exact (SearchSpace.isPromising_markIfTask hs hn hb).2
          · rcases hn with hn | hn
            · unfold SearchSpace.markIfTask
              rw [if_neg]
              simp [SNode.isClient, SNode.isShipment, Activity.isClient, Activity.isShipment,
                Activity.isPickup, Activity.isDelivery, hn]
            · exact absurd ⟨_, hn⟩ hne
      obtain ⟨f1, f2, _, _⟩ := SearchSpace.node_facts hr pos hpos
      have a1 := hk s pos hpos ih.1
      -- the predecessor
      let s1 := s.markIfTask (r.node pos)
      let s2 := if !(r.node pos).isStartDepot then s1.markIfTask (r.node (pos - 1)) else s1
      let s3 := if !(r.node pos).isEndDepot then s2.markIfTask (r.node (pos + 1)) else s2
      have hs1 : data.clients.length + data.shipments.length ≤ s1.promising.size := by
        show _ ≤ (s.markIfTask (r.node pos)).promising.size
        rw [a1.2]; exact ih.1
      have b2 : s2.promising.size = s1.promising.size ∧ ∀ b, IsTask data b →
          (s2.isPromising b = true ↔ s1.isPromising b = true ∨ (1 ≤ pos ∧ 1 ≤ pos - 1
            ∧ pos - 1 ≤ acts.length ∧ SameTask (acts.getD (pos - 1 - 1) default) b)) := by
        by_cases hp : pos = 0
        · have : s2 = s1 := by simp [s2, f1.2 hp]
          rw [this]
          refine ⟨rfl, fun b _ => ⟨.inl, ?_⟩⟩
          rintro (h | ⟨h1, _⟩)
          · exact h
          · omega
        · have : s2 = s1.markIfTask (r.node (pos - 1)) := by
            have : (r.node pos).isStartDepot = false := by
              cases hc : (r.node pos).isStartDepot
              · rfl
              · exact absurd (f1.1 hc) hp
            simp [s2, this]
          have a2 := hk s1 (pos - 1) (by omega) hs1
          rw [this]
          refine ⟨a2.2, fun b hb => ?_⟩
          rw [a2.1 b hb]
          have : 1 ≤ pos := by omega
          simp [this]
      have b3 : s3.promising.size = s2.promising.size ∧ ∀ b, IsTask data b →
          (s3.isPromising b = true ↔ s2.isPromising b = true ∨ (pos + 1 ≤ acts.length
            ∧ SameTask (acts.getD (pos + 1 - 1) default) b)) := by
        by_cases hp : pos = acts.length + 1
        · have : s3 = s2 := by simp [s3, f2.2 hp]
          rw [this]
          refine ⟨rfl, fun b _ => ⟨.inl, ?_⟩⟩
          rintro (h | ⟨h1, _⟩)
          · exact h
          · omega
        · have : s3 = s2.markIfTask (r.node (pos + 1)) := by
            have : (r.node pos).isEndDepot = false := by
              cases hc : (r.node pos).isEndDepot
              · rfl
              · exact absurd (f2.1 hc) hp
            simp [s3, this]
          have a3 := hk s2 (pos + 1) (by omega) (by rw [b2.1]; exact hs1)
          rw [this]
          refine ⟨a3.2, fun b hb => ?_⟩
          rw [a3.1 b hb]
          have : 1 ≤ pos + 1 := by omega
          simp [this]
      have e3 : s.markPromisingNode r pos = s3 := rfl
      rw [e3]
      refine ⟨by rw [b3.1, b2.1]; exact hs1, fun b hb => ?_⟩
      rw [b3.2 b hb, b2.2 b hb, a1.1 b hb, ih.2 b hb]
      constructor
      · rintro (((h | ⟨h1, h2, h3⟩) | ⟨h0, h1, h2, h3⟩) | ⟨h1, h2⟩)
        · exact .inl h
        · exact .inr ⟨pos, by omega, by omega, h1, h2, h3⟩
        · exact .inr ⟨pos - 1, by omega, by omega, h1, h2, h3⟩
        · exact .inr ⟨pos + 1, by omega, by omega, by omega, h1, h2⟩
      · rintro (h | ⟨k, h1, h2, h3, h4, h5⟩)
        · exact .inl (.inl (.inl h))
        · by_cases hk1 : k = pos
          · subst hk1; exact .inl (.inl (.inr ⟨h3, h4, h5⟩))
          · by_cases hk2 : k = pos + 1
            · subst hk2; exact .inr ⟨h4, h5⟩
            · have hk3 : k = pos - 1 := by omega
              subst hk3
              exact .inl (.inr ⟨by omega, h3, h4, h5⟩)
    | @markAll s m ns h ih =>
      have hsz : s.markAllPromising.promising.size = s.promising.size := by
        simp [SearchSpace.markAllPromising, Bitset.size, Bitset.set]
      refine ⟨by rw [hsz]; exact ih.1, fun b hb => ?_⟩
      rw [SearchSpace.isPromising_eq, hsz]
      have hlt := SearchSpace.bitOf_lt ih.1 hb
      simp only [SearchSpace.markAllPromising, Bitset.set]
      rw [Bitset.get_map _ hlt]
      simp [Bitset.mod_lt]
    | @unmarkAll s m ns h ih =>
      have hsz : s.unmarkAllPromising.promising.size = s.promising.size := by
        simp [SearchSpace.unmarkAllPromising, Bitset.size, Bitset.reset]
      refine ⟨by rw [hsz]; exact ih.1, fun b hb => ?_⟩
      rw [SearchSpace.isPromising_eq, hsz]
      have hlt := SearchSpace.bitOf_lt ih.1 hb
      simp only [SearchSpace.unmarkAllPromising, Bitset.reset]
      rw [Bitset.get_map _ hlt]
      simp
    | shuffle next rng h ih => exact ih
    | setNeighbours h hs ih =>
      obtain ⟨_, _, rfl⟩ := SearchSpace.setNeighbours_ok.1 hs
      exact ih
  exact key.2 b hb

/-- **C43.** Whatever the random numbers, the search orders remain permutations: of all clients and
pickups, and of all vehicle types with the number of vehicles of the types before it. -/
theorem C43_orders (data : ProblemData) (s : SearchSpace) (m : Activity → Prop)
    (ns : Neighbours) (h : SpaceHistory data s m ns) :
    s.activityOrder.Perm (allTasks data)
    ∧ s.vehTypeOrder.Perm ((List.range data.vehicleTypes.length).map
        (fun vt => (vt, vehiclesBefore data vt))) := by
  induction h with
  | new h => rw [SearchSpace.make_ok h]; exact ⟨.refl _, .refl _⟩
  | mark a h ha ih => rw [SearchSpace.markPromising_eq]; exact ih
  | markNode vt acts r pos h hr hacts hpos ih =>
    rw [(SearchSpace.markPromisingNode_rest _ r pos).1,
      (SearchSpace.markPromisingNode_rest _ r pos).2.1]
    exact ih
  | markAll h ih => exact ih
  | unmarkAll h ih => exact ih
  | shuffle next rng h ih =>
    exact ⟨(shuffle_perm next _ _).trans ih.1, (shuffle_perm next _ _).trans ih.2⟩
  | setNeighbours h hs ih =>
    obtain ⟨_, _, rfl⟩ := SearchSpace.setNeighbours_ok.1 hs
    exact ih

/-- **C43.** `neighbours_of` gives the neighbourhood of an activity that has one, and raises
otherwise. -/
theorem C43_neighbours_of (data : ProblemData) (s : SearchSpace) (m : Activity → Prop)
    (ns : Neighbours) (h : SpaceHistory data s m ns) (hkeys : (ns.map (·.1)).Nodup)
    (a : Activity) (l : List Activity) :
    (s.neighboursOf a = .ok l ↔ (a, l) ∈ ns)
    ∧ ((∃ l, s.neighboursOf a = .ok l) ↔ a ∈ ns.map (·.1)) := by
  have hn := (C43_neighbours data s m ns ns h).1
  have key : ∀ l, s.neighboursOf a = .ok l ↔ (a, l) ∈ ns := by
    intro l
    unfold SearchSpace.neighboursOf
    rw [hn]
    clear hn h
    induction ns with
    | nil => simp
    | cons entry rest ih =>
      obtain ⟨k, l'⟩ := entry
      simp only [List.map_cons, List.nodup_cons] at hkeys
      by_cases hk : k = a
      · subst hk
        simp only [List.find?_cons, beq_self_eq_true, List.mem_cons, Prod.mk.injEq, true_and]
        constructor
        · intro h; injection h with h; exact .inl h.symm
        · rintro (h | h)
          · rw [h]
          · exact absurd (List.mem_map.2 ⟨_, h, rfl⟩) hkeys.1
      · have : (k == a) = false := by simpa using hk
        rw [List.find?_cons]
        simp only [this, List.mem_cons, Prod.mk.injEq]
        rw [ih hkeys.2]
        constructor
        · exact .inr
        · rintro (h | h)
          · exact absurd h.1.symm hk
          · exact h
  refine ⟨key l, ?_⟩
  simp only [key, List.mem_map]
  constructor
  · rintro ⟨l, hl⟩; exact ⟨_, hl, rfl⟩
  · rintro ⟨⟨k, l⟩, hl, rfl⟩; exact ⟨l, hl⟩

/-! ## Non-vacuity -/

namespace C43

/-- Neighbourhoods for the five clients and the shipment of the example. -/
def demoNeighbours : Neighbours :=
  [(Demo.client 0, [Demo.client 1, Demo.pickup 0, Demo.delivery 0]), (Demo.client 1, [Demo.client 0]),
   (Demo.client 2, []), (Demo.client 3, [Demo.client 4]), (Demo.client 4, []),
   (Demo.pickup 0, [Demo.client 0])]

end C43

example : ∃ s, SearchSpace.make Demo.data C43.demoNeighbours = .ok s :=
  ⟨_, rfl⟩

example : (C43.demoNeighbours.map (·.1)).Nodup := by decide

/-- Marking a shipment's delivery, and a node at the end of a route, then shuffling. -/
example : ∃ s m, SpaceHistory Demo.data s m C43.demoNeighbours
    ∧ s.isPromising (Demo.pickup 0) = true ∧ s.isPromising (Demo.client 1) = true
    ∧ s.isPromising (Demo.client 0) = false ∧ s.activityOrder ≠ allTasks Demo.data := by
  refine ⟨_, _, .shuffle Rng.next (Rng.ofSeed 1#32)
    (.markNode 0 [Demo.client 0, Demo.client 1] _ 3
      (.mark (Demo.delivery 0) (.new (ns := C43.demoNeighbours) rfl) ⟨by decide, by simp [InRange, Demo.data]⟩)
      (.step (.insert 2 (Demo.client 1)) (.step (.insert 1 (Demo.client 0)) .new (by simp [RouteOp.Legal]) rfl)
        (by simp [RouteOp.Legal, RouteOp.onActs]) rfl)
      (by simp [InRange, Demo.data]) (by decide)), ?_⟩
  decide +kernel

end PyVRP
