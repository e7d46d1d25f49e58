import Verif.Lemmas.SearchInsert
import Verif.Model.Perturbation
/-!
# Lemmas about perturbation
-/
namespace PyVRP
open Spec

instance (a b : Activity) : Decidable (SameTask a b) := by
  unfold SameTask; split <;> infer_instance

namespace Spec

/-- The client or shipment is in one of the routes. -/
def Visited (plan : List (List Activity)) (a : Activity) : Prop := ∃ i, a ∈ plan.getD i []

/-- A route without the given clients and shipments. -/
def strip (tasks : List Activity) (acts : List Activity) : List Activity :=
  acts.filter (fun b => !tasks.any (fun a => decide (SameTask a b)))

end Spec

theorem mem_strip {T acts : List Activity} {b : Activity} :
    b ∈ strip T acts ↔ b ∈ acts ∧ ∀ a ∈ T, ¬ SameTask a b := by
  simp [strip]

theorem strip_append (T T' acts : List Activity) : strip (T ++ T') acts = strip T' (strip T acts) := by
  simp only [strip, List.filter_filter]
  apply List.filter_congr
  intro b _
  simp [List.any_append, Bool.and_comm]

theorem strip_comm (T T' acts : List Activity) : strip T' (strip T acts) = strip T (strip T' acts) := by
  simp only [strip, List.filter_filter]
  apply List.filter_congr
  intro b _
  simp [Bool.and_comm]

theorem strip_nil (acts : List Activity) : strip [] acts = acts := by
  simp [strip]

theorem strip_l (T xs ys : List Activity) : strip T (xs ++ ys) = strip T xs ++ strip T ys := by
  simp [strip]

theorem strip_drop {T : List Activity} {b : Activity} (h : ∃ a ∈ T, SameTask a b) (ys : List Activity) :
    strip T (b :: ys) = strip T ys := by
  unfold strip
  rw [List.filter_cons]
  simp
  exact h

theorem allTasks_task {data : ProblemData} {a : Activity} (h : a ∈ allTasks data) : IsTask data a := by
  simp only [allTasks, List.mem_append, List.mem_map, List.mem_range] at h
  rcases h with ⟨i, hi, rfl⟩ | ⟨i, hi, rfl⟩
  · exact ⟨by simp, hi⟩
  · exact ⟨by simp, hi⟩

theorem allTasks_cases {data : ProblemData} {a : Activity} (h : a ∈ allTasks data) :
    (∃ c, c < data.numClients ∧ a = ⟨.client, c⟩) ∨ ∃ k, k < data.numShipments ∧ a = pickupOf k := by
  simp only [allTasks, List.mem_append, List.mem_map, List.mem_range] at h
  rcases h with ⟨i, hi, rfl⟩ | ⟨i, hi, rfl⟩
  · exact .inl ⟨i, hi, rfl⟩
  · exact .inr ⟨i, hi, rfl⟩

theorem allTasks_same {data : ProblemData} {a b : Activity} (ha : a ∈ allTasks data)
    (hb : b ∈ allTasks data) (h : SameTask a b) : a = b := by
  rcases allTasks_cases ha with ⟨i, -, rfl⟩ | ⟨i, -, rfl⟩ <;>
    rcases allTasks_cases hb with ⟨j, -, rfl⟩ | ⟨j, -, rfl⟩ <;>
    simp [SameTask, pickupOf] at h ⊢
  · exact h
  · exact h

theorem sameTask_self {data : ProblemData} {a : Activity} (ha : a ∈ allTasks data) : SameTask a a := by
  rcases allTasks_cases ha with ⟨i, -, rfl⟩ | ⟨i, -, rfl⟩ <;> simp [SameTask, pickupOf]

theorem allTasks_nodup (data : ProblemData) : (allTasks data).Nodup := by
  unfold allTasks
  rw [List.nodup_append]
  refine ⟨?_, ?_, ?_⟩
  · refine List.Pairwise.map _ ?_ List.nodup_range
    intro a b h h'; simp at h'; exact h h'
  · refine List.Pairwise.map _ ?_ List.nodup_range
    intro a b h h'; simp at h'; exact h h'
  · intro a ha b hb
    simp only [List.mem_map] at ha hb
    obtain ⟨i, -, rfl⟩ := ha
    obtain ⟨j, -, rfl⟩ := hb
    simp

theorem allTasks_length (data : ProblemData) :
    (allTasks data).length = data.numClients + data.numShipments := by
  simp [allTasks, ProblemData.numClients, ProblemData.numShipments]

theorem length_le_of_nodup {α : Type} [DecidableEq α] : ∀ {l m : List α}, l.Nodup → (∀ a ∈ l, a ∈ m) → l.length ≤ m.length := by
  intro l
  induction l with
  | nil => intro m _ _; exact Nat.zero_le _
  | cons a l ih =>
    intro m hn hs
    have ha := hs a (by simp)
    have := ih (m := m.erase a) (List.nodup_cons.1 hn).2 (fun b hb => by
      have hba : b ≠ a := fun h => (List.nodup_cons.1 hn).1 (h ▸ hb)
      exact (List.mem_erase_of_ne hba).2 (hs b (by simp [hb])))
    rw [List.length_erase_of_mem ha] at this
    have := List.length_pos_of_mem ha
    rw [List.length_cons]; omega

/-! ## Marking nodes -/

namespace SearchSpace

/-- The second search space differs from the first only in more being promising. -/
structure Grows (data : ProblemData) (sp sp' : SearchSpace) : Prop where
  size : sp'.promising.size = sp.promising.size
  order : sp'.activityOrder = sp.activityOrder
  types : sp'.vehTypeOrder = sp.vehTypeOrder
  neighbours : sp'.neighbours = sp.neighbours
  kept : ∀ b, IsTask data b → sp.isPromising b = true → sp'.isPromising b = true

theorem Grows.refl (data : ProblemData) (sp : SearchSpace) : Grows data sp sp :=
  ⟨rfl, rfl, rfl, rfl, fun _ _ h => h⟩

theorem Grows.trans {data : ProblemData} {a b c : SearchSpace} (h : Grows data a b)
    (h' : Grows data b c) : Grows data a c :=
  ⟨h'.size.trans h.size, h'.order.trans h.order, h'.types.trans h.types,
    h'.neighbours.trans h.neighbours, fun x hx hp => h'.kept x hx (h.kept x hx hp)⟩

theorem Grows.ok {data : ProblemData} {sp sp' : SearchSpace} (h : Grows data sp sp')
    (hs : SpaceOk data sp) : SpaceOk data sp' := by
  refine ⟨by rw [h.size]; exact hs.size, by rw [h.order]; exact hs.order,
    by rw [h.types]; exact hs.types, ?_⟩
  intro a ha
  obtain ⟨ns, h1, h2⟩ := hs.neighbours a ha
  exact ⟨ns, by unfold neighboursOf at h1 ⊢; rw [h.neighbours]; exact h1, h2⟩

theorem markIfTask_grows {data : ProblemData} {sp : SearchSpace} {n : SNode}
    (hs : data.clients.length + data.shipments.length ≤ sp.promising.size)
    (hn : n.activity.type = .depot ∨ IsTask data n.activity) : Grows data sp (sp.markIfTask n) := by
  obtain ⟨h1, h2, h3⟩ := markIfTask_rest sp n
  refine ⟨?_, h1, h2, h3, ?_⟩
  · unfold markIfTask; split
    · rw [markPromising_eq]; exact Bitset.size_put _ _ _
    · rfl
  · intro b hb hp
    exact (isPromising_markIfTask hs hn hb).1.2 (.inl hp)

/-- Nodes of a route are depots, or activities of the route. -/
theorem node_task {data : ProblemData} {r : SRoute} {acts : List Activity} (hv : r.Visits data acts)
    (hr : ∀ a ∈ acts, InRange data a) {k : Nat} (hk : k ≤ acts.length + 1) :
    (r.node k).activity.type = .depot ∨ IsTask data (r.node k).activity := by
  have hmem : r.node k ∈ r.nodes := by
    unfold SRoute.node
    rw [List.getD_eq_getElem?_getD, List.getElem?_eq_getElem
      (by unfold SRoute.Visits at hv; rw [hv, canon_length]; omega)]
    exact List.getElem_mem _
  have hact : (r.node k).activity ∈ r.nodes.map SNode.activity := List.mem_map_of_mem hmem
  unfold SRoute.Visits at hv
  rw [hv, SRoute.canon_activities] at hact
  simp only [fullActs, List.mem_cons, List.mem_append, List.not_mem_nil, or_false] at hact
  by_cases hd : (r.node k).activity.type = .depot
  · exact .inl hd
  · right
    rcases hact with (h | h) | h
    · rw [h] at hd; exact absurd rfl hd
    · exact ⟨hd, hr _ h⟩
    · rw [h] at hd; exact absurd rfl hd

theorem startDepot_iff {data : ProblemData} {r : SRoute} {acts : List Activity}
    (hv : r.Visits data acts) : (r.node (acts.length + 1)).isEndDepot = true := by
  unfold SRoute.Visits at hv
  unfold SRoute.node
  rw [hv]
  simp only [canon, List.getD_cons_succ]
  rw [getD_append_ge _ _ _ _ (by rw [innerNodes_length]; omega), innerNodes_length]
  simp [endNode, SNode.isEndDepot]

theorem markNode_grows {data : ProblemData} {sp : SearchSpace} {r : SRoute} {acts : List Activity}
    (hs : data.clients.length + data.shipments.length ≤ sp.promising.size)
    (hv : r.Visits data acts) (hr : ∀ a ∈ acts, InRange data a) {pos : Nat}
    (hp : pos ≤ acts.length + 1) :
    Grows data sp (sp.markPromisingNode r pos)
    ∧ ∀ b, IsTask data b → SameTask (r.node pos).activity b →
        (sp.markPromisingNode r pos).isPromising b = true := by
  have g1 := markIfTask_grows hs (node_task hv hr hp)
  have m1 : ∀ b, IsTask data b → SameTask (r.node pos).activity b →
      (sp.markIfTask (r.node pos)).isPromising b = true := fun b hb hsame =>
    (isPromising_markIfTask hs (node_task hv hr hp) hb).1.2 (.inr hsame)
  unfold markPromisingNode
  dsimp only
  generalize hs2 : (if (!(r.node pos).isStartDepot) = true then
    (sp.markIfTask (r.node pos)).markIfTask (r.node (pos - 1)) else sp.markIfTask (r.node pos)) = sp2
  have g2 : Grows data (sp.markIfTask (r.node pos)) sp2 := by
    rw [← hs2]
    split
    · exact markIfTask_grows (by rw [g1.size]; exact hs) (node_task hv hr (by omega))
    · exact Grows.refl _ _
  have g3 : Grows data sp2 (if (!(r.node pos).isEndDepot) = true then
      sp2.markIfTask (r.node (pos + 1)) else sp2) := by
    split
    · rename_i hend
      have hne : pos ≠ acts.length + 1 := by
        intro h
        rw [h, startDepot_iff hv] at hend
        simp at hend
      exact markIfTask_grows (by rw [g2.size, g1.size]; exact hs) (node_task hv hr (by omega))
    · exact Grows.refl _ _
  refine ⟨g1.trans (g2.trans g3), ?_⟩
  intro b hb hsame
  exact g3.kept b hb (g2.kept b hb (m1 b hb hsame))

end SearchSpace

namespace PerturbationManager

/-! ## Single changes -/

/-- The state is consistent. -/
structure Good (data : ProblemData) (plan : List (List Activity)) (st : State) : Prop where
  clean : SSol.Clean data plan st.sol
  routes : ∀ i, i < data.numVehicles →
    RouteOk data (data.vehicleType (vehTypeAt data i)) (plan.getD i [])
  space : SpaceOk data st.space

/-- From one state to another, exactly the clients and shipments in `T` change. -/
structure Step (data : ProblemData) (T : List Activity) (plan plan' : List (List Activity))
    (sp sp' : SearchSpace) : Prop where
  toggled : ∀ a ∈ T, Visited plan' a ↔ ¬ Visited plan a
  rest : ∀ i, strip T (plan'.getD i []) = strip T (plan.getD i [])
  marked : ∀ a ∈ T, sp'.isPromising a = true
  grows : SearchSpace.Grows data sp sp'

theorem Step.refl (data : ProblemData) (plan : List (List Activity)) (sp : SearchSpace) :
    Step data [] plan plan sp sp :=
  ⟨fun a ha => (by cases ha), fun _ => rfl, fun a ha => (by cases ha), SearchSpace.Grows.refl _ _⟩

theorem Step.other {data : ProblemData} {T : List Activity} {plan plan' : List (List Activity)}
    {sp sp' : SearchSpace} (h : Step data T plan plan' sp sp') {b : Activity}
    (hb : ∀ a ∈ T, ¬ SameTask a b) (i : Nat) : b ∈ plan'.getD i [] ↔ b ∈ plan.getD i [] := by
  have h1 : b ∈ strip T (plan'.getD i []) ↔ b ∈ plan'.getD i [] := by
    rw [mem_strip]; exact ⟨fun h => h.1, fun h => ⟨h, hb⟩⟩
  have h2 : b ∈ strip T (plan.getD i []) ↔ b ∈ plan.getD i [] := by
    rw [mem_strip]; exact ⟨fun h => h.1, fun h => ⟨h, hb⟩⟩
  rw [← h1, h.rest i, h2]

theorem Step.visited {data : ProblemData} {T : List Activity} {plan plan' : List (List Activity)}
    {sp sp' : SearchSpace} (h : Step data T plan plan' sp sp') {b : Activity}
    (hb : ∀ a ∈ T, ¬ SameTask a b) : Visited plan' b ↔ Visited plan b :=
  exists_congr (fun i => h.other hb i)

theorem Step.trans {data : ProblemData} {T T' : List Activity}
    {p q r : List (List Activity)} {a b c : SearchSpace} (h : Step data T p q a b)
    (h' : Step data T' q r b c) (hT : ∀ x ∈ T, x ∈ allTasks data) (hT' : ∀ x ∈ T', x ∈ allTasks data)
    (hd : ∀ x ∈ T, x ∉ T') : Step data (T ++ T') p r a c := by
  refine ⟨?_, ?_, ?_, h.grows.trans h'.grows⟩
  · intro x hx
    rcases List.mem_append.1 hx with hx | hx
    · rw [h'.visited (fun y hy hs => ?_)]
      · exact h.toggled x hx
      · have := allTasks_same (hT' y hy) (hT x hx) hs
        subst this; exact hd y hx hy
    · rw [h'.toggled x hx, h.visited (fun y hy hs => ?_)]
      have := allTasks_same (hT y hy) (hT' x hx) hs
      subst this; exact hd y hy hx
  · intro i
    rw [strip_append, strip_append, strip_comm, h'.rest i, strip_comm, h.rest i]
  · intro x hx
    rcases List.mem_append.1 hx with hx | hx
    · exact h'.grows.kept x (allTasks_task (hT x hx)) (h.marked x hx)
    · exact h'.marked x hx

theorem visited_mem {data : ProblemData} {plan : List (List Activity)} {s : SSol}
    (h : SSol.Holds data plan s) {a : Activity} (hv : Visited plan a) :
    ∃ i xs ys, i < data.numVehicles ∧ plan.getD i [] = xs ++ a :: ys := by
  obtain ⟨i, hi⟩ := hv
  obtain ⟨xs, ys, he⟩ := List.append_of_mem hi
  exact ⟨i, xs, ys, h.lt_of_mem hi, he⟩

/-- Changing one route. -/
theorem rest_set {T : List Activity} {plan : List (List Activity)} {i : Nat} {acts : List Activity}
    (h : strip T acts = strip T (plan.getD i [])) (j : Nat) :
    strip T ((plan.set i acts).getD j []) = strip T (plan.getD j []) := by
  rw [getD_set]
  split
  · rename_i hj; rw [hj.1]; exact h
  · rfl

theorem routes_set {data : ProblemData} {plan : List (List Activity)} {i : Nat}
    {acts : List Activity}
    (h : ∀ i, i < data.numVehicles → RouteOk data (data.vehicleType (vehTypeAt data i)) (plan.getD i []))
    (h' : RouteOk data (data.vehicleType (vehTypeAt data i)) acts) (j : Nat)
    (hj : j < data.numVehicles) :
    RouteOk data (data.vehicleType (vehTypeAt data j)) ((plan.set i acts).getD j []) := by
  rw [getD_set]
  split
  · rename_i hji; rw [hji.1]; exact h'
  · exact h j hj

/-- Not in the plan after removal. -/
theorem not_visited_set {data : ProblemData} {plan : List (List Activity)} {s : SSol}
    (h : SSol.Holds data plan s) {a : Activity} (ha : a.type ≠ .depot) {i : Nat}
    (hm : a ∈ plan.getD i []) {acts : List Activity} (hn : a ∉ acts) :
    ¬ Visited (plan.set i acts) a := by
  rintro ⟨j, hj⟩
  rw [getD_set] at hj
  split at hj
  · exact hn hj
  · rename_i hij
    have := h.unique ha hm hj
    exact hij ⟨this.symm, by rw [h.length]; exact h.lt_of_mem hm⟩

theorem remove_spec {data : ProblemData} {plan : List (List Activity)} {st : State}
    (h : Good data plan st) {a : Activity} (ha : a ∈ allTasks data) (hv : Visited plan a) :
    ∃ st' plan', remove data st a = .ok st' ∧ Good data plan' st'
      ∧ Step data [a] plan plan' st.space st'.space := by
  obtain ⟨i, xs, ys, hi, he⟩ := visited_mem h.clean.1 hv
  have hnd := (allTasks_task ha).1
  have hplace := h.clean.1.place hi hnd he
  have hro := h.routes i hi
  have hvis := h.clean.1.visits i hi
  have hil : i < plan.length := by rw [h.clean.1.length]; exact hi
  have hpos : xs.length + 1 ≤ (plan.getD i []).length + 1 := by rw [he]; simp
  obtain ⟨g1, m1⟩ := SearchSpace.markNode_grows h.space.size hvis hro.inRange hpos
  have hnode : ((st.sol.route i).node (xs.length + 1)).activity = a := by
    rw [he] at hvis; exact SSol.visits_node hvis
  rw [hnode] at m1
  have hmark := m1 a (allTasks_task ha) (sameTask_self ha)
  have hb := h.clean.but (fun _ => False)
  have hrem := hb.remove hi he
  unfold remove
  simp only [hplace]
  rcases allTasks_cases ha with ⟨c, hc, rfl⟩ | ⟨k, hk, rfl⟩
  · rw [if_neg (by simp [Activity.isPickup])]
    refine ⟨_, plan.set i (xs ++ ys), rfl, ⟨?_, ?_, g1.ok h.space⟩, ⟨?_, ?_, ?_, g1⟩⟩
    · exact (hrem.update hi).clean (fun j _ hj => by
        obtain ⟨(h1 | h1), h2⟩ := hj
        · exact h1
        · exact h2 h1)
    · rw [he] at hro
      exact routes_set h.routes hro.remove_client
    · intro b hb
      rw [List.mem_singleton.1 hb]
      have hon := h.clean.1.once' hnd he
      have : ¬ Visited (plan.set i (xs ++ ys)) ⟨.client, c⟩ :=
        not_visited_set h.clean.1 hnd (by rw [he]; simp) (by simp [hon])
      exact ⟨fun h' => absurd h' this, fun h' => absurd hv h'⟩
    · apply rest_set
      rw [he, strip_l, strip_l, strip_drop ⟨_, by simp, sameTask_self ha⟩]
    · intro b hb
      rw [List.mem_singleton.1 hb]
      exact hmark
  · rw [if_pos (by simp [Activity.isPickup, pickupOf])]
    obtain ⟨xs', ms, zs, he', hms, hfree⟩ := hro.shipment_split (k := k) (.inl (by rw [he]; simp))
    have hxs : xs' = xs ∧ ms ++ deliveryOf k :: zs = ys := by
      have := he.symm.trans he'
      have hon := h.clean.1.once' hnd he
      have hon' := h.clean.1.once' hnd he'
      rcases List.append_eq_append_iff.1 this with ⟨l, h1, h2⟩ | ⟨l, h1, h2⟩
      · cases l with
        | nil => simp at h1 h2; exact ⟨h1, h2.symm⟩
        | cons y l =>
          simp at h2
          exact absurd (by rw [h1, h2.1]; simp) hon'.1
      · cases l with
        | nil => simp at h1 h2; exact ⟨h1.symm, h2⟩
        | cons y l =>
          simp at h2
          exact absurd (by rw [h1, h2.1]; simp) hon.1
    obtain ⟨rfl, rfl⟩ := hxs
    have he2 : (plan.set i (xs' ++ (ms ++ deliveryOf k :: zs))).getD i []
        = (xs' ++ ms) ++ deliveryOf k :: zs := by
      rw [getD_set_self hil]; simp
    have hplace2 := hrem.1.place hi (by simp [deliveryOf]) he2
    show ∃ st' plan', (match (st.sol.removeAt i (xs'.length + 1)).place (deliveryOf k) with
      | none => _ | some (idx', pos') => _) = Except.ok st' ∧ _
    rw [hplace2]
    dsimp only
    have hrem2 := hrem.remove hi he2
    rw [List.set_set] at hrem2
    have hvis2 := hrem.1.visits i hi
    rw [getD_set_self hil] at hvis2
    have hro' := hro
    rw [he] at hro'
    have hin2 : ∀ b ∈ xs' ++ (ms ++ deliveryOf k :: zs), InRange data b := by
      intro b hb
      refine hro'.inRange b ?_
      simp only [List.mem_append, List.mem_cons] at hb ⊢
      tauto
    obtain ⟨g2, -⟩ := SearchSpace.markNode_grows (sp := st.space.markPromisingNode (st.sol.route i)
      (xs'.length + 1)) (by rw [g1.size]; exact h.space.size) hvis2 hin2
      (pos := (xs' ++ ms).length + 1) (by simp)
    refine ⟨_, plan.set i ((xs' ++ ms) ++ zs), rfl, ⟨?_, ?_, (g1.trans g2).ok h.space⟩,
      ⟨?_, ?_, ?_, g1.trans g2⟩⟩
    · exact (hrem2.update hi).clean (fun j _ hj => by
        obtain ⟨((h1 | h1) | h1), h2⟩ := hj
        · exact h1
        · exact h2 h1
        · exact h2 h1)
    · exact routes_set h.routes (hro'.remove_shipment hfree)
    · intro b hb
      rw [List.mem_singleton.1 hb]
      have : ¬ Visited (plan.set i ((xs' ++ ms) ++ zs)) (pickupOf k) :=
        not_visited_set h.clean.1 hnd (by rw [he]; simp) (fun h' => hfree _ h' (.inl rfl))
      exact ⟨fun h' => absurd h' this, fun h' => absurd hv h'⟩
    · apply rest_set
      rw [he]
      simp only [strip_l]
      rw [strip_drop ⟨_, by simp, sameTask_self ha⟩, strip_l,
        strip_drop ⟨pickupOf k, by simp, by simp [SameTask, pickupOf, deliveryOf]⟩, List.append_assoc]
    · intro b hb
      rw [List.mem_singleton.1 hb]
      exact g2.kept _ (allTasks_task ha) hmark

theorem insert_spec {data : ProblemData} (hnv : 0 < data.numVehicles) (ce : CostEvaluator)
    {plan : List (List Activity)} {st : State} (h : Good data plan st) {a : Activity}
    (ha : a ∈ allTasks data) (hv : ¬ Visited plan a) :
    ∃ st' plan', insert data ce st a = .ok st' ∧ Good data plan' st'
      ∧ Step data [a] plan plan' st.space st'.space := by
  have hnot : ∀ j, a ∉ plan.getD j [] := fun j hj => hv ⟨j, hj⟩
  have hb := h.clean.but (fun _ => False)
  have hnd := (allTasks_task ha).1
  unfold insert
  rcases allTasks_cases ha with ⟨c, hc, rfl⟩ | ⟨k, hk, rfl⟩
  · rw [if_pos (by simp [Activity.isClient])]
    rcases SSol.insertClient_spec hb h.routes hnv h.space ce hc hnot true with
      ⟨h1, -⟩ | ⟨i, xs, ys, s', hi, he, hins, hcl⟩
    · cases h1
    · have hil : i < plan.length := by rw [h.clean.1.length]; exact hi
      have he' : (plan.set i (xs ++ ⟨.client, c⟩ :: ys)).getD i [] = xs ++ ⟨.client, c⟩ :: ys :=
        getD_set_self hil _
      have hplace := hcl.1.place hi (by simp) he'
      have hro := h.routes i hi
      rw [he] at hro
      have hro' := hro.insert_client hc
      have hclean : SSol.Clean data (plan.set i (xs ++ ⟨.client, c⟩ :: ys)) (s'.updateRoute data i) :=
        (hcl.update hi).clean (fun j _ hj => by
          obtain ⟨(h1 | h1), h2⟩ := hj
          · exact h1
          · exact h2 h1)
      have hvis := hclean.1.visits i hi
      rw [he'] at hvis
      obtain ⟨g1, m1⟩ := SearchSpace.markNode_grows h.space.size hvis hro'.inRange
        (pos := xs.length + 1) (by simp)
      rw [SSol.visits_node hvis] at m1
      simp only [hins, hplace]
      refine ⟨_, _, rfl, ⟨hclean, routes_set h.routes hro', g1.ok h.space⟩, ⟨?_, ?_, ?_, g1⟩⟩
      · intro b hb
        rw [List.mem_singleton.1 hb]
        exact ⟨fun _ => hv, fun _ => ⟨i, by rw [he']; simp⟩⟩
      · apply rest_set
        rw [he, strip_l, strip_l, strip_drop ⟨_, by simp, sameTask_self ha⟩]
      · intro b hb
        rw [List.mem_singleton.1 hb]
        exact m1 _ (allTasks_task ha) (sameTask_self ha)
  · rw [if_neg (by simp [Activity.isClient, pickupOf])]
    have hfree : ∀ j, Phase.Free k (plan.getD j []) := by
      intro j b hb hcon
      have hj := h.clean.1.lt_of_mem hb
      obtain ⟨xs, ms, ys, he, -, -⟩ := (h.routes j hj).shipment_split (k := k) (by
        rcases hcon with rfl | rfl
        · exact .inl hb
        · exact .inr hb)
      exact hnot j (by rw [he]; simp)
    rcases SSol.insertShipment_spec hb h.routes hnv h.space ce hk hfree true with
      ⟨h1, -⟩ | ⟨i, xs, ms, ys, s', hi, he, hms, hins, hcl⟩
    · cases h1
    · have hil : i < plan.length := by rw [h.clean.1.length]; exact hi
      have he' : (plan.set i (xs ++ pickupOf k :: (ms ++ deliveryOf k :: ys))).getD i []
          = xs ++ pickupOf k :: (ms ++ deliveryOf k :: ys) := getD_set_self hil _
      have he'' : (plan.set i (xs ++ pickupOf k :: (ms ++ deliveryOf k :: ys))).getD i []
          = (xs ++ pickupOf k :: ms) ++ deliveryOf k :: ys := by rw [he']; simp
      have hplace := hcl.1.place hi (by simp [pickupOf]) he'
      have hplace' := hcl.1.place hi (by simp [deliveryOf]) he''
      have hro := h.routes i hi
      have hf := hfree i
      rw [he] at hro hf
      have hro' := hro.insert_shipment hk hf hms
      have hclean : SSol.Clean data (plan.set i (xs ++ pickupOf k :: (ms ++ deliveryOf k :: ys)))
          (s'.updateRoute data i) :=
        (hcl.update hi).clean (fun j _ hj => by
          obtain ⟨(h1 | h1), h2⟩ := hj
          · exact h1
          · exact h2 h1)
      have hvis := hclean.1.visits i hi
      rw [he'] at hvis
      obtain ⟨g1, m1⟩ := SearchSpace.markNode_grows h.space.size hvis hro'.inRange
        (pos := xs.length + 1) (by simp)
      obtain ⟨g2, -⟩ := SearchSpace.markNode_grows
        (sp := st.space.markPromisingNode ((s'.updateRoute data i).route i) (xs.length + 1))
        (by rw [g1.size]; exact h.space.size) hvis hro'.inRange
        (pos := (xs ++ pickupOf k :: ms).length + 1) (by simp)
      rw [SSol.visits_node hvis] at m1
      have hins' : st.sol.insertShipment data ce st.space (pickupOf k).idx true = .ok (s', true) := hins
      have hp1 : s'.place ⟨.pickup, (pickupOf k).idx⟩ = some (i, xs.length + 1) := hplace
      have hp2 : s'.place ⟨.delivery, (pickupOf k).idx⟩
          = some (i, (xs ++ pickupOf k :: ms).length + 1) := hplace'
      simp only [hins', hp1, hp2]
      refine ⟨_, _, rfl, ⟨hclean, routes_set h.routes hro', (g1.trans g2).ok h.space⟩,
        ⟨?_, ?_, ?_, g1.trans g2⟩⟩
      · intro b hb
        rw [List.mem_singleton.1 hb]
        exact ⟨fun _ => hv, fun _ => ⟨i, by rw [he']; simp⟩⟩
      · apply rest_set
        rw [he]
        simp only [strip_l]
        rw [strip_drop ⟨_, by simp, sameTask_self ha⟩, strip_l,
          strip_drop ⟨pickupOf k, by simp, by simp [SameTask, pickupOf, deliveryOf]⟩, List.append_assoc]
      · intro b hb
        rw [List.mem_singleton.1 hb]
        exact g2.kept _ (allTasks_task ha) (m1 _ (allTasks_task ha) (sameTask_self ha))

/-! ## Groups -/

/-- Applying the changes of one group. -/
theorem applyNodes_spec {data : ProblemData} (hnv : 0 < data.numVehicles) (ce : CostEvaluator)
    (route : Option Nat) (nodes : List Activity) : ∀ (moves : Nat) (plan : List (List Activity))
    (st : State), Good data plan st → nodes.Nodup → (∀ a ∈ nodes, a ∈ allTasks data) →
    (∀ a ∈ nodes, route.isSome = true ↔ Visited plan a) →
    ∃ st' plan', applyNodes data ce route st moves nodes = .ok (st', moves - nodes.length)
      ∧ Good data plan' st' ∧ Step data (nodes.take moves) plan plan' st.space st'.space := by
  induction nodes with
  | nil =>
    intro moves plan st h _ _ _
    refine ⟨st, plan, ?_, h, ?_⟩
    · cases moves <;> rfl
    · simpa using Step.refl data plan st.space
  | cons a rest ih =>
    intro moves plan st h hnd hall hroute
    cases moves with
    | zero =>
      exact ⟨st, plan, by simp [applyNodes], h, by simpa using Step.refl data plan st.space⟩
    | succ moves =>
      have ha := hall a (by simp)
      have hone : ∃ st1 plan1, (if route.isSome then remove data st a else insert data ce st a) = .ok st1
          ∧ Good data plan1 st1 ∧ Step data [a] plan plan1 st.space st1.space := by
        by_cases hr : route.isSome = true
        · rw [if_pos hr]; exact remove_spec h ha ((hroute a (by simp)).1 hr)
        · rw [if_neg hr]; exact insert_spec hnv ce h ha (fun hv => hr ((hroute a (by simp)).2 hv))
      obtain ⟨st1, plan1, e1, g1, s1⟩ := hone
      have hna : a ∉ rest := (List.nodup_cons.1 hnd).1
      obtain ⟨st2, plan2, e2, g2, s2⟩ := ih moves plan1 st1 g1 (List.nodup_cons.1 hnd).2
        (fun b hb => hall b (by simp [hb])) (fun b hb => by
          rw [hroute b (by simp [hb]), s1.visited]
          intro x hx hs
          rw [List.mem_singleton.1 hx] at hs
          have := allTasks_same ha (hall b (by simp [hb])) hs
          subst this; exact hna hb)
      refine ⟨st2, plan2, ?_, g2, ?_⟩
      · simp only [applyNodes, e1, e2, List.length_cons]
        rw [Nat.add_sub_add_right]
      · rw [List.take_succ_cons]
        exact s1.trans s2 (fun x hx => by rw [List.mem_singleton.1 hx]; exact ha)
          (fun x hx => hall x (by simp [List.mem_of_mem_take hx]))
          (fun x hx hx' => by
            rw [List.mem_singleton.1 hx] at hx'
            exact hna (List.mem_of_mem_take hx'))

/-- All nodes of the groups. -/
def nodesOf (groups : Groups) : List Activity := (groups.map (·.2)).flatten

theorem applyGroups_spec {data : ProblemData} (hnv : 0 < data.numVehicles) (ce : CostEvaluator)
    (groups : Groups) : ∀ (moves : Nat) (plan : List (List Activity)) (st : State), Good data plan st →
    (nodesOf groups).Nodup → (∀ a ∈ nodesOf groups, a ∈ allTasks data) →
    (∀ g ∈ groups, ∀ a ∈ g.2, g.1.isSome = true ↔ Visited plan a) →
    ∃ st' plan', applyGroups data ce st moves groups = .ok (st', moves - (nodesOf groups).length)
      ∧ Good data plan' st'
      ∧ Step data ((nodesOf groups).take moves) plan plan' st.space st'.space := by
  induction groups with
  | nil =>
    intro moves plan st h _ _ _
    exact ⟨st, plan, by simp [applyGroups, nodesOf], h, by simpa [nodesOf] using Step.refl data plan st.space⟩
  | cons g rest ih =>
    intro moves plan st h hnd hall hroute
    obtain ⟨route, nodes⟩ := g
    have hcons : nodesOf ((route, nodes) :: rest) = nodes ++ nodesOf rest := rfl
    rw [hcons] at hnd hall ⊢
    obtain ⟨hnd1, hnd2, hdis⟩ := List.nodup_append.1 hnd
    obtain ⟨st1, plan1, e1, g1, s1⟩ := applyNodes_spec hnv ce route nodes moves plan st h hnd1
      (fun a ha => hall a (by simp [ha])) (hroute (route, nodes) (by simp))
    have hmem : ∀ g ∈ rest, ∀ a ∈ g.2, a ∈ nodesOf rest := by
      intro g hg a ha
      exact List.mem_flatten.2 ⟨g.2, List.mem_map_of_mem hg, ha⟩
    obtain ⟨st2, plan2, e2, g2, s2⟩ := ih (moves - nodes.length) plan1 st1 g1 hnd2
      (fun a ha => hall a (by simp [ha])) (fun g hg a ha => by
        rw [hroute g (by simp [hg]) a ha, s1.visited]
        intro x hx hs
        have hxn := List.mem_of_mem_take hx
        have hra := hmem g hg a ha
        have := allTasks_same (hall x (by simp [hxn])) (hall a (by simp [hra])) hs
        subst this; exact hdis x hxn x hra rfl)
    refine ⟨st2, plan2, ?_, g2, ?_⟩
    · simp only [applyGroups, e1, e2, List.length_append]
      rw [Nat.sub_sub]
    · rw [List.take_append]
      exact s1.trans s2 (fun x hx => hall x (by simp [List.mem_of_mem_take hx]))
        (fun x hx => hall x (by simp [List.mem_of_mem_take hx]))
        (fun x hx hx' => hdis x (List.mem_of_mem_take hx) x (List.mem_of_mem_take hx') rfl)

theorem addToGroup_nodes (route : Option Nat) (a : Activity) (groups : Groups) :
    (nodesOf (addToGroup route a groups)).Perm (nodesOf groups ++ [a]) := by
  induction groups with
  | nil => simp [addToGroup, nodesOf]
  | cons g rest ih =>
    obtain ⟨r, nodes⟩ := g
    unfold addToGroup
    split
    · show ((nodes ++ [a]) ++ nodesOf rest).Perm ((nodes ++ nodesOf rest) ++ [a])
      rw [List.append_assoc, List.append_assoc]
      exact List.Perm.append_left _ List.perm_append_comm
    · show (nodes ++ nodesOf (addToGroup route a rest)).Perm ((nodes ++ nodesOf rest) ++ [a])
      rw [List.append_assoc]
      exact List.Perm.append_left _ ih

theorem addToGroup_mem {route : Option Nat} {a : Activity} {groups : Groups}
    {P : Option Nat → Activity → Prop} (h : ∀ g ∈ groups, ∀ b ∈ g.2, P g.1 b) (ha : P route a) :
    ∀ g ∈ addToGroup route a groups, ∀ b ∈ g.2, P g.1 b := by
  induction groups with
  | nil =>
    intro g hg b hb
    simp [addToGroup] at hg
    subst hg
    simp at hb
    subst hb; exact ha
  | cons g rest ih =>
    obtain ⟨r, nodes⟩ := g
    unfold addToGroup
    split
    · rename_i hr
      subst hr
      intro g hg b hb
      rcases List.mem_cons.1 hg with rfl | hg
      · rcases List.mem_append.1 hb with hb | hb
        · exact h (r, nodes) (by simp) b hb
        · rw [List.mem_singleton.1 hb]; exact ha
      · exact h g (by simp [hg]) b hb
    · intro g hg b hb
      rcases List.mem_cons.1 hg with rfl | hg
      · exact h (r, nodes) (by simp) b hb
      · exact ih (fun g hg => h g (by simp [hg])) g hg b hb

/-- The bit of a client or pickup in `perturbed`. -/
def bitAt (data : ProblemData) (a : Activity) : Nat :=
  if a.isClient then a.idx else data.numClients + a.idx

theorem bitAt_lt {data : ProblemData} {a : Activity} (ha : a ∈ allTasks data) :
    bitAt data a < data.numClients + data.numShipments := by
  rcases allTasks_cases ha with ⟨i, hi, rfl⟩ | ⟨i, hi, rfl⟩ <;>
    simp [bitAt, Activity.isClient, pickupOf] <;> omega

theorem bitAt_inj {data : ProblemData} {a b : Activity} (ha : a ∈ allTasks data)
    (hb : b ∈ allTasks data) (h : bitAt data a = bitAt data b) : a = b := by
  rcases allTasks_cases ha with ⟨i, hi, rfl⟩ | ⟨i, hi, rfl⟩ <;>
    rcases allTasks_cases hb with ⟨j, hj, rfl⟩ | ⟨j, hj, rfl⟩ <;>
    simp [bitAt, Activity.isClient, pickupOf] at h ⊢ <;> omega

/-- What `perturbed` and the groups should be, after the clients and pickups `T` were perturbed. -/
structure Grouped (data : ProblemData) (plan : List (List Activity)) (T : List Activity)
    (perturbed : Bitset) (groups : Groups) : Prop where
  size : data.numClients + data.numShipments ≤ perturbed.size
  bits : ∀ a ∈ allTasks data, perturbed.get (bitAt data a) = true ↔ a ∈ T ∨ a ∈ nodesOf groups
  nodup : (nodesOf groups).Nodup
  tasks : ∀ a ∈ nodesOf groups, a ∈ allTasks data
  fresh : ∀ a ∈ nodesOf groups, a ∉ T
  routes : ∀ g ∈ groups, ∀ a ∈ g.2, g.1.isSome = true ↔ Visited plan a

theorem owner_visited {data : ProblemData} {plan : List (List Activity)} {s : SSol}
    (h : SSol.Holds data plan s) {a : Activity} (ha : a.type ≠ .depot) :
    (s.owner a).isSome = true ↔ Visited plan a := by
  rw [Option.isSome_iff_exists]
  exact exists_congr (fun i => h.owner a ha i)

theorem group_spec {data : ProblemData} {plan : List (List Activity)} {s : SSol}
    (h : SSol.Holds data plan s) {T : List Activity} {perturbed : Bitset} {groups : Groups}
    (hg : Grouped data plan T perturbed groups) {a : Activity} (ha : a ∈ allTasks data) :
    Grouped data plan T (group s perturbed groups a).1 (group s perturbed groups a).2
    ∧ (a ∈ T ∨ a ∈ nodesOf (group s perturbed groups a).2)
    ∧ (∀ b ∈ nodesOf groups, b ∈ nodesOf (group s perturbed groups a).2) := by
  have hidx : (if a.isClient then a.idx else s.clients.length + a.idx) = bitAt data a := by
    rw [h.sized.clients]; rfl
  unfold group
  simp only [hidx]
  by_cases hbit : perturbed.get (bitAt data a) = true
  · simp only [hbit, if_true]
    exact ⟨hg, (hg.bits a ha).1 hbit, fun b hb => hb⟩
  · simp only [hbit]
    have hnot := fun h' => hbit ((hg.bits a ha).2 h')
    have hperm := addToGroup_nodes (s.owner a) a groups
    have hmem : ∀ b, b ∈ nodesOf (addToGroup (s.owner a) a groups) ↔ b ∈ nodesOf groups ∨ b = a := by
      intro b; rw [hperm.mem_iff]; simp
    refine ⟨⟨?_, ?_, ?_, ?_, ?_, ?_⟩, .inr ((hmem a).2 (.inr rfl)), fun b hb => (hmem b).2 (.inl hb)⟩
    · simp only [if_false, Bool.false_eq_true]; rw [Bitset.size_put]; exact hg.size
    · intro b hb
      simp only [if_false, Bool.false_eq_true]
      rw [Bitset.get_put _ _ _ _ (by have := bitAt_lt ha; have := hg.size; omega), hmem]
      split
      · rename_i heq
        have := bitAt_inj hb ha heq
        simp [this]
      · rename_i hne
        have hba : b ≠ a := fun h' => hne (by rw [h'])
        rw [hg.bits b hb]
        simp [hba]
    · simp only [if_false, Bool.false_eq_true]
      rw [hperm.nodup_iff, List.nodup_append]
      refine ⟨hg.nodup, by simp, ?_⟩
      intro x hx y hy hxy
      simp at hy
      subst hxy; subst hy
      exact hnot (.inr hx)
    · intro b hb
      simp only [if_false, Bool.false_eq_true] at hb
      rcases (hmem b).1 hb with hb | rfl
      · exact hg.tasks b hb
      · exact ha
    · intro b hb
      simp only [if_false, Bool.false_eq_true] at hb
      rcases (hmem b).1 hb with hb | rfl
      · exact hg.fresh b hb
      · exact fun h' => hnot (.inl h')
    · simp only [if_false, Bool.false_eq_true]
      exact addToGroup_mem (P := fun r b => r.isSome = true ↔ Visited plan b) hg.routes
        (owner_visited h (allTasks_task ha).1)

theorem groupAll_spec {data : ProblemData} {plan : List (List Activity)} {s : SSol}
    (h : SSol.Holds data plan s) {T : List Activity} (ns : List Activity)
    (hns : ∀ b ∈ ns, IsTask data b) : ∀ {perturbed : Bitset} {groups : Groups},
    Grouped data plan T perturbed groups →
    Grouped data plan T (groupAll s perturbed groups ns).1 (groupAll s perturbed groups ns).2
    ∧ (∀ b ∈ nodesOf groups, b ∈ nodesOf (groupAll s perturbed groups ns).2) := by
  induction ns with
  | nil => intro perturbed groups hg; exact ⟨hg, fun b hb => hb⟩
  | cons v rest ih =>
    intro perturbed groups hg
    have hv := hns v (by simp)
    have ha : (if v.isDelivery then (⟨.pickup, v.idx⟩ : Activity) else v) ∈ allTasks data := by
      obtain ⟨ty, i⟩ := v
      cases ty
      · exact absurd rfl hv.1
      · exact mem_allTasks_client hv.2
      · exact mem_allTasks_pickup hv.2
      · exact mem_allTasks_pickup hv.2
    obtain ⟨g1, -, k1⟩ := group_spec h hg ha
    obtain ⟨g2, k2⟩ := ih (fun b hb => hns b (by simp [hb])) g1
    exact ⟨g2, fun b hb => k2 b (k1 b hb)⟩

/-! ## The loop -/

theorem perturbLoop_zero (data : ProblemData) (ce : CostEvaluator) (st : State) (perturbed : Bitset)
    (l : List Activity) : perturbLoop data ce st perturbed 0 l = .ok st := by
  cases l <;> rfl

theorem perturbLoop_spec {data : ProblemData} (hnv : 0 < data.numVehicles) (ce : CostEvaluator)
    (todo : List Activity) : ∀ (moves : Nat) (plan : List (List Activity)) (st : State)
    (perturbed : Bitset) (T : List Activity) , Good data plan st →
    (∀ a ∈ todo, a ∈ allTasks data) → Grouped data plan T perturbed [] →
    ∃ st' plan' T', perturbLoop data ce st perturbed moves todo = .ok st' ∧ Good data plan' st'
      ∧ Step data T' plan plan' st.space st'.space ∧ T'.Nodup ∧ (∀ a ∈ T', a ∈ allTasks data)
      ∧ (∀ a ∈ T', a ∉ T) ∧ T'.length ≤ moves
      ∧ (T'.length = moves ∨ ∀ a ∈ todo, a ∈ T ∨ a ∈ T') := by
  induction todo with
  | nil =>
    intro moves plan st perturbed T h _ _
    refine ⟨st, plan, [], ?_, h, Step.refl _ _ _, by simp, by simp, by simp, by simp, by simp⟩
    cases moves <;> rfl
  | cons u rest ih =>
    intro moves plan st perturbed T h hall hg
    cases moves with
    | zero => exact ⟨st, plan, [], rfl, h, Step.refl _ _ _, by simp, by simp, by simp, by simp, by simp⟩
    | succ moves =>
      have hu := hall u (by simp)
      obtain ⟨ns, hns, htask⟩ := h.space.neighbours u hu
      obtain ⟨g1, k1, -⟩ := group_spec h.clean.1 hg hu
      obtain ⟨g2, k2⟩ := groupAll_spec h.clean.1 ns htask g1
      generalize hp : groupAll st.sol (group st.sol perturbed [] u).1 (group st.sol perturbed [] u).2 ns
        = pg at g2 k2
      obtain ⟨perturbed2, groups2⟩ := pg
      dsimp only at g2 k2
      obtain ⟨st1, plan1, e1, gd1, s1⟩ := applyGroups_spec hnv ce groups2 (moves + 1) plan st h g2.nodup
        g2.tasks g2.routes
      have hloop : perturbLoop data ce st perturbed (moves + 1) (u :: rest)
          = perturbLoop data ce st1 perturbed2 (moves + 1 - (nodesOf groups2).length) rest := by
        conv => lhs; unfold perturbLoop
        simp only [hns, hp, e1]
      rw [hloop]
      rcases Nat.lt_or_ge (nodesOf groups2).length (moves + 1) with hlt | hge
      · -- all groups were applied
        rw [List.take_of_length_le (by omega)] at s1
        have hg1 : Grouped data plan1 (T ++ nodesOf groups2) perturbed2 [] := by
          refine ⟨g2.size, ?_, by simp [nodesOf], by simp [nodesOf], by simp [nodesOf], by simp⟩
          intro a ha
          rw [g2.bits a ha]
          simp [nodesOf]
        obtain ⟨st2, plan2, T2, e2, gd2, s2, n2, a2, f2, l2, c2⟩ :=
          ih (moves + 1 - (nodesOf groups2).length) plan1 st1 perturbed2 _ gd1
            (fun a ha => hall a (by simp [ha])) hg1
        refine ⟨st2, plan2, nodesOf groups2 ++ T2, e2, gd2, ?_, ?_, ?_, ?_, ?_, ?_⟩
        · exact s1.trans s2 g2.tasks a2 (fun x hx hx' => f2 x hx' (by simp [hx]))
        · rw [List.nodup_append]
          refine ⟨g2.nodup, n2, ?_⟩
          intro x hx y hy hxy
          subst hxy
          exact f2 x hy (by simp [hx])
        · intro a ha
          rcases List.mem_append.1 ha with ha | ha
          · exact g2.tasks a ha
          · exact a2 a ha
        · intro a ha
          rcases List.mem_append.1 ha with ha | ha
          · exact g2.fresh a ha
          · exact fun h' => f2 a ha (by simp [h'])
        · rw [List.length_append]; omega
        · rcases c2 with c2 | c2
          · left; rw [List.length_append]; omega
          · right
            intro a ha
            rcases List.mem_cons.1 ha with rfl | ha
            · rcases k1 with k1 | k1
              · exact .inl k1
              · exact .inr (by simp [k2 _ k1])
            · rcases c2 a ha with h' | h'
              · rcases List.mem_append.1 h' with h' | h'
                · exact .inl h'
                · exact .inr (by simp [h'])
              · exact .inr (by simp [h'])
      · -- no moves left
        have : moves + 1 - (nodesOf groups2).length = 0 := by omega
        rw [this, perturbLoop_zero]
        refine ⟨st1, plan1, (nodesOf groups2).take (moves + 1), rfl, gd1, s1, ?_, ?_, ?_, ?_, ?_⟩
        · exact g2.nodup.sublist (List.take_sublist _ _)
        · exact fun a ha => g2.tasks a (List.mem_of_mem_take ha)
        · exact fun a ha => g2.fresh a (List.mem_of_mem_take ha)
        · rw [List.length_take]; omega
        · left; rw [List.length_take]; omega

end PerturbationManager
end PyVRP
