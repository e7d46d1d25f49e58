import Verif.Lemmas.Int64Update
import Verif.Lemmas.CheckedRun
/-!
# Perturbing a solution does not overflow
-/
namespace PyVRP.Checked64
open Spec Checked
open SSol (Holds CleanBut)
open PerturbationManager (State Groups Grouped nodesOf bitAt)

variable {data : ProblemData} {ce : CostEvaluator} {plan : List (List Activity)}
  {B M : Int} {N : Nat} {K : Int}

theorem refresh_eq (hx : Ctx data ce B M N K) {s : SSol} (h : Holds data plan s)
    (hr : ∀ k, k < data.numVehicles →
      RouteOk data (data.vehicleType (vehTypeAt data k)) (plan.getD k [])) {i : Nat}
    (hi : i < data.numVehicles) : refresh data s i = some (s.updateRoute data i) := by
  unfold refresh
  rw [holds_route h hi, Option.bind_eq_bind, Option.bind_some, readable_eq (consistent hx.cost) h hr hi,
    Option.bind_eq_bind, Option.bind_some]
  have hlt := vehTypeAt_lt data hi
  exact updated_eq hx h.sized hi (h.visits i hi) (by rw [h.types i hi]; exact hlt)
    (hx.length_le hlt (hr i hi) (fun a ha => h.once a ha i))

theorem perturbInsert_eq (hx : Ctx data ce B M N K) (hnv : 0 < data.numVehicles)
    {st : State} (h : PerturbationManager.Good data plan st) {a : Activity} (ha : a ∈ allTasks data)
    (hv : ¬ Visited plan a) :
    perturbInsert data ce st a = some (PerturbationManager.insert data ce st a) := by
  have hnot : ∀ j, a ∉ plan.getD j [] := fun j hj => hv ⟨j, hj⟩
  have hb := h.clean.but (fun _ => False)
  unfold perturbInsert PerturbationManager.insert
  simp only [Option.bind_eq_bind]
  rcases allTasks_cases ha with ⟨c, hc, rfl⟩ | ⟨k, hk, rfl⟩
  · rw [ensure_true (by simp [Activity.isClient]), Option.bind_some,
      ensure_true (h.clean.1.place_none hnot), Option.bind_some,
      if_pos (by simp [Activity.isClient]), if_pos (by simp [Activity.isClient]),
      ref_eq (insertClient_ref hx.env (hx.solBd (good_ok h)) st.space c true)
        (Checked.insertClient_eq hx.cost hx.dist (good_ok h) hnv h.space hc true), Option.bind_some]
    rcases SSol.insertClient_spec hb h.routes hnv h.space ce hc hnot true with
      ⟨h1, -⟩ | ⟨i, xs, ys, s', hi, he, hins, hcl⟩
    · cases h1
    · have hil : i < plan.length := by rw [h.clean.1.length]; exact hi
      have he' : (plan.set i (xs ++ ⟨.client, c⟩ :: ys)).getD i [] = xs ++ ⟨.client, c⟩ :: ys :=
        getD_set_self hil _
      have hplace := hcl.1.place hi (by simp) he'
      have hro := h.routes i hi
      rw [he] at hro
      have hr' := PerturbationManager.routes_set h.routes (hro.insert_client hc)
      have hcl' := hcl.update hi
      rw [hins]
      dsimp only
      rw [hplace, Option.bind_some]
      dsimp only
      rw [refresh_eq hx hcl.1 hr' hi, Option.bind_some,
        markNode_eq hcl'.1 hr' h.space.size hi (by rw [he']; simp)]
      rfl
  · rw [ensure_true (by simp [Activity.isPickup, pickupOf]), Option.bind_some,
      ensure_true (h.clean.1.place_none hnot), Option.bind_some,
      if_neg (by simp [Activity.isClient, pickupOf]), if_neg (by simp [Activity.isClient, pickupOf])]
    have hfree := free_of_not h hnot
    rw [show (pickupOf k).idx = k from rfl,
      ref_eq (insertShipment_ref hx.env (hx.solBd (good_ok h)) st.space k true)
        (Checked.insertShipment_eq hx.cost hx.dist (good_ok h) hnv h.space hk hfree true), Option.bind_some]
    rcases SSol.insertShipment_spec hb h.routes hnv h.space ce hk hfree true with
      ⟨h1, -⟩ | ⟨i, xs, ms, ys, s', hi, he, hms, hins, hcl⟩
    · cases h1
    · have hil : i < plan.length := by rw [h.clean.1.length]; exact hi
      have he' : (plan.set i (xs ++ pickupOf k :: (ms ++ deliveryOf k :: ys))).getD i []
          = xs ++ pickupOf k :: (ms ++ deliveryOf k :: ys) := getD_set_self hil _
      have he'' : (plan.set i (xs ++ pickupOf k :: (ms ++ deliveryOf k :: ys))).getD i []
          = (xs ++ pickupOf k :: ms) ++ deliveryOf k :: ys := by rw [he']; simp
      have hplace : s'.place ⟨.pickup, k⟩ = _ := hcl.1.place hi (by simp [pickupOf]) he'
      have hplace' : s'.place ⟨.delivery, k⟩ = _ := hcl.1.place hi (by simp [deliveryOf]) he''
      have hro := h.routes i hi
      have hf := hfree i
      rw [he] at hro hf
      have hr' := PerturbationManager.routes_set h.routes (hro.insert_shipment hk hf hms)
      have hcl' := hcl.update hi
      have hz := markNode_size hcl'.1 h.space.size hi (hr' i hi).inRange (pos := xs.length + 1)
        (by rw [he']; simp)
      rw [hins]
      dsimp only
      rw [hplace, Option.bind_some, hplace', Option.bind_some]
      dsimp only
      rw [ensure_true rfl, Option.bind_some, refresh_eq hx hcl.1 hr' hi, Option.bind_some,
        markNode_eq hcl'.1 hr' h.space.size hi (by rw [he']; simp), Option.bind_some,
        markNode_eq hcl'.1 hr' (by rw [hz]; exact h.space.size) hi (by rw [he'']; simp; omega)]
      rfl

theorem perturbRemove_eq (hx : Ctx data ce B M N K) {st : State} (h : PerturbationManager.Good data plan st)
    {a : Activity} (ha : a ∈ allTasks data) (hv : Visited plan a) :
    perturbRemove data st a = some (PerturbationManager.remove data st a) := by
  obtain ⟨i, xs, ys, hi, he⟩ := PerturbationManager.visited_mem h.clean.1 hv
  have hnd := (allTasks_task ha).1
  have hplace := h.clean.1.place hi hnd he
  have hro := h.routes i hi
  have hil : i < plan.length := by rw [h.clean.1.length]; exact hi
  have hrem := (h.clean.but (fun _ => False)).remove hi he
  have hpos : xs.length + 1 ≤ (plan.getD i []).length := by rw [he]; simp
  unfold perturbRemove PerturbationManager.remove
  simp only [Option.bind_eq_bind]
  rw [ensure_true (by
    rcases allTasks_cases ha with ⟨c, hc, rfl⟩ | ⟨k, hk, rfl⟩
    · exact .inl rfl
    · exact .inr rfl), Option.bind_some, hplace, Option.bind_some,
    markNode_eq h.clean.1 h.routes h.space.size hi hpos, Option.bind_some]
  dsimp only
  rw [removeAt_eq h.clean.1 hi he, Option.bind_some]
  rcases allTasks_cases ha with ⟨c, hc, rfl⟩ | ⟨k, hk, rfl⟩
  · rw [if_neg (by simp [Activity.isPickup]), if_neg (by simp [Activity.isPickup])]
    rw [he] at hro
    rw [refresh_eq hx hrem.1 (PerturbationManager.routes_set h.routes hro.remove_client) hi]
    rfl
  · rw [if_pos (by simp [Activity.isPickup, pickupOf]), if_pos (by simp [Activity.isPickup, pickupOf])]
    obtain ⟨xs', ms, zs, he', hms, hfree⟩ := hro.shipment_split (k := k) (.inl (by rw [he]; simp))
    have hxs : xs' = xs ∧ ms ++ deliveryOf k :: zs = ys := by
      have := he.symm.trans he'
      have hon := h.clean.1.once' hnd he
      have hon' := h.clean.1.once' hnd he'
      rcases List.append_eq_append_iff.1 this with ⟨l, h1, h2⟩ | ⟨l, h1, h2⟩
      · cases l with
        | nil => simp at h1 h2; exact ⟨h1, h2.symm⟩
        | cons y l =>
          simp at h2
          exact absurd (by rw [h1, h2.1]; simp) hon'.1
      · cases l with
        | nil => simp at h1 h2; exact ⟨h1.symm, h2⟩
        | cons y l =>
          simp at h2
          exact absurd (by rw [h1, h2.1]; simp) hon.1
    obtain ⟨rfl, rfl⟩ := hxs
    have he2 : (plan.set i (xs' ++ (ms ++ deliveryOf k :: zs))).getD i []
        = (xs' ++ ms) ++ deliveryOf k :: zs := by
      rw [getD_set_self hil]; simp
    have hplace2 : (st.sol.removeAt i (xs'.length + 1)).place ⟨.delivery, (pickupOf k).idx⟩ = _ :=
      hrem.1.place hi (by simp [deliveryOf]) he2
    have hrem2 := hrem.remove hi he2
    rw [List.set_set] at hrem2
    have hro' := hro
    rw [he] at hro'
    have hz := markNode_size h.clean.1 h.space.size hi hro.inRange hpos
    rw [hplace2, Option.bind_some]
    dsimp only
    rw [ensure_true rfl, Option.bind_some, markNode_in hrem.1 (by rw [hz]; exact h.space.size) hi,
      Option.bind_some, removeAt_eq hrem.1 hi he2, Option.bind_some,
      refresh_eq hx hrem2.1 (PerturbationManager.routes_set h.routes (hro'.remove_shipment hfree)) hi]
    · rfl
    · intro b hb
      rw [he2] at hb
      refine hro'.inRange b ?_
      simp only [List.mem_append, List.mem_cons] at hb ⊢
      tauto
    · rw [he2]; simp; omega

theorem applyNodes_eq (hx : Ctx data ce B M N K) (hnv : 0 < data.numVehicles)
    (r : Option Nat) (nodes : List Activity) : ∀ (moves : Nat) (plan : List (List Activity))
    (st : State), PerturbationManager.Good data plan st → nodes.Nodup →
    (∀ a ∈ nodes, a ∈ allTasks data) → (∀ a ∈ nodes, r.isSome = true ↔ Visited plan a) →
    applyNodes data ce r st moves nodes
      = some (PerturbationManager.applyNodes data ce r st moves nodes) := by
  induction nodes with
  | nil =>
    intro moves plan st h _ _ _
    cases moves <;> rfl
  | cons a rest ih =>
    intro moves plan st h hnd hall hroute
    cases moves with
    | zero => rfl
    | succ moves =>
      have ha := hall a (by simp)
      have hone : ∃ st1 plan1, (if r.isSome then PerturbationManager.remove data st a
            else PerturbationManager.insert data ce st a) = .ok st1
          ∧ PerturbationManager.Good data plan1 st1
          ∧ PerturbationManager.Step data [a] plan plan1 st.space st1.space
          ∧ (if r.isSome then perturbRemove data st a else perturbInsert data ce st a)
            = some (.ok st1) := by
        by_cases hr : r.isSome = true
        · rw [if_pos hr, if_pos hr]
          have hv := (hroute a (by simp)).1 hr
          obtain ⟨st1, plan1, e1, g1, s1⟩ := PerturbationManager.remove_spec h ha hv
          exact ⟨st1, plan1, e1, g1, s1, by rw [perturbRemove_eq hx h ha hv, e1]⟩
        · rw [if_neg hr, if_neg hr]
          have hv := fun hv => hr ((hroute a (by simp)).2 hv)
          obtain ⟨st1, plan1, e1, g1, s1⟩ := PerturbationManager.insert_spec hnv ce h ha hv
          exact ⟨st1, plan1, e1, g1, s1, by rw [perturbInsert_eq hx hnv h ha hv, e1]⟩
      obtain ⟨st1, plan1, e1, g1, s1, c1⟩ := hone
      have hna : a ∉ rest := (List.nodup_cons.1 hnd).1
      unfold applyNodes PerturbationManager.applyNodes
      rw [c1, e1, Option.bind_eq_bind, Option.bind_some]
      exact ih moves plan1 st1 g1 (List.nodup_cons.1 hnd).2
        (fun b hb => hall b (by simp [hb])) (fun b hb => by
          rw [hroute b (by simp [hb]), s1.visited]
          intro x hx hs
          rw [List.mem_singleton.1 hx] at hs
          have := allTasks_same ha (hall b (by simp [hb])) hs
          subst this; exact hna hb)

theorem applyGroups_eq (hx : Ctx data ce B M N K) (hnv : 0 < data.numVehicles)
    (groups : Groups) : ∀ (moves : Nat) (plan : List (List Activity)) (st : State),
    PerturbationManager.Good data plan st → (nodesOf groups).Nodup →
    (∀ a ∈ nodesOf groups, a ∈ allTasks data) →
    (∀ g ∈ groups, ∀ a ∈ g.2, g.1.isSome = true ↔ Visited plan a) →
    applyGroups data ce st moves groups
      = some (PerturbationManager.applyGroups data ce st moves groups) := by
  induction groups with
  | nil => intro moves plan st _ _ _ _; rfl
  | cons g rest ih =>
    intro moves plan st h hnd hall hroute
    obtain ⟨r, nodes⟩ := g
    have hxns : nodesOf ((r, nodes) :: rest) = nodes ++ nodesOf rest := rfl
    rw [hxns] at hnd hall
    obtain ⟨hnd1, hnd2, hdis⟩ := List.nodup_append.1 hnd
    obtain ⟨st1, plan1, e1, g1, s1⟩ := PerturbationManager.applyNodes_spec hnv ce r nodes moves plan st h
      hnd1 (fun a ha => hall a (by simp [ha])) (hroute (r, nodes) (by simp))
    have hmem : ∀ g ∈ rest, ∀ a ∈ g.2, a ∈ nodesOf rest := by
      intro g hg a ha
      exact List.mem_flatten.2 ⟨g.2, List.mem_map_of_mem hg, ha⟩
    unfold applyGroups PerturbationManager.applyGroups
    rw [applyNodes_eq hx hnv r nodes moves plan st h hnd1 (fun a ha => hall a (by simp [ha]))
      (hroute (r, nodes) (by simp)), Option.bind_eq_bind, Option.bind_some, e1]
    exact ih (moves - nodes.length) plan1 st1 g1 hnd2
      (fun a ha => hall a (by simp [ha])) (fun g hg a ha => by
        rw [hroute g (by simp [hg]) a ha, s1.visited]
        intro x hx hs
        have hxn := List.mem_of_mem_take hx
        have hra := hmem g hg a ha
        have := allTasks_same (hall x (by simp [hxn])) (hall a (by simp [hra])) hs
        subst this; exact hdis x hxn x hra rfl)

theorem perturbLoop_eq (hx : Ctx data ce B M N K) (hnv : 0 < data.numVehicles)
    (todo : List Activity) : ∀ (moves : Nat) (plan : List (List Activity)) (st : State)
    (perturbed : Bitset) (T : List Activity), PerturbationManager.Good data plan st →
    (∀ a ∈ todo, a ∈ allTasks data) → Grouped data plan T perturbed [] →
    perturbLoop data ce st perturbed moves todo
      = some (PerturbationManager.perturbLoop data ce st perturbed moves todo) := by
  induction todo with
  | nil =>
    intro moves plan st perturbed T _ _ _
    cases moves <;> rfl
  | cons u rest ih =>
    intro moves plan st perturbed T h hall hg
    cases moves with
    | zero => rfl
    | succ moves =>
      have hu := hall u (by simp)
      obtain ⟨ns, hns, htask⟩ := h.space.neighbours u hu
      obtain ⟨g1, k1, -⟩ := PerturbationManager.group_spec h.clean.1 hg hu
      obtain ⟨g2, k2⟩ := PerturbationManager.groupAll_spec h.clean.1 ns htask g1
      unfold perturbLoop PerturbationManager.perturbLoop
      simp only [Option.bind_eq_bind]
      rw [perturbGroup_eq h.clean.1 hg hu, Option.bind_some, hns]
      dsimp only
      rw [groupAll_eq h.clean.1 ns htask g1, Option.bind_some]
      generalize PerturbationManager.groupAll st.sol
        (PerturbationManager.group st.sol perturbed [] u).1
        (PerturbationManager.group st.sol perturbed [] u).2 ns = pg at g2 k2 ⊢
      obtain ⟨perturbed2, groups2⟩ := pg
      dsimp only at g2 k2 ⊢
      obtain ⟨st1, plan1, e1, gd1, s1⟩ := PerturbationManager.applyGroups_spec hnv ce groups2 (moves + 1)
        plan st h g2.nodup g2.tasks g2.routes
      rw [applyGroups_eq hx hnv groups2 (moves + 1) plan st h g2.nodup g2.tasks g2.routes,
        Option.bind_some, e1]
      dsimp only
      refine ih _ plan1 st1 perturbed2 (T ++ nodesOf groups2) gd1 (fun a ha => hall a (by simp [ha])) ?_
      refine ⟨g2.size, ?_, by simp [nodesOf], by simp [nodesOf], by simp [nodesOf], by simp⟩
      intro a ha
      rw [g2.bits a ha]
      simp [nodesOf]

theorem perturb_eq (hx : Ctx data ce B M N K) (hnv : 0 < data.numVehicles)
    (m : PerturbationManager) {s : SSol} (h : SearchOk data plan s) {space : SearchSpace}
    (hspace : SpaceOk data space) :
    perturb data ce m s space = some (m.perturb data ce s space)
    ∧ ∃ s' space' plan', m.perturb data ce s space = .ok ⟨s', space'⟩ ∧ SearchOk data plan' s'
      ∧ SpaceOk data space' ∧ space'.neighbours = space.neighbours := by
  unfold perturb PerturbationManager.perturb
  by_cases h0 : m.numPerturbations = 0
  · rw [if_pos h0, if_pos h0]
    exact ⟨rfl, _, _, _, rfl, h, hspace, rfl⟩
  · rw [if_neg h0, if_neg h0]
    have hsp : SpaceOk data space.unmarkAllPromising := by
      refine ⟨?_, hspace.order, hspace.types, hspace.neighbours⟩
      have := hspace.size
      simpa [SearchSpace.unmarkAllPromising, Bitset.size, Bitset.reset] using this
    have hsized := h.clean.1.sized
    have hgrp : PerturbationManager.Grouped data plan []
        (Bitset.new (s.clients.length + s.shipments.length)) [] := by
      rw [hsized.clients, hsized.shipments]
      refine ⟨?_, ?_, by simp [PerturbationManager.nodesOf], by simp [PerturbationManager.nodesOf],
        by simp [PerturbationManager.nodesOf], by simp⟩
      · exact (C34_new _).1
      · intro a ha
        have h1 := (C34_new (data.numClients + data.numShipments)).2.2.2 (PerturbationManager.bitAt data a)
        have h2 := (C34_new (data.numClients + data.numShipments)).1
        have h3 := PerturbationManager.bitAt_lt ha
        rw [if_pos (by omega)] at h1
        unfold Bitset.getItem at h1
        rw [if_neg (by omega)] at h1
        injection h1 with h1
        rw [h1]
        simp [PerturbationManager.nodesOf]
    have hall : ∀ a ∈ space.unmarkAllPromising.activityOrder, a ∈ allTasks data :=
      fun a ha => hsp.order.mem_iff.1 ha
    obtain ⟨st', plan', T, e, g, s', -⟩ := PerturbationManager.perturbLoop_spec hnv ce
      space.unmarkAllPromising.activityOrder m.numPerturbations _ ⟨s, space.unmarkAllPromising⟩
      (Bitset.new (s.clients.length + s.shipments.length)) [] ⟨h.clean, h.routes, hsp⟩ hall hgrp
    refine ⟨perturbLoop_eq hx hnv _ _ plan _ _ [] ⟨h.clean, h.routes, hsp⟩ hall hgrp, ?_⟩
    obtain ⟨sol', space'⟩ := st'
    exact ⟨sol', space', plan', e, ⟨g.clean, g.routes⟩, g.space, s'.grows.neighbours⟩

end PyVRP.Checked64
