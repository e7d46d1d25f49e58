import Verif.Lemmas.CheckedPerturb
import Verif.Lemmas.CheckedPrepared
/-!
# No assertion fails when a solution is repaired
-/
namespace PyVRP.Checked
open Spec
open SSol (Holds CleanBut)
open LState (Repaired)

variable {data : ProblemData} {ce : CostEvaluator} {plan : List (List Activity)}

theorem mark_at {st : LState} (h : SearchOk data plan st.sol)
    (hs : data.numClients + data.numShipments ≤ st.space.promising.size) {u : Activity} {node : Nat × Nat}
    (hp : st.sol.place u = some node) : mark st node = some (LState.mark st node) := by
  obtain ⟨i, p⟩ := node
  obtain ⟨h1, h2⟩ := LState.place_le h.clean.1 hp
  exact mark_eq h.clean.1 h.routes hs h1 h2

theorem repairClient_eq (hco : CostOk data ce) (hdist : DistancesOk data) (hnv : 0 < data.numVehicles)
    {st : LState} (h : LState.Sound data ce plan st) (hz : Sized data st) {c : Nat}
    (hc : c < data.numClients) (hn : ¬ Visited plan ⟨.client, c⟩) :
    repairClient data ce st c = some (LState.insertClient data ce st c) := by
  have hd := consistent hco
  have hnot : ∀ j, (⟨.client, c⟩ : Activity) ∉ plan.getD j [] := fun j hj => hn ⟨j, hj⟩
  unfold repairClient LState.insertClient
  simp only [Option.bind_eq_bind]
  rw [insertClient_eq hco hdist h.sol hnv h.space hc, Option.bind_some]
  rcases SSol.insertClient_spec (h.sol.clean.but (fun _ => False)) h.sol.routes hnv h.space ce hc hnot true
    with ⟨h1, -⟩ | ⟨i, xs, ys, s', hi, he, hins, hcl⟩
  · cases h1
  · have hil : i < plan.length := by rw [h.sol.clean.1.length]; exact hi
    have he' : (plan.set i (xs ++ ⟨.client, c⟩ :: ys)).getD i [] = xs ++ ⟨.client, c⟩ :: ys :=
      getD_set_self hil _
    have hplace := hcl.1.place hi (by simp) he'
    have hro := h.sol.routes i hi
    rw [he] at hro
    have hr' := PerturbationManager.routes_set h.sol.routes (hro.insert_client hc)
    obtain ⟨plan', hs, hok, hg⟩ := h.change (st' := { st with sol := s' }) hi
      (hcl.weaken (fun j _ hj => hj.resolve_left id)) (hro.insert_client hc) rfl
      (SearchSpace.Grows.refl _ _)
    have hv : Visited plan' ⟨.client, c⟩ := by
      rw [hs.visited (by simp), visited_set hil]
      left; simp
    obtain ⟨j, zs, ws, hj, hz'⟩ := PerturbationManager.visited_mem hok.sol.clean.1 hv
    have hpl2 := hok.sol.clean.1.place hj (by simp) hz'
    rw [hins]
    dsimp only
    rw [hplace, Option.bind_some]
    dsimp only
    rw [update_eq hd (st := { st with sol := s' }) hcl hr' (hz.sol _)
      (fun k hk => by injection hk with hk; rw [← hk]; exact hi) hi, Option.bind_some, hpl2, Option.bind_some,
      mark_at hok.sol hok.space.size hpl2]
    rfl

theorem repairShipment_eq (hco : CostOk data ce) (hdist : DistancesOk data) (hnv : 0 < data.numVehicles)
    {st : LState} (h : LState.Sound data ce plan st) (hz : Sized data st) {k : Nat}
    (hk : k < data.numShipments) (hn : ¬ Visited plan ⟨.pickup, k⟩) :
    repairShipment data ce st k = some (LState.insertShipment data ce st k) := by
  have hd := consistent hco
  have hfree : ∀ j, Phase.Free k (plan.getD j []) := by
    intro j b hb hcon
    have hj := h.sol.clean.1.lt_of_mem hb
    obtain ⟨xs, ms, ys, he, -, -⟩ := (h.sol.routes j hj).shipment_split (k := k) (by
      rcases hcon with rfl | rfl
      · exact .inl hb
      · exact .inr hb)
    exact hn ⟨j, by rw [he]; simp [pickupOf]⟩
  unfold repairShipment LState.insertShipment
  simp only [Option.bind_eq_bind]
  rw [insertShipment_eq hco hdist h.sol hnv h.space hk hfree, Option.bind_some]
  rcases SSol.insertShipment_spec (h.sol.clean.but (fun _ => False)) h.sol.routes hnv h.space ce hk hfree true
    with ⟨h1, -⟩ | ⟨i, xs, ms, ys, s', hi, he, hms, hins, hcl⟩
  · cases h1
  · have hil : i < plan.length := by rw [h.sol.clean.1.length]; exact hi
    have he' : (plan.set i (xs ++ pickupOf k :: (ms ++ deliveryOf k :: ys))).getD i []
        = xs ++ pickupOf k :: (ms ++ deliveryOf k :: ys) := getD_set_self hil _
    have he'' : (plan.set i (xs ++ pickupOf k :: (ms ++ deliveryOf k :: ys))).getD i []
        = (xs ++ pickupOf k :: ms) ++ deliveryOf k :: ys := by rw [he']; simp
    have hplace : s'.place ⟨.pickup, k⟩ = _ := hcl.1.place hi (by simp) he'
    have hplace' : s'.place ⟨.delivery, k⟩ = _ := hcl.1.place hi (by simp) he''
    have hro := h.sol.routes i hi
    have hf := hfree i
    rw [he] at hro hf
    have hro' := hro.insert_shipment hk hf hms
    have hr' := PerturbationManager.routes_set h.sol.routes hro'
    obtain ⟨plan', hs, hok, hg⟩ := h.change (st' := { st with sol := s' }) hi
      (hcl.weaken (fun j _ hj => hj.resolve_left id)) hro' rfl
      (SearchSpace.Grows.refl _ _)
    have hv : ∀ a, a = pickupOf k ∨ a = deliveryOf k → Visited plan' a := by
      rintro a (rfl | rfl)
      · rw [hs.visited (by simp [pickupOf]), visited_set hil]; left; simp
      · rw [hs.visited (by simp [deliveryOf]), visited_set hil]; left; simp
    obtain ⟨j, zs, ws, hj, hz1⟩ := PerturbationManager.visited_mem hok.sol.clean.1 (hv _ (.inl rfl))
    obtain ⟨j', zs', ws', hj', hz2⟩ := PerturbationManager.visited_mem hok.sol.clean.1 (hv _ (.inr rfl))
    have hpl := hok.sol.clean.1.place hj (by simp [pickupOf]) hz1
    have hpl' := hok.sol.clean.1.place hj' (by simp [deliveryOf]) hz2
    simp only [pickupOf, deliveryOf] at hpl hpl'
    obtain ⟨hm, hg2⟩ := hok.mark hpl
    rw [hins]
    dsimp only
    rw [hplace, Option.bind_some, hplace', Option.bind_some]
    dsimp only
    rw [update_eq hd (st := { st with sol := s' }) hcl hr' (hz.sol _)
      (fun k hk => by injection hk with hk; rw [← hk]; exact hi) hi, Option.bind_some, hpl, Option.bind_some,
      hpl', Option.bind_some, mark_at hok.sol hok.space.size hpl, Option.bind_some,
      mark_at hm.sol hm.space.size (u := ⟨.delivery, k⟩) hpl']
    rfl

theorem repairGroup_eq (hco : CostOk data ce) (hdist : DistancesOk data) (hnv : 0 < data.numVehicles)
    {done : List Activity} {st : LState} {counts : List Nat} (h : Repaired data ce done plan st counts)
    (hz : Sized data st) {c g : Nat} (hc : c < data.numClients)
    (hg : (data.client c).group = some g) :
    repairGroup data ce st counts c g = some (LState.repairGroup data ce st counts c g) := by
  have hd := consistent hco
  have hgl := LState.group_lt hd hc hg
  have hcount : counts[g]? = some (counts.getD g 0) := by
    rw [List.getD_eq_getElem?_getD, List.getElem?_eq_getElem (by rw [h.length]; exact hgl)]
    rfl
  have hkg := (mem_group hd hc hg).1
  have hvis := LState.place_isNone h.sound.sol.clean.1 (a := ⟨.client, c⟩) (by simp)
  unfold repairGroup LState.repairGroup
  simp only [Option.bind_eq_bind]
  rw [(group_eq hd hc hg).1, Option.bind_some, hcount, Option.bind_some]
  by_cases hcond : ((data.group g).required && counts.getD g 0 == 0) = true
  · rw [if_pos hcond, if_pos hcond]
    rw [Bool.and_eq_true, beq_iff_eq] at hcond
    have hn : ¬ Visited plan ⟨.client, c⟩ := by
      intro hv
      have h1 := h.tally g hgl
      rw [hcond.2] at h1
      have h2 : 0 < (data.group g).clients.countP (fun c => visits plan ⟨.client, c⟩) :=
        List.countP_pos_iff.2 ⟨c, hkg, visits_true hv⟩
      omega
    rw [ensure_true (Option.isNone_iff_eq_none.1 (hvis.2 hn)), Option.bind_some,
      repairClient_eq hco hdist hnv h.sound hz hc hn, Option.bind_some]
    generalize LState.insertClient data ce st c = x
    cases x <;> rfl
  · rw [if_neg hcond, if_neg hcond]
    cases hp : st.sol.place ⟨.client, c⟩ with
    | none => rfl
    | some node =>
      obtain ⟨i, p⟩ := node
      dsimp only
      by_cases hc1 : counts.getD g 0 > 1
      · rw [if_pos hc1, if_pos hc1, mark_at h.sound.sol h.sound.space.size hp, Option.bind_some]
        obtain ⟨hi, hnd, xs, ys, he, rfl⟩ := h.sound.sol.clean.1.place_some hp
        have hrem := (h.sound.sol.clean.but (fun _ => False)).remove hi he
        have hro := h.sound.sol.routes i hi
        rw [he] at hro
        have hr' := PerturbationManager.routes_set h.sound.sol.routes hro.remove_client
        have hsol : (LState.mark st (i, xs.length + 1)).sol = st.sol := rfl
        rw [hsol, removeAt_eq h.sound.sol.clean.1 hi he, Option.bind_some,
          update_eq hd (st := { LState.mark st (i, xs.length + 1) with sol := st.sol.removeAt i (xs.length + 1) })
            hrem hr' ((hz.mark _).sol _) (fun k hk => by injection hk with hk; rw [← hk]; exact hi) hi]
        rfl
      · rw [if_neg hc1, if_neg hc1]; rfl

theorem repair_eq (hco : CostOk data ce) (hdist : DistancesOk data) (hnv : 0 < data.numVehicles)
    {done : List Activity} {st : LState} {counts : List Nat} (h : Repaired data ce done plan st counts)
    (hz : Sized data st) {a : Activity} (ha : a ∈ allTasks data) :
    repair data ce st counts a = some (LState.repair data ce st counts a) := by
  have hd := consistent hco
  obtain ⟨ty, k⟩ := a
  rcases BinaryOp.mem_allTasks ha with ⟨rfl, hk⟩ | ⟨rfl, hk⟩
  · dsimp only at hk
    have hvis := LState.place_isNone h.sound.sol.clean.1 (a := ⟨.client, k⟩) (by simp)
    unfold repair LState.repair
    dsimp only
    simp only [Option.bind_eq_bind]
    rw [known_of (a := ⟨.client, k⟩) ⟨by simp, hk⟩, Option.bind_some, client_eq hk, Option.bind_some]
    by_cases hcond : ((st.sol.place ⟨.client, k⟩).isNone && (data.client k).required) = true
    · rw [if_pos hcond, if_pos hcond]
      rw [Bool.and_eq_true, hvis] at hcond
      rw [repairClient_eq hco hdist hnv h.sound hz hk hcond.1, Option.bind_some]
      generalize LState.insertClient data ce st k = x
      cases x <;> rfl
    · rw [if_neg hcond, if_neg hcond]
      cases hgrp : (data.client k).group with
      | none => rfl
      | some g =>
        dsimp only
        exact repairGroup_eq hco hdist hnv h hz hk hgrp
  · dsimp only at hk
    have hvis := LState.place_isNone h.sound.sol.clean.1 (a := ⟨.pickup, k⟩) (by simp)
    unfold repair LState.repair
    dsimp only
    simp only [Option.bind_eq_bind]
    rw [known_of (a := ⟨.pickup, k⟩) ⟨by simp, hk⟩, Option.bind_some, shipment_eq hk, Option.bind_some]
    by_cases hcond : ((st.sol.place ⟨.pickup, k⟩).isNone && (data.shipment k).required) = true
    · rw [if_pos hcond, if_pos hcond]
      rw [Bool.and_eq_true, hvis] at hcond
      rw [repairShipment_eq hco hdist hnv h.sound hz hk hcond.1, Option.bind_some]
      generalize LState.insertShipment data ce st k = x
      cases x <;> rfl
    · rw [if_neg hcond, if_neg hcond]; rfl

theorem repairAll_eq (hco : CostOk data ce) (hdist : DistancesOk data) (hnv : 0 < data.numVehicles)
    (hgn : ∀ g ∈ data.groups, g.clients.Nodup) : ∀ (todo done : List Activity)
    (plan : List (List Activity)) (st : LState) (counts : List Nat), (∀ a ∈ todo, a ∈ allTasks data) →
    Repaired data ce done plan st counts → Sized data st →
    repairAll data ce st counts todo = some (LState.repairAll data ce st counts todo)
  | [], _, _, _, _, _, _, _ => rfl
  | a :: todo, done, plan, st, counts, ha, h, hz => by
    obtain ⟨plan1, st1, c1, e1, r1, g1⟩ := LState.repair_spec (consistent hco) hnv hgn h (ha a (by simp))
    unfold repairAll LState.repairAll
    rw [repair_eq hco hdist hnv h hz (ha a (by simp)), e1, Option.bind_eq_bind, Option.bind_some]
    exact repairAll_eq hco hdist hnv hgn todo (done ++ [a]) plan1 st1 c1
      (fun b hb => ha b (by simp [hb])) r1 (repair_sized hz e1)

theorem owner_isSome {s : SSol} (h : Holds data plan s) {a : Activity} (ha : a.type ≠ .depot)
    (hv : Visited plan a) : (s.owner a).isSome = true := by
  obtain ⟨i, hi⟩ := hv
  rw [(h.owner _ ha i).2 hi]; rfl

theorem owner_eq {s : SSol} (h : SearchOk data plan s) (k : Nat) :
    s.owner ⟨.pickup, k⟩ = s.owner ⟨.delivery, k⟩ := by
  have hiff : ∀ i, (⟨.pickup, k⟩ : Activity) ∈ plan.getD i [] ↔ (⟨.delivery, k⟩ : Activity) ∈ plan.getD i [] := by
    intro i
    constructor
    · intro hm
      obtain ⟨xs, ms, ys, he, -, -⟩ := (h.routes i (h.clean.1.lt_of_mem hm)).shipment_split (k := k) (.inl hm)
      rw [he]; simp [deliveryOf]
    · intro hm
      obtain ⟨xs, ms, ys, he, -, -⟩ := (h.routes i (h.clean.1.lt_of_mem hm)).shipment_split (k := k) (.inr hm)
      rw [he]; simp [pickupOf]
  have hsame : ∀ i, s.owner ⟨.pickup, k⟩ = some i ↔ s.owner ⟨.delivery, k⟩ = some i := by
    intro i
    rw [h.clean.1.owner _ (by simp), h.clean.1.owner _ (by simp)]
    exact hiff i
  cases h1 : s.owner ⟨.pickup, k⟩ with
  | none =>
    cases h2 : s.owner ⟨.delivery, k⟩ with
    | none => rfl
    | some j => rw [(hsame j).2 h2] at h1; cases h1
  | some i => rw [(hsame i).1 h1]

theorem repaired_eq (hd : Consistent data) {order : List Activity} {st : LState} {counts : List Nat}
    (h : Repaired data ce order plan st counts) (hin : ∀ a ∈ allTasks data, a ∈ order) :
    repaired data st.sol counts = some () := by
  have hsz := h.sound.sol.clean.1.sized
  unfold repaired
  rw [ensure_true ⟨by rw [hsz.clients]; exact Nat.le_refl _, by rw [hsz.shipments]; exact Nat.le_refl _⟩,
    ensure_true, ensure_true h.length, ensure_true, ensure_true]
  · rfl
  · rw [List.all_eq_true]
    intro k hk
    have hk := List.mem_range.1 hk
    rw [owner_eq h.sound.sol k, Bool.and_eq_true]
    refine ⟨beq_self_eq_true _, ?_⟩
    rw [← owner_eq h.sound.sol k, Bool.or_eq_true]
    cases hr : (data.shipment k).required with
    | false => exact .inr rfl
    | true =>
      exact .inl (owner_isSome h.sound.sol.clean.1 (by simp)
        (h.shipments k (hin _ (mem_allTasks_pickup hk)) hr))
  · rw [List.all_eq_true]
    intro g hg
    have hgl := List.mem_range.1 hg
    have hget : data.groups[g]? = some (data.group g) := by
      show _ = some (data.groups.getD g _)
      rw [List.getD_eq_getElem?_getD, List.getElem?_eq_getElem hgl]
      rfl
    have hone : counts.getD g 0 ≤ 1 := by
      rcases Nat.eq_zero_or_pos (counts.getD g 0) with h0 | h0
      · omega
      · have ht := h.tally g hgl
        obtain ⟨m, hm, hv⟩ := List.countP_pos_iff.1 (by rw [← ht]; exact h0)
        exact h.one g hgl m hm (hin _ (mem_allTasks_client (LState.group_unique hd hgl hm).2))
          ((visits_iff _ _).1 hv)
    by_cases hr : (data.group g).required = true
    · rw [if_pos hr]
      obtain ⟨c, hc⟩ := List.exists_mem_of_ne_nil _ (hd.groupClients g _ hget).1
      have := h.some g hgl hr c hc (hin _ (mem_allTasks_client (LState.group_unique hd hgl hc).2))
      rw [beq_iff_eq]; omega
    · rw [if_neg hr]
      exact decide_eq_true hone
  · rw [List.all_eq_true]
    intro i hi
    have hi := List.mem_range.1 hi
    rw [Bool.or_eq_true]
    cases hr : (data.client i).required with
    | false => exact .inr rfl
    | true =>
      exact .inl (owner_isSome h.sound.sol.clean.1 (by simp)
        (h.clients i (hin _ (mem_allTasks_client hi)) hr))

theorem ensureStructuralFeasibility_eq (hco : CostOk data ce) (hdist : DistancesOk data)
    (hnv : 0 < data.numVehicles) (hgn : ∀ g ∈ data.groups, g.clients.Nodup) {st : LState}
    (h : LState.Sound data ce plan st) (hz : Sized data st) :
    ensureStructuralFeasibility data ce st = some (LState.ensureStructuralFeasibility data ce st) := by
  have hd := consistent hco
  obtain ⟨h1, h2⟩ := LState.groupCounts_spec h.sol.clean.1
  have h0 : Repaired data ce [] plan st (LState.groupCounts data st.sol) :=
    ⟨h, h1, h2, by simp, by simp, by simp, by simp⟩
  have hall : ∀ a ∈ st.space.activityOrder, a ∈ allTasks data := fun a ha => h.space.order.mem_iff.1 ha
  obtain ⟨plan', st', counts, e, r, g⟩ := LState.repairAll_spec hd hnv hgn st.space.activityOrder [] plan st _
    hall h0
  rw [List.nil_append] at r
  unfold ensureStructuralFeasibility LState.ensureStructuralFeasibility
  rw [ensure_true, Option.bind_eq_bind, Option.bind_some,
    repairAll_eq hco hdist hnv hgn _ [] plan st _ hall h0 hz, Option.bind_eq_bind, Option.bind_some, e]
  · dsimp only
    rw [repaired_eq hd r (fun a ha => h.space.order.mem_iff.2 ha)]
    rfl
  · rw [List.all_eq_true]
    intro grp hgrp
    rw [List.all_eq_true]
    intro c hc
    obtain ⟨gi, hlt, rfl⟩ := List.mem_iff_getElem.1 hgrp
    have hgeq : data.group gi = data.groups[gi] := by
      show data.groups.getD gi _ = _
      rw [List.getD_eq_getElem?_getD, List.getElem?_eq_getElem hlt]
      rfl
    rw [← hgeq] at hc
    rw [h.sol.clean.1.sized.clients]
    exact decide_eq_true (LState.group_unique hd hlt hc).2

end PyVRP.Checked
