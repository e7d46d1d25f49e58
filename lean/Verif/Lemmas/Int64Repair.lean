import Verif.Lemmas.Int64Update
/-!
# Repairing a solution does not overflow
-/
namespace PyVRP.Checked64
open Spec Checked
open SSol (Holds CleanBut)
open LState (Repaired)

variable {data : ProblemData} {ce : CostEvaluator} {plan : List (List Activity)}
  {B M : Int} {N : Nat} {K : Int}

theorem insertClient_sized {st st' : LState} (h : Sized data K st) {c : Nat}
    (e : LState.insertClient data ce st c = .ok st') : Sized data K st' := by
  unfold LState.insertClient at e
  split at e
  · cases e
  · split at e
    · cases e
    · dsimp only at e
      split at e
      · cases e
      · injection e with e
        rw [← e]
        exact ((h.sol _).update _ _).mark _

theorem insertShipment_sized {st st' : LState} (h : Sized data K st) {c : Nat}
    (e : LState.insertShipment data ce st c = .ok st') : Sized data K st' := by
  unfold LState.insertShipment at e
  split at e
  · cases e
  · split at e
    · dsimp only at e
      split at e
      · injection e with e
        rw [← e]
        exact (((h.sol _).update _ _).mark _).mark _
      · cases e
    · cases e

theorem repairGroup_sized {st st' : LState} (h : Sized data K st) {counts counts' : List Nat}
    {c g : Nat} (e : LState.repairGroup data ce st counts c g = .ok (st', counts')) : Sized data K st' := by
  unfold LState.repairGroup at e
  split at e
  · split at e
    · cases e
    · rename_i h1
      injection e with e; injection e with e e2
      rw [← e]
      exact insertClient_sized h h1
  · split at e
    · injection e with e; injection e with e e2
      rw [← e]; exact h
    · split at e
      · dsimp only at e
        injection e with e; injection e with e e2
        rw [← e]
        exact ((h.mark _).sol _).update _ _
      · injection e with e; injection e with e e2
        rw [← e]; exact h

theorem repair_sized {st st' : LState} (h : Sized data K st) {counts counts' : List Nat}
    {a : Activity} (e : LState.repair data ce st counts a = .ok (st', counts')) : Sized data K st' := by
  unfold LState.repair at e
  split at e
  · split at e
    · split at e
      · cases e
      · rename_i h1
        injection e with e; injection e with e e2
        rw [← e]
        exact insertClient_sized h h1
    · split at e
      · injection e with e; injection e with e e2
        rw [← e]; exact h
      · exact repairGroup_sized h e
  · split at e
    · split at e
      · cases e
      · rename_i h1
        injection e with e; injection e with e e2
        rw [← e]
        exact insertShipment_sized h h1
    · injection e with e; injection e with e e2
      rw [← e]; exact h
  · injection e with e; injection e with e e2
    rw [← e]; exact h

theorem repairAll_sized : ∀ (as : List Activity) {st st' : LState} {counts counts' : List Nat},
    Sized data K st → LState.repairAll data ce st counts as = .ok (st', counts') → Sized data K st'
  | [], st, st', counts, counts', h, e => by
    injection e with e; injection e with e e2
    rw [← e]; exact h
  | a :: as, st, st', counts, counts', h, e => by
    unfold LState.repairAll at e
    split at e
    · cases e
    · rename_i h1
      exact repairAll_sized as (repair_sized h h1) e

theorem repairClient_eq (hx : Ctx data ce B M N K) (hnv : 0 < data.numVehicles)
    {st : LState} (h : LState.Sound data ce plan st) (hz : Sized data K st) {c : Nat}
    (hc : c < data.numClients) (hn : ¬ Visited plan ⟨.client, c⟩) :
    repairClient data ce st c = some (LState.insertClient data ce st c) := by
  have hd := consistent hx.cost
  have hnot : ∀ j, (⟨.client, c⟩ : Activity) ∉ plan.getD j [] := fun j hj => hn ⟨j, hj⟩
  unfold repairClient LState.insertClient
  simp only [Option.bind_eq_bind]
  rw [ref_eq (insertClient_ref hx.env (hx.solBd h.sol) st.space c true)
    (Checked.insertClient_eq hx.cost hx.dist h.sol hnv h.space hc true), Option.bind_some]
  rcases SSol.insertClient_spec (h.sol.clean.but (fun _ => False)) h.sol.routes hnv h.space ce hc hnot true
    with ⟨h1, -⟩ | ⟨i, xs, ys, s', hi, he, hins, hcl⟩
  · cases h1
  · have hil : i < plan.length := by rw [h.sol.clean.1.length]; exact hi
    have he' : (plan.set i (xs ++ ⟨.client, c⟩ :: ys)).getD i [] = xs ++ ⟨.client, c⟩ :: ys :=
      getD_set_self hil _
    have hplace := hcl.1.place hi (by simp) he'
    have hro := h.sol.routes i hi
    rw [he] at hro
    have hr' := PerturbationManager.routes_set h.sol.routes (hro.insert_client hc)
    obtain ⟨plan', hs, hok, hg⟩ := h.change (st' := { st with sol := s' }) hi
      (hcl.weaken (fun j _ hj => hj.resolve_left id)) (hro.insert_client hc) rfl
      (SearchSpace.Grows.refl _ _)
    have hv : Visited plan' ⟨.client, c⟩ := by
      rw [hs.visited (by simp), visited_set hil]
      left; simp
    obtain ⟨j, zs, ws, hj, hz'⟩ := PerturbationManager.visited_mem hok.sol.clean.1 hv
    have hpl2 := hok.sol.clean.1.place hj (by simp) hz'
    rw [hins]
    dsimp only
    rw [hplace, Option.bind_some]
    dsimp only
    rw [update_eq hx (st := { st with sol := s' }) hcl hr' (hz.sol _)
      (fun k hk => by injection hk with hk; rw [← hk]; exact hi) hi, Option.bind_some, hpl2, Option.bind_some,
      mark_at hok.sol hok.space.size hpl2]
    rfl

theorem repairShipment_eq (hx : Ctx data ce B M N K) (hnv : 0 < data.numVehicles)
    {st : LState} (h : LState.Sound data ce plan st) (hz : Sized data K st) {k : Nat}
    (hk : k < data.numShipments) (hn : ¬ Visited plan ⟨.pickup, k⟩) :
    repairShipment data ce st k = some (LState.insertShipment data ce st k) := by
  have hd := consistent hx.cost
  have hfree : ∀ j, Phase.Free k (plan.getD j []) := by
    intro j b hb hxn
    have hj := h.sol.clean.1.lt_of_mem hb
    obtain ⟨xs, ms, ys, he, -, -⟩ := (h.sol.routes j hj).shipment_split (k := k) (by
      rcases hxn with rfl | rfl
      · exact .inl hb
      · exact .inr hb)
    exact hn ⟨j, by rw [he]; simp [pickupOf]⟩
  unfold repairShipment LState.insertShipment
  simp only [Option.bind_eq_bind]
  rw [ref_eq (insertShipment_ref hx.env (hx.solBd h.sol) st.space k true)
    (Checked.insertShipment_eq hx.cost hx.dist h.sol hnv h.space hk hfree true), Option.bind_some]
  rcases SSol.insertShipment_spec (h.sol.clean.but (fun _ => False)) h.sol.routes hnv h.space ce hk hfree true
    with ⟨h1, -⟩ | ⟨i, xs, ms, ys, s', hi, he, hms, hins, hcl⟩
  · cases h1
  · have hil : i < plan.length := by rw [h.sol.clean.1.length]; exact hi
    have he' : (plan.set i (xs ++ pickupOf k :: (ms ++ deliveryOf k :: ys))).getD i []
        = xs ++ pickupOf k :: (ms ++ deliveryOf k :: ys) := getD_set_self hil _
    have he'' : (plan.set i (xs ++ pickupOf k :: (ms ++ deliveryOf k :: ys))).getD i []
        = (xs ++ pickupOf k :: ms) ++ deliveryOf k :: ys := by rw [he']; simp
    have hplace : s'.place ⟨.pickup, k⟩ = _ := hcl.1.place hi (by simp) he'
    have hplace' : s'.place ⟨.delivery, k⟩ = _ := hcl.1.place hi (by simp) he''
    have hro := h.sol.routes i hi
    have hf := hfree i
    rw [he] at hro hf
    have hro' := hro.insert_shipment hk hf hms
    have hr' := PerturbationManager.routes_set h.sol.routes hro'
    obtain ⟨plan', hs, hok, hg⟩ := h.change (st' := { st with sol := s' }) hi
      (hcl.weaken (fun j _ hj => hj.resolve_left id)) hro' rfl
      (SearchSpace.Grows.refl _ _)
    have hv : ∀ a, a = pickupOf k ∨ a = deliveryOf k → Visited plan' a := by
      rintro a (rfl | rfl)
      · rw [hs.visited (by simp [pickupOf]), visited_set hil]; left; simp
      · rw [hs.visited (by simp [deliveryOf]), visited_set hil]; left; simp
    obtain ⟨j, zs, ws, hj, hz1⟩ := PerturbationManager.visited_mem hok.sol.clean.1 (hv _ (.inl rfl))
    obtain ⟨j', zs', ws', hj', hz2⟩ := PerturbationManager.visited_mem hok.sol.clean.1 (hv _ (.inr rfl))
    have hpl := hok.sol.clean.1.place hj (by simp [pickupOf]) hz1
    have hpl' := hok.sol.clean.1.place hj' (by simp [deliveryOf]) hz2
    simp only [pickupOf, deliveryOf] at hpl hpl'
    obtain ⟨hm, hg2⟩ := hok.mark hpl
    rw [hins]
    dsimp only
    rw [hplace, Option.bind_some, hplace', Option.bind_some]
    dsimp only
    rw [update_eq hx (st := { st with sol := s' }) hcl hr' (hz.sol _)
      (fun k hk => by injection hk with hk; rw [← hk]; exact hi) hi, Option.bind_some, hpl, Option.bind_some,
      hpl', Option.bind_some, mark_at hok.sol hok.space.size hpl, Option.bind_some,
      mark_at hm.sol hm.space.size (u := ⟨.delivery, k⟩) hpl']
    rfl

theorem repairGroup_eq (hx : Ctx data ce B M N K) (hnv : 0 < data.numVehicles)
    {done : List Activity} {st : LState} {counts : List Nat} (h : Repaired data ce done plan st counts)
    (hz : Sized data K st) {c g : Nat} (hc : c < data.numClients)
    (hg : (data.client c).group = some g) :
    repairGroup data ce st counts c g = some (LState.repairGroup data ce st counts c g) := by
  have hd := consistent hx.cost
  have hgl := LState.group_lt hd hc hg
  have hxunt : counts[g]? = some (counts.getD g 0) := by
    rw [List.getD_eq_getElem?_getD, List.getElem?_eq_getElem (by rw [h.length]; exact hgl)]
    rfl
  have hkg := (mem_group hd hc hg).1
  have hvis := LState.place_isNone h.sound.sol.clean.1 (a := ⟨.client, c⟩) (by simp)
  unfold repairGroup LState.repairGroup
  simp only [Option.bind_eq_bind]
  rw [(group_eq hd hc hg).1, Option.bind_some, hxunt, Option.bind_some]
  by_cases hxnd : ((data.group g).required && counts.getD g 0 == 0) = true
  · rw [if_pos hxnd, if_pos hxnd]
    rw [Bool.and_eq_true, beq_iff_eq] at hxnd
    have hn : ¬ Visited plan ⟨.client, c⟩ := by
      intro hv
      have h1 := h.tally g hgl
      rw [hxnd.2] at h1
      have h2 : 0 < (data.group g).clients.countP (fun c => visits plan ⟨.client, c⟩) :=
        List.countP_pos_iff.2 ⟨c, hkg, visits_true hv⟩
      omega
    rw [ensure_true (Option.isNone_iff_eq_none.1 (hvis.2 hn)), Option.bind_some,
      repairClient_eq hx hnv h.sound hz hc hn, Option.bind_some]
    generalize LState.insertClient data ce st c = x
    cases x <;> rfl
  · rw [if_neg hxnd, if_neg hxnd]
    cases hp : st.sol.place ⟨.client, c⟩ with
    | none => rfl
    | some node =>
      obtain ⟨i, p⟩ := node
      dsimp only
      by_cases hc1 : counts.getD g 0 > 1
      · rw [if_pos hc1, if_pos hc1, mark_at h.sound.sol h.sound.space.size hp, Option.bind_some]
        obtain ⟨hi, hnd, xs, ys, he, rfl⟩ := h.sound.sol.clean.1.place_some hp
        have hrem := (h.sound.sol.clean.but (fun _ => False)).remove hi he
        have hro := h.sound.sol.routes i hi
        rw [he] at hro
        have hr' := PerturbationManager.routes_set h.sound.sol.routes hro.remove_client
        have hsol : (LState.mark st (i, xs.length + 1)).sol = st.sol := rfl
        rw [hsol, removeAt_eq h.sound.sol.clean.1 hi he, Option.bind_some,
          update_eq hx (st := { LState.mark st (i, xs.length + 1) with sol := st.sol.removeAt i (xs.length + 1) })
            hrem hr' ((hz.mark _).sol _) (fun k hk => by injection hk with hk; rw [← hk]; exact hi) hi]
        rfl
      · rw [if_neg hc1, if_neg hc1]; rfl

theorem repair_eq (hx : Ctx data ce B M N K) (hnv : 0 < data.numVehicles)
    {done : List Activity} {st : LState} {counts : List Nat} (h : Repaired data ce done plan st counts)
    (hz : Sized data K st) {a : Activity} (ha : a ∈ allTasks data) :
    repair data ce st counts a = some (LState.repair data ce st counts a) := by
  have hd := consistent hx.cost
  obtain ⟨ty, k⟩ := a
  rcases BinaryOp.mem_allTasks ha with ⟨rfl, hk⟩ | ⟨rfl, hk⟩
  · dsimp only at hk
    have hvis := LState.place_isNone h.sound.sol.clean.1 (a := ⟨.client, k⟩) (by simp)
    unfold repair LState.repair
    dsimp only
    simp only [Option.bind_eq_bind]
    rw [known_of (a := ⟨.client, k⟩) ⟨by simp, hk⟩, Option.bind_some, client_eq hk, Option.bind_some]
    by_cases hxnd : ((st.sol.place ⟨.client, k⟩).isNone && (data.client k).required) = true
    · rw [if_pos hxnd, if_pos hxnd]
      rw [Bool.and_eq_true, hvis] at hxnd
      rw [repairClient_eq hx hnv h.sound hz hk hxnd.1, Option.bind_some]
      generalize LState.insertClient data ce st k = x
      cases x <;> rfl
    · rw [if_neg hxnd, if_neg hxnd]
      cases hgrp : (data.client k).group with
      | none => rfl
      | some g =>
        dsimp only
        exact repairGroup_eq hx hnv h hz hk hgrp
  · dsimp only at hk
    have hvis := LState.place_isNone h.sound.sol.clean.1 (a := ⟨.pickup, k⟩) (by simp)
    unfold repair LState.repair
    dsimp only
    simp only [Option.bind_eq_bind]
    rw [known_of (a := ⟨.pickup, k⟩) ⟨by simp, hk⟩, Option.bind_some, shipment_eq hk, Option.bind_some]
    by_cases hxnd : ((st.sol.place ⟨.pickup, k⟩).isNone && (data.shipment k).required) = true
    · rw [if_pos hxnd, if_pos hxnd]
      rw [Bool.and_eq_true, hvis] at hxnd
      rw [repairShipment_eq hx hnv h.sound hz hk hxnd.1, Option.bind_some]
      generalize LState.insertShipment data ce st k = x
      cases x <;> rfl
    · rw [if_neg hxnd, if_neg hxnd]; rfl

theorem repairAll_eq (hx : Ctx data ce B M N K) (hnv : 0 < data.numVehicles)
    (hgn : ∀ g ∈ data.groups, g.clients.Nodup) : ∀ (todo done : List Activity)
    (plan : List (List Activity)) (st : LState) (counts : List Nat), (∀ a ∈ todo, a ∈ allTasks data) →
    Repaired data ce done plan st counts → Sized data K st →
    repairAll data ce st counts todo = some (LState.repairAll data ce st counts todo)
  | [], _, _, _, _, _, _, _ => rfl
  | a :: todo, done, plan, st, counts, ha, h, hz => by
    obtain ⟨plan1, st1, c1, e1, r1, g1⟩ := LState.repair_spec (consistent hx.cost) hnv hgn h (ha a (by simp))
    unfold repairAll LState.repairAll
    rw [repair_eq hx hnv h hz (ha a (by simp)), e1, Option.bind_eq_bind, Option.bind_some]
    exact repairAll_eq hx hnv hgn todo (done ++ [a]) plan1 st1 c1
      (fun b hb => ha b (by simp [hb])) r1 (repair_sized hz e1)

theorem ensureStructuralFeasibility_eq (hx : Ctx data ce B M N K)
    (hnv : 0 < data.numVehicles) (hgn : ∀ g ∈ data.groups, g.clients.Nodup) {st : LState}
    (h : LState.Sound data ce plan st) (hz : Sized data K st) :
    ensureStructuralFeasibility data ce st = some (LState.ensureStructuralFeasibility data ce st) := by
  have hd := consistent hx.cost
  obtain ⟨h1, h2⟩ := LState.groupCounts_spec h.sol.clean.1
  have h0 : Repaired data ce [] plan st (LState.groupCounts data st.sol) :=
    ⟨h, h1, h2, by simp, by simp, by simp, by simp⟩
  have hall : ∀ a ∈ st.space.activityOrder, a ∈ allTasks data := fun a ha => h.space.order.mem_iff.1 ha
  obtain ⟨plan', st', counts, e, r, g⟩ := LState.repairAll_spec hd hnv hgn st.space.activityOrder [] plan st _
    hall h0
  rw [List.nil_append] at r
  unfold ensureStructuralFeasibility LState.ensureStructuralFeasibility
  rw [ensure_true, Option.bind_eq_bind, Option.bind_some,
    repairAll_eq hx hnv hgn _ [] plan st _ hall h0 hz, Option.bind_eq_bind, Option.bind_some, e]
  · dsimp only
    rw [repaired_eq hd r (fun a ha => h.space.order.mem_iff.2 ha)]
    rfl
  · rw [List.all_eq_true]
    intro grp hgrp
    rw [List.all_eq_true]
    intro c hc
    obtain ⟨gi, hlt, rfl⟩ := List.mem_iff_getElem.1 hgrp
    have hgeq : data.group gi = data.groups[gi] := by
      show data.groups.getD gi _ = _
      rw [List.getD_eq_getElem?_getD, List.getElem?_eq_getElem hlt]
      rfl
    rw [← hgeq] at hc
    rw [h.sol.clean.1.sized.clients]
    exact decide_eq_true (LState.group_unique hd hlt hc).2

end PyVRP.Checked64
