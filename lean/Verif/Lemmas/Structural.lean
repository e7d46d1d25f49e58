import Verif.Lemmas.LocalMoves
/-!
# The local search: structural feasibility
-/
namespace PyVRP
open Spec
open SSol (used ofActs_empty At RefOk CleanBut)

variable {data : ProblemData} {ce : CostEvaluator}

/-! ## Counting -/

theorem countP_one_more {α : Type} [DecidableEq α] {p q : α → Bool} {c : α} : ∀ {l : List α}, l.Nodup →
    c ∈ l → p c = false → q c = true → (∀ x, x ≠ c → q x = p x) → l.countP q = l.countP p + 1
  | [], _, hc, _, _, _ => by cases hc
  | x :: l, hn, hc, h1, h2, h3 => by
    rw [List.nodup_cons] at hn
    rw [List.countP_cons, List.countP_cons]
    rcases List.mem_cons.1 hc with rfl | hc
    · have : l.countP q = l.countP p := by
        apply List.countP_congr
        intro y hy
        rw [h3 y (fun h => hn.1 (h ▸ hy))]
      rw [this, h1, h2]
      simp
    · rw [countP_one_more hn.2 hc h1 h2 h3, h3 x (fun h => hn.1 (h ▸ hc))]
      omega

theorem getD_modify (l : List Nat) (g k : Nat) (f : Nat → Nat) :
    (l.modify g f).getD k 0 = if k = g ∧ g < l.length then f (l.getD g 0) else l.getD k 0 := by
  simp only [List.getD_eq_getElem?_getD, List.getElem?_modify]
  by_cases h : g = k
  · subst h
    by_cases h' : g < l.length
    · simp [h']
    · simp [h']
  · have : ¬ k = g := fun h' => h h'.symm
    simp [h, this]

namespace LState

/-- A state that is up to date. -/
structure Sound (data : ProblemData) (ce : CostEvaluator) (plan : List (List Activity)) (st : LState) :
    Prop where
  sol : SearchOk data plan st.sol
  space : SpaceOk data st.space
  self : ∀ a ns, st.space.neighboursOf a = .ok ns → a ∉ ns
  caches : CachesOk data ce st.sol st.binary

theorem Sound.ok {plan : List (List Activity)} {st : LState} (h : Sound data ce plan st)
    (he : Exclusive data plan) : Ok data ce plan st := ⟨h.sol, he, h.space, h.self, h.caches⟩

/-- Only the search space has changed. -/
theorem Sound.grow {plan : List (List Activity)} {st st' : LState} (h : Sound data ce plan st)
    (e1 : st'.sol = st.sol) (e2 : st'.binary = st.binary)
    (hg : SearchSpace.Grows data st.space st'.space) : Sound data ce plan st' :=
  ⟨by rw [e1]; exact h.sol, hg.ok h.space, self_grows hg h.self, by rw [e1, e2]; exact h.caches⟩

/-- A change of one route, which is then updated. -/
theorem Sound.change {plan : List (List Activity)} {st st' : LState} (h : Sound data ce plan st)
    {i : Nat} (hi : i < data.numVehicles) {acts : List Activity}
    (hb : CleanBut data (fun j => j = i) (plan.set i acts) st'.sol)
    (hro : RouteOk data (data.vehicleType (vehTypeAt data i)) acts)
    (e2 : st'.binary = st.binary) (hg : SearchSpace.Grows data st.space st'.space) :
    ∃ plan', Settled (plan.set i acts) plan' ∧ Sound data ce plan' (update data st' (some i) i)
      ∧ SearchSpace.Grows data st.space (update data st' (some i) i).space := by
  obtain ⟨plan', hs, hok, hc, -⟩ := update_spec (ce := ce) (st := st') h.sol (by rw [e2]; exact h.caches) hb
    (PerturbationManager.routes_set h.sol.routes hro)
    (fun k hk => getD_set_ne _ hk _) (u := some i) (v := i) (fun k hk => .inr hk)
    (fun j hj => by cases hj; exact hi) hi
  obtain ⟨r1, -, -⟩ := update_rest (data := data) st' (some i) i
  rw [← r1] at hg
  exact ⟨plan', hs, ⟨hok, hg.ok h.space, self_grows hg h.self, hc⟩, hg⟩

theorem Sound.mark {plan : List (List Activity)} {st : LState} (h : Sound data ce plan st)
    {u : Activity} {node : Nat × Nat} (hp : st.sol.place u = some node) :
    Sound data ce plan (mark st node) ∧ SearchSpace.Grows data st.space (LState.mark st node).space := by
  obtain ⟨i, p⟩ := node
  obtain ⟨h1, h2⟩ := place_le h.sol.clean.1 hp
  have hg := mark_grows h.sol.clean.1 h.sol.routes h.space.size h1 h2
  exact ⟨h.grow rfl rfl hg, hg⟩

/-- Inserting a client that is not visited. -/
theorem insertClient_ok {plan : List (List Activity)} {st : LState} (h : Sound data ce plan st)
    (hnv : 0 < data.numVehicles) {c : Nat} (hc : c < data.numClients)
    (hn : ¬ Visited plan ⟨.client, c⟩) :
    ∃ plan' st', insertClient data ce st c = .ok st' ∧ Sound data ce plan' st'
      ∧ SearchSpace.Grows data st.space st'.space
      ∧ ∀ a, a.type ≠ .depot → (Visited plan' a ↔ Visited plan a ∨ a = ⟨.client, c⟩) := by
  have hnot : ∀ j, (⟨.client, c⟩ : Activity) ∉ plan.getD j [] := fun j hj => hn ⟨j, hj⟩
  rcases SSol.insertClient_spec (h.sol.clean.but (fun _ => False)) h.sol.routes hnv h.space ce hc hnot true
    with ⟨h1, -⟩ | ⟨i, xs, ys, s', hi, he, hins, hcl⟩
  · cases h1
  · have hil : i < plan.length := by rw [h.sol.clean.1.length]; exact hi
    have he' : (plan.set i (xs ++ ⟨.client, c⟩ :: ys)).getD i [] = xs ++ ⟨.client, c⟩ :: ys :=
      getD_set_self hil _
    have hplace := hcl.1.place hi (by simp) he'
    have hro := h.sol.routes i hi
    rw [he] at hro
    obtain ⟨plan', hs, hok, hg⟩ := h.change (st' := { st with sol := s' }) hi
      (hcl.weaken (fun j _ hj => hj.resolve_left id)) (hro.insert_client hc) rfl
      (SearchSpace.Grows.refl _ _)
    have hvis : ∀ a, a.type ≠ .depot → (Visited plan' a ↔ Visited plan a ∨ a = ⟨.client, c⟩) := by
      intro a ha
      rw [hs.visited ha, visited_set hil, visited_split plan i a, he]
      simp only [List.mem_append, List.mem_cons]
      grind
    obtain ⟨j, zs, ws, hj, hz⟩ := PerturbationManager.visited_mem hok.sol.clean.1
      ((hvis ⟨.client, c⟩ (by simp)).2 (.inr rfl))
    have hpl2 := hok.sol.clean.1.place hj (by simp) hz
    obtain ⟨hm, hg2⟩ := hok.mark hpl2
    unfold insertClient
    simp only [hins, hplace, hpl2]
    exact ⟨plan', _, rfl, hm, hg.trans hg2, hvis⟩

/-- Inserting a shipment that is not visited. -/
theorem insertShipment_ok {plan : List (List Activity)} {st : LState} (h : Sound data ce plan st)
    (hnv : 0 < data.numVehicles) {k : Nat} (hk : k < data.numShipments)
    (hn : ¬ Visited plan ⟨.pickup, k⟩) :
    ∃ plan' st', insertShipment data ce st k = .ok st' ∧ Sound data ce plan' st'
      ∧ SearchSpace.Grows data st.space st'.space
      ∧ ∀ a, a.type ≠ .depot → (Visited plan' a ↔ Visited plan a ∨ a = ⟨.pickup, k⟩ ∨ a = ⟨.delivery, k⟩) := by
  have hfree : ∀ j, Phase.Free k (plan.getD j []) := by
    intro j b hb hcon
    have hj := h.sol.clean.1.lt_of_mem hb
    obtain ⟨xs, ms, ys, he, -, -⟩ := (h.sol.routes j hj).shipment_split (k := k) (by
      rcases hcon with rfl | rfl
      · exact .inl hb
      · exact .inr hb)
    exact hn ⟨j, by rw [he]; simp [pickupOf]⟩
  rcases SSol.insertShipment_spec (h.sol.clean.but (fun _ => False)) h.sol.routes hnv h.space ce hk hfree true
    with ⟨h1, -⟩ | ⟨i, xs, ms, ys, s', hi, he, hms, hins, hcl⟩
  · cases h1
  · have hil : i < plan.length := by rw [h.sol.clean.1.length]; exact hi
    have he' : (plan.set i (xs ++ pickupOf k :: (ms ++ deliveryOf k :: ys))).getD i []
        = xs ++ pickupOf k :: (ms ++ deliveryOf k :: ys) := getD_set_self hil _
    have he'' : (plan.set i (xs ++ pickupOf k :: (ms ++ deliveryOf k :: ys))).getD i []
        = (xs ++ pickupOf k :: ms) ++ deliveryOf k :: ys := by rw [he']; simp
    have hplace : s'.place ⟨.pickup, k⟩ = _ := hcl.1.place hi (by simp [pickupOf]) he'
    have hplace' : s'.place ⟨.delivery, k⟩ = _ := hcl.1.place hi (by simp [deliveryOf]) he''
    have hro := h.sol.routes i hi
    have hf := hfree i
    rw [he] at hro hf
    obtain ⟨plan', hs, hok, hg⟩ := h.change (st' := { st with sol := s' }) hi
      (hcl.weaken (fun j _ hj => hj.resolve_left id)) (hro.insert_shipment hk hf hms) rfl
      (SearchSpace.Grows.refl _ _)
    have hvis : ∀ a, a.type ≠ .depot →
        (Visited plan' a ↔ Visited plan a ∨ a = ⟨.pickup, k⟩ ∨ a = ⟨.delivery, k⟩) := by
      intro a ha
      rw [hs.visited ha, visited_set hil, visited_split plan i a, he]
      simp only [List.mem_append, List.mem_cons, pickupOf, deliveryOf]
      grind
    obtain ⟨j, zs, ws, hj, hz⟩ := PerturbationManager.visited_mem hok.sol.clean.1
      ((hvis ⟨.pickup, k⟩ (by simp)).2 (.inr (.inl rfl)))
    obtain ⟨j', zs', ws', hj', hz'⟩ := PerturbationManager.visited_mem hok.sol.clean.1
      ((hvis ⟨.delivery, k⟩ (by simp)).2 (.inr (.inr rfl)))
    have hpl := hok.sol.clean.1.place hj (by simp) hz
    have hpl' := hok.sol.clean.1.place hj' (by simp) hz'
    obtain ⟨hm, hg2⟩ := hok.mark hpl
    obtain ⟨hm', hg3⟩ := hm.mark (u := ⟨.delivery, k⟩) hpl'
    unfold insertShipment
    simp only [hins, hplace, hplace', hpl, hpl']
    exact ⟨plan', _, rfl, hm', hg.trans (hg2.trans hg3), hvis⟩

/-- Removing a client. -/
theorem removeClient_ok {plan : List (List Activity)} {st : LState} (h : Sound data ce plan st)
    {c i p : Nat} (hp : st.sol.place ⟨.client, c⟩ = some (i, p)) :
    ∃ plan', Sound data ce plan'
        (update data { mark st (i, p) with sol := (mark st (i, p)).sol.removeAt i p } (some i) i)
      ∧ SearchSpace.Grows data st.space
        (update data { mark st (i, p) with sol := (mark st (i, p)).sol.removeAt i p } (some i) i).space
      ∧ ∀ a, a.type ≠ .depot → (Visited plan' a ↔ Visited plan a ∧ a ≠ ⟨.client, c⟩) := by
  obtain ⟨hi, hnd, xs, ys, he, rfl⟩ := h.sol.clean.1.place_some hp
  obtain ⟨hm, hg⟩ := h.mark hp
  have hil : i < plan.length := by rw [h.sol.clean.1.length]; exact hi
  have hrem := (h.sol.clean.but (fun _ => False)).remove hi he
  have hro := h.sol.routes i hi
  rw [he] at hro
  obtain ⟨plan', hs, hok, hg'⟩ := hm.change
    (st' := { mark st (i, xs.length + 1) with
      sol := (mark st (i, xs.length + 1)).sol.removeAt i (xs.length + 1) }) hi
    (hrem.weaken (fun j _ hj => hj.resolve_left id)) hro.remove_client rfl (SearchSpace.Grows.refl _ _)
  refine ⟨plan', hok, hg.trans hg', ?_⟩
  intro a ha
  have hon := h.sol.clean.1.once' hnd he
  have huniq : ∀ k, k ≠ i → (⟨.client, c⟩ : Activity) ∉ plan.getD k [] := by
    intro k hk hmem
    exact hk (h.sol.clean.1.unique hnd hmem (by rw [he]; simp))
  rw [hs.visited ha, visited_set hil, visited_split plan i a, he]
  simp only [List.mem_append, List.mem_cons]
  grind

/-! ## Repairing -/

/-- What holds after repairing the activities in `done`. -/
structure Repaired (data : ProblemData) (ce : CostEvaluator) (done : List Activity)
    (plan : List (List Activity)) (st : LState) (counts : List Nat) : Prop where
  sound : Sound data ce plan st
  length : counts.length = data.groups.length
  tally : ∀ g, g < data.groups.length →
    counts.getD g 0 = (data.group g).clients.countP (fun c => visits plan ⟨.client, c⟩)
  clients : ∀ i, (⟨.client, i⟩ : Activity) ∈ done → (data.client i).required = true →
    Visited plan ⟨.client, i⟩
  shipments : ∀ i, (⟨.pickup, i⟩ : Activity) ∈ done → (data.shipment i).required = true →
    Visited plan ⟨.pickup, i⟩
  some : ∀ g, g < data.groups.length → (data.group g).required = true →
    ∀ c ∈ (data.group g).clients, (⟨.client, c⟩ : Activity) ∈ done → 1 ≤ counts.getD g 0
  one : ∀ g, g < data.groups.length → ∀ c ∈ (data.group g).clients, (⟨.client, c⟩ : Activity) ∈ done →
    Visited plan ⟨.client, c⟩ → counts.getD g 0 ≤ 1

theorem group_mem {g : Nat} (hg : g < data.groups.length) : data.group g ∈ data.groups := by
  show data.groups.getD g _ ∈ _
  rw [List.getD_eq_getElem?_getD, List.getElem?_eq_getElem hg]
  exact List.getElem_mem hg

/-- A client's group. -/
theorem group_unique (hd : Consistent data) {g c : Nat} (hg : g < data.groups.length)
    (hc : c ∈ (data.group g).clients) : (data.client c).group = Option.some g ∧ c < data.numClients := by
  have hget : data.groups[g]? = Option.some (data.group g) := by
    show _ = Option.some (data.groups.getD g _)
    rw [List.getD_eq_getElem?_getD, List.getElem?_eq_getElem hg]
    rfl
  obtain ⟨cl, h1, h2⟩ := (hd.groupClients g _ hget).2 c hc
  have hlt : c < data.numClients := by
    obtain ⟨h, -⟩ := List.getElem?_eq_some_iff.1 h1
    exact h
  rw [client_getElem hlt] at h1
  cases h1
  exact ⟨h2, hlt⟩

theorem group_lt (hd : Consistent data) {g c : Nat} (hc : c < data.numClients)
    (hg : (data.client c).group = Option.some g) : g < data.groups.length := by
  obtain ⟨grp, h1, -, -⟩ := hd.clientGroup c _ g (client_getElem hc) hg
  exact (List.getElem?_eq_some_iff.1 h1).1

theorem place_isNone {plan : List (List Activity)} {s : SSol} (h : SSol.Holds data plan s) {a : Activity}
    (ha : a.type ≠ .depot) : (s.place a).isNone = true ↔ ¬ Visited plan a := by
  constructor
  · rintro hn ⟨i, hi⟩
    obtain ⟨xs, ys, he⟩ := List.append_of_mem hi
    rw [h.place (h.lt_of_mem hi) ha he] at hn
    cases hn
  · intro hn
    rw [h.place_none (fun i hi => hn ⟨i, hi⟩)]
    rfl

/-- What has been repaired stays so when nothing that concerns it changes. -/
theorem Repaired.same {done : List Activity} {plan : List (List Activity)} {st : LState}
    {counts : List Nat} (h : Repaired data ce done plan st counts) (a : Activity)
    (hc : ∀ i, a = ⟨.client, i⟩ → (data.client i).required = true → Visited plan a)
    (hp : ∀ i, a = ⟨.pickup, i⟩ → (data.shipment i).required = true → Visited plan a)
    (hg : ∀ i g, a = ⟨.client, i⟩ → g < data.groups.length → i ∈ (data.group g).clients →
      ((data.group g).required = true → 1 ≤ counts.getD g 0)
      ∧ (Visited plan a → counts.getD g 0 ≤ 1)) :
    Repaired data ce (done ++ [a]) plan st counts := by
  refine ⟨h.sound, h.length, h.tally, ?_, ?_, ?_, ?_⟩
  · intro i hi hr
    rcases List.mem_append.1 hi with hi | hi
    · exact h.clients i hi hr
    · have := List.mem_singleton.1 hi
      rw [this]; exact hc i this.symm hr
  · intro i hi hr
    rcases List.mem_append.1 hi with hi | hi
    · exact h.shipments i hi hr
    · have := List.mem_singleton.1 hi
      rw [this]; exact hp i this.symm hr
  · intro g hgl hr c hcg hi
    rcases List.mem_append.1 hi with hi | hi
    · exact h.some g hgl hr c hcg hi
    · exact (hg c g (List.mem_singleton.1 hi).symm hgl hcg).1 hr
  · intro g hgl c hcg hi hv
    rcases List.mem_append.1 hi with hi | hi
    · exact h.one g hgl c hcg hi hv
    · have := List.mem_singleton.1 hi
      rw [this] at hv
      exact (hg c g this.symm hgl hcg).2 hv

/-- One step of the repair. -/
theorem repair_spec (hd : Consistent data) (hnv : 0 < data.numVehicles)
    (hgn : ∀ g ∈ data.groups, g.clients.Nodup) {done : List Activity} {plan : List (List Activity)}
    {st : LState} {counts : List Nat} (h : Repaired data ce done plan st counts) {a : Activity}
    (ha : a ∈ allTasks data) :
    ∃ plan' st' counts', repair data ce st counts a = .ok (st', counts')
      ∧ Repaired data ce (done ++ [a]) plan' st' counts'
      ∧ SearchSpace.Grows data st.space st'.space := by
  obtain ⟨ty, k⟩ := a
  rcases BinaryOp.mem_allTasks ha with ⟨rfl, hk⟩ | ⟨rfl, hk⟩
  · dsimp only at hk
    have hvis := place_isNone h.sound.sol.clean.1 (a := ⟨.client, k⟩) (by simp)
    unfold repair
    dsimp only
    by_cases hcond : ((st.sol.place ⟨.client, k⟩).isNone && (data.client k).required) = true
    · -- a required client that is not visited
      rw [if_pos hcond]
      rw [Bool.and_eq_true, hvis] at hcond
      obtain ⟨hn, hreq⟩ := hcond
      obtain ⟨plan', st', e1, hs, hg, hv⟩ := insertClient_ok h.sound hnv hk hn
      rw [e1]
      have hno : ∀ g, g < data.groups.length → k ∉ (data.group g).clients := by
        intro g hgl hm
        have := group_unique hd hgl hm
        rw [(mem_group hd hk this.1).2.1] at hreq
        cases hreq
      have hother : ∀ c, c ≠ k → (Visited plan' ⟨.client, c⟩ ↔ Visited plan ⟨.client, c⟩) := by
        intro c hck
        rw [hv _ (by simp)]
        simp [hck]
      refine ⟨plan', st', counts, rfl, ⟨hs, h.length, ?_, ?_, ?_, ?_, ?_⟩, hg⟩
      · intro g hgl
        rw [h.tally g hgl]
        apply List.countP_congr
        intro c hc
        have : c ≠ k := fun h' => hno g hgl (h' ▸ hc)
        rw [visits_congr (hother c this)]
      · intro i hi hr
        rw [hv _ (by simp)]
        rcases List.mem_append.1 hi with hi | hi
        · exact .inl (h.clients i hi hr)
        · exact .inr (List.mem_singleton.1 hi)
      · intro i hi hr
        rw [hv _ (by simp)]
        rcases List.mem_append.1 hi with hi | hi
        · exact .inl (h.shipments i hi hr)
        · exact .inr (List.mem_singleton.1 hi)
      · intro g hgl hr c hcg hi
        have hck : c ≠ k := fun h' => hno g hgl (h' ▸ hcg)
        rcases List.mem_append.1 hi with hi | hi
        · exact h.some g hgl hr c hcg hi
        · exact absurd (by simpa using hi) hck
      · intro g hgl c hcg hi hvc
        have hck : c ≠ k := fun h' => hno g hgl (h' ▸ hcg)
        rcases List.mem_append.1 hi with hi | hi
        · exact h.one g hgl c hcg hi ((hother c hck).1 hvc)
        · exact absurd (by simpa using hi) hck
    · rw [if_neg hcond]
      have hreq : (data.client k).required = true → Visited plan ⟨.client, k⟩ := by
        intro hr
        rcases Classical.em (Visited plan ⟨.client, k⟩) with hv | hv
        · exact hv
        · exact absurd (by rw [Bool.and_eq_true, hvis]; exact ⟨hv, hr⟩) hcond
      cases hgrp : (data.client k).group with
      | none =>
        refine ⟨plan, st, counts, rfl, h.same _ ?_ ?_ ?_, SearchSpace.Grows.refl _ _⟩
        · intro i hi hr; cases hi; exact hreq hr
        · intro i hi; cases hi
        · intro i g hi hgl hm
          cases hi
          have := (group_unique hd hgl hm).1
          rw [hgrp] at this
          cases this
      | some g =>
        dsimp only
        have hgl := group_lt hd hk hgrp
        obtain ⟨hkg, hkr, -⟩ := mem_group hd hk hgrp
        have hnd := hgn _ (group_mem hgl)
        have honly : ∀ g', g' < data.groups.length → k ∈ (data.group g').clients → g' = g := by
          intro g' hg' hm
          have := (group_unique hd hg' hm).1
          rw [hgrp] at this
          exact (Option.some.inj this).symm
        unfold repairGroup
        by_cases hz : ((data.group g).required && counts.getD g 0 == 0) = true
        · -- no client of a required group is visited
          rw [if_pos hz]
          rw [Bool.and_eq_true, beq_iff_eq] at hz
          obtain ⟨hgr, hz⟩ := hz
          have hn : ¬ Visited plan ⟨.client, k⟩ := by
            intro hv
            have h1 := h.tally g hgl
            rw [hz] at h1
            have h2 : 0 < (data.group g).clients.countP (fun c => visits plan ⟨.client, c⟩) :=
              List.countP_pos_iff.2 ⟨k, hkg, visits_true hv⟩
            omega
          obtain ⟨plan', st', e1, hs, hg, hv⟩ := insertClient_ok h.sound hnv hk hn
          rw [e1]
          have hother : ∀ c, c ≠ k → (Visited plan' ⟨.client, c⟩ ↔ Visited plan ⟨.client, c⟩) := by
            intro c hck
            rw [hv _ (by simp)]
            simp [hck]
          refine ⟨plan', st', _, rfl, ⟨hs, by rw [List.length_modify]; exact h.length, ?_, ?_, ?_, ?_, ?_⟩, hg⟩
          · intro g' hgl'
            rw [getD_modify]
            by_cases hgg : g' = g
            · subst hgg
              rw [if_pos ⟨rfl, by rw [h.length]; exact hgl'⟩, h.tally g' hgl']
              exact (countP_one_more hnd hkg (visits_false hn)
                (visits_true ((hv _ (by simp)).2 (.inr rfl)))
                (fun x hx => visits_congr (hother x hx))).symm
            · rw [if_neg (fun h' => hgg h'.1), h.tally g' hgl']
              apply List.countP_congr
              intro c hc
              have : c ≠ k := fun h' => hgg (honly g' hgl' (h' ▸ hc))
              rw [visits_congr (hother c this)]
          · intro i hi hr
            rw [hv _ (by simp)]
            rcases List.mem_append.1 hi with hi | hi
            · exact .inl (h.clients i hi hr)
            · exact .inr (List.mem_singleton.1 hi)
          · intro i hi hr
            rw [hv _ (by simp)]
            rcases List.mem_append.1 hi with hi | hi
            · exact .inl (h.shipments i hi hr)
            · exact .inr (List.mem_singleton.1 hi)
          · intro g' hgl' hr c hcg hi
            rw [getD_modify]
            split
            · omega
            · rename_i hgg
              rcases List.mem_append.1 hi with hi | hi
              · exact h.some g' hgl' hr c hcg hi
              · have : c = k := by simpa using hi
                subst this
                exact absurd ⟨honly g' hgl' hcg, by rw [h.length]; exact hgl⟩ hgg
          · intro g' hgl' c hcg hi hvc
            rw [getD_modify]
            split
            · omega
            · rename_i hgg
              have hck : c ≠ k := by
                rintro rfl
                exact hgg ⟨honly g' hgl' hcg, by rw [h.length]; exact hgl⟩
              rcases List.mem_append.1 hi with hi | hi
              · exact h.one g' hgl' c hcg hi ((hother c hck).1 hvc)
              · exact absurd (by simpa using hi) hck
        · rw [if_neg hz]
          have hsome : (data.group g).required = true → 1 ≤ counts.getD g 0 := by
            intro hr
            rcases Nat.eq_zero_or_pos (counts.getD g 0) with h0 | h0
            · exact absurd (by rw [Bool.and_eq_true, beq_iff_eq]; exact ⟨hr, h0⟩) hz
            · exact h0
          have hsame : (Visited plan ⟨.client, k⟩ → counts.getD g 0 ≤ 1) →
              Repaired data ce (done ++ [⟨.client, k⟩]) plan st counts := by
            intro hone
            refine h.same _ ?_ ?_ ?_
            · intro i hi hr; cases hi; exact hreq hr
            · intro i hi; cases hi
            · intro i g' hi hgl' hm
              cases hi
              rw [honly g' hgl' hm]
              exact ⟨hsome, hone⟩
          cases hp : st.sol.place ⟨.client, k⟩ with
          | none =>
            refine ⟨plan, st, counts, rfl, hsame ?_, SearchSpace.Grows.refl _ _⟩
            intro hv
            rw [hp] at hvis
            exact absurd hv (hvis.1 rfl)
          | some node =>
            obtain ⟨idx, pos⟩ := node
            dsimp only
            by_cases hc1 : counts.getD g 0 > 1
            · -- one of several clients of a group
              rw [if_pos hc1]
              have hv : Visited plan ⟨.client, k⟩ := by
                rcases Classical.em (Visited plan ⟨.client, k⟩) with hv | hv
                · exact hv
                · rw [hp] at hvis; exact absurd (hvis.2 hv) (by simp)
              obtain ⟨plan', hs, hg, hv'⟩ := removeClient_ok h.sound hp
              have hother : ∀ c, c ≠ k → (Visited plan' ⟨.client, c⟩ ↔ Visited plan ⟨.client, c⟩) := by
                intro c hck
                rw [hv' _ (by simp)]
                simp [hck]
              have hgone : ¬ Visited plan' ⟨.client, k⟩ := by
                rw [hv' _ (by simp)]
                simp
              refine ⟨plan', _, _, rfl, ⟨hs, by rw [List.length_modify]; exact h.length, ?_, ?_, ?_, ?_, ?_⟩, hg⟩
              · intro g' hgl'
                rw [getD_modify]
                by_cases hgg : g' = g
                · subst hgg
                  rw [if_pos ⟨rfl, by rw [h.length]; exact hgl'⟩, h.tally g' hgl',
                    countP_one_more hnd hkg (visits_false hgone) (visits_true hv)
                      (fun x hx => (visits_congr (hother x hx)).symm)]
                  omega
                · rw [if_neg (fun h' => hgg h'.1), h.tally g' hgl']
                  apply List.countP_congr
                  intro c hc
                  have : c ≠ k := fun h' => hgg (honly g' hgl' (h' ▸ hc))
                  rw [visits_congr (hother c this)]
              · intro i hi hr
                have hik : i ≠ k := by rintro rfl; rw [hkr] at hr; cases hr
                rw [hother i hik]
                rcases List.mem_append.1 hi with hi | hi
                · exact h.clients i hi hr
                · exact absurd (by simpa using hi) hik
              · intro i hi hr
                rw [hv' _ (by simp)]
                refine ⟨?_, by simp⟩
                rcases List.mem_append.1 hi with hi | hi
                · exact h.shipments i hi hr
                · exact absurd hi (by simp)
              · intro g' hgl' hr c hcg hi
                rw [getD_modify]
                split
                · omega
                · rename_i hgg
                  rcases List.mem_append.1 hi with hi | hi
                  · exact h.some g' hgl' hr c hcg hi
                  · have : c = k := by simpa using hi
                    subst this
                    exact absurd ⟨honly g' hgl' hcg, by rw [h.length]; exact hgl⟩ hgg
              · intro g' hgl' c hcg hi hvc
                have hck : c ≠ k := by rintro rfl; exact hgone hvc
                have hi' : (⟨.client, c⟩ : Activity) ∈ done := by
                  rcases List.mem_append.1 hi with hi | hi
                  · exact hi
                  · exact absurd (by simpa using hi) hck
                have h1 := h.one g' hgl' c hcg hi' ((hother c hck).1 hvc)
                rw [getD_modify]
                split
                · rename_i hgg
                  rw [hgg.1] at h1
                  omega
                · exact h1
            · rw [if_neg hc1]
              exact ⟨plan, st, counts, rfl, hsame (fun _ => by omega), SearchSpace.Grows.refl _ _⟩
  · dsimp only at hk
    have hvis := place_isNone h.sound.sol.clean.1 (a := ⟨.pickup, k⟩) (by simp)
    unfold repair
    dsimp only
    by_cases hcond : ((st.sol.place ⟨.pickup, k⟩).isNone && (data.shipment k).required) = true
    · rw [if_pos hcond]
      rw [Bool.and_eq_true, hvis] at hcond
      obtain ⟨hn, hreq⟩ := hcond
      obtain ⟨plan', st', e1, hs, hg, hv⟩ := insertShipment_ok h.sound hnv hk hn
      rw [e1]
      have hother : ∀ c, (Visited plan' ⟨.client, c⟩ ↔ Visited plan ⟨.client, c⟩) := by
        intro c
        rw [hv _ (by simp)]
        simp
      refine ⟨plan', st', counts, rfl, ⟨hs, h.length, ?_, ?_, ?_, ?_, ?_⟩, hg⟩
      · intro g hgl
        rw [h.tally g hgl]
        apply List.countP_congr
        intro c hc
        rw [visits_congr (hother c)]
      · intro i hi hr
        rw [hother]
        rcases List.mem_append.1 hi with hi | hi
        · exact h.clients i hi hr
        · exact absurd hi (by simp)
      · intro i hi hr
        rw [hv _ (by simp)]
        rcases List.mem_append.1 hi with hi | hi
        · exact .inl (h.shipments i hi hr)
        · exact .inr (.inl (List.mem_singleton.1 hi))
      · intro g hgl hr c hcg hi
        rcases List.mem_append.1 hi with hi | hi
        · exact h.some g hgl hr c hcg hi
        · exact absurd hi (by simp)
      · intro g hgl c hcg hi hvc
        rcases List.mem_append.1 hi with hi | hi
        · exact h.one g hgl c hcg hi ((hother c).1 hvc)
        · exact absurd hi (by simp)
    · rw [if_neg hcond]
      refine ⟨plan, st, counts, rfl, h.same _ ?_ ?_ ?_, SearchSpace.Grows.refl _ _⟩
      · intro i hi; cases hi
      · intro i hi hr
        cases hi
        rcases Classical.em (Visited plan ⟨.pickup, k⟩) with hv | hv
        · exact hv
        · exact absurd (by rw [Bool.and_eq_true, hvis]; exact ⟨hv, hr⟩) hcond
      · intro i g hi; cases hi

theorem repairAll_spec (hd : Consistent data) (hnv : 0 < data.numVehicles)
    (hgn : ∀ g ∈ data.groups, g.clients.Nodup) : ∀ (todo done : List Activity)
    (plan : List (List Activity)) (st : LState) (counts : List Nat), (∀ a ∈ todo, a ∈ allTasks data) →
    Repaired data ce done plan st counts →
    ∃ plan' st' counts', repairAll data ce st counts todo = .ok (st', counts')
      ∧ Repaired data ce (done ++ todo) plan' st' counts'
      ∧ SearchSpace.Grows data st.space st'.space
  | [], done, plan, st, counts, _, h =>
    ⟨plan, st, counts, rfl, by rw [List.append_nil]; exact h, SearchSpace.Grows.refl _ _⟩
  | a :: todo, done, plan, st, counts, ha, h => by
    obtain ⟨plan1, st1, c1, e1, r1, g1⟩ := repair_spec hd hnv hgn h (ha a (by simp))
    obtain ⟨plan2, st2, c2, e2, r2, g2⟩ := repairAll_spec hd hnv hgn todo (done ++ [a]) plan1 st1 c1
      (fun b hb => ha b (by simp [hb])) r1
    refine ⟨plan2, st2, c2, ?_, by simpa using r2, g1.trans g2⟩
    unfold repairAll
    rw [e1]
    exact e2

theorem groupCounts_spec {plan : List (List Activity)} {s : SSol} (h : SSol.Holds data plan s) :
    (groupCounts data s).length = data.groups.length
    ∧ ∀ g, g < data.groups.length →
      (groupCounts data s).getD g 0 = (data.group g).clients.countP (fun c => visits plan ⟨.client, c⟩) := by
  refine ⟨by simp [groupCounts], fun g hg => ?_⟩
  have h1 : data.group g = data.groups[g] := by
    show data.groups.getD g _ = _
    rw [List.getD_eq_getElem?_getD, List.getElem?_eq_getElem hg]
    rfl
  rw [h1]
  simp only [groupCounts, List.getD_eq_getElem?_getD, List.getElem?_map, List.getElem?_eq_getElem hg,
    Option.map_some, Option.getD_some]
  apply List.countP_congr
  intro c _
  rw [visits_iff]
  constructor
  · intro hs
    obtain ⟨i, hi⟩ := Option.isSome_iff_exists.1 hs
    exact ⟨i, (h.owner _ (by simp) i).1 hi⟩
  · rintro ⟨i, hi⟩
    rw [(h.owner _ (by simp) i).2 hi]
    rfl

/-- **Structural feasibility.** -/
theorem ensureStructuralFeasibility_spec (hd : Consistent data) (hnv : 0 < data.numVehicles)
    (hgn : ∀ g ∈ data.groups, g.clients.Nodup) {plan : List (List Activity)} {st : LState}
    (h : Sound data ce plan st) :
    ∃ plan' st', ensureStructuralFeasibility data ce st = .ok st' ∧ Ok data ce plan' st'
      ∧ CompletePlan data plan' ∧ SearchSpace.Grows data st.space st'.space := by
  obtain ⟨h1, h2⟩ := groupCounts_spec h.sol.clean.1
  have h0 : Repaired data ce [] plan st (groupCounts data st.sol) :=
    ⟨h, h1, h2, by simp, by simp, by simp, by simp⟩
  obtain ⟨plan', st', counts, e, r, g⟩ := repairAll_spec hd hnv hgn st.space.activityOrder [] plan st _
    (fun a ha => h.space.order.mem_iff.1 ha) h0
  rw [List.nil_append] at r
  have hin : ∀ a ∈ allTasks data, a ∈ st.space.activityOrder := fun a ha => h.space.order.mem_iff.2 ha
  refine ⟨plan', st', by unfold ensureStructuralFeasibility; rw [e], r.sound.ok ?_, ⟨?_, ?_, ?_⟩, g⟩
  · intro grp hgrp i hi j hj hvi hvj
    obtain ⟨gi, hlt, rfl⟩ := List.mem_iff_getElem.1 hgrp
    have hgeq : data.group gi = data.groups[gi] := by
      show data.groups.getD gi _ = _
      rw [List.getD_eq_getElem?_getD, List.getElem?_eq_getElem hlt]
      rfl
    rw [← hgeq] at hi hj
    have hci := (group_unique hd hlt hi).2
    have h1 := r.one gi hlt i hi (hin _ (mem_allTasks_client hci)) hvi
    rw [r.tally gi hlt] at h1
    rcases Decidable.em (i = j) with hij | hij
    · exact hij
    · exfalso
      have hsub : [i, j].length ≤ ((data.group gi).clients.filter (fun c => visits plan' ⟨.client, c⟩)).length := by
        apply length_le_of_nodup
        · simpa using hij
        · intro x hx
          simp only [List.mem_cons, List.not_mem_nil, or_false] at hx
          rw [List.mem_filter]
          rcases hx with rfl | rfl
          · exact ⟨hi, visits_true hvi⟩
          · exact ⟨hj, visits_true hvj⟩
      rw [← List.countP_eq_length_filter] at hsub
      simp only [List.length_cons, List.length_nil] at hsub
      omega
  · intro i hi hr
    exact r.clients i (hin _ (mem_allTasks_client hi)) hr
  · intro i hi hr
    exact r.shipments i (hin _ (mem_allTasks_pickup hi)) hr
  · intro grp hgrp hr
    obtain ⟨gi, hlt, rfl⟩ := List.mem_iff_getElem.1 hgrp
    have hget : data.groups[gi]? = some data.groups[gi] := List.getElem?_eq_getElem hlt
    have hgeq := group_getD hget
    have hne := (hd.groupClients gi _ hget).1
    obtain ⟨c, hc⟩ := List.exists_mem_of_ne_nil _ hne
    rw [← hgeq] at hr hc ⊢
    have hcl := (group_unique hd hlt hc).2
    have h1 := r.some gi hlt hr c hc (hin _ (mem_allTasks_client hcl))
    rw [r.tally gi hlt] at h1
    obtain ⟨m, hm, hv⟩ := List.countP_pos_iff.1 (Nat.lt_of_lt_of_le Nat.zero_lt_one h1)
    exact ⟨m, hm, (visits_iff _ _).1 hv⟩

/-- Nothing to do for a complete plan. -/
theorem ensureStructuralFeasibility_same (hd : Consistent data)
    (hgn : ∀ g ∈ data.groups, g.clients.Nodup) {plan : List (List Activity)} {st : LState}
    (h : Sound data ce plan st) (hex : Exclusive data plan) (hcomp : CompletePlan data plan) :
    ensureStructuralFeasibility data ce st = .ok st := by
  obtain ⟨h1, h2⟩ := groupCounts_spec h.sol.clean.1
  have hone : ∀ g, g < data.groups.length → (groupCounts data st.sol).getD g 0 ≤ 1 := by
    intro g hg
    rw [h2 g hg]
    rw [List.countP_eq_length_filter]
    have hnd := hgn _ (group_mem hg)
    have hnd' : ((data.group g).clients.filter (fun c => visits plan ⟨.client, c⟩)).Nodup := hnd.filter _
    generalize hl : (data.group g).clients.filter (fun c => visits plan ⟨.client, c⟩) = l at hnd'
    match l, hl, hnd' with
    | [], _, _ => simp
    | [_], _, _ => simp
    | x :: y :: l, hl, hnd' =>
      exfalso
      have hx : x ∈ (data.group g).clients.filter (fun c => visits plan ⟨.client, c⟩) := by
        rw [hl]; simp
      have hy : y ∈ (data.group g).clients.filter (fun c => visits plan ⟨.client, c⟩) := by
        rw [hl]; simp
      rw [List.mem_filter] at hx hy
      have := hex _ (group_mem hg) x hx.1 y hy.1 ((visits_iff _ _).1 hx.2) ((visits_iff _ _).1 hy.2)
      rw [List.nodup_cons] at hnd'
      exact hnd'.1 (by rw [this]; simp)
  have hsome : ∀ g, g < data.groups.length → (data.group g).required = true →
      (groupCounts data st.sol).getD g 0 ≠ 0 := by
    intro g hg hr
    rw [h2 g hg]
    obtain ⟨i, hi, hv⟩ := hcomp.groups _ (group_mem hg) hr
    exact Nat.ne_of_gt (List.countP_pos_iff.2 ⟨i, hi, visits_true hv⟩)
  have key : ∀ todo : List Activity, (∀ a ∈ todo, a ∈ allTasks data) →
      repairAll data ce st (groupCounts data st.sol) todo = .ok (st, groupCounts data st.sol) := by
    intro todo
    induction todo with
    | nil => intro _; rfl
    | cons a todo ih =>
      intro ha
      have hstep : repair data ce st (groupCounts data st.sol) a = .ok (st, groupCounts data st.sol) := by
        obtain ⟨ty, k⟩ := a
        rcases BinaryOp.mem_allTasks (ha ⟨ty, k⟩ (by simp)) with ⟨rfl, hk⟩ | ⟨rfl, hk⟩
        · dsimp only at hk
          unfold repair
          dsimp only
          have hv := place_isNone h.sol.clean.1 (a := ⟨.client, k⟩) (by simp)
          rw [if_neg]
          · cases hgrp : (data.client k).group with
            | none => rfl
            | some g =>
              dsimp only
              have hgl := group_lt hd hk hgrp
              unfold repairGroup
              rw [if_neg]
              · split
                · rfl
                · rw [if_neg]
                  have := hone g hgl
                  omega
              · rw [Bool.and_eq_true, beq_iff_eq]
                exact fun hx => hsome g hgl hx.1 hx.2
          · rw [Bool.and_eq_true, hv]
            exact fun hx => hx.1 (hcomp.clients k hk hx.2)
        · dsimp only at hk
          unfold repair
          dsimp only
          have hv := place_isNone h.sol.clean.1 (a := ⟨.pickup, k⟩) (by simp)
          rw [if_neg]
          rw [Bool.and_eq_true, hv]
          exact fun hx => hx.1 (hcomp.shipments k hk hx.2)
      unfold repairAll
      rw [hstep]
      exact ih (fun b hb => ha b (by simp [hb]))
  unfold ensureStructuralFeasibility
  rw [key _ (fun a ha => h.space.order.mem_iff.1 ha)]

end LState
end PyVRP
