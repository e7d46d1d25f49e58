import Verif.Model.CheckedSearch
import Verif.Lemmas.CheckedOps
/-!
# No assertion fails when moves are made: changing routes
-/
namespace PyVRP.Checked
open Spec
open SSol (Holds CleanBut At RefOk)

variable {data : ProblemData} {plan : List (List Activity)} {s : SSol}

/-! ## Positions in routes -/

theorem all_but (h : Holds data plan s) : CleanBut data (fun _ => True) plan s :=
  ⟨h, fun _ _ hn => absurd trivial hn⟩

theorem holds_route (h : Holds data plan s) {i : Nat} (hi : i < data.numVehicles) :
    Checked.route s i = some (s.route i) := by
  have hl : i < s.routes.length := by rw [h.sized.routes]; exact hi
  unfold Checked.route SSol.route
  rw [List.getD_eq_getElem?_getD, List.getElem?_eq_getElem hl]; rfl

theorem holds_size (h : Holds data plan s) {i : Nat} (hi : i < data.numVehicles) :
    (s.route i).size = (plan.getD i []).length + 2 := by
  have := h.visits i hi
  unfold SRoute.Visits at this
  unfold SRoute.size
  rw [this, canon_length]

theorem node_of_lt {r : SRoute} {k : Nat} (hk : k < r.size) : Checked.node r k = some (r.node k) := by
  unfold Checked.node SRoute.node
  have hl : k < r.nodes.length := hk
  rw [List.getD_eq_getElem?_getD, List.getElem?_eq_getElem hl]; rfl

theorem holds_node (h : Holds data plan s) {i : Nat} (hi : i < data.numVehicles) {k : Nat}
    (hk : k ≤ (plan.getD i []).length + 1) : Checked.node (s.route i) k = some ((s.route i).node k) :=
  node_of_lt (by rw [holds_size h hi]; omega)

theorem holds_activity (h : Holds data plan s) {i : Nat} (hi : i < data.numVehicles)
    {xs ys : List Activity} {a : Activity} (he : plan.getD i [] = xs ++ a :: ys) :
    ((s.route i).node (xs.length + 1)).activity = a := by
  have := h.visits i hi
  rw [he] at this
  exact SSol.visits_node this

theorem removeAt_eq (h : Holds data plan s) {i : Nat} (hi : i < data.numVehicles)
    {xs ys : List Activity} {a : Activity} (he : plan.getD i [] = xs ++ a :: ys) :
    Checked.removeAt s i (xs.length + 1) = some (s.removeAt i (xs.length + 1)) := by
  have hs := holds_size h hi
  have hl : (plan.getD i []).length = xs.length + ys.length + 1 := by rw [he]; simp; omega
  unfold Checked.removeAt
  rw [holds_route h hi, Option.bind_eq_bind, Option.bind_some, minus_eq (by omega)]
  simp only [Option.bind_eq_bind, Option.bind_some]
  rw [ensure_true ⟨by omega, by omega⟩]
  simp only [Option.bind_some]
  rw [holds_node h hi (by omega)]
  simp only [Option.bind_some]
  rw [ensure_true]
  · rfl
  · have ha := holds_activity h hi he
    rw [ha]
    by_cases hd : a.type = .depot
    · left; unfold SNode.isDepot Activity.isDepot; rw [ha, hd]; rfl
    · right; exact (h.owner a hd i).2 (by rw [he]; simp)

theorem insertAt_eq (h : Holds data plan s) {i : Nat} (hi : i < data.numVehicles) {p : Nat}
    (h0 : 0 < p) (hp : p ≤ (plan.getD i []).length + 1) (a : Activity) :
    Checked.insertAt data s i p a = some (s.insertAt data i p a) := by
  have hs := holds_size h hi
  unfold Checked.insertAt
  rw [holds_route h hi, Option.bind_eq_bind, Option.bind_some, ensure_true ⟨h0, by omega⟩]
  rfl

theorem takeOut_eq (h : Holds data plan s) {i : Nat} (hi : i < data.numVehicles)
    {xs ys : List Activity} {a : Activity} (ha : a.type ≠ .depot)
    (he : plan.getD i [] = xs ++ a :: ys) : Checked.takeOut s a = some (s.takeOut a) := by
  unfold Checked.takeOut SSol.takeOut
  rw [h.place hi ha he]
  exact removeAt_eq h hi he

theorem insertAfter_eq (h : Holds data plan s) {v : NodeRef} {j : Nat} {vs ws : List Activity}
    (hv : At data plan v j vs ws) (a : Activity) :
    Checked.insertAfter data s v a = some (s.insertAfter data v a) := by
  unfold Checked.insertAfter SSol.insertAfter
  rw [h.find hv]
  exact insertAt_eq h hv.1 (by omega) (by rw [hv.2.1]; simp) a

theorem slot_eq (h : Holds data plan s) (a : Activity) : Checked.slot s (s.place a) = some () := by
  cases hp : s.place a with
  | none => rfl
  | some ip =>
    obtain ⟨i, p⟩ := ip
    obtain ⟨hi, -, xs, ys, he, rfl⟩ := h.place_some hp
    unfold Checked.slot
    dsimp only
    rw [holds_route h hi, Option.bind_eq_bind, Option.bind_some,
      holds_node h hi (by rw [he]; simp)]
    rfl

theorem swapNodes_eq (h : Holds data plan s) {a b : Activity} (ha : a.type ≠ .depot)
    (hb : b.type ≠ .depot) : Checked.swapNodes s a b = some (s.swapNodes a b) := by
  unfold Checked.swapNodes
  rw [ensure_true ⟨ha, hb⟩, slot_eq h, slot_eq h]
  rfl

/-! ## Blocks of activities -/

/-- The activities `blk` follow each other in route `k`. -/
def Block (plan : List (List Activity)) (k : Nat) (blk : List Activity) : Prop :=
  ∃ p q, plan.getD k [] = p ++ blk ++ q

/-- Removing an activity outside the block. -/
theorem block_cut {xs ys p q blk : List Activity} {b : Activity} (h : xs ++ b :: ys = p ++ blk ++ q)
    (hb : b ∉ blk) : ∃ p' q', xs ++ ys = p' ++ blk ++ q' := by
  rw [List.append_assoc] at h
  rcases List.append_eq_append_iff.1 h with ⟨t, h1, h2⟩ | ⟨t, h1, h2⟩
  · -- the block starts after `xs`
    cases t with
    | nil =>
      cases blk with
      | nil => exact ⟨xs, ys, by simp⟩
      | cons c blk =>
        simp only [List.nil_append, List.cons_append] at h2
        injection h2 with h3 _
        exact absurd (by rw [h3]; simp) hb
    | cons c t =>
      simp only [List.cons_append] at h2
      injection h2 with h3 h4
      exact ⟨xs ++ t, q, by rw [h4]; simp⟩
  · -- the block starts within `xs`
    rcases List.append_eq_append_iff.1 h2 with ⟨t', h3, h4⟩ | ⟨t', h3, h4⟩
    · exact ⟨p, t' ++ ys, by rw [h1, h3]; simp⟩
    · cases t' with
      | nil => exact ⟨p, ys, by rw [h1]; simp at h3; rw [h3]⟩
      | cons c t' =>
        simp only [List.cons_append] at h4
        injection h4 with h5 _
        exact absurd (by rw [h3, h5]; simp) hb

/-- Inserting an activity, but not inside the block. -/
theorem block_keep {vs ws p q blk : List Activity} (b : Activity) (h : vs ++ ws = p ++ blk ++ q)
    (hv : vs = [] ∨ ∃ vs' w, vs = vs' ++ [w] ∧ ∀ l r, blk = l ++ w :: r → r = []) :
    ∃ p' q', vs ++ b :: ws = p' ++ blk ++ q' := by
  rw [List.append_assoc] at h
  rcases List.append_eq_append_iff.1 h with ⟨t, h1, h2⟩ | ⟨t, h1, h2⟩
  · exact ⟨vs ++ b :: t, q, by rw [h2]; simp⟩
  · rcases List.append_eq_append_iff.1 h2 with ⟨t', h3, h4⟩ | ⟨t', h3, h4⟩
    · exact ⟨p, t' ++ b :: ws, by rw [h1, h3]; simp⟩
    · rcases hv with hv | ⟨vs', w, hv, hin⟩
      · rw [hv] at h1
        obtain ⟨rfl, rfl⟩ := List.append_eq_nil_iff.1 h1.symm
        exact ⟨[b], q, by rw [hv]; simpa using h2.symm⟩
      · rcases List.eq_nil_or_concat t with rfl | ⟨t0, w', rfl⟩
        · exact ⟨p ++ [b], q, by rw [h1]; simpa using h2.symm⟩
        · rw [List.concat_eq_append] at h1 h3
          have hw : w' = w := by
            rw [hv, ← List.append_assoc] at h1
            have := List.append_inj_right' h1 rfl
            simpa using this.symm
          subst hw
          have := hin t0 t' (by rw [h3]; simp)
          subst this
          exact ⟨p, b :: ws, by rw [h1, h3]; simp⟩

/-! ## The loop that moves nodes -/

/-- No route makes too many trips. -/
def Trips (data : ProblemData) (plan : List (List Activity)) : Prop :=
  ∀ k, k < data.numVehicles →
    depotVisits (plan.getD k []) + 1 ≤ (data.vehicleType (vehTypeAt data k)).maxTrips

/-- A node that is in the way neither of the segment that moves, nor of a block that must stay. -/
def Outside (v : NodeRef) (blk : List Activity) : Prop :=
  ∀ w l r, v = .task w → blk = l ++ w :: r → r = []

theorem Outside.of_not_mem {v : NodeRef} {blk : List Activity} (h : ∀ w, v = .task w → w ∉ blk) :
    Outside v blk := by
  intro w l r hv he
  exact absurd (by rw [he]; simp) (h w hv)

theorem applyLoop_eq {i : Nat} (hi : i < data.numVehicles) {v : NodeRef} (hv : RefOk data v)
    (seg : List Activity) :
    ∀ {plan : List (List Activity)} {s : SSol} {a : Activity}, Holds data plan s → Trips data plan →
    Block plan i seg → Phase.NoDepot seg → (s.find v).isSome = true →
    (∀ w, v = .task w → w ∉ seg) → (∀ l m, seg = l ++ [m] → a = m) →
    ∃ s' plan', Relocate.applyLoop data v seg.length a s = .ok s'
      ∧ Checked.applyLoop data v seg.length a s = some (.ok s')
      ∧ Holds data plan' s' ∧ Trips data plan'
      ∧ ∀ k blk, Block plan k blk → (∀ x ∈ blk, x ∉ seg) → Outside v blk → Block plan' k blk := by
  induction seg using snoc_induction with
  | h0 =>
    intro plan s a h ht _ _ _ _ _
    exact ⟨s, plan, rfl, rfl, h, ht, fun k blk hb _ _ => hb⟩
  | hs seg b ih =>
    intro plan s a h ht hbl hd hf hvs ha
    have := ha seg b rfl; subst this
    obtain ⟨xs, ys, he⟩ := hbl
    have hb : a.type ≠ .depot := hd a (by simp)
    have he' : plan.getD i [] = (xs ++ seg) ++ a :: ys := by rw [he]; simp
    have hil : i < plan.length := h.lt_length hi
    have hon := h.once' hb he'
    have h1 := (all_but h).remove hi he'
    -- where `v` is once the node is out
    obtain ⟨⟨j0, q0⟩, hjq⟩ := Option.isSome_iff_exists.1 hf
    obtain ⟨vs0, ws0, hat0, -⟩ := h.find_some hv hjq
    obtain ⟨j, vs, ws, hat⟩ : ∃ j vs ws, At data (plan.set i (xs ++ seg ++ ys)) v j vs ws := by
      obtain ⟨hj, hp, hk⟩ := hat0
      rcases hk with ⟨rfl, rfl⟩ | ⟨w, vs', hw, rfl, rfl⟩
      · exact ⟨j0, [], _, hj, rfl, .inl ⟨rfl, rfl⟩⟩
      · have hwa : w ≠ a := by
          rintro rfl
          exact hvs w rfl (by simp)
        have hm : w ∈ (plan.set i (xs ++ seg ++ ys)).getD j0 [] := by
          by_cases hji : j0 = i
          · subst hji
            rw [getD_set_self hil]
            have : w ∈ plan.getD j0 [] := by rw [hp]; simp
            rw [he'] at this
            simp only [List.mem_append, List.mem_cons] at this ⊢
            tauto
          · rw [getD_set_ne _ hji, hp]; simp
        obtain ⟨l, r, hlr⟩ := List.append_of_mem hm
        exact ⟨j0, l ++ [w], r, hj, by rw [hlr]; simp, .inr ⟨w, l, hw, rfl, rfl⟩⟩
    have hjl : j < plan.length := h.lt_length hat.1
    have hcount : ∀ k, depotVisits ((plan.set i (xs ++ seg ++ ys)).getD k [])
        = depotVisits (plan.getD k []) := by
      intro k
      by_cases hk : k = i
      · subst hk
        rw [getD_set_self hil, he', depotVisits_mid _ _ hb]
      · rw [getD_set_ne _ hk]
    have hvt : depotVisits (vs ++ ws) + 1 ≤ (data.vehicleType (vehTypeAt data j)).maxTrips := by
      rw [← hat.2.1, hcount]; exact ht j hat.1
    obtain ⟨s', h3, h4⟩ := (all_but h).moveOne hi hb he' hat hvt
    -- the blocks that stay
    have hkeep : ∀ k blk, Block plan k blk → a ∉ blk → Outside v blk →
        Block ((plan.set i (xs ++ seg ++ ys)).set j (vs ++ a :: ws)) k blk := by
      rintro k blk ⟨p, q, hpq⟩ hm hout
      have hcut : ∃ p' q', (plan.set i (xs ++ seg ++ ys)).getD k [] = p' ++ blk ++ q' := by
        by_cases hk : k = i
        · subst hk
          rw [getD_set_self hil]
          exact block_cut (he'.symm.trans hpq) hm
        · rw [getD_set_ne _ hk]; exact ⟨p, q, hpq⟩
      obtain ⟨p', q', hpq'⟩ := hcut
      by_cases hk : k = j
      · subst hk
        unfold Block
        rw [getD_set_self (by simpa using hjl)]
        refine block_keep a (hat.2.1.symm.trans hpq') ?_
        rcases hat.2.2 with ⟨-, h0⟩ | ⟨w, vs', -, hvw, h0⟩
        · exact .inl h0
        · exact .inr ⟨vs', w, h0, fun l r hlr => hout w l r hvw hlr⟩
      · exact ⟨p', q', by rw [getD_set_ne _ hk]; exact hpq'⟩
    have hseg : Block ((plan.set i (xs ++ seg ++ ys)).set j (vs ++ a :: ws)) i seg := by
      refine hkeep i seg ⟨xs, a :: ys, by rw [he']⟩ (fun hm => hon.1 (by simp [hm])) ?_
      exact Outside.of_not_mem (fun w hw hm => hvs w hw (by simp [hm]))
    have hfound : (s'.find v).isSome = true := by
      have : At data ((plan.set i (xs ++ seg ++ ys)).set j (vs ++ a :: ws)) v j vs (a :: ws) :=
        hat.same (by rw [getD_set_self (by simpa using hjl)])
      rw [h4.1.find this]; rfl
    have ht' : Trips data ((plan.set i (xs ++ seg ++ ys)).set j (vs ++ a :: ws)) := by
      intro k hk
      by_cases hkj : k = j
      · subst hkj
        rw [getD_set_self (by simpa using hjl), depotVisits_mid _ _ hb]; exact hvt
      · rw [getD_set_ne _ hkj, hcount]; exact ht k hk
    obtain ⟨s'', plan'', k1, k2, k3, k4, k5⟩ := ih
      (a := ((s.route i).node ((xs ++ seg).length + 1 - 1)).activity) h4.1 ht' hseg
      (fun x hx => hd x (by simp [hx])) hfound (fun w hw hm => hvs w hw (by simp [hm])) (by
        rintro l m rfl
        have := h.visits i hi
        rw [he', ← List.append_assoc] at this
        rw [← List.append_assoc]
        exact SSol.node_before this)
    refine ⟨s'', plan'', ?_, ?_, k3, k4, ?_⟩
    · rw [List.length_append, List.length_singleton, Relocate.applyLoop, h.place hi hb he']
      dsimp only
      rw [h3]
      exact k1
    · rw [List.length_append, List.length_singleton]
      unfold Checked.applyLoop Checked.here
      rw [h.place hi hb he']
      simp only [Option.bind_eq_bind, Option.bind_some]
      have hl : (plan.getD i []).length = (xs ++ seg).length + ys.length + 1 := by
        rw [he', List.length_append, List.length_cons]; omega
      rw [holds_route h hi, Option.bind_some, holds_node h hi (by omega), Option.bind_some,
        ensure_true (holds_activity h hi he'), Option.bind_some, Option.pure_def, Option.bind_some,
        minus_eq (by omega), Option.bind_some, holds_node h hi (by omega), Option.bind_some,
        removeAt_eq h hi he', Option.bind_some, insertAfter_eq h1.1 hat, Option.bind_some, h3]
      exact k2
    · intro k blk hblk hdis hout
      exact k5 k blk (hkeep k blk hblk (fun hm => hdis a hm (by simp)) hout)
        (fun x hx hm => hdis x hx (by simp [hm])) hout

/-! ## The loop that swaps nodes -/

theorem swapLoop_eq : ∀ (n : Nat) {i j : Nat} {as bs : List Activity} {plan : List (List Activity)}
    {s : SSol} {a b : Activity}, Holds data plan s → Block plan i as → Block plan j bs →
    as.length = n → bs.length = n → Phase.NoDepot as → Phase.NoDepot bs → (∀ x ∈ as, x ∉ bs) →
    (∀ x l, as = x :: l → a = x) → (∀ x l, bs = x :: l → b = x) →
    Checked.swapLoop n a b s = some (Swap.swapLoop n a b s) := by
  intro n
  induction n with
  | zero => intros; rfl
  | succ n ih =>
    intro i j as bs plan s a b h hi hj ha hb hda hdb hdis hha hhb
    cases as with
    | nil => simp at ha
    | cons x as =>
    cases bs with
    | nil => simp at hb
    | cons y bs =>
    have := hha x as rfl; subst this
    have := hhb y bs rfl; subst this
    have hta : a.type ≠ .depot := hda a (by simp)
    have htb : b.type ≠ .depot := hdb b (by simp)
    obtain ⟨xs, ys, hi⟩ := hi
    obtain ⟨vs, ws, hj⟩ := hj
    have hi' : plan.getD i [] = xs ++ a :: (as ++ ys) := by rw [hi]; simp
    have hj' : plan.getD j [] = vs ++ b :: (bs ++ ws) := by rw [hj]; simp
    have hai : a ∈ plan.getD i [] := by rw [hi']; simp
    have hbj : b ∈ plan.getD j [] := by rw [hj']; simp
    have hil := h.lt_of_mem hai
    have hjl := h.lt_of_mem hbj
    have hab : a ≠ b := fun hc => hdis a (by simp) (by rw [hc]; simp)
    have h1 := ((all_but h).swapNodes (h.isTask hta hai) (h.isTask htb hbj) hta htb hab hai).1
    have honA := h.once' hta hi'
    have honB := h.once' htb hj'
    have hma : as.map (swapAct a b) = as :=
      map_swapAct_id (fun hm => honA.2 (by simp [hm])) (fun hm => hdis b (by simp [hm]) (by simp))
    have hmb : bs.map (swapAct a b) = bs :=
      map_swapAct_id (fun hm => hdis a (by simp) (by simp [hm])) (fun hm => honB.2 (by simp [hm]))
    have gi : (plan.map (List.map (swapAct a b))).getD i []
        = xs.map (swapAct a b) ++ b :: (as ++ ys.map (swapAct a b)) := by
      rw [getD_map_map, hi']
      simp only [List.map_append, List.map_cons, swapAct_left, hma]
    have gj : (plan.map (List.map (swapAct a b))).getD j []
        = vs.map (swapAct a b) ++ a :: (bs ++ ws.map (swapAct a b)) := by
      rw [getD_map_map, hj']
      simp only [List.map_append, List.map_cons, swapAct_right, hmb]
    unfold Checked.swapLoop
    rw [swapNodes_eq h hta htb, Swap.swapLoop]
    simp only [Option.bind_eq_bind, Option.bind_some]
    rw [h1.place hjl hta gj, h1.place hil htb gi]
    simp only [Option.bind_some]
    rw [holds_route h1 hjl, Option.bind_some, holds_node h1 hjl (by rw [gj]; simp),
      Option.bind_some, holds_route h1 hil, Option.bind_some,
      holds_node h1 hil (by rw [gi]; simp), Option.bind_some]
    refine ih (as := bs) (bs := as) h1
      ⟨vs.map (swapAct a b) ++ [a], ws.map (swapAct a b), by rw [gj]; simp⟩
      ⟨xs.map (swapAct a b) ++ [b], ys.map (swapAct a b), by rw [gi]; simp⟩
      (by simpa using hb) (by simpa using ha)
      (fun x hx => hdb x (by simp [hx])) (fun x hx => hda x (by simp [hx]))
      (fun x hx hm => hdis x (by simp [hm]) (by simp [hx])) ?_ ?_
    · rintro x l rfl
      have := h1.visits j hjl
      rw [gj] at this
      exact SSol.node_after this
    · rintro x l rfl
      have := h1.visits i hil
      rw [gi] at this
      exact SSol.node_after this

/-! ## The loops that swap tails -/

theorem moveAll_eq {i j : Nat} (hij : i ≠ j) (hi : i < data.numVehicles)
    (hj : j < data.numVehicles) {r vs ws : List Activity} (acts : List Activity) :
    ∀ {plan : List (List Activity)} {s : SSol} {l : List Activity}, Holds data plan s →
    plan.getD i [] = l ++ r → plan.getD j [] = vs ++ acts ++ ws → Phase.NoDepot acts →
    depotVisits (l ++ r) + 1 ≤ (data.vehicleType (vehTypeAt data i)).maxTrips →
    Checked.moveAll data i (l.length + 1) acts s = some (SwapTails.moveAll data i (l.length + 1) acts s) := by
  induction acts with
  | nil => intros; rfl
  | cons a acts ih =>
    intro plan s l h he hv hd ht
    have hb : a.type ≠ .depot := hd a (by simp)
    have hil : i < plan.length := h.lt_length hi
    have hjl : j < plan.length := h.lt_length hj
    have hv' : plan.getD j [] = vs ++ a :: (acts ++ ws) := by rw [hv]; simp
    have h1 := (all_but h).remove hj hv'
    obtain ⟨s', h2, h3⟩ := h1.insert hi (xs := l) (ys := r) (by rw [getD_set_ne _ hij]; exact he)
      (.inr ⟨h.isTask hb (i := j) (by rw [hv']; simp), h.absent hj hb hv'⟩)
      (by rw [depotVisits_mid _ _ hb]; exact ht)
    have hend : Checked.moveAll data i ((l ++ [a]).length + 1) acts s'
        = some (SwapTails.moveAll data i ((l ++ [a]).length + 1) acts s') := by
      rw [List.set_comm _ _ hij.symm] at h3
      exact ih (l := l ++ [a]) h3.1
        (by rw [getD_set_ne _ hij, getD_set_self hil]; simp)
        (by rw [getD_set_self (by simpa using hjl)]; simp) (fun x hx => hd x (by simp [hx]))
        (by rw [List.append_assoc, List.singleton_append, depotVisits_mid _ _ hb]; exact ht)
    unfold Checked.moveAll SwapTails.moveAll
    rw [takeOut_eq h hj hb hv', Option.bind_eq_bind, Option.bind_some, SSol.takeOut_eq h hj hb hv',
      insertAt_eq h1.1 hi (by omega) (by rw [getD_set_ne _ hij, he]; simp), Option.bind_eq_bind,
      Option.bind_some, h2]
    rw [List.length_append, List.length_singleton] at hend
    exact hend

end PyVRP.Checked
