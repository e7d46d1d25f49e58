import Verif.Lemmas.CheckedApply2
/-!
# No assertion fails when moves are made: depots, clients and shipments
-/
namespace PyVRP.Checked
open Spec
open SSol (Holds CleanBut At RefOk)

variable {data : ProblemData} {plan : List (List Activity)} {s : SSol}

theorem renumber_length (f : Nat → Nat) : ∀ (l : List SNode) (p : Nat), (SRoute.renumber f p l).length = l.length
  | [], _ => rfl
  | _ :: l, p => by
    show (SRoute.renumber f (p + 1) l).length + 1 = _
    rw [renumber_length f l]; rfl

/-- A node that is added makes a route longer by one. -/
theorem insert_size {r r' : SRoute} {p : Nat} {a : Activity} (hp : p ≤ r.size)
    (hr : r.insert data p a = .ok r') : r'.size = r.size + 1 := by
  unfold SRoute.insert at hr
  dsimp only at hr
  generalize (if a.isDepot = true then 1 else 0) = x at hr
  split at hr
  · cases hr
  · injection hr with hr
    rw [← hr]
    unfold SRoute.size at hp ⊢
    simp only [List.length_append, List.length_take, renumber_length, List.length_cons,
      List.length_drop]
    omega

/-- A second insertion into the same route. -/
theorem insertAt_twice (h : Holds data plan s) {i : Nat} (hi : i < data.numVehicles) {p : Nat}
    {a : Activity} {s' : SSol} (hp : p ≤ (plan.getD i []).length + 2)
    (hok : s.insertAt data i p a = .ok s') {q : Nat} (h0 : 0 < q)
    (hq : q ≤ (plan.getD i []).length + 2) (b : Activity) :
    Checked.insertAt data s' i q b = some (s'.insertAt data i q b) := by
  have hs := holds_size h hi
  have hl : i < s.routes.length := by rw [h.sized.routes]; exact hi
  unfold SSol.insertAt at hok
  split at hok
  · cases hok
  · rename_i r hr
    injection hok with hok
    have hsize := insert_size (by omega) hr
    have hl' : i < ((s.setOwner a (some i)).setRoute i r).routes.length := by
      show i < ((s.setOwner a (some i)).routes.set i r).length
      rw [List.length_set, SSol.setOwner_routes]; exact hl
    have hroute : ((s.setOwner a (some i)).setRoute i r).route i = r := by
      show ((s.setOwner a (some i)).routes.set i r).getD i _ = r
      rw [SSol.setOwner_routes, List.getD_eq_getElem?_getD, List.getElem?_set_self hl]; rfl
    subst hok
    unfold Checked.insertAt
    have : Checked.route ((s.setOwner a (some i)).setRoute i r) i = some r := by
      unfold Checked.route
      rw [List.getElem?_eq_getElem hl']
      have := hroute
      unfold SSol.route at this
      rw [List.getD_eq_getElem?_getD, List.getElem?_eq_getElem hl'] at this
      exact congrArg some this
    rw [this, Option.bind_eq_bind, Option.bind_some, ensure_true ⟨h0, by omega⟩]
    rfl

/-- Where a node is when another one is out. -/
theorem at_removed (h : Holds data plan s) {i : Nat} (hi : i < data.numVehicles) {xs ys : List Activity}
    {a : Activity} (he : plan.getD i [] = xs ++ a :: ys) {v : NodeRef} {j : Nat}
    {vs ws : List Activity} (hat : At data plan v j vs ws) (hva : v ≠ .task a) :
    ∃ vs ws, At data (plan.set i (xs ++ ys)) v j vs ws := by
  have hil := h.lt_length hi
  obtain ⟨hj, hp, hk⟩ := hat
  rcases hk with ⟨rfl, rfl⟩ | ⟨w, vs', hw, rfl, rfl⟩
  · exact ⟨[], _, hj, rfl, .inl ⟨rfl, rfl⟩⟩
  · have hwa : w ≠ a := fun hc => hva (by rw [hc])
    have hm : w ∈ (plan.set i (xs ++ ys)).getD j [] := by
      by_cases hji : j = i
      · subst hji
        rw [getD_set_self hil]
        have : w ∈ plan.getD j [] := by rw [hp]; simp
        rw [he] at this
        simp only [List.mem_append, List.mem_cons] at this ⊢
        tauto
      · rw [getD_set_ne _ hji, hp]; simp
    obtain ⟨l, r, hlr⟩ := List.append_of_mem hm
    exact ⟨l ++ [w], r, hj, by rw [hlr]; simp, .inr ⟨w, l, hw, rfl, rfl⟩⟩

theorem RelocateWithDepot.apply_eq (ce : CostEvaluator) (h : SearchOk data plan s)
    {u : Activity} {v : NodeRef} (hv : RefOk data v) (hvu : v ≠ .task u) (cache : Cache) (move : Move)
    (hap : (PyVRP.RelocateWithDepot.evaluate data ce s cache u v).1.apply = true) :
    Checked.RelocateWithDepot.apply data s u v move
      = some (PyVRP.RelocateWithDepot.apply data s u v move) := by
  unfold PyVRP.RelocateWithDepot.evaluate at hap
  cases hpu : s.place u with
  | none => rw [hpu] at hap; cases hap
  | some ip =>
  cases hpv : s.find v with
  | none => rw [hpu, hpv] at hap; obtain ⟨i, p⟩ := ip; cases hap
  | some jq =>
  obtain ⟨i, p⟩ := ip
  obtain ⟨j, q⟩ := jq
  obtain ⟨hi, hut, xs, ys, hsp, rfl⟩ := h.clean.1.place_some hpu
  obtain ⟨vs, ws, hat, rfl⟩ := h.clean.1.find_some hv hpv
  obtain ⟨vs', ws', hat'⟩ := at_removed h.clean.1 hi hsp hat hvu
  have h1 := (all_but h.clean.1).remove hi hsp
  rw [← SSol.takeOut_eq h.clean.1 hi hut hsp] at h1
  have hl : ((plan.set i (xs ++ ys)).getD j []).length = vs'.length + ws'.length := by
    rw [hat'.2.1, List.length_append]
  unfold Checked.RelocateWithDepot.apply PyVRP.RelocateWithDepot.apply
  have hf := h1.1.find hat'
  have hlt := hat'.1
  rw [takeOut_eq h.clean.1 hi hut hsp]
  simp only [Option.bind_eq_bind, Option.bind_some, hf]
  generalize s.takeOut u = s1 at h1 ⊢
  cases move with
  | depotU d =>
    dsimp only
    rw [insertAt_eq h1.1 hat'.1 (by omega) (by omega), Option.bind_some]
    cases hok : s1.insertAt data j (vs'.length + 1) u with
    | error e => rfl
    | ok s2 => exact insertAt_twice h1.1 hlt (by rw [hl]; omega) hok (by omega) (by rw [hl]; omega) _
  | uDepot d =>
    dsimp only
    rw [insertAt_eq h1.1 hat'.1 (by omega) (by omega), Option.bind_some]
    cases hok : s1.insertAt data j (vs'.length + 1) u with
    | error e => rfl
    | ok s2 => exact insertAt_twice h1.1 hlt (by rw [hl]; omega) hok (by omega) (by rw [hl]; omega) _
  | _ => rfl

theorem better_snd {best : Int × Move} {cost : Int} {move : Move} {P : Move → Prop} (h1 : P best.2)
    (h2 : P move) : P (PyVRP.RelocateWithDepot.better best cost move).2 := by
  unfold PyVRP.RelocateWithDepot.better
  split
  · exact h2
  · exact h1

theorem RemoveAdjacentDepot.apply_eq (ce : CostEvaluator) (h : SearchOk data plan s) {u : Activity}
    (hap : (PyVRP.RemoveAdjacentDepot.evaluate data ce s u).apply = true) :
    Checked.RemoveAdjacentDepot.apply s u (PyVRP.RemoveAdjacentDepot.evaluate data ce s u).move
      = some (PyVRP.RemoveAdjacentDepot.apply s u (PyVRP.RemoveAdjacentDepot.evaluate data ce s u).move) := by
  unfold PyVRP.RemoveAdjacentDepot.evaluate at hap ⊢
  cases hpu : s.place u with
  | none => rw [hpu] at hap; cases hap
  | some ip =>
  obtain ⟨i, p⟩ := ip
  clear hap
  dsimp only
  obtain ⟨hi, hut, xs, ys, hsp, rfl⟩ := h.clean.1.place_some hpu
  have key : ∀ m : Move, (m = .removePrev → ((s.route i).node (xs.length + 1 - 1)).isReloadDepot = true) →
      (m = .removeNext → ((s.route i).node (xs.length + 1 + 1)).isReloadDepot = true) →
      Checked.RemoveAdjacentDepot.apply s u m = some (PyVRP.RemoveAdjacentDepot.apply s u m) := by
    intro m hprev hnext
    unfold Checked.RemoveAdjacentDepot.apply PyVRP.RemoveAdjacentDepot.apply
    simp only [hpu, Option.bind_eq_bind, Option.bind_some]
    cases m with
    | removePrev =>
      have hre := hprev rfl
      dsimp only
      rcases List.eq_nil_or_concat xs with rfl | ⟨xs', b, rfl⟩
      · rw [h.route hi] at hre
        cases hre
      · rw [List.concat_eq_append] at *
        have hl : (xs' ++ [b]).length + 1 - 1 = xs'.length + 1 := by simp
        have hsp' : plan.getD i [] = xs' ++ b :: (u :: ys) := by rw [hsp]; simp
        rw [minus_eq (by omega), Option.bind_some, hl]
        exact removeAt_eq h.clean.1 hi hsp'
    | removeNext =>
      have hre := hnext rfl
      dsimp only
      have hl : xs.length + 1 + 1 = (xs ++ [u]).length + 1 := by simp
      have hsp' : plan.getD i [] = (xs ++ [u]) ++ ys := by rw [hsp]; simp
      cases ys with
      | nil =>
        rw [h.route hi, hsp', hl, List.append_nil, SRoute.ofActs_end] at hre
        cases hre
      | cons b ys =>
        rw [hl]
        exact removeAt_eq h.clean.1 hi hsp'
    | _ => rfl
  have hfirst : ∀ c, (if ((s.route i).node (xs.length + 1 - 1)).isReloadDepot = true
      then PyVRP.RelocateWithDepot.better (MAX, .none) c .removePrev else (MAX, .none)).2 = .removePrev →
      ((s.route i).node (xs.length + 1 - 1)).isReloadDepot = true := by
    intro c
    split
    · rename_i h1
      exact fun _ => h1
    · intro h; cases h
  have hother : ∀ c, (if ((s.route i).node (xs.length + 1 - 1)).isReloadDepot = true
      then PyVRP.RelocateWithDepot.better (MAX, .none) c .removePrev else (MAX, .none)).2 ≠ .removeNext := by
    intro c
    split
    · exact better_snd (P := fun m => m ≠ .removeNext) (by intro h; cases h) (by intro h; cases h)
    · intro h; cases h
  apply key
  · split
    · exact better_snd (P := fun m => m = .removePrev → _) (hfirst _) (by intro h; cases h)
    · exact hfirst _
  · split
    · rename_i h2
      exact fun _ => h2
    · exact fun h => absurd h (hother _)

theorem RelocateAlternative.apply_eq (ce : CostEvaluator) (hd : Consistent data)
    (h : SearchOk data plan s) (hex : Exclusive data plan) {u : Activity} {v : NodeRef}
    (hv : RefOk data v) (cache : Cache)
    (hap : (PyVRP.RelocateAlternative.evaluate data ce s cache u v).1.apply = true) :
    Checked.RelocateAlternative.apply data s u v (PyVRP.RelocateAlternative.evaluate data ce s cache u v).1.move
      = some (PyVRP.RelocateAlternative.apply data s u v
        (PyVRP.RelocateAlternative.evaluate data ce s cache u v).1.move) := by
  unfold PyVRP.RelocateAlternative.evaluate at hap ⊢
  cases hpu : s.place u with
  | none => rw [hpu] at hap; cases hap
  | some ip =>
  cases hpv : s.find v with
  | none => rw [hpu, hpv] at hap; obtain ⟨i, p⟩ := ip; cases hap
  | some jq =>
  obtain ⟨i, p⟩ := ip
  obtain ⟨j, q⟩ := jq
  rw [hpu, hpv] at hap
  dsimp only at hap ⊢
  by_cases hf1 : (!u.isClient || v == .task u || ((s.route j).node (q + 1)).activity == u) = true
  · rw [if_pos hf1] at hap; cases hap
  rw [if_neg hf1] at hap ⊢
  cases hg : (data.client u.idx).group with
  | none => rw [hg] at hap; cases hap
  | some g =>
  rw [hg] at hap
  dsimp only at hap ⊢
  simp only [Bool.or_eq_true, not_or, Bool.not_eq_true, beq_iff_eq] at hf1
  obtain ⟨⟨hf1, hvu⟩, hnx⟩ := hf1
  obtain ⟨ty, c⟩ := u
  have hty : ty = .client := by
    cases ty <;> simp [Activity.isClient] at hf1 ⊢
  subst hty
  obtain ⟨hi, hut, xs, ys, hsp, rfl⟩ := h.clean.1.place_some hpu
  obtain ⟨vs, ws, hat, rfl⟩ := h.clean.1.find_some hv hpv
  have hr0 := h.routes i hi
  rw [hsp] at hr0
  have hc : c < data.numClients := hr0.inRange ⟨.client, c⟩ (by simp)
  obtain ⟨hcm, hreq, hgm⟩ := mem_group hd hc hg
  obtain ⟨vs', ws', hat'⟩ := at_removed h.clean.1 hi hsp hat (by simpa using hvu)
  have h1 := (all_but h.clean.1).remove hi hsp
  rw [← SSol.takeOut_eq h.clean.1 hi hut hsp] at h1
  -- any member of the group can take its place
  have key : ∀ c' ∈ (data.group g).clients, c' ≠ c →
      Checked.RelocateAlternative.apply data s ⟨.client, c⟩ v (.node ⟨.client, c'⟩)
        = some (PyVRP.RelocateAlternative.apply data s ⟨.client, c⟩ v (.node ⟨.client, c'⟩)) := by
    intro c' hm hne
    have hn : s.place ⟨.client, c'⟩ = none := by
      rw [h.not_placed (by simp)]
      exact fun hvis => hne (hex _ hgm c' hm c hcm hvis ⟨i, by rw [hsp]; simp⟩)
    unfold Checked.RelocateAlternative.apply PyVRP.RelocateAlternative.apply
    rw [ensure_true ⟨rfl, by rw [hpu]; rfl, by rw [hpv]; rfl⟩]
    dsimp only
    simp only [Option.bind_eq_bind, Option.bind_some]
    rw [ensure_true (by rw [hn]; rfl), Option.bind_some, takeOut_eq h.clean.1 hi hut hsp,
      Option.bind_some]
    exact insertAfter_eq h1.1 hat' _
  by_cases hij : i = j
  · rw [if_pos hij] at hap ⊢
    by_cases htr : ((s.route i).node (xs.length + 1)).trip ≠ ((s.route j).node vs.length).trip
    · rw [if_pos htr] at hap; cases hap
    rw [if_neg htr] at hap ⊢
    dsimp only at hap ⊢
    obtain ⟨c', hm, hne, -, he⟩ := PyVRP.RelocateAlternative.search_some _ _ _ hap
    rw [he]
    exact key c' hm hne
  · rw [if_neg hij] at hap ⊢
    dsimp only at hap ⊢
    obtain ⟨c', hm, hne, -, he⟩ := PyVRP.RelocateAlternative.search_some _ _ _ hap
    rw [he]
    exact key c' hm hne

theorem InsertOptionalClient.apply_eq (ce : CostEvaluator) (h : SearchOk data plan s) {u : Activity}
    {v : NodeRef} (hv : RefOk data v)
    (hap : (PyVRP.InsertOptionalClient.evaluate data ce s u v).apply = true) :
    Checked.InsertOptionalClient.apply data s u v = some (PyVRP.InsertOptionalClient.apply data s u v) := by
  unfold PyVRP.InsertOptionalClient.evaluate at hap
  cases hpu : s.place u with
  | some ip => rw [hpu] at hap; cases hap
  | none =>
  cases hpv : s.find v with
  | none => rw [hpu, hpv] at hap; cases hap
  | some jq =>
  obtain ⟨j, q⟩ := jq
  rw [hpu, hpv] at hap
  dsimp only at hap
  split at hap
  · cases hap
  rename_i hf1
  obtain ⟨vs, ws, hat, rfl⟩ := h.clean.1.find_some hv hpv
  unfold Checked.InsertOptionalClient.apply PyVRP.InsertOptionalClient.apply
  rw [ensure_true ⟨by simpa using hf1, by rw [hpu]; rfl, by rw [hpv]; rfl⟩]
  exact insertAfter_eq h.clean.1 hat _

theorem RemoveOptionalClient.apply_eq (ce : CostEvaluator) (h : SearchOk data plan s) {u : Activity}
    (hap : (PyVRP.RemoveOptionalClient.evaluate data ce s u).apply = true) :
    Checked.RemoveOptionalClient.apply s u = some (PyVRP.RemoveOptionalClient.apply s u) := by
  unfold PyVRP.RemoveOptionalClient.evaluate at hap
  cases hpu : s.place u with
  | none => rw [hpu] at hap; cases hap
  | some ip =>
  obtain ⟨i, p⟩ := ip
  rw [hpu] at hap
  dsimp only at hap
  split at hap
  · cases hap
  rename_i hf1
  simp only [Bool.or_eq_true, not_or, Bool.not_eq_true, Bool.not_eq_eq_eq_not, Bool.not_true,
    Bool.not_eq_false] at hf1
  obtain ⟨hi, hut, xs, ys, hsp, rfl⟩ := h.clean.1.place_some hpu
  unfold Checked.RemoveOptionalClient.apply PyVRP.RemoveOptionalClient.apply
  rw [ensure_true hf1.1.1]
  exact takeOut_eq h.clean.1 hi hut hsp

/-- Another client takes the place of a node. -/
theorem replaceAt_eq (h : SearchOk data plan s) {j : Nat} (hj : j < data.numVehicles)
    {xs ys : List Activity} {a : Activity} (hsp : plan.getD j [] = xs ++ a :: ys) (u : Activity) :
    (do Checked.insertAt data (← Checked.removeAt s j (xs.length + 1)) j (xs.length + 1) u)
      = some ((s.removeAt j (xs.length + 1)).insertAt data j (xs.length + 1) u) := by
  have h1 := (all_but h.clean.1).remove hj hsp
  rw [removeAt_eq h.clean.1 hj hsp, Option.bind_eq_bind, Option.bind_some]
  exact insertAt_eq h1.1 hj (by omega) (by
    rw [getD_set_self (h.clean.1.lt_length hj), List.length_append]; omega) u

theorem ReplaceOptionalClient.apply_eq (ce : CostEvaluator) (h : SearchOk data plan s) {u : Activity}
    {v : NodeRef} (hap : (PyVRP.ReplaceOptionalClient.evaluate data ce s u v).apply = true)
    (hv : RefOk data v) :
    Checked.ReplaceOptionalClient.apply data s u v = some (PyVRP.ReplaceOptionalClient.apply data s u v) := by
  unfold PyVRP.ReplaceOptionalClient.evaluate at hap
  cases hpu : s.place u with
  | some ip => rw [hpu] at hap; cases hap
  | none =>
  cases hpv : s.find v with
  | none => rw [hpu, hpv] at hap; cases hap
  | some jq =>
  obtain ⟨j, q⟩ := jq
  rw [hpu, hpv] at hap
  dsimp only at hap
  split at hap
  · cases hap
  rename_i hf1
  simp only [Bool.or_eq_true, not_or, Bool.not_eq_true, Bool.not_eq_eq_eq_not, Bool.not_true,
    Bool.not_eq_false] at hf1
  obtain ⟨vs', ws, hat, rfl⟩ := h.clean.1.find_some hv hpv
  have hj := hat.1
  obtain ⟨b, vs, rfl⟩ : ∃ b vs, vs' = vs ++ [b] := by
    rcases hat.2.2 with ⟨-, h0⟩ | ⟨a, vs, -, -, h0⟩
    · rw [h0, h.route hj] at hf1
      cases hf1.2
    · exact ⟨a, vs, h0⟩
  have hl : (vs ++ [b]).length = vs.length + 1 := by simp
  have hsp : plan.getD j [] = vs ++ b :: ws := by rw [hat.2.1]; simp
  rw [hl] at hf1 hpv
  unfold Checked.ReplaceOptionalClient.apply PyVRP.ReplaceOptionalClient.apply
  rw [hpv]
  simp only [Option.bind_eq_bind, Option.bind_some]
  rw [holds_route h.clean.1 hj, Option.bind_some, holds_node h.clean.1 hj (by rw [hsp]; simp),
    Option.bind_some, ensure_true ⟨by rw [hpu]; rfl, hf1.1, hf1.2⟩, Option.bind_some]
  exact replaceAt_eq h hj hsp u

theorem ReplaceGroup.apply_eq (ce : CostEvaluator) (h : SearchOk data plan s) {u : Activity}
    (hap : (PyVRP.ReplaceGroup.evaluate data ce s u).apply = true) :
    Checked.ReplaceGroup.apply data s u (PyVRP.ReplaceGroup.evaluate data ce s u).move
      = some (PyVRP.ReplaceGroup.apply data s u (PyVRP.ReplaceGroup.evaluate data ce s u).move) := by
  unfold PyVRP.ReplaceGroup.evaluate at hap ⊢
  split at hap
  · cases hap
  rename_i hf1
  rw [if_neg hf1]
  simp only [Bool.or_eq_true, not_or, Bool.not_eq_true, Bool.not_eq_eq_eq_not, Bool.not_true,
    Bool.not_eq_false, Option.isSome_eq_false_iff] at hf1
  split at hap
  · cases hap
  split at hap
  · cases hap
  rename_i g hg _ c hfc
  split at hap
  · cases hap
  rename_i _ j q hpc
  obtain ⟨hj, hct, xs, ys, hsp, rfl⟩ := h.clean.1.place_some hpc
  show Checked.ReplaceGroup.apply data s u (.node ⟨.client, c⟩)
    = some (PyVRP.ReplaceGroup.apply data s u (.node ⟨.client, c⟩))
  unfold Checked.ReplaceGroup.apply PyVRP.ReplaceGroup.apply PyVRP.ReplaceOptionalClient.apply
  rw [ensure_true ⟨hf1.1, hf1.2⟩]
  dsimp only
  simp only [Option.bind_eq_bind, Option.bind_some]
  rw [show s.find (.task ⟨.client, c⟩) = some (j, xs.length + 1) from hpc, hpc, Option.bind_some]
  exact replaceAt_eq h hj hsp u

/-- The two insertions of a shipment. -/
theorem insertBoth_eq {plan1 : List (List Activity)} {s1 : SSol} (h : Holds data plan1 s1)
    {v : NodeRef} {j : Nat} {vs ws : List Activity} (hat : At data plan1 v j vs ws) {p : Nat}
    (hp : vs.length < p) (hpl : p ≤ vs.length + ws.length + 1) (u : Activity) :
    Checked.insertBoth data s1 u v (.pos p)
      = some (PyVRP.InsertOptionalShipment.insertBoth data s1 u v (.pos p)) := by
  have hl : (plan1.getD j []).length = vs.length + ws.length := by rw [hat.2.1, List.length_append]
  unfold Checked.insertBoth PyVRP.InsertOptionalShipment.insertBoth
  rw [h.find hat]
  dsimp only
  simp only [Option.bind_eq_bind, Option.bind_some]
  rw [ensure_true (show p > vs.length from hp), Option.bind_some,
    insertAt_eq h hat.1 (by omega) (by omega), Option.bind_some]
  cases hok : s1.insertAt data j p ⟨.delivery, u.idx⟩ with
  | error e => rfl
  | ok s2 => exact insertAt_twice h hat.1 (by omega) hok (by omega) (by omega) _

/-- Where the search puts the delivery. -/
theorem search_pos (ce : CostEvaluator) (h : SearchOk data plan s) {j : Nat} (hj : j < data.numVehicles)
    {vs ws : List Activity} (hsp : plan.getD j [] = vs ++ ws) (out : Int) (pk dl : Seg)
    (hap : (PyVRP.InsertOptionalShipment.search data ce (s.route j) vs.length out pk dl).apply = true) :
    ∃ p, (PyVRP.InsertOptionalShipment.search data ce (s.route j) vs.length out pk dl).move = .pos p
      ∧ vs.length < p ∧ p ≤ vs.length + ws.length + 1 := by
  unfold PyVRP.InsertOptionalShipment.search at hap ⊢
  dsimp only at hap ⊢
  split at hap
  · rename_i hneg
    rw [if_pos hneg]
    exact ⟨vs.length + 1, rfl, by omega, by omega⟩
  · rename_i hneg
    rw [if_neg hneg]
    have e : (s.route j).nodes.drop (vs.length + 1) = innerNodes (vs.length + 1) (depotVisits vs) ws
        ++ [endNode (data.vehicleType (vehTypeAt data j)) (vs.length + ws.length + 1)
          (depotVisits vs + depotVisits ws + 1)] := by
      rw [h.route hj, hsp, SRoute.ofActs_drop]
    rw [e] at hap ⊢
    obtain ⟨ms, ws', h1, -, -, -, h5⟩ := PyVRP.InsertOptionalShipment.later_some ce (s.route j) vs.length
      out pk dl _ rfl ws _ _ hap
    rw [h5]
    refine ⟨_, rfl, by omega, ?_⟩
    rw [h1, List.length_append]
    omega

theorem InsertOptionalShipment.apply_eq (ce : CostEvaluator) (h : SearchOk data plan s) {u : Activity}
    {v : NodeRef} (hv : RefOk data v)
    (hap : (PyVRP.InsertOptionalShipment.evaluate data ce s u v).apply = true) :
    Checked.InsertOptionalShipment.apply data s u v (PyVRP.InsertOptionalShipment.evaluate data ce s u v).move
      = some (PyVRP.InsertOptionalShipment.apply data s u v
        (PyVRP.InsertOptionalShipment.evaluate data ce s u v).move) := by
  unfold PyVRP.InsertOptionalShipment.evaluate at hap ⊢
  cases hpu : s.place u with
  | some ip => rw [hpu] at hap; cases hap
  | none =>
  cases hpv : s.find v with
  | none => rw [hpu, hpv] at hap; cases hap
  | some jq =>
  obtain ⟨j, q⟩ := jq
  rw [hpu, hpv] at hap
  dsimp only at hap ⊢
  split at hap
  · cases hap
  rename_i hf1
  rw [if_neg hf1]
  obtain ⟨vs, ws, hat, rfl⟩ := h.clean.1.find_some hv hpv
  obtain ⟨p, h1, h2, h3⟩ := search_pos ce h hat.1 hat.2.1 _ _ _ hap
  rw [h1]
  unfold Checked.InsertOptionalShipment.apply PyVRP.InsertOptionalShipment.apply
  rw [ensure_true ⟨by simpa using hf1, by rw [hpu]; rfl, by rw [hpv]; rfl⟩]
  exact insertBoth_eq h.clean.1 hat h2 h3 u

/-- Removing both nodes of a shipment. -/
theorem removeBoth_eq (h : SearchOk data plan s) {i p : Nat} {k : Nat}
    (hpu : s.place ⟨.pickup, k⟩ = some (i, p)) :
    Checked.RemoveOptionalShipment.apply s ⟨.pickup, k⟩
      = some (PyVRP.RemoveOptionalShipment.apply s ⟨.pickup, k⟩) := by
  obtain ⟨hi, hut, xs0, ys0, hsp0, -⟩ := h.clean.1.place_some hpu
  obtain ⟨xs, ms, ys, hsp, hnd, hfree, hk, hro, hp1, hp2⟩ := h.shipment hi (k := k)
    (.inl (by rw [hsp0]; simp))
  have hil := h.clean.1.lt_length hi
  have hsp' : plan.getD i [] = (xs ++ ⟨.pickup, k⟩ :: ms) ++ ⟨.delivery, k⟩ :: ys := by rw [hsp]; simp
  have h1 := (all_but h.clean.1).remove hi hsp'
  rw [← SSol.takeOut_eq h.clean.1 hi (by simp) hsp'] at h1
  have hnew : (plan.set i ((xs ++ ⟨.pickup, k⟩ :: ms) ++ ys)).getD i []
      = xs ++ ⟨.pickup, k⟩ :: (ms ++ ys) := by rw [getD_set_self hil]; simp
  unfold Checked.RemoveOptionalShipment.apply PyVRP.RemoveOptionalShipment.apply
  rw [ensure_true (show Activity.isPickup ⟨.pickup, k⟩ = true from rfl), hp1, hp2]
  simp only [Option.bind_eq_bind, Option.bind_some]
  rw [ensure_true trivial, Option.bind_some, takeOut_eq h.clean.1 hi (by simp) hsp', Option.bind_some]
  exact takeOut_eq h1.1 hi (by simp) hnew

theorem pickup_of {u : Activity} (h : u.isPickup = true) : ∃ k, u = ⟨.pickup, k⟩ := by
  obtain ⟨ty, k⟩ := u
  cases ty <;> simp [Activity.isPickup] at h ⊢

theorem RemoveOptionalShipment.apply_eq (ce : CostEvaluator) (h : SearchOk data plan s) {u : Activity}
    (hap : (PyVRP.RemoveOptionalShipment.evaluate data ce s u).apply = true) :
    Checked.RemoveOptionalShipment.apply s u = some (PyVRP.RemoveOptionalShipment.apply s u) := by
  unfold PyVRP.RemoveOptionalShipment.evaluate at hap
  cases hpu : s.place u with
  | none => rw [hpu] at hap; cases hap
  | some ip =>
  cases hpd : s.place ⟨.delivery, u.idx⟩ with
  | none => rw [hpu, hpd] at hap; obtain ⟨i, p⟩ := ip; cases hap
  | some jq =>
  obtain ⟨i, p⟩ := ip
  obtain ⟨j, q⟩ := jq
  rw [hpu, hpd] at hap
  dsimp only at hap
  split at hap
  · cases hap
  rename_i hf1
  simp only [Bool.or_eq_true, not_or, Bool.not_eq_true, Bool.not_eq_eq_eq_not, Bool.not_true,
    Bool.not_eq_false] at hf1
  obtain ⟨k, rfl⟩ := pickup_of hf1.1
  exact removeBoth_eq h hpu

theorem RelocateShipment.apply_eq (ce : CostEvaluator) (h : SearchOk data plan s) {u : Activity}
    {v : NodeRef} (hv : RefOk data v) (cache : Cache)
    (hap : (PyVRP.RelocateShipment.evaluate data ce s cache u v).1.apply = true) :
    Checked.RelocateShipment.apply data s u v (PyVRP.RelocateShipment.evaluate data ce s cache u v).1.move
      = some (PyVRP.RelocateShipment.apply data s u v
        (PyVRP.RelocateShipment.evaluate data ce s cache u v).1.move) := by
  unfold PyVRP.RelocateShipment.evaluate at hap ⊢
  cases hpu : s.place u with
  | none => rw [hpu] at hap; cases hap
  | some ip =>
  cases hpd : s.place ⟨.delivery, u.idx⟩ with
  | none => rw [hpu, hpd] at hap; obtain ⟨i, p⟩ := ip; cases hap
  | some jq =>
  cases hpv : s.find v with
  | none => rw [hpu, hpd, hpv] at hap; obtain ⟨i, p⟩ := ip; obtain ⟨j, q⟩ := jq; cases hap
  | some kr =>
  obtain ⟨i, p⟩ := ip
  obtain ⟨i', d⟩ := jq
  obtain ⟨j, q⟩ := kr
  rw [hpu, hpd, hpv] at hap
  dsimp only at hap ⊢
  split at hap
  · cases hap
  rename_i hf1
  rw [if_neg hf1]
  simp only [Bool.or_eq_true, not_or, Bool.not_eq_true, Bool.not_eq_eq_eq_not, Bool.not_true,
    Bool.not_eq_false, decide_eq_true_eq] at hf1
  obtain ⟨hpick, hij⟩ := hf1
  obtain ⟨k, rfl⟩ := pickup_of hpick
  dsimp only at hap ⊢
  obtain ⟨vs, ws, hat, rfl⟩ := h.clean.1.find_some hv hpv
  obtain ⟨p', h1, h2, h3⟩ := search_pos ce h hat.1 hat.2.1 _ _ _ hap
  rw [h1]
  obtain ⟨hi, hut, xs0, ys0, hsp0, -⟩ := h.clean.1.place_some hpu
  obtain ⟨xs, ms, ys, hsp, -⟩ := h.shipment hi (k := k) (.inl (by rw [hsp0]; simp))
  have hrem := PyVRP.RemoveOptionalShipment.removed h hi hsp
  have hat' : At data (plan.set i (xs ++ ms ++ ys)) v j vs ws :=
    hat.same (by rw [getD_set_ne _ (Ne.symm hij)]; exact hat.2.1)
  unfold Checked.RelocateShipment.apply PyVRP.RelocateShipment.apply
  rw [ensure_true (by rw [hpv]; rfl), removeBoth_eq h hpu]
  exact insertBoth_eq hrem.1 hat' h2 h3 _

theorem ReplaceOptionalShipment.apply_eq (ce : CostEvaluator) (h : SearchOk data plan s) {u : Activity}
    (hu : Spec.InRange data u) {v : NodeRef} (hv : RefOk data v)
    (hap : (PyVRP.ReplaceOptionalShipment.evaluate data ce s u v).apply = true) :
    Checked.ReplaceOptionalShipment.apply s u v = some (PyVRP.ReplaceOptionalShipment.apply s u v) := by
  unfold PyVRP.ReplaceOptionalShipment.evaluate at hap
  cases hpu : s.place u with
  | some ip => rw [hpu] at hap; cases hap
  | none =>
  cases hpv : s.find v with
  | none => rw [hpu, hpv] at hap; cases hap
  | some jq =>
  obtain ⟨j, q⟩ := jq
  rw [hpu, hpv] at hap
  dsimp only at hap
  split at hap
  · cases hap
  rename_i hf1
  split at hap
  · cases hap
  simp only [Bool.or_eq_true, not_or, Bool.not_eq_true, Bool.not_eq_eq_eq_not, Bool.not_true,
    Bool.not_eq_false] at hf1
  obtain ⟨vs, ws, hat, rfl⟩ := h.clean.1.find_some hv hpv
  have hj := hat.1
  obtain ⟨k, rfl⟩ := pickup_of hf1.1
  have hl : (plan.getD j []).length = vs.length + ws.length := by rw [hat.2.1, List.length_append]
  unfold Checked.ReplaceOptionalShipment.apply PyVRP.ReplaceOptionalShipment.apply
  rw [hpv]
  dsimp only
  simp only [Option.bind_eq_bind, Option.bind_some]
  rw [holds_route h.clean.1 hj, Option.bind_some, holds_node h.clean.1 hj (by omega), Option.bind_some,
    ensure_true ⟨hf1.1, hf1.2, by rw [hpu]; rfl⟩, Option.bind_some,
    swapNodes_eq h.clean.1 (by simp) (by simp), Option.bind_some]
  generalize ((s.route j).node vs.length).activity = b at hap hf1 ⊢
  split at hap
  · rename_i i' p i'' d hp hd
    obtain ⟨hi, hut, xs, ys, hsp, -⟩ := h.clean.1.place_some hp
    have h1 := (all_but h.clean.1).swap_out (b := ⟨.pickup, k⟩) ⟨by simp, hu⟩ (by simp) (by simp) hsp
      (fun i hm => (h.not_placed (by simp)).1 hpu ⟨i, hm⟩)
    exact swapNodes_eq h1.1 (by simp) (by simp)
  · cases hap

theorem RelocatePickup.apply_eq (ce : CostEvaluator) (h : SearchOk data plan s) {u : Activity}
    (hap : (PyVRP.RelocatePickup.evaluate data ce s u).apply = true) :
    Checked.RelocatePickup.apply data s u (PyVRP.RelocatePickup.evaluate data ce s u).move
      = some (PyVRP.RelocatePickup.apply data s u (PyVRP.RelocatePickup.evaluate data ce s u).move) := by
  unfold PyVRP.RelocatePickup.evaluate at hap ⊢
  cases hpu : s.place u with
  | none => rw [hpu] at hap; cases hap
  | some ip =>
  cases hpd : s.place ⟨.delivery, u.idx⟩ with
  | none => rw [hpu, hpd] at hap; obtain ⟨i, p⟩ := ip; cases hap
  | some jq =>
  obtain ⟨i, p⟩ := ip
  obtain ⟨j, q⟩ := jq
  rw [hpu, hpd] at hap
  dsimp only at hap ⊢
  split at hap
  · cases hap
  rename_i hf1
  rw [if_neg hf1]
  obtain ⟨k, rfl⟩ := pickup_of (by simpa using hf1)
  obtain ⟨hi, hut, xs0, ys0, hsp0, -⟩ := h.clean.1.place_some hpu
  obtain ⟨xs, ms, ys, hsp, hnd, hfree, hk, hro, hp1, hp2⟩ := h.shipment hi (k := k)
    (.inl (by rw [hsp0]; simp))
  rw [hpu] at hp1
  rw [hpd] at hp2
  obtain ⟨-, rfl⟩ := Prod.mk.inj (Option.some.inj hp1)
  obtain ⟨rfl, rfl⟩ := Prod.mk.inj (Option.some.inj hp2)
  have hil := h.clean.1.lt_length hi
  have hpre : plan.getD j [] = (xs ++ ⟨.pickup, k⟩ :: (ms ++ [⟨.delivery, k⟩])) ++ ys := by
    rw [hsp]; simp
  have hl : xs.length + 1 + ms.length + 1 = (xs ++ (⟨.pickup, k⟩ : Activity) :: (ms ++ [⟨.delivery, k⟩])).length := by
    simp; omega
  have hnodes : ((s.route j).nodes.take (xs.length + 1 + ms.length + 1 + 1)).reverse
      = (startNode (data.vehicleType (vehTypeAt data j))
        :: innerNodes 1 0 (xs ++ ⟨.pickup, k⟩ :: (ms ++ [⟨.delivery, k⟩]))).reverse := by
    rw [h.route hi, hpre, hl]
    congr 1
    show (canon _ _).take _ = _
    rw [canon_split]
    exact List.take_left' (by simp [innerNodes_length])
  dsimp only at hap ⊢
  rw [hnodes, hl] at hap ⊢
  obtain ⟨ps, a, qs, he, hnda, hne1, hne2, hneg, hv⟩ := PyVRP.RelocatePickup.search_some ce (s.route j) k
    (xs.length + 1) _ rfl _ hap
  rw [hv]
  clear hv hap hnodes
  have hat : a.type ≠ .depot := hnda a (by simp)
  have hspa : plan.getD j [] = ps ++ a :: (qs ++ ys) := by rw [hpre, he]; simp
  have hpa := h.clean.1.place hi hat hspa
  have hne : a ≠ ⟨.pickup, k⟩ := by
    intro hc
    rw [hc, hpu] at hpa
    exact hne1 (Prod.mk.inj (Option.some.inj hpa)).2.symm
  have hm : a ∈ xs ++ (ms ++ ⟨.delivery, k⟩ :: ys) := by
    have : a ∈ plan.getD j [] := by rw [hspa]; simp
    rw [hsp] at this
    simp only [List.mem_append, List.mem_cons] at this ⊢
    tauto
  obtain ⟨l, r, hlr⟩ := List.append_of_mem hm
  have h1 := (all_but h.clean.1).remove hi hsp
  rw [← SSol.takeOut_eq h.clean.1 hi hut hsp] at h1
  have hnew : (plan.set j (xs ++ (ms ++ ⟨.delivery, k⟩ :: ys))).getD j [] = l ++ a :: r := by
    rw [getD_set_self hil, hlr]
  have hpl := h1.1.place hi hat hnew
  unfold Checked.RelocatePickup.apply PyVRP.RelocatePickup.apply
  rw [ensure_true (show Activity.isPickup ⟨.pickup, k⟩ = true from rfl)]
  simp only [hpu, Option.bind_eq_bind, Option.bind_some]
  rw [takeOut_eq h.clean.1 hi hut hsp]
  simp only [Option.bind_some, hpl]
  rw [ensure_true trivial, Option.bind_some]
  exact insertAt_eq h1.1 hi (by omega) (by rw [hnew]; simp) _

theorem RelocateDelivery.apply_eq (ce : CostEvaluator) (h : SearchOk data plan s) {u : Activity}
    (hap : (PyVRP.RelocateDelivery.evaluate data ce s u).apply = true) :
    Checked.RelocateDelivery.apply data s u (PyVRP.RelocateDelivery.evaluate data ce s u).move
      = some (PyVRP.RelocateDelivery.apply data s u (PyVRP.RelocateDelivery.evaluate data ce s u).move) := by
  unfold PyVRP.RelocateDelivery.evaluate at hap ⊢
  cases hpu : s.place u with
  | none => rw [hpu] at hap; cases hap
  | some ip =>
  cases hpd : s.place ⟨.delivery, u.idx⟩ with
  | none => rw [hpu, hpd] at hap; obtain ⟨i, p⟩ := ip; cases hap
  | some jq =>
  obtain ⟨i, p⟩ := ip
  obtain ⟨j, q⟩ := jq
  rw [hpu, hpd] at hap
  dsimp only at hap ⊢
  split at hap
  · cases hap
  rename_i hf1
  rw [if_neg hf1]
  obtain ⟨k, rfl⟩ := pickup_of (by simpa using hf1)
  obtain ⟨hi, hut, xs0, ys0, hsp0, -⟩ := h.clean.1.place_some hpu
  obtain ⟨xs, ms, ys, hsp, hnd, hfree, hk, hro, hp1, hp2⟩ := h.shipment hi (k := k)
    (.inl (by rw [hsp0]; simp))
  rw [hpu] at hp1
  rw [hpd] at hp2
  obtain ⟨-, rfl⟩ := Prod.mk.inj (Option.some.inj hp1)
  obtain ⟨rfl, rfl⟩ := Prod.mk.inj (Option.some.inj hp2)
  have hil := h.clean.1.lt_length hi
  have hnodes : (s.route j).nodes.drop (xs.length + 1)
      = innerNodes (xs.length + 1) (depotVisits xs) (⟨.pickup, k⟩ :: (ms ++ ⟨.delivery, k⟩ :: ys))
        ++ [endNode (data.vehicleType (vehTypeAt data j))
          (xs.length + (⟨.pickup, k⟩ :: (ms ++ (⟨.delivery, k⟩ : Activity) :: ys)).length + 1)
          (depotVisits xs + depotVisits (⟨.pickup, k⟩ :: (ms ++ (⟨.delivery, k⟩ : Activity) :: ys)) + 1)] := by
    rw [h.route hi, hsp, SRoute.ofActs_drop]
  dsimp only at hap ⊢
  rw [hnodes] at hap ⊢
  obtain ⟨ps, a, qs, he, hnda, hne1, hne2, hneg, hv⟩ := PyVRP.RelocateDelivery.search_some ce (s.route j) k
    (xs.length + 1 + ms.length + 1) _ rfl _ _ _ hap
  rw [hv]
  clear hv hap hnodes
  have hat : a.type ≠ .depot := hnda a (by simp)
  have hspd : plan.getD j [] = (xs ++ ⟨.pickup, k⟩ :: ms) ++ ⟨.delivery, k⟩ :: ys := by rw [hsp]; simp
  have hspa : plan.getD j [] = (xs ++ ps) ++ a :: qs := by rw [hsp, he]; simp
  have hpa := h.clean.1.place hi hat hspa
  have hne : a ≠ ⟨.delivery, k⟩ := by
    intro hc
    rw [hc, hpd] at hpa
    have := (Prod.mk.inj (Option.some.inj hpa)).2
    rw [List.length_append] at this
    omega
  have hm : a ∈ (xs ++ ⟨.pickup, k⟩ :: ms) ++ ys := by
    have : a ∈ plan.getD j [] := by rw [hspa]; simp
    rw [hspd] at this
    simp only [List.mem_append, List.mem_cons] at this ⊢
    tauto
  obtain ⟨l, r, hlr⟩ := List.append_of_mem hm
  have h1 := (all_but h.clean.1).remove hi hspd
  rw [← SSol.takeOut_eq h.clean.1 hi (by simp) hspd] at h1
  have hnew : (plan.set j ((xs ++ ⟨.pickup, k⟩ :: ms) ++ ys)).getD j [] = l ++ a :: r := by
    rw [getD_set_self hil, hlr]
  have hpl := h1.1.place hi hat hnew
  unfold Checked.RelocateDelivery.apply PyVRP.RelocateDelivery.apply SSol.insertAfter SSol.find
  rw [ensure_true (show Activity.isPickup ⟨.pickup, k⟩ = true from rfl)]
  simp only [hpu, hpd, Option.bind_eq_bind, Option.bind_some]
  rw [ensure_true trivial, Option.bind_some, takeOut_eq h.clean.1 hi (by simp) hspd]
  simp only [Option.bind_some, hpl]
  rw [ensure_true trivial, Option.bind_some]
  exact insertAt_eq h1.1 hi (by omega) (by rw [hnew]; simp) _

end PyVRP.Checked
