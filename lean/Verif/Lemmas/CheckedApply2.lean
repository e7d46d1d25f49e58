import Verif.Lemmas.CheckedApply
/-!
# No assertion fails when moves are made: segments and tails
-/
namespace PyVRP.Checked
open Spec
open SSol (Holds CleanBut At RefOk)

variable {data : ProblemData} {plan : List (List Activity)} {s : SSol}

theorem trips_of (h : SearchOk data plan s) : Trips data plan := fun k hk => (h.routes k hk).trips

/-- A position inside a block. -/
theorem position (h : SearchOk data plan s) {i : Nat} (hi : i < data.numVehicles)
    {xs seg ys : List Activity} (he : plan.getD i [] = xs ++ seg ++ ys) {w : Activity} (hw : w ∈ seg)
    (hd : w.type ≠ .depot) {j q : Nat} (hp : s.place w = some (j, q)) :
    j = i ∧ xs.length < q ∧ q ≤ xs.length + seg.length := by
  obtain ⟨l, r, rfl⟩ := List.append_of_mem hw
  have := h.clean.1.place hi hd (xs := xs ++ l) (ys := r ++ ys) (by rw [he]; simp)
  rw [this] at hp
  injection hp with hp
  injection hp with h1 h2
  subst h1; subst h2
  simp
  omega

theorem Relocate.apply_eq (ce : CostEvaluator) (h : SearchOk data plan s) {n : Nat} (hn : 1 ≤ n)
    {u : Activity} {v : NodeRef} (hv : RefOk data v) (cache : Cache)
    (hap : (PyVRP.Relocate.evaluate n data ce s cache u v).1.apply = true) :
    Checked.Relocate.apply n data s u v = some (PyVRP.Relocate.apply n data s u v) := by
  unfold PyVRP.Relocate.evaluate at hap
  unfold Checked.Relocate.apply PyVRP.Relocate.apply
  cases hpu : s.place u with
  | none => rw [hpu] at hap; cases hap
  | some ip =>
  cases hpv : s.find v with
  | none => rw [hpu, hpv] at hap; obtain ⟨i, p⟩ := ip; cases hap
  | some jq =>
  obtain ⟨i, p⟩ := ip
  obtain ⟨j, q⟩ := jq
  rw [hpu, hpv] at hap
  dsimp only at hap
  split at hap
  · cases hap
  rename_i hf1
  split at hap
  · cases hap
  rename_i hf2
  obtain ⟨hi, hut, xs, ys, hsp, rfl⟩ := h.clean.1.place_some hpu
  simp only [Bool.or_eq_true, not_or, Bool.not_eq_true] at hf1
  have hc := h.closed hi
  have ho := h.once i
  rw [h.route hi, hsp] at hf1
  rw [hsp] at hc ho
  obtain ⟨rest, zs, hseg⟩ := segment_of_flags _ hut hc ho hn hf1.1 hf1.2
  rw [← hsp] at hseg
  have hlast : ∀ l m, (u :: rest) = l ++ [m] →
      ((s.route i).node (xs.length + 1 + n - 1)).activity = m := by
    intro l m hl
    exact node_last h hi hseg.split l m hl (by rw [hseg.length]; omega)
  have hout : ∀ w, v = .task w → w ∉ u :: rest := by
    rintro w rfl hw
    have hwd := hseg.noDepot w hw
    obtain ⟨rfl, h1, h2⟩ := position h hi hseg.split hw hwd hpv
    rw [hseg.length] at h2
    simp only [decide_true, Bool.true_and, Bool.or_eq_true, not_or, Bool.not_eq_true] at hf2
    have hov := hf2.1.2
    unfold PyVRP.Relocate.overlap at hov
    simp only [Bool.and_eq_false_iff, decide_eq_false_iff_not] at hov
    omega
  obtain ⟨s', plan', k1, k2, -⟩ := applyLoop_eq hi hv (u :: rest) h.clean.1 (trips_of h)
    ⟨xs, zs, hseg.split⟩ hseg.noDepot (by rw [hpv]; rfl) hout hlast
  rw [hseg.length] at k1 k2
  have hlen : (plan.getD i []).length = xs.length + n + zs.length := by
    rw [hseg.split, List.length_append, List.length_append, hseg.length]
  simp only [Option.bind_eq_bind, Option.bind_some]
  rw [holds_route h.clean.1 hi, Option.bind_some, holds_node h.clean.1 hi (by omega), Option.bind_some,
    k1, k2]

theorem Swap.apply_eq (ce : CostEvaluator) (h : SearchOk data plan s) {n m : Nat} (hm : 1 ≤ m)
    (hmn : m ≤ n) {u : Activity} {v : NodeRef} (hv : RefOk data v)
    (hap : (PyVRP.Swap.evaluate n m data ce s u v).apply = true) :
    Checked.Swap.apply n m data s u v = some (PyVRP.Swap.apply n m data s u v) := by
  unfold PyVRP.Swap.evaluate at hap
  unfold Checked.Swap.apply PyVRP.Swap.apply
  cases hpu : s.place u with
  | none => rw [hpu] at hap; cases hap
  | some ip =>
  cases hpv : s.find v with
  | none => rw [hpu, hpv] at hap; obtain ⟨i, p⟩ := ip; cases hap
  | some jq =>
  obtain ⟨i, p⟩ := ip
  obtain ⟨j, q⟩ := jq
  rw [hpu, hpv] at hap
  dsimp only at hap
  split at hap
  · cases hap
  rename_i hf1
  split at hap
  · cases hap
  rename_i hf2
  obtain ⟨hi, hut, xs, ys, hsp, rfl⟩ := h.clean.1.place_some hpu
  obtain ⟨vs', ws, hat, rfl⟩ := h.clean.1.find_some hv hpv
  simp only [Bool.or_eq_true, not_or, Bool.not_eq_true] at hf1
  obtain ⟨⟨⟨f1, f2⟩, f3⟩, f4⟩ := hf1
  obtain ⟨b, vs, hbt, hvb, rfl⟩ : ∃ a vs, a.type ≠ .depot ∧ v = .task a ∧ vs' = vs ++ [a] := by
    rcases hat.2.2 with ⟨-, h0⟩ | h0
    · rw [h0] at f3
      unfold SRoute.hasDepot at f3
      simp at f3
    · exact h0
  have hj := hat.1
  have hsp' : plan.getD j [] = vs ++ b :: ws := by rw [hat.2.1]; simp
  have hvl : (vs ++ [b]).length = vs.length + 1 := by simp
  rw [hvl] at f3 f4 hf2 ⊢
  have hc := h.closed hi
  have ho := h.once i
  rw [h.route hi, hsp] at f1 f2
  rw [hsp] at hc ho
  obtain ⟨as, zs, hsu⟩ := segment_of_flags _ hut hc ho (by omega) f1 f2
  rw [← hsp] at hsu
  have hc' := h.closed hj
  have ho' := h.once j
  rw [h.route hj, hsp'] at f3 f4
  rw [hsp'] at hc' ho'
  obtain ⟨bs, zs', hsv⟩ := segment_of_flags _ hbt hc' ho' hm f3 f4
  rw [← hsp'] at hsv
  -- the segments are disjoint
  have hdis : ∀ x ∈ u :: as, x ∉ b :: bs := by
    intro x hx hx'
    have hxd := hsu.noDepot x hx
    obtain ⟨⟨j', q'⟩, hpx⟩ : ∃ jq, s.place x = some jq := by
      obtain ⟨l, r, hlr⟩ := List.append_of_mem hx
      exact ⟨_, h.clean.1.place hi hxd (xs := xs ++ l) (ys := r ++ zs) (by rw [hsu.split, hlr]; simp)⟩
    obtain ⟨rfl, h1, h2⟩ := position h hi hsu.split hx hxd hpx
    obtain ⟨rfl, h3, h4⟩ := position h hj hsv.split hx' hxd hpx
    rw [hsu.length] at h2
    rw [hsv.length] at h4
    simp only [decide_true, Bool.true_and, Bool.or_eq_true, not_or, Bool.not_eq_true] at hf2
    have hov := hf2.1.2
    unfold PyVRP.Swap.overlap at hov
    simp only [Bool.and_eq_false_iff, decide_eq_false_iff_not] at hov
    omega
  -- the nodes that move first, and those that are swapped
  have hsplit : u :: as = (u :: as).take m ++ (u :: as).drop m := (List.take_append_drop m _).symm
  have hl1 : ((u :: as).take m).length = m := by rw [List.length_take, hsu.length]; omega
  have hl2 : ((u :: as).drop m).length = n - m := by rw [List.length_drop, hsu.length]
  generalize hA : (u :: as).take m = A at hsplit hl1
  generalize hB : (u :: as).drop m = B at hsplit hl2
  obtain ⟨l, w, hlw⟩ : ∃ l w, b :: bs = l ++ [w] :=
    ⟨_, _, (List.dropLast_append_getLast (List.cons_ne_nil b bs)).symm⟩
  have hafter : ((s.route j).node (vs.length + 1 + m - 1)).activity = w :=
    node_last h hj hsv.split l w hlw (by rw [hsv.length]; omega)
  have hvact : ((s.route j).node (vs.length + 1)).activity = b := holds_activity h.clean.1 hj hsp'
  have hlen : (plan.getD i []).length = xs.length + n + zs.length := by
    rw [hsu.split, List.length_append, List.length_append, hsu.length]
  have hlen' : (plan.getD j []).length = vs.length + m + zs'.length := by
    rw [hsv.split, List.length_append, List.length_append, hsv.length]
  have hwm : w ∈ b :: bs := by rw [hlw]; simp
  have hwd := hsv.noDepot w hwm
  have hpw : s.place w = some (j, vs.length + l.length + 1) := by
    have := h.clean.1.place hj hwd (xs := vs ++ l) (ys := zs') (by rw [hsv.split, hlw]; simp)
    simpa using this
  have hBA : ∀ x ∈ B, x ∈ u :: as := fun x hx => by rw [hsplit]; simp [hx]
  have hAA : ∀ x ∈ A, x ∈ u :: as := fun x hx => by rw [hsplit]; simp [hx]
  have hAB : ∀ x ∈ A, x ∉ B := by
    intro x hx hxb
    have hxd := hsu.noDepot x (hAA x hx)
    obtain ⟨l1, l2, hl⟩ := List.append_of_mem hx
    have := (h.clean.1.once' hxd (i := i) (xs := xs ++ l1) (ys := l2 ++ B ++ zs)
      (by rw [hsu.split, hsplit, hl]; simp)).2
    exact this (by simp [hxb])
  obtain ⟨s', plan', k1, k2, k3, -, k5⟩ := applyLoop_eq (v := .task w) hi trivial B h.clean.1 (trips_of h)
    (a := ((s.route i).node (xs.length + 1 + n - 1)).activity)
    ⟨xs ++ A, zs, by rw [hsu.split, hsplit]; simp⟩ (fun x hx => hsu.noDepot x (hBA x hx))
    (by show (s.place w).isSome = true; rw [hpw]; rfl)
    (by
      intro w' hw' hm'
      injection hw' with hw'
      subst hw'
      exact hdis w (hBA w hm') hwm)
    (by
      intro l' m' hlm
      exact node_last h hi hsu.split (A ++ l') m' (by rw [hsplit, hlm]; simp) (by rw [hsu.length]; omega))
  rw [hl2] at k1 k2
  have kA : Block plan' i A := by
    refine k5 i A ⟨xs, B ++ zs, by rw [hsu.split, hsplit]; simp⟩ hAB (Outside.of_not_mem ?_)
    intro w' hw' hm'
    injection hw' with hw'
    subst hw'
    exact hdis w (hAA w hm') hwm
  have kB : Block plan' j (b :: bs) := by
    refine k5 j (b :: bs) ⟨vs, zs', hsv.split⟩ (fun x hx hxb => hdis x (hBA x hxb) hx) ?_
    intro w' l' r' hw' hlr
    injection hw' with hw'
    subst hw'
    have hon := (h.clean.1.once' hwd (i := j) (xs := vs ++ l') (ys := r' ++ zs')
      (by rw [hsv.split, hlr]; simp)).2
    rcases List.eq_nil_or_concat r' with rfl | ⟨r0, z, rfl⟩
    · rfl
    · rw [List.concat_eq_append] at hlr
      rw [hlw, ← List.cons_append, ← List.append_assoc] at hlr
      have := List.append_inj_right' hlr rfl
      simp only [List.cons.injEq, and_true] at this
      subst this
      exact absurd (by simp) hon
  have hswap := swapLoop_eq m (a := u) (b := b) k3 kA kB hl1 hsv.length
    (fun x hx => hsu.noDepot x (hAA x hx)) hsv.noDepot (fun x hx => hdis x (hAA x hx))
    (by
      intro x r hxr
      rw [hxr, List.cons_append] at hsplit
      injection hsplit)
    (by
      intro x r hxr
      injection hxr)
  simp only [Option.bind_eq_bind, Option.bind_some]
  rw [holds_route h.clean.1 hi, Option.bind_some, holds_route h.clean.1 hj, Option.bind_some,
    holds_node h.clean.1 hi (by omega), Option.bind_some, holds_node h.clean.1 hj (by omega),
    Option.bind_some, holds_node h.clean.1 hj (by omega), Option.bind_some, minus_eq hmn,
    Option.bind_some, hafter, hvact, k1, k2]
  simp only [Option.bind_some]
  rw [hswap]
  rfl

theorem SwapTails.apply_eq (ce : CostEvaluator) (h : SearchOk data plan s)
    {u : Activity} {v : NodeRef} (hv : RefOk data v)
    (hap : (PyVRP.SwapTails.evaluate data ce s u v).apply = true) :
    Checked.SwapTails.apply data s u v = some (PyVRP.SwapTails.apply data s u v) := by
  unfold PyVRP.SwapTails.evaluate at hap
  unfold Checked.SwapTails.apply PyVRP.SwapTails.apply
  cases hpu : s.place u with
  | none => rw [hpu] at hap; cases hap
  | some ip =>
  cases hpv : s.find v with
  | none => rw [hpu, hpv] at hap; obtain ⟨i, p⟩ := ip; cases hap
  | some jq =>
  obtain ⟨i, p⟩ := ip
  obtain ⟨j, q⟩ := jq
  rw [hpu, hpv] at hap
  dsimp only at hap
  split at hap
  · cases hap
  rename_i hij
  split at hap
  · cases hap
  split at hap
  · cases hap
  rename_i hf2
  split at hap
  · cases hap
  rename_i hf3
  obtain ⟨hi, hut, xs, ys, hsp, rfl⟩ := h.clean.1.place_some hpu
  obtain ⟨vs, ws, hat, rfl⟩ := h.clean.1.find_some hv hpv
  have hj := hat.1
  have hil := h.clean.1.lt_length hi
  have hjl := h.clean.1.lt_length hj
  have hsi : plan.getD i [] = (xs ++ [u]) ++ ys := by rw [hsp]; simp
  have hsj := hat.2.1
  have hlx : xs.length + 1 = (xs ++ [u]).length := by simp
  rw [hlx] at hf2 hf3 ⊢
  simp only [Bool.or_eq_true, not_or, Bool.not_eq_true, Bool.not_eq_eq_eq_not, Bool.not_true,
    Bool.not_eq_false] at hf2 hf3
  obtain ⟨hdy, hcx, hcy⟩ := PyVRP.SwapTails.parts h hi hsi hf2.1 hf3.1
  obtain ⟨hdw, hcv, hcw⟩ := PyVRP.SwapTails.parts h hj hsj hf2.2 hf3.2
  have htu : PyVRP.SwapTails.tail (s.route i) (xs ++ [u]).length = ys := by
    rw [h.route hi, hsi]; exact PyVRP.SwapTails.tail_ofActs _ _ _ _
  have htv : PyVRP.SwapTails.tail (s.route j) vs.length = ws := by
    rw [h.route hj, hsj]; exact PyVRP.SwapTails.tail_ofActs _ _ _ _
  have hti := (h.routes i hi).trips
  have htj := (h.routes j hj).trips
  rw [hsi] at hti
  rw [hsj] at htj
  have e1 := moveAll_eq hij hi hj (vs := vs) (ws := []) (r := ys) ws (l := xs ++ [u]) h.clean.1 hsi
    (by rw [hsj]; simp) hdw hti
  obtain ⟨s1, k1, k2⟩ := SSol.moveAll_spec hij hi hj (vs := vs) (ws := []) (r := ys) ws (l := xs ++ [u])
    (all_but h.clean.1) hsi (by rw [hsj]; simp) hdw hti
  have g1 : ((plan.set i (xs ++ [u] ++ ws ++ ys)).set j (vs ++ [])).getD j [] = vs ++ [] :=
    getD_set_self (by simpa using hjl) _
  have g2 : ((plan.set i (xs ++ [u] ++ ws ++ ys)).set j (vs ++ [])).getD i []
      = (xs ++ [u] ++ ws) ++ ys ++ [] := by
    rw [getD_set_ne _ hij, getD_set_self hil]; simp
  have e2 := moveAll_eq (Ne.symm hij) hj hi (vs := xs ++ [u] ++ ws) (ws := []) (r := []) ys (l := vs) k2.1
    g1 g2 hdy (by
      rw [depotVisits_append] at htj ⊢
      have h0 : depotVisits ([] : List Activity) = 0 := rfl
      omega)
  simp only [Option.bind_eq_bind, Option.bind_some]
  rw [holds_route h.clean.1 hi, Option.bind_some, holds_route h.clean.1 hj, Option.bind_some,
    holds_node h.clean.1 hi (by rw [hsi]; simp), Option.bind_some,
    holds_node h.clean.1 hj (by rw [hsj]; simp), Option.bind_some, htu, htv, e1, Option.bind_some, k1]
  exact e2

end PyVRP.Checked
