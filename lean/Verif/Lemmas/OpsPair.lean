import Verif.Lemmas.OpsShipment
/-!
# Operators that move a shipment, or one of its two ends
-/
namespace PyVRP
open Spec
open SSol (used ofActs_empty At RefOk CleanBut)
open PerturbationManager (routes_set)

variable {data : ProblemData} {plan : List (List Activity)} {s : SSol}

namespace RelocateShipment

theorem outcome (ce : CostEvaluator) (h : SearchOk data plan s) {u : Activity} {v : NodeRef}
    (hv : RefOk data v) (cache : Cache) (hap : (evaluate data ce s cache u v).1.apply = true) :
    Outcome data ce plan (Touched s u v) (evaluate data ce s cache u v).1.cost
      (∀ i p j d, s.place u = some (i, p) → s.place ⟨.delivery, u.idx⟩ = some (j, d) →
        cache.lookup u.idx (RemoveOptionalShipment.cost true data ce (s.route i) p d 0)
          = RemoveOptionalShipment.cost true data ce (s.route i) p d 0)
      (apply data s u v (evaluate data ce s cache u v).1.move) := by
  unfold evaluate at hap ⊢
  unfold apply
  cases hpu : s.place u with
  | none => rw [hpu] at hap; cases hap
  | some ip =>
  cases hpd : s.place ⟨.delivery, u.idx⟩ with
  | none => rw [hpu, hpd] at hap; obtain ⟨i, p⟩ := ip; cases hap
  | some id =>
  cases hpv : s.find v with
  | none => rw [hpu, hpd, hpv] at hap; obtain ⟨i, p⟩ := ip; obtain ⟨i', d⟩ := id; cases hap
  | some jq =>
  obtain ⟨i, p⟩ := ip
  obtain ⟨i', d⟩ := id
  obtain ⟨j, q⟩ := jq
  rw [hpu, hpd, hpv] at hap
  dsimp only at hap ⊢
  by_cases hf1 : (!u.isPickup || decide (i = j)) = true
  · rw [if_pos hf1] at hap; cases hap
  rw [if_neg hf1] at hap ⊢
  dsimp only at hap ⊢
  simp only [Bool.or_eq_true, not_or, Bool.not_eq_true, decide_eq_false_iff_not] at hf1
  obtain ⟨hf1, hij⟩ := hf1
  obtain ⟨ty, k⟩ := u
  have hty : ty = .pickup := by
    cases ty <;> simp [Activity.isPickup] at hf1 ⊢
  subst hty
  obtain ⟨hi, hut, xs0, ys0, hsp0, -⟩ := h.clean.1.place_some hpu
  obtain ⟨xs, ms, ys, hsp, hnd, hfree, hk, hro, hp1, hp2⟩ := h.shipment hi (k := k)
    (.inl (by rw [hsp0]; simp))
  have hpu' := hpu
  have hpd' := hpd
  rw [hp1] at hpu'
  dsimp only at hpd'
  rw [hp2] at hpd'
  obtain ⟨-, rfl⟩ := Prod.mk.inj (Option.some.inj hpu')
  obtain ⟨rfl, rfl⟩ := Prod.mk.inj (Option.some.inj hpd')
  obtain ⟨vs, ws, hat, rfl⟩ := h.clean.1.find_some hv hpv
  have hj := hat.1
  have hil := h.clean.1.lt_length hi
  have hjl := h.clean.1.lt_length hj
  have hpp : Piece data ((s.route i).at data (xs.length + 1)) [⟨.pickup, k⟩] := h.at hi hsp (by simp) rfl
  have hpl : Piece data ((s.route i).at data (xs.length + 1 + ms.length + 1)) [⟨.delivery, k⟩] :=
    h.at hi (xs := xs ++ ⟨.pickup, k⟩ :: ms) (ys := ys) (by rw [hsp]; simp) (by simp) (by simp; omega)
  obtain ⟨ms', ws', rfl, hnd', hmove, hcost⟩ := InsertOptionalShipment.search_spec ce h hj hat.2.1 _ hpp hpl
    (by simp) hap
  rw [hmove]
  have hrem := RemoveOptionalShipment.removed h hi hsp
  have hvr := RemoveOptionalShipment.visited_removed h hi hsp hfree
  have hat' : At data (plan.set i (xs ++ ms ++ ys)) v j vs (ms' ++ ws') :=
    hat.same (by rw [getD_set_ne _ (Ne.symm hij), hat.2.1])
  have hr0 := h.routes j hj
  rw [hat.2.1] at hr0
  have hfreej : Phase.Free k (vs ++ (ms' ++ ws')) := by
    rw [← hat.2.1]
    rintro a ha (rfl | rfl)
    · exact hij (h.clean.1.unique (a := ⟨.pickup, k⟩) (by simp) (by rw [hsp]; simp) ha)
    · exact hij (h.clean.1.unique (a := ⟨.delivery, k⟩) (by simp) (by rw [hsp]; simp) ha)
  obtain ⟨s', h1, h2⟩ := InsertOptionalShipment.insertBoth_spec hrem hat' hk
    (fun n hn => ((hvr _).1 ⟨n, hn⟩).2.1 rfl) (fun n hn => ((hvr _).1 ⟨n, hn⟩).2.2 rfl) hr0.trips
  have hr : RouteOk data (data.vehicleType (vehTypeAt data j))
      (vs ++ ⟨.pickup, k⟩ :: (ms' ++ ⟨.delivery, k⟩ :: ws')) :=
    RouteOk.insert_shipment (by rw [List.append_assoc]; exact hr0) hk
      (by rw [List.append_assoc]; exact hfreej) hnd'
  have hi' : ((plan.set i (xs ++ ms ++ ys)).set j
      (vs ++ ⟨.pickup, k⟩ :: (ms' ++ ⟨.delivery, k⟩ :: ws'))).getD i [] = xs ++ ms ++ ys := by
    rw [getD_set_ne _ hij, getD_set_self hil]
  have hj' : ((plan.set i (xs ++ ms ++ ys)).set j
      (vs ++ ⟨.pickup, k⟩ :: (ms' ++ ⟨.delivery, k⟩ :: ws'))).getD j []
        = vs ++ ⟨.pickup, k⟩ :: (ms' ++ ⟨.delivery, k⟩ :: ws') := by
    rw [getD_set_self (by simpa using hjl)]
  refine Outcome.congr (D := fun k => k = i ∨ k = j) ?_ (fun k => touched_iff hpu hpv k)
  refine ⟨_, 0, s', h1, ⟨h2, routes_set2 h.routes hro hr, ?_, fun k hk => kept_set2 k hk,
  near_set2 hij hil hjl (by rw [hsp, hat.2.1]; count_depots)⟩, ?_⟩
  · apply same_tasks2 hij hil hjl
    intro a _
    rw [hsp, hat.2.1]
    simp only [List.mem_append, List.mem_cons]
    grind
  · intro hco hfit hfr
    have h3 := hcost hco hfit (.inr rfl) hj' hr
    have h4 := RemoveOptionalShipment.cost_spec true hco h hi hfit (.inl rfl) hi' hro hsp hnd 0
      (.inl rfl)
    rw [routesCost_set2 data ce h.clean.1.length hij hi hj]
    refine Eq.trans h3 ?_
    rw [hfr i _ i _ rfl rfl, h4]
    omega

end RelocateShipment

/-! ## Moving one end of a shipment in its route -/

/-- Moving one activity in its route. -/
theorem moved_within (ce : CostEvaluator) (h : SearchOk data plan s) {i : Nat} (hi : i < data.numVehicles)
    {xs ys ps qs : List Activity} {b : Activity} (hb : b.type ≠ .depot)
    (hsp : plan.getD i [] = xs ++ b :: ys) (hpq : xs ++ ys = ps ++ qs)
    (hr : RouteOk data (data.vehicleType (vehTypeAt data i)) (ps ++ b :: qs)) {cost : Int}
    (hcost : CostOk data ce → FitsOn data (fun k => k = i) (plan.set i (ps ++ b :: qs)) →
      (plan.set i (ps ++ b :: qs)).getD i [] = ps ++ b :: qs → used (ps ++ b :: qs) = true →
      cost = 0 + routeCost data ce (vehTypeAt data i) (ps ++ b :: qs)
        - routeCost data ce (vehTypeAt data i) (plan.getD i [])) :
    Outcome data ce plan (fun k => k = i) cost True
      ((s.removeAt i (xs.length + 1)).insertAt data i (ps.length + 1) b) := by
  have hil := h.clean.1.lt_length hi
  have h1 := (h.clean.but (fun _ => False)).remove hi hsp
  have hnew : (plan.set i (xs ++ ys)).getD i [] = ps ++ qs := by rw [getD_set_self hil, hpq]
  have htask : IsTask data b := h.clean.1.isTask hb (i := i) (by rw [hsp]; simp)
  obtain ⟨s', h2, h3⟩ := h1.insert hi hnew (.inr ⟨htask, h.clean.1.absent hi hb hsp⟩) hr.trips
  rw [List.set_set] at h3
  refine ⟨_, 0, s', h2, ⟨h3.weaken (fun k _ hk => RelocateWithDepot.or_false_self hk),
    routes_set h.routes hr, ?_, fun k hk => kept_set k hk, near_set hil ?near⟩, ?_⟩
  case near =>
    have e := congrArg depotVisits hpq
    rw [depotVisits_append, depotVisits_append] at e
    rw [hsp]
    simp only [depotVisits_append, depotVisits_cons]
    omega
  · apply same_tasks hil
    intro a _
    have : a ∈ xs ++ ys ↔ a ∈ ps ++ qs := by rw [hpq]
    rw [hsp]
    simp only [List.mem_append, List.mem_cons] at this ⊢
    grind
  · intro hco hfit _
    rw [routesCost_set data ce h.clean.1.length hi,
      hcost hco hfit (getD_set_self hil _) (used_of_mem (a := b) (by simp) hb)]
    omega

namespace RelocatePickup

/-- The cost of moving the pickup to before the node at `pos`. -/
def cost (data : ProblemData) (ce : CostEvaluator) (r : SRoute) (k u pos : Nat) : Int :=
  if u < pos then
    (ce.deltaCost false data 0 ⟨r, r.before (u - 1),
      [r.between data (u + 1) (pos - 1), Seg.pickup data k, r.after pos]⟩).1
  else
    (ce.deltaCost false data 0 ⟨r, r.before (pos - 1),
      [Seg.pickup data k, r.between data pos (u - 1), r.after (u + 1)]⟩).1

theorem search_some (ce : CostEvaluator) (r : SRoute) (k u : Nat) (e : SNode) (he : e.isDepot = true)
    (pre : List Activity) :
    (search data ce r k u (e :: innerNodes 1 0 pre).reverse pre.length).apply = true →
    ∃ ps a qs, pre = ps ++ a :: qs ∧ Phase.NoDepot (a :: qs) ∧ ps.length + 1 ≠ u ∧ ps.length ≠ u
      ∧ cost data ce r k u (ps.length + 1) < 0
      ∧ search data ce r k u (e :: innerNodes 1 0 pre).reverse pre.length
        = ⟨cost data ce r k u (ps.length + 1), true, .node a⟩ := by
  induction pre using snoc_induction with
  | h0 =>
    intro h
    simp only [innerNodes, List.reverse_cons, List.reverse_nil, List.nil_append, search] at h
    rw [if_pos he] at h
    cases h
  | hs pre a ih =>
    intro h
    have e1 : (e :: innerNodes 1 0 (pre ++ [a])).reverse
        = { activity := a, pos := pre.length + 1,
            trip := if a.type = .depot then depotVisits pre + 1 else depotVisits pre }
          :: (e :: innerNodes 1 0 pre).reverse := by
      rw [innerNodes_append]
      simp only [innerNodes, List.reverse_cons, List.reverse_append, List.reverse_nil, List.nil_append,
        List.cons_append, List.append_assoc]
      simp [Nat.add_comm]
    have e2 : (pre ++ [a]).length = pre.length + 1 := by simp
    rw [e1, e2] at h ⊢
    generalize (if a.type = .depot then depotVisits pre + 1 else depotVisits pre) = t at h ⊢
    unfold search at h ⊢
    split at h
    · cases h
    rename_i hd
    rw [if_neg hd]
    have hda : a.type ≠ .depot := by
      intro hc
      apply hd
      simp [SNode.isDepot, Activity.isDepot, hc]
    have e3 : pre.length + 1 - 1 = pre.length := by omega
    -- the rest of the nodes
    have hrec : (search data ce r k u (e :: innerNodes 1 0 pre).reverse (pre.length + 1 - 1)).apply = true →
        ∃ ps a' qs, pre ++ [a] = ps ++ a' :: qs ∧ Phase.NoDepot (a' :: qs) ∧ ps.length + 1 ≠ u
          ∧ ps.length ≠ u ∧ cost data ce r k u (ps.length + 1) < 0
          ∧ search data ce r k u (e :: innerNodes 1 0 pre).reverse (pre.length + 1 - 1)
            = ⟨cost data ce r k u (ps.length + 1), true, .node a'⟩ := by
      rw [e3]
      intro h
      obtain ⟨ps, a', qs, h1, h2, h3, h4, h5, h6⟩ := ih h
      refine ⟨ps, a', qs ++ [a], by rw [h1]; simp, ?_, h3, h4, h5, h6⟩
      intro b hb
      rw [← List.cons_append, List.mem_append] at hb
      rcases hb with hb | hb
      · exact h2 b hb
      · simp at hb; subst hb; exact hda
    split at h
    · rename_i hskip
      rw [if_pos hskip]
      exact hrec h
    · rename_i hskip
      rw [if_neg hskip]
      dsimp only at h ⊢
      change (if cost data ce r k u (pre.length + 1) < 0
        then (⟨cost data ce r k u (pre.length + 1), true, .node a⟩ : Verdict)
        else search data ce r k u (e :: innerNodes 1 0 pre).reverse (pre.length + 1 - 1)).apply = true at h
      change ∃ ps a' qs, pre ++ [a] = ps ++ a' :: qs ∧ Phase.NoDepot (a' :: qs) ∧ ps.length + 1 ≠ u
        ∧ ps.length ≠ u ∧ cost data ce r k u (ps.length + 1) < 0
        ∧ (if cost data ce r k u (pre.length + 1) < 0
            then (⟨cost data ce r k u (pre.length + 1), true, .node a⟩ : Verdict)
            else search data ce r k u (e :: innerNodes 1 0 pre).reverse (pre.length + 1 - 1))
          = ⟨cost data ce r k u (ps.length + 1), true, .node a'⟩
      by_cases hneg : cost data ce r k u (pre.length + 1) < 0
      · rw [if_pos hneg]
        refine ⟨pre, a, [], rfl, ?_, by omega, by omega, hneg, rfl⟩
        intro b hb; simp at hb; subst hb; exact hda
      · rw [if_neg hneg] at h ⊢
        exact hrec h

theorem outcome (ce : CostEvaluator) (h : SearchOk data plan s) {u : Activity}
    (hap : (evaluate data ce s u).apply = true) :
    Outcome data ce plan (fun k => ∃ p, s.place u = some (k, p)) (evaluate data ce s u).cost True
      (apply data s u (evaluate data ce s u).move) := by
  unfold evaluate at hap ⊢
  cases hpu : s.place u with
  | none => rw [hpu] at hap; cases hap
  | some ip =>
  cases hpd : s.place ⟨.delivery, u.idx⟩ with
  | none => rw [hpu, hpd] at hap; obtain ⟨i, p⟩ := ip; cases hap
  | some jq =>
  obtain ⟨i, p⟩ := ip
  obtain ⟨j, q⟩ := jq
  rw [hpu, hpd] at hap
  dsimp only at hap ⊢
  split at hap
  · cases hap
  rename_i hf1
  rw [if_neg hf1]
  obtain ⟨ty, k⟩ := u
  have hty : ty = .pickup := by
    cases ty <;> simp [Activity.isPickup] at hf1 ⊢
  subst hty
  obtain ⟨hi, hut, xs0, ys0, hsp0, -⟩ := h.clean.1.place_some hpu
  obtain ⟨xs, ms, ys, hsp, hnd, hfree, hk, hro, hp1, hp2⟩ := h.shipment hi (k := k)
    (.inl (by rw [hsp0]; simp))
  rw [hpu] at hp1
  rw [hpd] at hp2
  obtain ⟨-, rfl⟩ := Prod.mk.inj (Option.some.inj hp1)
  obtain ⟨rfl, rfl⟩ := Prod.mk.inj (Option.some.inj hp2)
  refine Outcome.congr (D := fun k => k = j) ?_ (fun k => by simp [eq_comm])
  have hil := h.clean.1.lt_length hi
  -- the nodes up to the delivery
  have hpre : plan.getD j [] = (xs ++ ⟨.pickup, k⟩ :: (ms ++ [⟨.delivery, k⟩])) ++ ys := by
    rw [hsp]; simp
  have hl : xs.length + 1 + ms.length + 1 = (xs ++ (⟨.pickup, k⟩ : Activity) :: (ms ++ [⟨.delivery, k⟩])).length := by
    simp; omega
  have hnodes : ((s.route j).nodes.take (xs.length + 1 + ms.length + 1 + 1)).reverse
      = (startNode (data.vehicleType (vehTypeAt data j))
        :: innerNodes 1 0 (xs ++ ⟨.pickup, k⟩ :: (ms ++ [⟨.delivery, k⟩]))).reverse := by
    rw [h.route hi, hpre, hl]
    congr 1
    show (canon _ _).take _ = _
    rw [canon_split]
    exact List.take_left' (by simp [innerNodes_length])
  rw [hnodes, hl] at hap ⊢
  obtain ⟨ps, a, qs, he, hnda, hne1, hne2, hneg, hv⟩ := search_some ce (s.route j) k (xs.length + 1) _
    rfl _ hap
  rw [hv]
  clear hv hap hnodes
  have hat : a.type ≠ .depot := hnda a (by simp)
  -- what follows from where the pickup goes
  have finish : ∀ {ps' qs' : List Activity},
      xs ++ (ms ++ ⟨.delivery, k⟩ :: ys) = ps' ++ a :: qs' →
      RouteOk data (data.vehicleType (vehTypeAt data j)) (ps' ++ ⟨.pickup, k⟩ :: a :: qs') →
      (CostOk data ce → FitsOn data (fun k => k = j) (plan.set j (ps' ++ ⟨.pickup, k⟩ :: a :: qs')) →
        (plan.set j (ps' ++ ⟨.pickup, k⟩ :: a :: qs')).getD j [] = ps' ++ ⟨.pickup, k⟩ :: a :: qs' →
        used (ps' ++ ⟨.pickup, k⟩ :: a :: qs') = true →
        cost data ce (s.route j) k (xs.length + 1) (ps.length + 1)
          = 0 + routeCost data ce (vehTypeAt data j) (ps' ++ ⟨.pickup, k⟩ :: a :: qs')
            - routeCost data ce (vehTypeAt data j) (plan.getD j [])) →
      Outcome data ce plan (fun k => k = j)
        (cost data ce (s.route j) k (xs.length + 1) (ps.length + 1)) True
        (apply data s ⟨.pickup, k⟩ (.node a)) := by
    intro ps' qs' hpq hr hcost
    have := moved_within ce h hi (by simp) hsp hpq hr hcost
    unfold apply
    dsimp only
    rw [SSol.takeOut_eq h.clean.1 hi (by simp) hsp]
    have h1 := (h.clean.but (fun _ => False)).remove hi hsp
    rw [h1.1.place hi hat (by rw [getD_set_self hil]; exact hpq)]
    exact this
  by_cases hlt : xs.length + 1 < ps.length + 1
  · -- later in the route
    have he' : (xs ++ [⟨.pickup, k⟩]) ++ (ms ++ [⟨.delivery, k⟩]) = ps ++ (a :: qs) := by
      rw [← he]; simp
    obtain ⟨m1, hm1, hm2⟩ := split_le he' (by simp; omega)
    have hm1l : m1 ≠ [] := by
      rintro rfl
      rw [hm1] at hne2
      simp at hne2
    obtain ⟨m2, hm3, hm4⟩ := split_le hm2.symm (by
      have := congrArg List.length hm2
      simp at this
      omega)
    have hnd1 : Phase.NoDepot m1 := fun b hb => hnd b (by rw [hm3]; simp [hb])
    have hnd2 : Phase.NoDepot m2 := fun b hb => hnd b (by rw [hm3]; simp [hb])
    have hr : RouteOk data (data.vehicleType (vehTypeAt data j))
        ((xs ++ m1) ++ ⟨.pickup, k⟩ :: (m2 ++ ⟨.delivery, k⟩ :: ys)) := by
      apply RouteOk.insert_shipment _ hk _ hnd2
      · have := hro
        rw [hm3] at this
        simpa using this
      · intro b hb
        apply hfree b
        rw [hm3]
        simpa using hb
    have e4 : (m2 ++ (⟨.delivery, k⟩ : Activity) :: ys) = a :: (qs ++ ys) := by
      rw [← List.cons_append, hm4]; simp
    refine finish (ps' := xs ++ m1) (qs' := qs ++ ys) (by rw [hm3, ← e4]; simp)
      (by rw [← e4]; exact hr) ?_
    rw [← e4]
    intro hco hfit hnew hu
    unfold cost at hneg ⊢
    rw [if_pos hlt] at hneg ⊢
    have hb := h.between hi (xs := xs ++ [⟨.pickup, k⟩]) (m := m1) (ys := m2 ++ ⟨.delivery, k⟩ :: ys)
      (by rw [hsp, hm3]; simp) hm1l hnd1 (a := xs.length + 1 + 1) (b := ps.length + 1 - 1)
      (by simp) (by rw [hm1]; simp; omega)
    have haf := h.after hi (xs := ps) (ys := m2 ++ ⟨.delivery, k⟩ :: ys)
      (by rw [hsp, hm1, hm3]; simp) rfl
    exact delta_route false hco h hi hfit rfl hnew hr hsp (as := [m1, [⟨.pickup, k⟩]])
      (All2.cons hb (All2.cons (Piece.pickup k) All2.nil)) haf (by simp) hu _ (.inr hneg)
  · -- earlier
    have he' : ps ++ (a :: qs) = xs ++ (⟨.pickup, k⟩ :: (ms ++ [⟨.delivery, k⟩])) := by
      rw [← he]
    obtain ⟨x2, hx1, hx2⟩ := split_le he' (by omega)
    cases x2 with
    | nil =>
      rw [hx1] at hne1
      simp at hne1
    | cons a' x2 =>
    simp only [List.cons_append, List.cons.injEq] at hx2
    obtain ⟨rfl, hx2⟩ := hx2
    have hndx : Phase.NoDepot (a :: x2) := fun b hb => hnda b (by
      rw [hx2]
      simp only [List.mem_cons, List.mem_append] at hb ⊢
      rcases hb with hb | hb
      · exact .inl hb
      · exact .inr (.inl hb))
    have hr : RouteOk data (data.vehicleType (vehTypeAt data j))
        (ps ++ ⟨.pickup, k⟩ :: (((a :: x2) ++ ms) ++ ⟨.delivery, k⟩ :: ys)) := by
      apply RouteOk.insert_shipment _ hk
      · intro b hb
        apply hfree b
        rw [hx1]
        simpa using hb
      · intro b hb
        rw [List.mem_append] at hb
        rcases hb with hb | hb
        · exact hndx b hb
        · exact hnd b hb
      · have := hro
        rw [hx1] at this
        simpa using this
    have e4 : ((a :: x2) ++ ms) ++ (⟨.delivery, k⟩ : Activity) :: ys
        = a :: (x2 ++ ms ++ ⟨.delivery, k⟩ :: ys) := by simp
    refine finish (ps' := ps) (qs' := x2 ++ ms ++ ⟨.delivery, k⟩ :: ys) (by rw [hx1]; simp)
      (by rw [← e4]; exact hr) ?_
    rw [← e4]
    intro hco hfit hnew hu
    unfold cost at hneg ⊢
    rw [if_neg hlt] at hneg ⊢
    have hb := h.between hi (xs := ps) (m := a :: x2) (ys := ⟨.pickup, k⟩ :: (ms ++ ⟨.delivery, k⟩ :: ys))
      (by rw [hsp, hx1]) (by simp) hndx (a := ps.length + 1) (b := xs.length + 1 - 1)
      rfl (by rw [hx1]; simp)
    have haf := h.after hi (xs := xs ++ [⟨.pickup, k⟩]) (ys := ms ++ ⟨.delivery, k⟩ :: ys)
      (by rw [hsp]; simp) (a := xs.length + 1 + 1) (by simp)
    exact delta_route false hco h hi hfit rfl hnew hr (xs := ps)
      (rest := (a :: x2) ++ ⟨.pickup, k⟩ :: (ms ++ ⟨.delivery, k⟩ :: ys)) (by rw [hsp, hx1]; simp)
      (as := [[⟨.pickup, k⟩], a :: x2])
      (All2.cons (Piece.pickup k) (All2.cons hb All2.nil)) haf (by simp) hu _ (.inr hneg)

end RelocatePickup

namespace RelocateDelivery

/-- The cost of moving the delivery to after the node at `pos`. -/
def cost (data : ProblemData) (ce : CostEvaluator) (r : SRoute) (k d pos : Nat) : Int :=
  if d < pos then
    (ce.deltaCost false data 0 ⟨r, r.before (d - 1),
      [r.between data (d + 1) pos, Seg.delivery data k, r.after (pos + 1)]⟩).1
  else
    (ce.deltaCost false data 0 ⟨r, r.before pos,
      [Seg.delivery data k, r.between data (pos + 1) (d - 1), r.after (d + 1)]⟩).1

theorem search_some (ce : CostEvaluator) (r : SRoute) (k d : Nat) (e : SNode) (he : e.isDepot = true) :
    ∀ (acts : List Activity) (pos trip : Nat),
    (search data ce r k d (innerNodes pos trip acts ++ [e]) pos).apply = true →
    ∃ ps a qs, acts = ps ++ a :: qs ∧ Phase.NoDepot (ps ++ [a]) ∧ pos + ps.length ≠ d
      ∧ pos + ps.length + 1 ≠ d ∧ cost data ce r k d (pos + ps.length) < 0
      ∧ search data ce r k d (innerNodes pos trip acts ++ [e]) pos
        = ⟨cost data ce r k d (pos + ps.length), true, .node a⟩
  | [], pos, trip, h => by
    simp only [innerNodes, List.nil_append, search] at h
    rw [if_pos he] at h
    cases h
  | a :: rest, pos, trip, h => by
    simp only [innerNodes, List.cons_append] at h ⊢
    generalize (if a.type = .depot then trip + 1 else trip) = t at h ⊢
    unfold search at h ⊢
    split at h
    · cases h
    rename_i hd
    rw [if_neg hd]
    have hda : a.type ≠ .depot := by
      intro hc
      apply hd
      simp [SNode.isDepot, Activity.isDepot, hc]
    have hrec : (search data ce r k d (innerNodes (pos + 1) t rest ++ [e]) (pos + 1)).apply = true →
        ∃ ps a' qs, a :: rest = ps ++ a' :: qs ∧ Phase.NoDepot (ps ++ [a']) ∧ pos + ps.length ≠ d
          ∧ pos + ps.length + 1 ≠ d ∧ cost data ce r k d (pos + ps.length) < 0
          ∧ search data ce r k d (innerNodes (pos + 1) t rest ++ [e]) (pos + 1)
            = ⟨cost data ce r k d (pos + ps.length), true, .node a'⟩ := by
      intro h
      obtain ⟨ps, a', qs, h1, h2, h3, h4, h5, h6⟩ := search_some ce r k d e he rest (pos + 1) t h
      have e1 : pos + (a :: ps).length = pos + 1 + ps.length := by simp; omega
      refine ⟨a :: ps, a', qs, by rw [h1]; rfl, ?_, by rw [e1]; exact h3, by rw [e1]; exact h4,
        by rw [e1]; exact h5, by rw [e1]; exact h6⟩
      intro b hb
      rw [List.cons_append, List.mem_cons] at hb
      rcases hb with rfl | hb
      · exact hda
      · exact h2 b hb
    split at h
    · rename_i hskip
      rw [if_pos hskip]
      exact hrec h
    · rename_i hskip
      rw [if_neg hskip]
      dsimp only at h ⊢
      change (if cost data ce r k d pos < 0 then (⟨cost data ce r k d pos, true, .node a⟩ : Verdict)
        else search data ce r k d (innerNodes (pos + 1) t rest ++ [e]) (pos + 1)).apply = true at h
      change ∃ ps a' qs, a :: rest = ps ++ a' :: qs ∧ Phase.NoDepot (ps ++ [a']) ∧ pos + ps.length ≠ d
          ∧ pos + ps.length + 1 ≠ d ∧ cost data ce r k d (pos + ps.length) < 0
          ∧ (if cost data ce r k d pos < 0 then (⟨cost data ce r k d pos, true, .node a⟩ : Verdict)
            else search data ce r k d (innerNodes (pos + 1) t rest ++ [e]) (pos + 1))
            = ⟨cost data ce r k d (pos + ps.length), true, .node a'⟩
      by_cases hneg : cost data ce r k d pos < 0
      · rw [if_pos hneg]
        refine ⟨[], a, rest, rfl, ?_, by simp; omega, by simp; omega, hneg, rfl⟩
        intro b hb; simp at hb; subst hb; exact hda
      · rw [if_neg hneg] at h ⊢
        exact hrec h

theorem outcome (ce : CostEvaluator) (h : SearchOk data plan s) {u : Activity}
    (hap : (evaluate data ce s u).apply = true) :
    Outcome data ce plan (fun k => ∃ p, s.place u = some (k, p)) (evaluate data ce s u).cost True
      (apply data s u (evaluate data ce s u).move) := by
  unfold evaluate at hap ⊢
  cases hpu : s.place u with
  | none => rw [hpu] at hap; cases hap
  | some ip =>
  cases hpd : s.place ⟨.delivery, u.idx⟩ with
  | none => rw [hpu, hpd] at hap; obtain ⟨i, p⟩ := ip; cases hap
  | some jq =>
  obtain ⟨i, p⟩ := ip
  obtain ⟨j, q⟩ := jq
  rw [hpu, hpd] at hap
  dsimp only at hap ⊢
  split at hap
  · cases hap
  rename_i hf1
  rw [if_neg hf1]
  obtain ⟨ty, k⟩ := u
  have hty : ty = .pickup := by
    cases ty <;> simp [Activity.isPickup] at hf1 ⊢
  subst hty
  obtain ⟨hi, hut, xs0, ys0, hsp0, -⟩ := h.clean.1.place_some hpu
  obtain ⟨xs, ms, ys, hsp, hnd, hfree, hk, hro, hp1, hp2⟩ := h.shipment hi (k := k)
    (.inl (by rw [hsp0]; simp))
  rw [hpu] at hp1
  rw [hpd] at hp2
  obtain ⟨-, rfl⟩ := Prod.mk.inj (Option.some.inj hp1)
  obtain ⟨rfl, rfl⟩ := Prod.mk.inj (Option.some.inj hp2)
  refine Outcome.congr (D := fun k => k = j) ?_ (fun k => by simp [eq_comm])
  have hil := h.clean.1.lt_length hi
  have hnodes : (s.route j).nodes.drop (xs.length + 1)
      = innerNodes (xs.length + 1) (depotVisits xs) (⟨.pickup, k⟩ :: (ms ++ ⟨.delivery, k⟩ :: ys))
        ++ [endNode (data.vehicleType (vehTypeAt data j))
          (xs.length + (⟨.pickup, k⟩ :: (ms ++ (⟨.delivery, k⟩ : Activity) :: ys)).length + 1)
          (depotVisits xs + depotVisits (⟨.pickup, k⟩ :: (ms ++ (⟨.delivery, k⟩ : Activity) :: ys)) + 1)] := by
    rw [h.route hi, hsp, SRoute.ofActs_drop]
  rw [hnodes] at hap ⊢
  obtain ⟨ps, a, qs, he, hnda, hne1, hne2, hneg, hv⟩ := search_some ce (s.route j) k
    (xs.length + 1 + ms.length + 1) _ rfl _ _ _ hap
  rw [hv]
  clear hv hap hnodes
  have hat : a.type ≠ .depot := hnda a (by simp)
  have hspd : plan.getD j [] = (xs ++ ⟨.pickup, k⟩ :: ms) ++ ⟨.delivery, k⟩ :: ys := by rw [hsp]; simp
  have finish : ∀ {ps' qs' : List Activity},
      (xs ++ ⟨.pickup, k⟩ :: ms) ++ ys = (ps' ++ [a]) ++ qs' →
      RouteOk data (data.vehicleType (vehTypeAt data j)) ((ps' ++ [a]) ++ ⟨.delivery, k⟩ :: qs') →
      (CostOk data ce → FitsOn data (fun k => k = j) (plan.set j ((ps' ++ [a]) ++ ⟨.delivery, k⟩ :: qs')) →
        (plan.set j ((ps' ++ [a]) ++ ⟨.delivery, k⟩ :: qs')).getD j []
          = (ps' ++ [a]) ++ ⟨.delivery, k⟩ :: qs' →
        used ((ps' ++ [a]) ++ ⟨.delivery, k⟩ :: qs') = true →
        cost data ce (s.route j) k (xs.length + 1 + ms.length + 1) (xs.length + 1 + ps.length)
          = 0 + routeCost data ce (vehTypeAt data j) ((ps' ++ [a]) ++ ⟨.delivery, k⟩ :: qs')
            - routeCost data ce (vehTypeAt data j) (plan.getD j [])) →
      Outcome data ce plan (fun k => k = j)
        (cost data ce (s.route j) k (xs.length + 1 + ms.length + 1) (xs.length + 1 + ps.length)) True
        (apply data s ⟨.pickup, k⟩ (.node a)) := by
    intro ps' qs' hpq hr hcost
    have := moved_within ce h hi (by simp) hspd hpq hr hcost
    unfold apply
    dsimp only
    rw [SSol.takeOut_eq h.clean.1 hi (by simp) hspd]
    have h1 := (h.clean.but (fun _ => False)).remove hi hspd
    unfold SSol.insertAfter
    rw [h1.1.find (j := j) (vs := ps' ++ [a]) (ws := qs')
      ⟨hi, by rw [getD_set_self hil, hpq], .inr ⟨a, ps', hat, rfl, rfl⟩⟩]
    exact this
  have he' : (⟨.pickup, k⟩ :: ms) ++ (⟨.delivery, k⟩ :: ys) = (ps ++ [a]) ++ qs := by
    rw [← List.append_cons, ← he]; rfl
  by_cases hlt : xs.length + 1 + ms.length + 1 < xs.length + 1 + ps.length
  · -- later in the route
    have he2 : ((⟨.pickup, k⟩ :: ms) ++ [⟨.delivery, k⟩]) ++ ys = ps ++ (a :: qs) := by
      rw [← he]; simp
    obtain ⟨y1, hy1, hy2⟩ := split_le he2 (by simp; omega)
    have hnd1 : Phase.NoDepot (y1 ++ [a]) := fun b hb => hnda b (by
      rw [hy1]
      simp only [List.mem_append] at hb ⊢
      rcases hb with hb | hb
      · exact .inl (.inr hb)
      · exact .inr hb)
    have hr : RouteOk data (data.vehicleType (vehTypeAt data j))
        (xs ++ ⟨.pickup, k⟩ :: ((ms ++ (y1 ++ [a])) ++ ⟨.delivery, k⟩ :: qs)) := by
      apply RouteOk.insert_shipment _ hk
      · intro b hb
        apply hfree b
        rw [hy2]
        simpa using hb
      · intro b hb
        rw [List.mem_append] at hb
        rcases hb with hb | hb
        · exact hnd b hb
        · exact hnd1 b hb
      · have := hro
        rw [hy2] at this
        simpa using this
    have e4 : xs ++ ⟨.pickup, k⟩ :: ((ms ++ (y1 ++ [a])) ++ ⟨.delivery, k⟩ :: qs)
        = ((xs ++ ⟨.pickup, k⟩ :: ms ++ y1) ++ [a]) ++ ⟨.delivery, k⟩ :: qs := by simp
    rw [e4] at hr
    refine finish (ps' := xs ++ ⟨.pickup, k⟩ :: ms ++ y1) (qs' := qs) (by rw [hy2]; simp) hr ?_
    intro hco hfit hnew hu
    unfold cost at hneg ⊢
    rw [if_pos hlt] at hneg ⊢
    have hpl : ps.length = ms.length + 2 + y1.length := by rw [hy1]; simp; omega
    have hb := h.between hi (xs := xs ++ ⟨.pickup, k⟩ :: (ms ++ [⟨.delivery, k⟩])) (m := y1 ++ [a])
      (ys := qs) (by rw [hsp, hy2]; simp) (by simp) hnd1 (a := xs.length + 1 + ms.length + 1 + 1)
      (b := xs.length + 1 + ps.length) (by simp; omega) (by rw [hpl]; simp; omega)
    have haf := h.after hi (xs := xs ++ ⟨.pickup, k⟩ :: (ms ++ ⟨.delivery, k⟩ :: (y1 ++ [a]))) (ys := qs)
      (by rw [hsp, hy2]; simp) (a := xs.length + 1 + ps.length + 1) (by rw [hpl]; simp; omega)
    have e5 : xs.length + 1 + ms.length + 1 - 1 = (xs ++ (⟨.pickup, k⟩ : Activity) :: ms).length := by
      simp; omega
    rw [e5] at hneg ⊢
    exact delta_route false hco h hi hfit rfl hnew hr hspd (as := [y1 ++ [a], [⟨.delivery, k⟩]])
      (All2.cons hb (All2.cons (Piece.delivery k) All2.nil)) haf (by simp) hu _ (.inr hneg)
  · -- earlier
    obtain ⟨m2, hm1, hm2⟩ := split_le he'.symm (by simp; omega)
    have hm2l : m2 ≠ [] := by
      rintro rfl
      have := congrArg List.length hm1
      simp at this
      omega
    have hnd2 : Phase.NoDepot m2 := by
      intro b hb
      have : b ∈ (⟨.pickup, k⟩ : Activity) :: ms := by rw [hm1]; simp [hb]
      rw [List.mem_cons] at this
      rcases this with rfl | this
      · simp
      · exact hnd b this
    -- the part between the pickup and the new place
    obtain ⟨m1, hm3⟩ : ∃ m1, ps ++ [a] = ⟨.pickup, k⟩ :: m1 := by
      cases ps with
      | nil =>
        simp only [List.nil_append, List.cons_append, List.cons.injEq] at hm1
        exact ⟨[], by rw [← hm1.1]; rfl⟩
      | cons b ps =>
        simp only [List.cons_append, List.cons.injEq] at hm1
        exact ⟨ps ++ [a], by rw [← hm1.1]; rfl⟩
    have hms : ms = m1 ++ m2 := by
      rw [hm3] at hm1
      simpa using hm1
    have hr : RouteOk data (data.vehicleType (vehTypeAt data j))
        (xs ++ ⟨.pickup, k⟩ :: (m1 ++ ⟨.delivery, k⟩ :: (m2 ++ ys))) := by
      apply RouteOk.insert_shipment _ hk
      · intro b hb
        apply hfree b
        rw [hms]
        simpa using hb
      · intro b hb
        exact hnd b (by rw [hms]; simp [hb])
      · have := hro
        rw [hms] at this
        simpa using this
    have e4 : xs ++ ⟨.pickup, k⟩ :: (m1 ++ ⟨.delivery, k⟩ :: (m2 ++ ys))
        = ((xs ++ ps) ++ [a]) ++ ⟨.delivery, k⟩ :: (m2 ++ ys) := by
      have : (xs ++ ps) ++ [a] = xs ++ ⟨.pickup, k⟩ :: m1 := by rw [List.append_assoc, hm3]
      rw [this]; simp
    rw [e4] at hr
    have hxp : (xs ++ ps) ++ [a] = xs ++ ⟨.pickup, k⟩ :: m1 := by rw [List.append_assoc, hm3]
    refine finish (ps' := xs ++ ps) (qs' := m2 ++ ys) (by rw [hxp, hms]; simp) hr ?_
    intro hco hfit hnew hu
    unfold cost at hneg ⊢
    rw [if_neg hlt] at hneg ⊢
    have hlen : ms.length + 1 = ps.length + 1 + m2.length := by
      have := congrArg List.length hm1
      simp at this
      omega
    have hsp2 : plan.getD j [] = ((xs ++ ps) ++ [a]) ++ m2 ++ (⟨.delivery, k⟩ :: ys) := by
      rw [hxp, hsp, hms]; simp
    have hb := h.between hi hsp2 hm2l hnd2 (a := xs.length + 1 + ps.length + 1)
      (b := xs.length + 1 + ms.length + 1 - 1) (by simp; omega) (by simp; omega)
    have haf := h.after hi (xs := xs ++ ⟨.pickup, k⟩ :: (ms ++ [⟨.delivery, k⟩])) (ys := ys)
      (by rw [hsp]; simp) (a := xs.length + 1 + ms.length + 1 + 1) (by simp; omega)
    have e5 : xs.length + 1 + ps.length = ((xs ++ ps) ++ [a]).length := by simp; omega
    rw [e5] at hneg hb ⊢
    exact delta_route false hco h hi hfit rfl hnew hr (xs := (xs ++ ps) ++ [a])
      (rest := m2 ++ ⟨.delivery, k⟩ :: ys) (by rw [hsp2, List.append_assoc])
      (as := [[⟨.delivery, k⟩], m2])
      (All2.cons (Piece.delivery k) (All2.cons hb All2.nil)) haf (by simp) hu _ (.inr hneg)

end RelocateDelivery
end PyVRP
