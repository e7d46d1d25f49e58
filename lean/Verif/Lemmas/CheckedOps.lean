import Verif.Lemmas.Checked
/-!
# No assertion fails in the operators: segments of clients
-/
namespace PyVRP.Checked
open Spec

variable {data : ProblemData} {plan : List (List Activity)} {s : SSol} {r : SRoute}

theorem hasDepot_eq (h : Sound data r) {u n : Nat} (hu : u < r.size) :
    hasDepot r u n = some (r.hasDepot u n) := by
  unfold hasDepot SRoute.hasDepot
  have hs := h.size
  dsimp only
  rw [minus_eq (by omega)]
  simp only [Option.bind_eq_bind, Option.bind_some]
  by_cases h0 : u = 0
  · subst h0; rfl
  · rw [if_neg h0]
    by_cases h1 : u + n - 1 ≥ r.size - 1
    · rw [if_pos h1, decide_eq_true h1]; simp
    · rw [if_neg h1, decide_eq_false h1, h.node_eq (by omega), h.node_eq (by omega)]
      simp [h0]

theorem splitsShipment_eq (h : Sound data r) {u n : Nat} (hn : 1 ≤ n) (hu : u + n - 1 < r.size) :
    splitsShipment data r u n = some (r.splitsShipment u n) := by
  unfold splitsShipment SRoute.splitsShipment numPickupsAt numDeliveriesAt
  dsimp only
  rw [h.node_eq (by omega), fresh_eq h, ensure_true (show u < r.size by omega), ensure_true hu]
  simp only [Option.bind_eq_bind, Option.bind_some, Option.pure_def, bne]
  cases (r.node u).isDelivery with
  | true => rfl
  | false =>
    simp only [Bool.false_eq_true, if_false, Bool.false_or]
    by_cases h1 : r.numPickupsAt u = r.numDeliveriesAt u + SRoute.one (r.node u).isPickup
    · simp [h1]
    · simp [h1]

theorem fixed_eq (h : Sound data r) {u n : Nat} (hu : u < r.size) (hn : 1 ≤ n) :
    fixed data r u n = some (r.hasDepot u n || r.splitsShipment u n) := by
  unfold fixed
  rw [hasDepot_eq h hu]
  simp only [Option.bind_eq_bind, Option.bind_some]
  cases hd : r.hasDepot u n with
  | true => rfl
  | false =>
    rw [if_neg (by simp), splitsShipment_eq h hn]
    · rfl
    · unfold SRoute.hasDepot at hd
      simp only [Bool.or_eq_false_iff, decide_eq_false_iff_not] at hd
      have := h.size
      omega

theorem begins_of {n : SNode} (h1 : n.isDepot = false) (h2 : n.isDelivery = false) : Begins n := by
  obtain ⟨⟨ty, i⟩, _, _, _⟩ := n
  cases ty
  · cases h1
  · exact .inl rfl
  · exact .inr rfl
  · cases h2

/-- A segment that is not fixed. -/
theorem segment_facts (h : Sound data r) {u n : Nat} (hn : 1 ≤ n)
    (hf : (r.hasDepot u n || r.splitsShipment u n) = false) (hnd : (r.node u).isDepot = false) :
    0 < u ∧ u + n < r.size ∧ (r.node u).trip = (r.node (u + n - 1)).trip ∧ Begins (r.node u)
    ∧ np r (u - 1) = nd r (u - 1) ∧ np r (u + n - 1) = nd r (u + n - 1) := by
  unfold SRoute.hasDepot SRoute.splitsShipment at hf
  simp only [Bool.or_eq_false_iff, decide_eq_false_iff_not, bne_eq_false_iff_eq, beq_eq_false_iff_ne] at hf
  obtain ⟨⟨⟨h1, h2⟩, h3⟩, ⟨h4, h5⟩, h6⟩ := hf
  have hsz := h.size
  obtain ⟨m, rfl⟩ : ∃ m, u = m + 1 := ⟨u - 1, by omega⟩
  have hk := Sound.kinds (r.node (m + 1))
  have hp := h.pickups_step (k := m) (by omega)
  have hd := h.deliveries_step (k := m) (by omega)
  have ht := h.trip m (by omega)
  have hm1 := h.mono (a := m + 1) (b := m + 1 + n - 1) (by omega) (by omega)
  have hsv := h.served m (by omega)
  change np r (m + 1) = nd r (m + 1) + _ at h5
  change np r _ = nd r _ at h6
  have h4' : SRoute.one (r.node (m + 1)).isDelivery = 0 := by rw [h4]; rfl
  refine ⟨by omega, by omega, h3, ?_, ?_, h6⟩
  · exact begins_of hnd h4
  · show np r m = nd r m
    omega

/-! ## Operands -/

/-- A client, or the pickup of a shipment, of the problem. -/
def Task (data : ProblemData) (a : Activity) : Prop :=
  (a.isClient = true ∧ a.idx < data.numClients) ∨ (a.isPickup = true ∧ a.idx < data.numShipments)

theorem Task.kind {a : Activity} (h : Task data a) : a.isClient = true ∨ a.isPickup = true := by
  rcases h with h | h
  · exact .inl h.1
  · exact .inr h.1

theorem Task.cacheIdx {a : Activity} (h : Task data a) :
    PyVRP.Relocate.cacheIdx data a < data.numClients + data.numShipments := by
  unfold PyVRP.Relocate.cacheIdx
  obtain ⟨ty, i⟩ := a
  rcases h with ⟨h1, h2⟩ | ⟨h1, h2⟩
  · rw [if_pos h1]; omega
  · rw [if_neg (by cases ty <;> simp_all [Activity.isClient, Activity.isPickup])]; omega

theorem cached_eq {cache : Cache} {idx : Nat} (h : idx < cache.length) (c : Int) :
    cached cache idx (some c) = some (cache.lookup idx c) := by
  unfold cached Cache.lookup
  rw [List.getD_eq_getElem?_getD, List.getElem?_eq_getElem h]
  cases cache[idx] <;> rfl

theorem bind_of {α β γ : Type} {x : Option α} {f : α → Option β} {g : β → Option γ} {y : β}
    (h : x.bind f = some y) : (x.bind fun a => (f a).bind g) = g y := by
  rw [← Option.bind_assoc, h]; rfl

theorem bind_bind_of {α β γ δ : Type} {x : Option α} {y : Option β} {f : α → β → Option γ}
    {g : γ → Option δ} {z : γ} (h : (x.bind fun a => y.bind fun b => f a b) = some z) :
    (x.bind fun a => y.bind fun b => (f a b).bind g) = g z := by
  cases x with
  | none => cases h
  | some a =>
    cases y with
    | none => cases h
    | some b =>
      have h : f a b = some z := h
      show (f a b).bind g = g z
      rw [h]; rfl

/-! ## `Relocate` -/

namespace Relocate

theorem removeCost_eq {ce : CostEvaluator} (hco : CostOk data ce) (h : Sound data r) {u n : Nat} (hn : 1 ≤ n)
    (hf : (r.hasDepot u n || r.splitsShipment u n) = false) (hnd : (r.node u).isDepot = false) :
    removeCost n data ce r u = some (PyVRP.Relocate.removeCost n data ce r u) := by
  obtain ⟨h1, h2, h3, h4, h5, h6⟩ := segment_facts h hn hf hnd
  unfold removeCost PyVRP.Relocate.removeCost numClients numShipments
  rw [fresh_eq h]
  simp only [Option.bind_eq_bind, Option.bind_some, Option.pure_def]
  by_cases hc : r.numClients + 2 * r.numShipments = n
  · rw [if_pos hc, if_pos hc, penalisedCost_eq hco h]; rfl
  · rw [if_neg hc, if_neg hc, minus_eq (show 1 ≤ u from h1), Option.bind_some, before_eq h (by omega), Option.bind_some,
      after_eq h h2, Option.bind_some]
    -- the rest of the route is not empty
    have c1 := h.count (u - 1) (by omega)
    have c2 := h.count (u + n - 1) (by omega)
    have c3 := h.count u (by omega)
    have c4 := after_counts h (a := u + n) (by omega) h2
    have c5 := h.mono (a := u - 1) (b := u) (by omega) (by omega)
    have c6 := h.mono (a := u) (b := u + n - 1) (by omega) (by omega)
    have ht : (r.node u).trip = (r.node (u - 1)).trip := by
      have := h.trip (u - 1) (by omega)
      rw [show u - 1 + 1 = u by omega, hnd] at this
      exact this
    by_cases hb : (beforeSeg data r (u - 1)).Busy
    · exact cost_eq hco h true 0 (by omega) [] (by simp) (ends_after h h2) (by simp) hb
    · refine cost_eq hco h true 0 (by omega) [] (by simp) (ends_after h h2)
        (c := afterSeg data r (u + n)) (by simp) ?_
      have hb' : ¬ 0 < nc r (u - 1) + np r (u - 1) := hb
      show 0 < (afterSeg data r (u + n)).seg.numClients + (afterSeg data r (u + n)).seg.numPickups
      omega

theorem different_eq {ce : CostEvaluator} (hco : CostOk data ce) (h : Sound data r) {rV : SRoute}
    (hV : Sound data rV) {u n v : Nat} (hn : 1 ≤ n)
    (hf : (r.hasDepot u n || r.splitsShipment u n) = false) (hnd : (r.node u).isDepot = false)
    (hv : v + 1 < rV.size) (cost : Int) :
    different n data ce r u rV v cost = some (PyVRP.Relocate.different n data ce r u rV v cost) := by
  obtain ⟨h1, h2, h3, h4, h5, h6⟩ := segment_facts h hn hf hnd
  unfold different PyVRP.Relocate.different
  rw [before_eq hV (by omega), between_eq h (by omega) (by omega) (by omega), after_eq hV hv]
  simp only [Option.bind_eq_bind, Option.bind_some, Option.pure_def]
  rw [← Option.bind_assoc]
  have := cost_eq hco hV false cost (e := v) (by omega) [betweenSeg data r u (u + n - 1)]
    (by simp only [List.mem_singleton, forall_eq]; exact good_between h rV (by omega) (by omega))
    (ends_after hV hv) (c := betweenSeg data r u (u + n - 1)) (by simp) (busy_between h4)
  simp only [List.singleton_append] at this
  rw [this]; rfl

theorem same_eq {ce : CostEvaluator} (hco : CostOk data ce) (h : Sound data r)
    {u n v : Nat} (hn : 1 ≤ n)
    (hf : (r.hasDepot u n || r.splitsShipment u n) = false) (hnd : (r.node u).isDepot = false)
    (hv : v + 1 < r.size) (ht : (r.node u).trip = (r.node v).trip)
    (ho : PyVRP.Relocate.overlap n u v = false) (hne : v + 1 ≠ u) :
    same n data ce r u v = some (PyVRP.Relocate.same n data ce r u v) := by
  obtain ⟨h1, h2, h3, h4, h5, h6⟩ := segment_facts h hn hf hnd
  unfold PyVRP.Relocate.overlap at ho
  simp only [Bool.and_eq_false_iff, decide_eq_false_iff_not] at ho
  unfold same PyVRP.Relocate.same
  by_cases huv : u < v
  · have m1 := h.mono (a := u) (b := u + n) (by omega) (by omega)
    have m2 := h.mono (a := u + n) (b := v) (by omega) (by omega)
    rw [if_pos huv, if_pos huv, minus_eq (show 1 ≤ u from h1)]
    simp only [Option.bind_eq_bind, Option.bind_some, Option.pure_def]
    rw [before_eq h (by omega), Option.bind_some, between_eq h (by omega) (by omega) (by omega),
      Option.bind_some, between_eq h (by omega) (by omega) (by omega), Option.bind_some, after_eq h hv,
      Option.bind_some, ← Option.bind_assoc]
    have := cost_eq hco h false 0 (e := u - 1) (by omega)
      [betweenSeg data r (u + n) v, betweenSeg data r u (u + n - 1)]
      (by
        simp only [List.mem_cons, List.not_mem_nil, or_false, forall_eq_or_imp, forall_eq]
        exact ⟨good_between h r (by omega) (by omega), good_between h r (by omega) (by omega)⟩)
      (ends_after h hv) (c := betweenSeg data r u (u + n - 1)) (by simp) (busy_between h4)
    simp only [List.cons_append, List.nil_append] at this
    rw [this]; rfl
  · have m1 := h.mono (a := v) (b := v + 1) (by omega) (by omega)
    have m2 := h.mono (a := v + 1) (b := u - 1) (by omega) (by omega)
    have m3 := h.mono (a := u - 1) (b := u) (by omega) (by omega)
    rw [if_neg huv, if_neg huv, minus_eq (show 1 ≤ u from h1)]
    simp only [Option.bind_eq_bind, Option.bind_some, Option.pure_def]
    rw [before_eq h (by omega), Option.bind_some, between_eq h (by omega) (by omega) (by omega),
      Option.bind_some, between_eq h (by omega) (by omega) (by omega), Option.bind_some, after_eq h h2,
      Option.bind_some, ← Option.bind_assoc]
    have := cost_eq hco h false 0 (e := v) (by omega)
      [betweenSeg data r u (u + n - 1), betweenSeg data r (v + 1) (u - 1)]
      (by
        simp only [List.mem_cons, List.not_mem_nil, or_false, forall_eq_or_imp, forall_eq]
        exact ⟨good_between h r (by omega) (by omega), good_between h r (by omega) (by omega)⟩)
      (ends_after h h2) (c := betweenSeg data r u (u + n - 1)) (by simp) (busy_between h4)
    simp only [List.cons_append, List.nil_append] at this
    rw [this]; rfl

theorem evaluate_eq {ce : CostEvaluator} (hco : CostOk data ce) (hdist : DistancesOk data)
    (h : SearchOk data plan s) {n : Nat} (hn : 1 ≤ n) (cache : Cache) {uAct : Activity}
    (hu : Task data uAct) {v : NodeRef} (hv : SSol.RefOk data v)
    (hc : cache.length = data.numClients + data.numShipments) :
    evaluate n data ce s cache uAct v = some (PyVRP.Relocate.evaluate n data ce s cache uAct v) := by
  unfold evaluate PyVRP.Relocate.evaluate
  cases hp : s.place uAct with
  | none => rfl
  | some iu =>
  cases hf : s.find v with
  | none => rfl
  | some jv =>
  obtain ⟨i, u⟩ := iu
  obtain ⟨j, v⟩ := jv
  have pU := placed h hp
  have lV := located hco hdist h hv hf
  have sU := sound_route hco hdist h pU.lt
  have sV := sound_route hco hdist h lV.lt
  have hnd := isDepot_of_ne (n := (s.route i).node u) (by rw [pU.activity]; exact pU.type)
  have hsz := pU.size
  have hsv := lV.size
  dsimp only
  rw [pU.here, lV.route h]
  simp only [Option.bind_eq_bind, Option.bind_some, Option.pure_def]
  rw [fixed_eq sU (by omega) hn]
  simp only [Option.bind_some]
  cases hfx : ((s.route i).hasDepot u n || (s.route i).splitsShipment u n) with
  | true => rfl
  | false =>
  simp only [Bool.false_eq_true, if_false]
  by_cases hij : i = j
  · subst hij
    simp only [if_true, decide_true, Bool.true_and]
    rw [sU.node_eq (by omega), Option.bind_some, sU.node_eq (by omega), Option.bind_some,
      sU.node_eq (by omega), Option.bind_some]
    cases hsk : (((s.route i).node u).trip != ((s.route i).node v).trip || PyVRP.Relocate.overlap n u v
        || ((s.route i).node (v + 1)).activity == uAct) with
    | true => rfl
    | false =>
    simp only [Bool.false_eq_true, if_false, ne_eq, not_true_eq_false]
    simp only [Bool.or_eq_false_iff, bne_eq_false_iff_eq, beq_eq_false_iff_ne] at hsk
    rw [same_eq hco sU hn hfx hnd hsv hsk.1.1 hsk.1.2
      (by intro e; rw [e, pU.activity] at hsk; exact hsk.2 rfl)]
    rfl
  · rw [if_neg hij]
    simp only [decide_false, Bool.false_and, Bool.false_eq_true, if_false,
      ne_eq, hij, not_false_eq_true, if_true]
    rw [ensure_true (by simp [hu.kind])]
    simp only [Option.bind_some]
    rw [removeCost_eq hco sU hn hfx hnd, cached_eq (by rw [hc]; exact hu.cacheIdx), Option.bind_some,
      different_eq hco sU sV hn hfx hnd hsv]
    rfl

end Relocate

/-! ## `Swap` -/

namespace Swap

theorem different_eq {ce : CostEvaluator} (hco : CostOk data ce) (h : Sound data r) {rV : SRoute}
    (hV : Sound data rV) {u n v m : Nat} (hn : 1 ≤ n) (hm : 1 ≤ m)
    (hf : (r.hasDepot u n || r.splitsShipment u n) = false) (hnd : (r.node u).isDepot = false)
    (hfV : (rV.hasDepot v m || rV.splitsShipment v m) = false) (hndV : (rV.node v).isDepot = false) :
    different n m data ce r u rV v = some (PyVRP.Swap.different n m data ce r u rV v) := by
  obtain ⟨h1, h2, h3, h4, h5, h6⟩ := segment_facts h hn hf hnd
  obtain ⟨g1, g2, g3, g4, g5, g6⟩ := segment_facts hV hm hfV hndV
  unfold different PyVRP.Swap.different
  rw [minus_eq (show 1 ≤ u from h1), minus_eq (show 1 ≤ v from g1)]
  simp only [Option.bind_eq_bind, Option.bind_some, Option.pure_def]
  rw [before_eq h (by omega), between_eq h (by omega) (by omega) (by omega), after_eq h h2,
    before_eq hV (by omega), between_eq hV (by omega) (by omega) (by omega), after_eq hV g2]
  simp only [Option.bind_some]
  have := cost2_eq hco h hV false 0 (e := u - 1) (by omega) [betweenSeg data rV v (v + m - 1)]
    (by simp only [List.mem_singleton, forall_eq]; exact good_between hV r (by omega) (by omega))
    (ends_after h h2) (c := betweenSeg data rV v (v + m - 1)) (by simp) (busy_between g4)
    (e' := v - 1) (by omega) [betweenSeg data r u (u + n - 1)]
    (by simp only [List.mem_singleton, forall_eq]; exact good_between h rV (by omega) (by omega))
    (ends_after hV g2) (c' := betweenSeg data r u (u + n - 1)) (by simp) (busy_between h4)
  simp only [List.singleton_append] at this
  rw [bind_bind_of this]; rfl

theorem same_eq {ce : CostEvaluator} (hco : CostOk data ce) (h : Sound data r)
    {u n v m : Nat} (hn : 1 ≤ n) (hm : 1 ≤ m)
    (hf : (r.hasDepot u n || r.splitsShipment u n) = false) (hnd : (r.node u).isDepot = false)
    (hfV : (r.hasDepot v m || r.splitsShipment v m) = false) (hndV : (r.node v).isDepot = false)
    (ht : (r.node u).trip = (r.node v).trip)
    (ho : PyVRP.Swap.overlap n m u v = false) (hadj : PyVRP.Swap.adjacent n m u v = false) :
    same n m data ce r u v = some (PyVRP.Swap.same n m data ce r u v) := by
  obtain ⟨h1, h2, h3, h4, h5, h6⟩ := segment_facts h hn hf hnd
  obtain ⟨g1, g2, g3, g4, g5, g6⟩ := segment_facts h hm hfV hndV
  unfold PyVRP.Swap.overlap at ho
  unfold PyVRP.Swap.adjacent at hadj
  simp only [Bool.and_eq_false_iff, Bool.or_eq_false_iff, decide_eq_false_iff_not] at ho hadj
  unfold same PyVRP.Swap.same
  by_cases huv : u < v
  · have m1 := h.mono (a := u) (b := u + n) (by omega) (by omega)
    have m2 := h.mono (a := u + n) (b := v - 1) (by omega) (by omega)
    have m3 := h.mono (a := v - 1) (b := v) (by omega) (by omega)
    rw [if_pos huv, if_pos huv, minus_eq (show 1 ≤ u from h1), minus_eq (show 1 ≤ v from g1)]
    simp only [Option.bind_eq_bind, Option.bind_some, Option.pure_def]
    rw [before_eq h (by omega), between_eq h (a := v) (by omega) (by omega) (by omega),
      between_eq h (a := u + n) (by omega) (by omega) (by omega),
      between_eq h (a := u) (by omega) (by omega) (by omega), after_eq h g2]
    simp only [Option.bind_some]
    have := cost_eq hco h false 0 (e := u - 1) (by omega)
      [betweenSeg data r v (v + m - 1), betweenSeg data r (u + n) (v - 1), betweenSeg data r u (u + n - 1)]
      (by
        simp only [List.mem_cons, List.not_mem_nil, or_false, forall_eq_or_imp, forall_eq]
        exact ⟨good_between h r (by omega) (by omega), good_between h r (by omega) (by omega),
          good_between h r (by omega) (by omega)⟩)
      (ends_after h g2) (c := betweenSeg data r u (u + n - 1)) (by simp) (busy_between h4)
    simp only [List.cons_append, List.nil_append] at this
    rw [bind_of this]; rfl
  · have m1 := h.mono (a := v) (b := v + m) (by omega) (by omega)
    have m2 := h.mono (a := v + m) (b := u - 1) (by omega) (by omega)
    have m3 := h.mono (a := u - 1) (b := u) (by omega) (by omega)
    rw [if_neg huv, if_neg huv, minus_eq (show 1 ≤ u from h1), minus_eq (show 1 ≤ v from g1)]
    simp only [Option.bind_eq_bind, Option.bind_some, Option.pure_def]
    rw [before_eq h (by omega), between_eq h (a := u) (by omega) (by omega) (by omega),
      between_eq h (a := v + m) (by omega) (by omega) (by omega),
      between_eq h (a := v) (by omega) (by omega) (by omega), after_eq h h2]
    simp only [Option.bind_some]
    have := cost_eq hco h false 0 (e := v - 1) (by omega)
      [betweenSeg data r u (u + n - 1), betweenSeg data r (v + m) (u - 1), betweenSeg data r v (v + m - 1)]
      (by
        simp only [List.mem_cons, List.not_mem_nil, or_false, forall_eq_or_imp, forall_eq]
        exact ⟨good_between h r (by omega) (by omega), good_between h r (by omega) (by omega),
          good_between h r (by omega) (by omega)⟩)
      (ends_after h h2) (c := betweenSeg data r u (u + n - 1)) (by simp) (busy_between h4)
    simp only [List.cons_append, List.nil_append] at this
    rw [bind_of this]; rfl

theorem evaluate_eq {ce : CostEvaluator} (hco : CostOk data ce) (hdist : DistancesOk data)
    (h : SearchOk data plan s) {n m : Nat} (hn : 1 ≤ n) (hm : 1 ≤ m) {uAct : Activity}
    {v : NodeRef} (hv : SSol.RefOk data v) :
    evaluate n m data ce s uAct v = some (PyVRP.Swap.evaluate n m data ce s uAct v) := by
  unfold evaluate PyVRP.Swap.evaluate
  cases hp : s.place uAct with
  | none => rfl
  | some iu =>
  cases hf : s.find v with
  | none => rfl
  | some jv =>
  obtain ⟨i, u⟩ := iu
  obtain ⟨j, v⟩ := jv
  have pU := placed h hp
  have lV := located hco hdist h hv hf
  have sU := sound_route hco hdist h pU.lt
  have sV := sound_route hco hdist h lV.lt
  have hnd := isDepot_of_ne (n := (s.route i).node u) (by rw [pU.activity]; exact pU.type)
  have hsz := pU.size
  have hsv := lV.size
  dsimp only
  rw [pU.here, lV.route h]
  simp only [Option.bind_eq_bind, Option.bind_some, Option.pure_def]
  rw [fixed_eq sU (by omega) hn, fixed_eq sV (by omega) hm]
  simp only [Option.bind_some]
  cases hfx : ((s.route i).hasDepot u n || (s.route i).splitsShipment u n) with
  | true => rfl
  | false =>
  simp only [Bool.false_eq_true, if_false, Bool.false_or]
  cases hfV : ((s.route j).hasDepot v m || (s.route j).splitsShipment v m) with
  | true => rfl
  | false =>
  have hndV : ((s.route j).node v).isDepot = false := by
    rcases lV.kind with ⟨_, h0⟩ | ⟨a, _, hpl⟩
    · subst h0
      simp [SRoute.hasDepot] at hfV
    · exact isDepot_of_ne (by rw [hpl.activity]; exact hpl.type)
  simp only [Bool.false_eq_true, if_false]
  rw [sU.node_eq (by omega), sV.node_eq (by omega)]
  simp only [Option.bind_some]
  by_cases hij : i = j
  · subst hij
    simp only [true_and, decide_true, Bool.true_and, ne_eq, not_true_eq_false, if_false]
    cases hsk : (((s.route i).node u).trip != ((s.route i).node v).trip || PyVRP.Swap.overlap n m u v
        || PyVRP.Swap.adjacent n m u v) with
    | true =>
      rw [if_pos]
      · rfl
      · simp only [Bool.or_eq_true, bne_iff_ne, or_assoc] at hsk; exact hsk
    | false =>
    simp only [Bool.or_eq_false_iff, bne_eq_false_iff_eq] at hsk
    rw [if_neg (by simp [hsk])]
    simp only [Bool.false_eq_true, if_false]
    by_cases hi : n = m ∧ uAct.idx ≥ ((s.route i).node v).activity.idx
    · rw [if_pos hi, if_pos hi]
    · rw [if_neg hi, if_neg hi]
      exact same_eq hco sU hn hm hfx hnd hfV hndV hsk.1.1 hsk.1.2 hsk.2
  · rw [if_neg (by simp [hij])]
    simp only [decide_false, Bool.false_and, Bool.false_eq_true, if_false,
      ne_eq, hij, not_false_eq_true, if_true]
    by_cases hi : n = m ∧ uAct.idx ≥ ((s.route j).node v).activity.idx
    · rw [if_pos hi, if_pos hi]
    · rw [if_neg hi, if_neg hi]
      exact different_eq hco sU sV hn hm hfx hnd hfV hndV

end Swap

/-! ## `SwapTails` -/

theorem Task.known {a : Activity} (h : Task data a) : Checked.known data a = some () := by
  obtain ⟨ty, i⟩ := a
  rcases h with ⟨h1, h2⟩ | ⟨h1, h2⟩
  · cases ty <;> first | exact ensure_true h2 | cases h1
  · cases ty <;> first | exact ensure_true h2 | cases h1

theorem Sound.start (h : Sound data r) : (r.node 0).isStartDepot = true := by
  have h1 := h.first
  unfold SNode.isReloadDepot at h1
  rw [h1.1, h1.2.1] at h1
  cases hs : (r.node 0).isStartDepot with
  | true => rfl
  | false => rw [hs] at h1; simp at h1

theorem pickupsAt_eq (h : Sound data r) {u : Nat} (hu : u < r.size) :
    numPickupsAt data r u = some (r.numPickupsAt u) := by
  unfold numPickupsAt
  rw [fresh_eq h, ensure_true hu]; rfl

theorem deliveriesAt_eq (h : Sound data r) {u : Nat} (hu : u < r.size) :
    numDeliveriesAt data r u = some (r.numDeliveriesAt u) := by
  unfold numDeliveriesAt
  rw [fresh_eq h, ensure_true hu]; rfl

theorem clients_eq (h : Sound data r) : numClients data r = some r.numClients := by
  unfold numClients
  rw [fresh_eq h]; rfl

theorem shipments_eq (h : Sound data r) : numShipments data r = some r.numShipments := by
  unfold numShipments
  rw [fresh_eq h]; rfl

theorem empty_eq (h : Sound data r) : Checked.empty data r = some r.empty := by
  unfold Checked.empty
  rw [fresh_eq h]; rfl

namespace SwapTails

theorem onLastTrip_eq (h : Sound data r) {u : Nat} (hu : u < r.size) :
    onLastTrip r u = some (PyVRP.SwapTails.onLastTrip r u) := by
  unfold onLastTrip
  rw [h.node_eq hu]; rfl

theorem splitsShipment_eq (h : Sound data r) {u : Nat} (hu : u < r.size) :
    splitsShipment data r u = some (PyVRP.SwapTails.splitsShipment r u) := by
  unfold splitsShipment
  rw [pickupsAt_eq h hu, deliveriesAt_eq h hu]; rfl

/-- The nodes after a node on the last trip that splits no shipment. -/
theorem tail_facts (h : Sound data r) {u : Nat} (hu : u + 1 < r.size)
    (ht : PyVRP.SwapTails.onLastTrip r u = true) (hs : PyVRP.SwapTails.splitsShipment r u = false) :
    (r.node (r.size - 2)).trip = (r.node u).trip
    ∧ (∀ k, u ≤ k → k + 1 < r.size → (r.node k).trip = (r.node u).trip)
    ∧ ((r.node (u + 1)).isEndDepot = false → u + 1 ≤ r.size - 2 ∧ Begins (r.node (u + 1)))
    ∧ np r u = nd r u := by
  unfold PyVRP.SwapTails.onLastTrip at ht
  unfold PyVRP.SwapTails.splitsShipment at hs
  rw [beq_iff_eq] at ht
  rw [bne_eq_false_iff_eq] at hs
  change np r u = nd r u at hs
  have h1 := h.trips
  have h2 := h.trip (r.size - 2) (by omega)
  rw [show r.size - 2 + 1 = r.size - 1 by omega, h.last.1] at h2
  have h3 : SRoute.one true = 1 := rfl
  have h4 : (r.node (r.size - 2)).trip = (r.node u).trip := by omega
  have h5 : ∀ k, u ≤ k → k + 1 < r.size → (r.node k).trip = (r.node u).trip := by
    intro k hk hk'
    have a1 := h.mono (a := u) (b := k) hk (by omega)
    have a2 := h.mono (a := k) (b := r.size - 2) (by omega) (by omega)
    omega
  refine ⟨h4, h5, ?_, hs⟩
  intro he
  have h6 : u + 1 ≠ r.size - 1 := by
    intro hc; rw [hc, h.last.2] at he; cases he
  refine ⟨by omega, begins_of ?_ ?_⟩
  · have a1 := h.trip u hu
    have a2 := h5 (u + 1) (by omega) (by omega)
    cases hd : (r.node (u + 1)).isDepot with
    | false => rfl
    | true => rw [hd] at a1; omega
  · have a1 := h.deliveries_step (k := u) hu
    have a2 := h.pickups_step (k := u) hu
    have a3 := h.served (u + 1) hu
    have a4 := Sound.kinds (r.node (u + 1))
    cases hd : (r.node (u + 1)).isDelivery with
    | false => rfl
    | true => rw [hd] at a1 a4; omega

theorem cost_eq {ce : CostEvaluator} (hco : CostOk data ce) (h : Sound data r) {rV : SRoute}
    (hV : Sound data rV) {u v : Nat} (hu : u + 1 < r.size) (hu0 : 0 < u) (hv : v + 1 < rV.size)
    (hb : Begins (r.node u)) (hvk : (rV.node v).isStartDepot = false →
      0 < v ∧ (rV.node v).isDepot = false)
    (ht : PyVRP.SwapTails.onLastTrip r u = true) (hs : PyVRP.SwapTails.splitsShipment r u = false)
    (htV : PyVRP.SwapTails.onLastTrip rV v = true) (hsV : PyVRP.SwapTails.splitsShipment rV v = false) :
    cost data ce r u rV v = some (PyVRP.SwapTails.cost data ce r u rV v) := by
  obtain ⟨h1, h2, h3, h4⟩ := tail_facts h hu ht hs
  obtain ⟨g1, g2, g3, g4⟩ := tail_facts hV hv htV hsV
  unfold cost PyVRP.SwapTails.cost
  rw [h.node_eq (by omega), hV.node_eq (by omega)]
  simp only [Option.bind_eq_bind, Option.bind_some]
  rw [minus_eq (show 2 ≤ rV.size by omega), minus_eq (show 2 ≤ r.size by omega),
    minus_eq (show 1 ≤ rV.size by omega), minus_eq (show 1 ≤ r.size by omega),
    before_eq h (by omega), before_eq hV (by omega)]
  simp only [Option.bind_some]
  rw [at_eq h (by omega), at_eq hV (by omega), hV.node_eq (by omega)]
  simp only [Option.bind_some]
  have hbu : (beforeSeg data r u).Busy := busy_before h hu0 (Nat.le_refl _) (by omega) hb
  cases hul : (r.node (u + 1)).isEndDepot with
  | false =>
    obtain ⟨a1, a2⟩ := h3 hul
    have e1 : between data r (u + 1) (r.size - 2) = some (betweenSeg data r (u + 1) (r.size - 2)) :=
      between_eq h a1 (by omega) (by rw [h1, h2 (u + 1) (by omega) (by omega)]; omega)
    cases hvl : (rV.node (v + 1)).isEndDepot with
    | false =>
      obtain ⟨b1, b2⟩ := g3 hvl
      have e2 : between data rV (v + 1) (rV.size - 2) = some (betweenSeg data rV (v + 1) (rV.size - 2)) :=
        between_eq hV b1 (by omega) (by rw [g1, g2 (v + 1) (by omega) (by omega)]; omega)
      simp only [Bool.not_false, Bool.and_self, if_true, e1, e2, Option.bind_some]
      exact cost2_eq hco h hV false 0 (e := u) (by omega) [betweenSeg data rV (v + 1) (rV.size - 2)]
        (by simp only [List.mem_singleton, forall_eq]; exact good_between hV r (by omega) (by omega))
        (ends_at h) (c := beforeSeg data r u) (by simp) hbu
        (e' := v) (by omega) [betweenSeg data r (u + 1) (r.size - 2)]
        (by simp only [List.mem_singleton, forall_eq]; exact good_between h rV (by omega) (by omega))
        (ends_at hV) (c' := betweenSeg data r (u + 1) (r.size - 2)) (by simp) (busy_between a2)
    | true =>
      simp only [Bool.not_false, Bool.not_true, Bool.and_self, Bool.and_true, Bool.and_false,
        Bool.false_eq_true, if_true, if_false, e1, Option.bind_some]
      exact cost2_eq hco h hV false 0 (e := u) (by omega) []
        (by simp) (ends_at h) (c := beforeSeg data r u) (by simp) hbu
        (e' := v) (by omega) [betweenSeg data r (u + 1) (r.size - 2)]
        (by simp only [List.mem_singleton, forall_eq]; exact good_between h rV (by omega) (by omega))
        (ends_at hV) (c' := betweenSeg data r (u + 1) (r.size - 2)) (by simp) (busy_between a2)
  | true =>
    cases hvl : (rV.node (v + 1)).isEndDepot with
    | false =>
      obtain ⟨b1, b2⟩ := g3 hvl
      have e2 : between data rV (v + 1) (rV.size - 2) = some (betweenSeg data rV (v + 1) (rV.size - 2)) :=
        between_eq hV b1 (by omega) (by rw [g1, g2 (v + 1) (by omega) (by omega)]; omega)
      simp only [Bool.not_false, Bool.not_true, Bool.and_self, Bool.and_true, Bool.and_false,
        Bool.false_eq_true, if_true, if_false, e2, Option.bind_some]
      cases hst : (rV.node v).isStartDepot with
      | true =>
        simp only [if_true]
        rw [penalisedCost_eq hco hV]
        exact Checked.cost_eq hco h false _ (e := u) (by omega) [betweenSeg data rV (v + 1) (rV.size - 2)]
          (by simp only [List.mem_singleton, forall_eq]; exact good_between hV r (by omega) (by omega))
          (ends_at h) (c := beforeSeg data r u) (by simp) hbu
      | false =>
        simp only [Bool.false_eq_true, if_false]
        obtain ⟨c1, c2⟩ := hvk hst
        have hbv : (beforeSeg data rV v).Busy := by
          cases hdl : (rV.node v).isDelivery with
          | false => exact busy_before hV c1 (Nat.le_refl _) (by omega) (begins_of c2 hdl)
          | true =>
            obtain ⟨w, rfl⟩ : ∃ w, v = w + 1 := ⟨v - 1, by omega⟩
            have d1 := hV.deliveries_step (k := w) (by omega)
            rw [hdl] at d1
            have d2 : SRoute.one true = 1 := rfl
            show 0 < nc rV (w + 1) + np rV (w + 1)
            omega
        exact cost2_eq hco h hV false 0 (e := u) (by omega) [betweenSeg data rV (v + 1) (rV.size - 2)]
          (by simp only [List.mem_singleton, forall_eq]; exact good_between hV r (by omega) (by omega))
          (ends_at h) (c := beforeSeg data r u) (by simp) hbu
          (e' := v) (by omega) [] (by simp) (ends_at hV) (c' := beforeSeg data rV v) (by simp) hbv
    | true =>
      simp

theorem evaluate_eq {ce : CostEvaluator} (hco : CostOk data ce) (hdist : DistancesOk data)
    (h : SearchOk data plan s) {uAct : Activity} (hu : Task data uAct)
    {v : NodeRef} (hv : SSol.RefOk data v) :
    evaluate data ce s uAct v = some (PyVRP.SwapTails.evaluate data ce s uAct v) := by
  unfold evaluate PyVRP.SwapTails.evaluate
  rw [hu.known]
  simp only [Option.bind_eq_bind, Option.bind_some, Option.pure_def]
  cases hp : s.place uAct with
  | none => rfl
  | some iu =>
  cases hf : s.find v with
  | none => rfl
  | some jv =>
  obtain ⟨i, u⟩ := iu
  obtain ⟨j, v⟩ := jv
  have pU := placed h hp
  have lV := located hco hdist h hv hf
  have sU := sound_route hco hdist h pU.lt
  have sV := sound_route hco hdist h lV.lt
  have hsz := pU.size
  have hsv := lV.size
  dsimp only
  rw [pU.here, lV.route h]
  simp only [Option.bind_some]
  rw [sV.node_eq (by omega)]
  simp only [Option.bind_some]
  rw [ensure_true (by rw [lV.notEnd, lV.notReload]; rfl)]
  simp only [Option.bind_some]
  by_cases hij : i = j
  · rw [if_pos hij, if_pos hij]
  rw [if_neg hij, if_neg hij, empty_eq sU, empty_eq sV, onLastTrip_eq sU (by omega),
    onLastTrip_eq sV (by omega), splitsShipment_eq sU (by omega), splitsShipment_eq sV (by omega)]
  simp only [Option.bind_some]
  have hcost : PyVRP.SwapTails.onLastTrip (s.route i) u = true →
      PyVRP.SwapTails.onLastTrip (s.route j) v = true →
      PyVRP.SwapTails.splitsShipment (s.route i) u = false →
      PyVRP.SwapTails.splitsShipment (s.route j) v = false →
      cost data ce (s.route i) u (s.route j) v
        = some (PyVRP.SwapTails.cost data ce (s.route i) u (s.route j) v) := by
    intro h1 h2 h3 h4
    refine cost_eq hco sU sV hsz pU.pos hsv (pU.begins hu.kind) ?_ h1 h3 h2 h4
    intro hst
    rcases lV.kind with ⟨_, h0⟩ | ⟨a, _, hpl⟩
    · subst h0
      rw [sV.start] at hst; cases hst
    · exact ⟨hpl.pos, isDepot_of_ne (by rw [hpl.activity]; exact hpl.type)⟩
  cases h1 : PyVRP.SwapTails.onLastTrip (s.route i) u <;>
    cases h2 : PyVRP.SwapTails.onLastTrip (s.route j) v <;>
    cases h3 : PyVRP.SwapTails.splitsShipment (s.route i) u <;>
    cases h4 : PyVRP.SwapTails.splitsShipment (s.route j) v <;>
    (try rw [hcost h1 h2 h3 h4]) <;>
    by_cases hgt : i > j <;> cases (s.route i).empty <;> cases (s.route j).empty <;>
    simp [hgt]

end SwapTails

end PyVRP.Checked
