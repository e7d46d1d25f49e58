import Verif.Lemmas.OpsRelocate
/-!
# `Swap`
-/
namespace PyVRP
open Spec
open SSol (used ofActs_empty At RefOk CleanBut)
open PerturbationManager (routes_set)

variable {data : ProblemData} {plan : List (List Activity)} {s : SSol}

theorem Segment.ne_nil {acts xs seg ys : List Activity} {n : Nat} (h : Segment acts xs seg ys n)
    (hn : 1 ≤ n) : seg ≠ [] := by
  intro h0
  have := h.length
  rw [h0] at this
  simp at this
  omega

theorem Segment.used {acts xs seg ys vs ws : List Activity} {n : Nat} (h : Segment acts xs seg ys n)
    (hn : 1 ≤ n) : used (vs ++ seg ++ ws) = true := by
  rw [used_iff_taskCount, taskCount_append, taskCount_append, taskCount_noDepot h.noDepot]
  have := List.length_pos_of_ne_nil (h.ne_nil hn)
  omega

namespace Swap

/-- The first `m` nodes of a segment, and the others. -/
theorem split_seg {seg : List Activity} {n m : Nat} (hl : seg.length = n) (hm : m ≤ n) :
    ∃ as t, seg = as ++ t ∧ as.length = m ∧ t.length = n - m :=
  ⟨seg.take m, seg.drop m, by simp, by simp; omega, by simp; omega⟩

/-- `Swap<N, M>` between different routes. -/
theorem moved_different (ce : CostEvaluator) (h : SearchOk data plan s) {n m : Nat} (hm : 1 ≤ m)
    (hmn : m ≤ n) {i j : Nat} (hij : i ≠ j) {xs ys vs ws : List Activity} {a b : Activity}
    {as bs : List Activity} (hi : i < data.numVehicles) (hj : j < data.numVehicles)
    (hu : Segment (plan.getD i []) xs (a :: as) ys n) (hv : Segment (plan.getD j []) vs (b :: bs) ws m)
    {lu lv : Activity} (hlu : ∀ l m, a :: as = l ++ [m] → lu = m) (hlv : ∀ l m, b :: bs = l ++ [m] → lv = m)
    (hneg : (different n m data ce (s.route i) (xs.length + 1) (s.route j) (vs.length + 1)).cost < 0) :
    Outcome data ce plan (fun k => k = i ∨ k = j)
      (different n m data ce (s.route i) (xs.length + 1) (s.route j) (vs.length + 1)).cost True
      (match Relocate.applyLoop data (.task lv) (n - m) lu s with
        | .error e => .error e
        | .ok s => .ok (swapLoop m a b s)) := by
  have hil := h.clean.1.lt_length hi
  have hjl := h.clean.1.lt_length hj
  obtain ⟨apu1, apu2, apu3⟩ := h.apart hu.split
  obtain ⟨apv1, apv2, apv3⟩ := h.apart hv.split
  have hapr := h.apart_routes hij
  have hri0 := hu.without (h.routes i hi) apu2
  have hrj0 := hv.without (h.routes j hj) apv2
  have hri : RouteOk data (data.vehicleType (vehTypeAt data i)) (xs ++ (b :: bs) ++ ys) :=
    hri0.insert_segment hv.inside hv.noDepot
      (fun c hc => (h.routes j hj).inRange c (hv.sub.2.1 c hc))
      (hapr.symm.sub hv.sub.2.1 (fun c hc => by
        rcases List.mem_append.1 hc with hc | hc
        · exact hu.sub.1 c hc
        · exact hu.sub.2.2 c hc))
  have hrj : RouteOk data (data.vehicleType (vehTypeAt data j)) (vs ++ (a :: as) ++ ws) :=
    hrj0.insert_segment hu.inside hu.noDepot
      (fun c hc => (h.routes i hi).inRange c (hu.sub.2.1 c hc))
      (hapr.sub hu.sub.2.1 (fun c hc => by
        rcases List.mem_append.1 hc with hc | hc
        · exact hv.sub.1 c hc
        · exact hv.sub.2.2 c hc))
  -- applying
  obtain ⟨p, t, hpt, hp, ht⟩ := split_seg hu.length hmn
  obtain ⟨lst, l, hlast⟩ : ∃ l m, b :: bs = l ++ [m] := by
    rcases List.eq_nil_or_concat (b :: bs) with h0 | ⟨l, m, h0⟩
    · cases h0
    · exact ⟨l, m, by rw [h0, List.concat_eq_append]⟩
  have hlv' := hlv _ _ hlast
  have hndu := hu.noDepot
  rw [hpt] at hndu
  have hndp : Phase.NoDepot p := fun c hc => hndu c (by simp [hc])
  have hndt : Phase.NoDepot t := fun c hc => hndu c (by simp [hc])
  have hat : At data plan (.task lv) j (vs ++ (b :: bs)) ([] ++ ws) := by
    refine ⟨hj, by rw [hv.split, List.nil_append], .inr ⟨lv, vs ++ lst, ?_, rfl, ?_⟩⟩
    · exact hv.noDepot lv (by rw [hlast, hlv']; simp)
    · rw [hlast, hlv']; simp
  obtain ⟨s1, h1, h2⟩ := SSol.applyLoop_diff (data := data) hij hi (v := .task lv) (xs := xs ++ p)
    (ys := ys) (vs := vs ++ (b :: bs)) (ws := ws) t (done := []) (a := lu) (h.clean.but (fun _ => False))
    (by rw [hu.split, hpt]; simp) hat hndt
    (by have := (h.routes j hj).trips; rw [hv.split] at this; exact this)
    (fun l m hl => hlu (p ++ l) m (by rw [hpt, hl]; simp))
  rw [ht] at h1
  rw [List.nil_append] at h2
  have g1 : (((plan.set i (xs ++ p ++ ys)).set j (vs ++ (b :: bs) ++ t ++ ws))).getD i []
      = xs ++ p ++ ys := by rw [getD_set_ne _ hij, getD_set_self hil]
  have g2 : (((plan.set i (xs ++ p ++ ys)).set j (vs ++ (b :: bs) ++ t ++ ws))).getD j []
      = vs ++ (b :: bs) ++ (t ++ ws) := by
    rw [getD_set_self (by simpa using hjl)]; simp
  have h3 := SSol.swapLoop_diff (data := data) m hij h2 g1 g2 hp hv.length hndp hv.noDepot (a := a) (b := b)
    (fun x l hx => by rw [hx] at hpt; simp at hpt; exact hpt.1)
    (fun x l hx => by simp at hx; exact hx.1)
  rw [set2_left _ hij, List.set_set] at h3
  have e : vs ++ p ++ (t ++ ws) = vs ++ (a :: as) ++ ws := by rw [hpt]; simp
  rw [e] at h3
  have hi' : ((plan.set i (xs ++ (b :: bs) ++ ys)).set j (vs ++ (a :: as) ++ ws)).getD i []
      = xs ++ (b :: bs) ++ ys := by rw [getD_set_ne _ hij, getD_set_self hil]
  have hj' : ((plan.set i (xs ++ (b :: bs) ++ ys)).set j (vs ++ (a :: as) ++ ws)).getD j []
      = vs ++ (a :: as) ++ ws := by rw [getD_set_self (by simpa using hjl)]
  rw [h1]
  refine ⟨_, 0, _, rfl, ⟨h3.weaken (fun k _ hk => ?_), routes_set2 h.routes hri hrj, ?_,
    fun k hk => kept_set2 k hk, near_set2 hij hil hjl (by rw [hu.split, hv.split]; count_depots)⟩, ?_⟩
  · rcases hk with (hk | hk) | hk
    · exact hk.elim
    · exact hk
    · exact hk
  · apply same_tasks2 hij hil hjl
    intro c _
    rw [hu.split, hv.split]
    simp only [List.mem_append]
    grind
  · intro hco hfit _
    have hb1 := h.between hi hu.split (hu.ne_nil (by omega)) hu.noDepot (a := xs.length + 1)
      (b := xs.length + 1 + n - 1) rfl (by rw [hu.length]; omega)
    have hb2 := h.between hj hv.split (hv.ne_nil (by omega)) hv.noDepot (a := vs.length + 1)
      (b := vs.length + 1 + m - 1) rfl (by rw [hv.length]; omega)
    have hl1 := h.after hi hu.split (a := xs.length + 1 + n)
      (by rw [List.length_append, hu.length]; omega)
    have hl2 := h.after hj hv.split (a := vs.length + 1 + m)
      (by rw [List.length_append, hv.length]; omega)
    have hcost := delta_route2 hco h hi hj hfit (.inl rfl) (.inr rfl) hi' hj' hri hrj
      (xs := xs) (rest := (a :: as) ++ ys) (by rw [hu.split]; simp)
      (vs := vs) (rest' := (b :: bs) ++ ws) (by rw [hv.split]; simp)
      (as := [b :: bs]) (as' := [a :: as]) (All2.cons hb2 All2.nil) hl1 (All2.cons hb1 All2.nil) hl2
      (by simp) (hv.used hm) (by simp) (hu.used (by omega)) 0 hneg
    rw [routesCost_set2 data ce h.clean.1.length hij hi hj]
    refine Eq.trans hcost ?_
    omega

/-- `Swap<N, M>` within a route, where the first segment given is the first in the route. -/
theorem swapped_same (h : SearchOk data plan s) {i : Nat} (hi : i < data.numVehicles)
    {xs p ms q ys : List Activity} {n m : Nat} (hsp : plan.getD i [] = xs ++ p ++ ms ++ q ++ ys)
    (h1 : Segment (plan.getD i []) xs p (ms ++ q ++ ys) n)
    (h2 : Segment (plan.getD i []) (xs ++ p ++ ms) q ys m) :
    RouteOk data (data.vehicleType (vehTypeAt data i)) (xs ++ q ++ ms ++ p ++ ys) := by
  have hperm : (xs ++ q ++ ms ++ p ++ ys).Perm (plan.getD i []) := by
    rw [hsp, List.perm_iff_count]
    intro c
    simp only [List.count_append]
    omega
  have hms : Closed ms := by
    have hxp : Closed (xs ++ p) := h1.before.append h1.inside (h.apart h1.split).1
    exact hxp.right (by rw [List.append_assoc]; have := h2.before; rwa [List.append_assoc] at this)
  refine (h.routes i hi).rearrange hperm ?_
  have e : xs ++ q ++ ms ++ p ++ ys = [xs, q, ms, p, ys].flatten := by simp
  rw [e]
  apply closed_flatten
  · intro l hl
    simp only [List.mem_cons, List.not_mem_nil, or_false] at hl
    rcases hl with rfl | rfl | rfl | rfl | rfl
    · exact h1.before
    · exact h2.inside
    · exact hms
    · exact h1.inside
    · exact h2.after
  · intro c hc
    rw [← e, hperm.count_eq]
    exact h.once i c hc

/-- `Swap<N, M>` within a route, with `U` before `V`. -/
theorem moved_later (ce : CostEvaluator) (h : SearchOk data plan s) {n m : Nat} (hm : 1 ≤ m)
    (hmn : m ≤ n) {i : Nat} {xs ms ys : List Activity} {a b : Activity}
    {as bs : List Activity} (hi : i < data.numVehicles)
    (hu : Segment (plan.getD i []) xs (a :: as) (ms ++ (b :: bs) ++ ys) n)
    (hv : Segment (plan.getD i []) (xs ++ (a :: as) ++ ms) (b :: bs) ys m)
    (hms : Phase.NoDepot ms) (hmne : ms ≠ [])
    {lu lv : Activity} (hlu : ∀ l m, a :: as = l ++ [m] → lu = m) (hlv : ∀ l m, b :: bs = l ++ [m] → lv = m)
    {u v : Nat} (hup : u = xs.length + 1) (hvp : v = xs.length + n + ms.length + 1)
    (hneg : (ce.deltaCost false data 0 ⟨s.route i, (s.route i).before (u - 1),
      [(s.route i).between data v (v + m - 1), (s.route i).between data (u + n) (v - 1),
        (s.route i).between data u (u + n - 1), (s.route i).after (v + m)]⟩).1 < 0) :
    Outcome data ce plan (fun k => k = i)
      (ce.deltaCost false data 0 ⟨s.route i, (s.route i).before (u - 1),
      [(s.route i).between data v (v + m - 1), (s.route i).between data (u + n) (v - 1),
        (s.route i).between data u (u + n - 1), (s.route i).after (v + m)]⟩).1 True
      (match Relocate.applyLoop data (.task lv) (n - m) lu s with
        | .error e => .error e
        | .ok s => .ok (swapLoop m a b s)) := by
  have hil := h.clean.1.lt_length hi
  have hsp : plan.getD i [] = xs ++ (a :: as) ++ ms ++ (b :: bs) ++ ys := hv.split
  have hrn := swapped_same h hi hsp hu hv
  obtain ⟨p, t, hpt, hp, ht⟩ := split_seg hu.length hmn
  obtain ⟨lst, l, hlast⟩ : ∃ l m, b :: bs = l ++ [m] := by
    rcases List.eq_nil_or_concat (b :: bs) with h0 | ⟨l, m, h0⟩
    · cases h0
    · exact ⟨l, m, by rw [h0, List.concat_eq_append]⟩
  have hlv' := hlv _ _ hlast
  have hndu := hu.noDepot
  rw [hpt] at hndu
  have hndp : Phase.NoDepot p := fun c hc => hndu c (by simp [hc])
  have hndt : Phase.NoDepot t := fun c hc => hndu c (by simp [hc])
  obtain ⟨s1, h1, h2⟩ := SSol.applyLoop_later (data := data) hi (v := lv)
    (hv.noDepot lv (by rw [hlast, hlv']; simp)) (xs := xs ++ p) (ms := ms ++ lst) (ws := ys) t
    (done := []) (a := lu) (h.clean.but (fun _ => False))
    (by rw [hsp, hpt, hlast, hlv']; simp) hndt (h.routes i hi).trips
    (fun l m hl => hlu (p ++ l) m (by rw [hpt, hl]; simp))
  rw [ht] at h1
  have g1 : (plan.set i (xs ++ p ++ (ms ++ lst ++ [lv]) ++ t ++ [] ++ ys)).getD i []
      = xs ++ p ++ ms ++ (b :: bs) ++ (t ++ ys) := by
    rw [getD_set_self hil, hlast, hlv']; simp
  have h3 := SSol.swapLoop_same (data := data) m h2 g1 hp hv.length hndp hv.noDepot (a := a) (b := b)
    (.inl ⟨fun x l hx => by rw [hx] at hpt; simp at hpt; exact hpt.1,
      fun x l hx => by simp at hx; exact hx.1⟩)
  rw [List.set_set] at h3
  have e : xs ++ (b :: bs) ++ ms ++ p ++ (t ++ ys) = xs ++ (b :: bs) ++ ms ++ (a :: as) ++ ys := by
    rw [hpt]; simp
  rw [e] at h3
  have hi' : (plan.set i (xs ++ (b :: bs) ++ ms ++ (a :: as) ++ ys)).getD i []
      = xs ++ (b :: bs) ++ ms ++ (a :: as) ++ ys := getD_set_self hil _
  rw [h1]
  refine ⟨_, 0, _, rfl, ⟨h3.weaken (fun k _ hk => ?_), routes_set h.routes hrn, ?_,
    fun k hk => kept_set k hk, near_set hil (by rw [hsp]; count_depots)⟩, ?_⟩
  · rcases hk with (hk | hk) | hk
    · exact hk.elim
    · exact hk
    · exact hk
  · apply same_tasks hil
    intro c _
    rw [hsp]
    simp only [List.mem_append]
    grind
  · intro hco hfit _
    subst hup hvp
    have hul := hu.length
    have hvl := hv.length
    have hb1 := h.between hi hu.split (hu.ne_nil (by omega)) hu.noDepot (a := xs.length + 1)
      (b := xs.length + 1 + n - 1) rfl (by rw [hu.length]; omega)
    have hb2 := h.between hi hv.split (hv.ne_nil (by omega)) hv.noDepot
      (a := xs.length + n + ms.length + 1) (b := xs.length + n + ms.length + 1 + m - 1)
      (by rw [List.length_append, List.length_append]; omega)
      (by rw [List.length_append, List.length_append]; omega)
    have hb3 := h.between hi (xs := xs ++ (a :: as)) (m := ms) (ys := (b :: bs) ++ ys)
      (by rw [hsp]; simp) hmne hms
      (a := xs.length + 1 + n) (b := xs.length + n + ms.length + 1 - 1)
      (by rw [List.length_append]; omega) (by rw [List.length_append]; omega)
    have hl := h.after hi hv.split (a := xs.length + n + ms.length + 1 + m)
      (by simp only [List.length_append]; omega)
    have hcost := delta_route false hco h hi hfit rfl hi' hrn
      (xs := xs) (rest := (a :: as) ++ ms ++ (b :: bs) ++ ys) (by rw [hsp]; simp)
      (as := [b :: bs, ms, a :: as]) (All2.cons hb2 (All2.cons hb3 (All2.cons hb1 All2.nil))) hl
      (by simp) (hu.used (by omega)) 0 (.inr hneg)
    rw [routesCost_set data ce h.clean.1.length hi]
    refine Eq.trans hcost ?_
    omega

/-- `Swap<N, M>` within a route, with `V` before `U`. -/
theorem moved_earlier (ce : CostEvaluator) (h : SearchOk data plan s) {n m : Nat} (hm : 1 ≤ m)
    (hmn : m ≤ n) {i : Nat} {vs ms ys : List Activity} {a b : Activity}
    {as bs : List Activity} (hi : i < data.numVehicles)
    (hv : Segment (plan.getD i []) vs (b :: bs) (ms ++ (a :: as) ++ ys) m)
    (hu : Segment (plan.getD i []) (vs ++ (b :: bs) ++ ms) (a :: as) ys n)
    (hms : Phase.NoDepot ms) (hmne : ms ≠ [])
    {lu lv : Activity} (hlu : ∀ l m, a :: as = l ++ [m] → lu = m) (hlv : ∀ l m, b :: bs = l ++ [m] → lv = m)
    {u v : Nat} (hvp : v = vs.length + 1) (hup : u = vs.length + m + ms.length + 1)
    (hneg : (ce.deltaCost false data 0 ⟨s.route i, (s.route i).before (v - 1),
      [(s.route i).between data u (u + n - 1), (s.route i).between data (v + m) (u - 1),
        (s.route i).between data v (v + m - 1), (s.route i).after (u + n)]⟩).1 < 0) :
    Outcome data ce plan (fun k => k = i)
      (ce.deltaCost false data 0 ⟨s.route i, (s.route i).before (v - 1),
      [(s.route i).between data u (u + n - 1), (s.route i).between data (v + m) (u - 1),
        (s.route i).between data v (v + m - 1), (s.route i).after (u + n)]⟩).1 True
      (match Relocate.applyLoop data (.task lv) (n - m) lu s with
        | .error e => .error e
        | .ok s => .ok (swapLoop m a b s)) := by
  have hil := h.clean.1.lt_length hi
  have hsp : plan.getD i [] = vs ++ (b :: bs) ++ ms ++ (a :: as) ++ ys := hu.split
  have hrn := swapped_same h hi hsp hv hu
  obtain ⟨p, t, hpt, hp, ht⟩ := split_seg hu.length hmn
  obtain ⟨lst, l, hlast⟩ : ∃ l m, b :: bs = l ++ [m] := by
    rcases List.eq_nil_or_concat (b :: bs) with h0 | ⟨l, m, h0⟩
    · cases h0
    · exact ⟨l, m, by rw [h0, List.concat_eq_append]⟩
  have hlv' := hlv _ _ hlast
  have hndu := hu.noDepot
  rw [hpt] at hndu
  have hndp : Phase.NoDepot p := fun c hc => hndu c (by simp [hc])
  have hndt : Phase.NoDepot t := fun c hc => hndu c (by simp [hc])
  have hat : At data plan (.task lv) i (vs ++ (b :: bs)) ([] ++ (ms ++ p) ++ t ++ ys) := by
    refine ⟨hi, by rw [hsp, hpt]; simp, .inr ⟨lv, vs ++ lst, ?_, rfl, ?_⟩⟩
    · exact hv.noDepot lv (by rw [hlast, hlv']; simp)
    · rw [hlast, hlv']; simp
  obtain ⟨s1, h1, h2⟩ := SSol.applyLoop_earlier (data := data) hi (v := .task lv)
    (vs := vs ++ (b :: bs)) (ms := ms ++ p) (ys := ys) t
    (done := []) (a := lu) (h.clean.but (fun _ => False)) hat hndt (h.routes i hi).trips
    (fun l m hl => hlu (p ++ l) m (by rw [hpt, hl]; simp))
  rw [ht] at h1
  have g1 : (plan.set i (vs ++ (b :: bs) ++ t ++ [] ++ (ms ++ p) ++ ys)).getD i []
      = vs ++ (b :: bs) ++ (t ++ ms) ++ p ++ ys := by
    rw [getD_set_self hil]; simp
  have h3 := SSol.swapLoop_same (data := data) m h2 g1 hv.length hp hv.noDepot hndp (a := a) (b := b)
    (.inr ⟨fun x l hx => by simp at hx; exact hx.1,
      fun x l hx => by rw [hx] at hpt; simp at hpt; exact hpt.1⟩)
  rw [List.set_set] at h3
  have e : vs ++ p ++ (t ++ ms) ++ (b :: bs) ++ ys = vs ++ (a :: as) ++ ms ++ (b :: bs) ++ ys := by
    rw [hpt]; simp
  rw [e] at h3
  have hi' : (plan.set i (vs ++ (a :: as) ++ ms ++ (b :: bs) ++ ys)).getD i []
      = vs ++ (a :: as) ++ ms ++ (b :: bs) ++ ys := getD_set_self hil _
  rw [h1]
  refine ⟨_, 0, _, rfl, ⟨h3.weaken (fun k _ hk => ?_), routes_set h.routes hrn, ?_,
    fun k hk => kept_set k hk, near_set hil (by rw [hsp]; count_depots)⟩, ?_⟩
  · rcases hk with (hk | hk) | hk
    · exact hk.elim
    · exact hk
    · exact hk
  · apply same_tasks hil
    intro c _
    rw [hsp]
    simp only [List.mem_append]
    grind
  · intro hco hfit _
    subst hup hvp
    have hul := hu.length
    have hvl := hv.length
    have hb1 := h.between hi hv.split (hv.ne_nil (by omega)) hv.noDepot (a := vs.length + 1)
      (b := vs.length + 1 + m - 1) rfl (by rw [hv.length]; omega)
    have hb2 := h.between hi hu.split (hu.ne_nil (by omega)) hu.noDepot
      (a := vs.length + m + ms.length + 1) (b := vs.length + m + ms.length + 1 + n - 1)
      (by rw [List.length_append, List.length_append]; omega)
      (by rw [List.length_append, List.length_append]; omega)
    have hb3 := h.between hi (xs := vs ++ (b :: bs)) (m := ms) (ys := (a :: as) ++ ys)
      (by rw [hsp]; simp) hmne hms
      (a := vs.length + 1 + m) (b := vs.length + m + ms.length + 1 - 1)
      (by rw [List.length_append]; omega) (by rw [List.length_append]; omega)
    have hl := h.after hi hu.split (a := vs.length + m + ms.length + 1 + n)
      (by simp only [List.length_append]; omega)
    have hcost := delta_route false hco h hi hfit rfl hi' hrn
      (xs := vs) (rest := (b :: bs) ++ ms ++ (a :: as) ++ ys) (by rw [hsp]; simp)
      (as := [a :: as, ms, b :: bs]) (All2.cons hb2 (All2.cons hb3 (All2.cons hb1 All2.nil))) hl
      (by simp) (hv.used (by omega)) 0 (.inr hneg)
    rw [routesCost_set data ce h.clean.1.length hi]
    refine Eq.trans hcost ?_
    omega

theorem outcome (ce : CostEvaluator) (h : SearchOk data plan s) {n m : Nat} (hm : 1 ≤ m) (hmn : m ≤ n)
    {u : Activity} {v : NodeRef} (hv : RefOk data v) (hap : (evaluate n m data ce s u v).apply = true) :
    Outcome data ce plan (Touched s u v) (evaluate n m data ce s u v).cost True
      (apply n m data s u v) := by
  unfold evaluate at hap ⊢
  unfold apply
  cases hpu : s.place u with
  | none => rw [hpu] at hap; cases hap
  | some ip =>
  cases hpv : s.find v with
  | none => rw [hpu, hpv] at hap; obtain ⟨i, p⟩ := ip; cases hap
  | some jq =>
  obtain ⟨i, p⟩ := ip
  obtain ⟨j, q⟩ := jq
  rw [hpu, hpv] at hap
  dsimp only at hap ⊢
  split at hap
  · cases hap
  rename_i hf1
  rw [if_neg hf1]
  split at hap
  · cases hap
  rename_i hf2
  rw [if_neg hf2]
  split at hap
  · cases hap
  rename_i hf3
  rw [if_neg hf3]
  obtain ⟨hi, hut, xs, ys, hsp, rfl⟩ := h.clean.1.place_some hpu
  obtain ⟨vs', ws, hat, rfl⟩ := h.clean.1.find_some hv hpv
  simp only [Bool.or_eq_true, not_or, Bool.not_eq_true] at hf1
  obtain ⟨⟨⟨f1, f2⟩, f3⟩, f4⟩ := hf1
  -- V is not a depot
  obtain ⟨b, vs, hbt, hvb, rfl⟩ : ∃ a vs, a.type ≠ .depot ∧ v = .task a ∧ vs' = vs ++ [a] := by
    rcases hat.2.2 with ⟨-, h0⟩ | h0
    · rw [h0] at f3
      unfold SRoute.hasDepot at f3
      simp at f3
    · exact h0
  have hj := hat.1
  have hsp' : plan.getD j [] = vs ++ b :: ws := by rw [hat.2.1]; simp
  have hvl : (vs ++ [b]).length = vs.length + 1 := by simp
  rw [hvl] at hap f3 f4 hf2 ⊢
  have hc := h.closed hi
  have ho := h.once i
  rw [h.route hi, hsp] at f1 f2
  rw [hsp] at hc ho
  obtain ⟨as, zs, hsu⟩ := segment_of_flags _ hut hc ho (by omega) f1 f2
  rw [← hsp] at hsu
  have hc' := h.closed hj
  have ho' := h.once j
  rw [h.route hj, hsp'] at f3 f4
  rw [hsp'] at hc' ho'
  obtain ⟨bs, zs', hsv⟩ := segment_of_flags _ hbt hc' ho' hm f3 f4
  rw [← hsp'] at hsv
  have hlu : ∀ l m, (u :: as) = l ++ [m] →
      ((s.route i).node (xs.length + 1 + n - 1)).activity = m := by
    intro l k hl
    exact node_last h hi hsu.split l k hl (by rw [hsu.length]; omega)
  have hlv : ∀ l k, (b :: bs) = l ++ [k] →
      ((s.route j).node (vs.length + 1 + m - 1)).activity = k := by
    intro l k hl
    exact node_last h hj hsv.split l k hl (by rw [hsv.length]; omega)
  have hvact : ((s.route j).node (vs.length + 1)).activity = b := by
    rw [h.route hj, hsp', SRoute.ofActs_inner]
  rw [hvact]
  by_cases hij : i = j
  · subst hij
    have hne : ¬ (i ≠ i) := fun h => h rfl
    rw [if_neg hne] at hap ⊢
    simp only [decide_true, Bool.true_and, Bool.or_eq_true, not_or, bne_iff_ne, ne_eq, Decidable.not_not,
      Bool.not_eq_true] at hf2
    obtain ⟨⟨htr, hov⟩, hadj⟩ := hf2
    unfold overlap at hov
    unfold adjacent at hadj
    simp only [Bool.and_eq_false_iff, decide_eq_false_iff_not, Bool.or_eq_false_iff] at hov hadj
    have htu : ((s.route i).node (xs.length + 1)).trip = depotVisits (xs ++ [u]) := by
      rw [h.route hi, hsp, SRoute.ofActs_inner]
    have htv : ((s.route i).node (vs.length + 1)).trip = depotVisits (vs ++ [b]) := by
      rw [h.route hi, hsp', SRoute.ofActs_inner]
    have h0 : depotVisits ([] : List Activity) = 0 := rfl
    rw [htu, htv, depotVisits_append, depotVisits_append, depotVisits_cons, depotVisits_cons] at htr
    simp only [hut, hbt, if_false] at htr
    unfold same at hap ⊢
    have hnu := (noDepot_iff _).1 hsu.noDepot
    have hnv := (noDepot_iff _).1 hsv.noDepot
    by_cases hlt : xs.length + 1 < vs.length + 1
    · rw [if_pos hlt] at hap ⊢
      have hee := hsu.split.symm.trans hsv.split
      rw [List.append_assoc vs] at hee
      obtain ⟨ms, hm1, hm2⟩ := split_le hee (by
        rw [List.length_append, hsu.length]; omega)
      have hlen : vs.length = xs.length + n + ms.length := by
        rw [hm1, List.length_append, List.length_append, hsu.length]
      have hmne : ms ≠ [] := by
        rintro rfl
        simp at hlen
        omega
      have hnd : Phase.NoDepot ms := by
        rw [noDepot_iff]
        rw [hm1, depotVisits_append, depotVisits_append] at htr
        omega
      rw [hm1] at hsv
      rw [hm2, ← List.append_assoc] at hsu
      exact ((moved_later ce h hm hmn hi hsu hsv hnd hmne hlu hlv rfl (by omega)
        (Verdict.of_apply.1 hap)).congr (fun k => by rw [← touched_iff hpu hpv]; simp))
    · rw [if_neg hlt] at hap ⊢
      have hee := hsv.split.symm.trans hsu.split
      rw [List.append_assoc xs] at hee
      obtain ⟨ms, hm1, hm2⟩ := split_le hee (by
        rw [List.length_append, hsv.length]; omega)
      have hlen : xs.length = vs.length + m + ms.length := by
        rw [hm1, List.length_append, List.length_append, hsv.length]
      have hmne : ms ≠ [] := by
        rintro rfl
        simp at hlen
        omega
      have hnd : Phase.NoDepot ms := by
        rw [noDepot_iff]
        rw [hm1, depotVisits_append, depotVisits_append] at htr
        omega
      rw [hm1] at hsu
      rw [hm2, ← List.append_assoc] at hsv
      exact ((moved_earlier ce h hm hmn hi hsv hsu hnd hmne hlu hlv rfl (by omega)
        (Verdict.of_apply.1 hap)).congr (fun k => by rw [← touched_iff hpu hpv]; simp))
  · rw [if_pos hij] at hap ⊢
    exact ((moved_different ce h hm hmn hij hi hj hsu hsv hlu hlv (Verdict.of_apply.1 hap)).congr
        (fun k => touched_iff hpu hpv k))

end Swap
end PyVRP
