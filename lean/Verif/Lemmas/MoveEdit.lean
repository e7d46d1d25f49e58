import Verif.Model.Operators
import Verif.Lemmas.Closed
/-!
# What the operators' `apply` does to the routes
-/
namespace PyVRP
open Spec

theorem plan_ext {plan plan' : List (List Activity)} (hl : plan.length = plan'.length)
    (h : ∀ k, k < plan.length → plan.getD k [] = plan'.getD k []) : plan = plan' := by
  apply List.ext_getElem hl
  intro k h1 h2
  have := h k h1
  simpa [List.getD_eq_getElem?_getD, h1, h2] using this

theorem set2_left (plan : List (List Activity)) {i j : Nat} (h : i ≠ j) (x y z : List Activity) :
    ((plan.set i x).set j y).set i z = (plan.set i z).set j y := by
  rw [List.set_comm _ _ h, List.set_set]
  exact List.set_comm _ _ h.symm

namespace SSol

variable {data : ProblemData}

/-- The activities up to a node, and after it. -/
def At (data : ProblemData) (plan : List (List Activity)) (v : NodeRef) (j : Nat)
    (vs ws : List Activity) : Prop :=
  j < data.numVehicles ∧ plan.getD j [] = vs ++ ws
    ∧ (v = .start j ∧ vs = [] ∨ ∃ a vs', a.type ≠ .depot ∧ v = .task a ∧ vs = vs' ++ [a])

/-- A node that exists. -/
def RefOk (data : ProblemData) : NodeRef → Prop
  | .task _ => True
  | .start j => j < data.numVehicles

theorem Holds.find {plan : List (List Activity)} {s : SSol} (h : Holds data plan s) {v : NodeRef}
    {j : Nat} {vs ws : List Activity} (ha : At data plan v j vs ws) :
    s.find v = some (j, vs.length) := by
  obtain ⟨hj, he, ⟨rfl, rfl⟩ | ⟨a, vs', hd, rfl, rfl⟩⟩ := ha
  · rfl
  · show s.place a = _
    rw [h.place hj hd (xs := vs') (ys := ws) (by rw [he]; simp)]
    simp

theorem Holds.find_some {plan : List (List Activity)} {s : SSol} (h : Holds data plan s)
    {v : NodeRef} (hv : RefOk data v) {j p : Nat} (hf : s.find v = some (j, p)) :
    ∃ vs ws, At data plan v j vs ws ∧ p = vs.length := by
  cases v with
  | start k =>
    simp only [SSol.find, Option.some.injEq, Prod.mk.injEq] at hf
    obtain ⟨rfl, rfl⟩ := hf
    exact ⟨[], plan.getD k [], ⟨hv, rfl, .inl ⟨rfl, rfl⟩⟩, rfl⟩
  | task a =>
    obtain ⟨h1, h2, xs, ys, h3, h4⟩ := h.place_some hf
    exact ⟨xs ++ [a], ys, ⟨h1, by rw [h3]; simp, .inr ⟨a, xs, h2, rfl, rfl⟩⟩, by simp [h4]⟩

/-- The same node in another plan. -/
theorem At.of_eq {plan plan' : List (List Activity)} {v : NodeRef} {j : Nat} {vs ws : List Activity}
    (h : At data plan v j vs ws) {vs' ws' : List Activity} (he : plan'.getD j [] = vs' ++ ws')
    (hv : vs = [] ∧ vs' = [] ∨ ∃ p q a, vs = p ++ [a] ∧ vs' = q ++ [a]) :
    At data plan' v j vs' ws' := by
  refine ⟨h.1, he, ?_⟩
  rcases h.2.2 with ⟨h1, h2⟩ | ⟨a, p, h1, h2, h3⟩
  · left
    rcases hv with ⟨-, h4⟩ | ⟨p, q, a, h4, -⟩
    · exact ⟨h1, h4⟩
    · rw [h2] at h4; simp at h4
  · right
    rcases hv with ⟨h4, -⟩ | ⟨p', q, a', h4, h5⟩
    · rw [h3] at h4; simp at h4
    · rw [h3] at h4
      have := List.append_inj_right' h4 rfl
      simp only [List.cons.injEq, and_true] at this
      subst this
      exact ⟨a, q, h1, h2, h5⟩

theorem At.same {plan plan' : List (List Activity)} {v : NodeRef} {j : Nat} {vs ws ws' : List Activity}
    (h : At data plan v j vs ws) (he : plan'.getD j [] = vs ++ ws') : At data plan' v j vs ws' :=
  ⟨h.1, he, h.2.2⟩

theorem Holds.isTask {plan : List (List Activity)} {s : SSol} (h : Holds data plan s) {i : Nat}
    {a : Activity} (ha : a.type ≠ .depot) (hm : a ∈ plan.getD i []) : IsTask data a :=
  owner_task h.sized ((h.owner a ha i).2 hm)

theorem Holds.lt_length {plan : List (List Activity)} {s : SSol} (h : Holds data plan s) {i : Nat}
    (hi : i < data.numVehicles) : i < plan.length := by rw [h.length]; exact hi

/-- What was removed is nowhere. -/
theorem Holds.absent {plan : List (List Activity)} {s : SSol} (h : Holds data plan s) {i : Nat}
    (hi : i < data.numVehicles) {xs ys : List Activity} {a : Activity} (ha : a.type ≠ .depot)
    (he : plan.getD i [] = xs ++ a :: ys) : ∀ k, a ∉ (plan.set i (xs ++ ys)).getD k [] := by
  intro k
  by_cases hk : k = i
  · subst hk
    rw [getD_set_self (h.lt_length hi)]
    have := h.once' ha he
    simp [this.1, this.2]
  · rw [getD_set_ne _ hk]
    intro hm
    exact hk (h.unique ha hm (by rw [he]; simp))

theorem takeOut_eq {plan : List (List Activity)} {s : SSol} (h : Holds data plan s) {i : Nat}
    (hi : i < data.numVehicles) {xs ys : List Activity} {a : Activity} (ha : a.type ≠ .depot)
    (he : plan.getD i [] = xs ++ a :: ys) : s.takeOut a = s.removeAt i (xs.length + 1) := by
  unfold takeOut
  rw [h.place hi ha he]

/-- Inserting after a node. -/
theorem CleanBut.insertAfter {plan : List (List Activity)} {s : SSol} {D : Nat → Prop}
    (h : CleanBut data D plan s) {v : NodeRef} {j : Nat} {vs ws : List Activity}
    (hv : At data plan v j vs ws) {a : Activity}
    (ha : a.type = .depot ∨ (IsTask data a ∧ ∀ j, a ∉ plan.getD j []))
    (htrips : depotVisits (vs ++ a :: ws) + 1 ≤ (data.vehicleType (vehTypeAt data j)).maxTrips) :
    ∃ s', s.insertAfter data v a = .ok s'
      ∧ CleanBut data (fun k => D k ∨ k = j) (plan.set j (vs ++ a :: ws)) s' := by
  obtain ⟨s', h1, h2⟩ := h.insert hv.1 hv.2.1 ha htrips
  refine ⟨s', ?_, h2⟩
  unfold SSol.insertAfter
  rw [h.1.find hv]
  exact h1

/-- Moving a node to the place after another node. -/
theorem CleanBut.moveOne {plan : List (List Activity)} {s : SSol} {D : Nat → Prop}
    (h : CleanBut data D plan s) {i : Nat} (hi : i < data.numVehicles) {xs ys : List Activity}
    {b : Activity} (hb : b.type ≠ .depot) (he : plan.getD i [] = xs ++ b :: ys)
    {v : NodeRef} {j : Nat} {vs ws : List Activity} (hv : At data (plan.set i (xs ++ ys)) v j vs ws)
    (htrips : depotVisits (vs ++ ws) + 1 ≤ (data.vehicleType (vehTypeAt data j)).maxTrips) :
    ∃ s', (s.removeAt i (xs.length + 1)).insertAfter data v b = .ok s'
      ∧ CleanBut data (fun k => D k ∨ k = i ∨ k = j)
          ((plan.set i (xs ++ ys)).set j (vs ++ b :: ws)) s' := by
  have h1 := h.remove hi he
  obtain ⟨s', h2, h3⟩ := h1.insertAfter hv
    (.inr ⟨h.1.isTask hb (i := i) (by rw [he]; simp), h.1.absent hi hb he⟩)
    (by rw [depotVisits_mid _ _ hb]; exact htrips)
  refine ⟨s', h2, h3.weaken ?_⟩
  rintro k - ((h | h) | h)
  · exact .inl h
  · exact .inr (.inl h)
  · exact .inr (.inr h)

/-! ## The loop that moves nodes -/

/-- The activity before a position. -/
theorem node_before {r : SRoute} {xs ys : List Activity} {a b : Activity}
    (hv : r.Visits data (xs ++ [a] ++ b :: ys)) :
    (r.node ((xs ++ [a]).length + 1 - 1)).activity = a := by
  have : (xs ++ [a]).length + 1 - 1 = xs.length + 1 := by simp
  rw [this]
  exact visits_node (ys := b :: ys) (by simpa using hv)

theorem applyLoop_step {plan : List (List Activity)} {s : SSol} {D : Nat → Prop}
    (h : CleanBut data D plan s) {i : Nat} (hi : i < data.numVehicles) {xs ys : List Activity}
    {b : Activity} (hb : b.type ≠ .depot) (he : plan.getD i [] = xs ++ b :: ys)
    {v : NodeRef} {j : Nat} {vs ws : List Activity} (hv : At data (plan.set i (xs ++ ys)) v j vs ws)
    (htrips : depotVisits (vs ++ ws) + 1 ≤ (data.vehicleType (vehTypeAt data j)).maxTrips) (n : Nat) :
    ∃ s' prev, (∀ xs' a, xs = xs' ++ [a] → prev = a)
      ∧ Relocate.applyLoop data v (n + 1) b s = Relocate.applyLoop data v n prev s'
      ∧ CleanBut data (fun k => D k ∨ k = i ∨ k = j)
          ((plan.set i (xs ++ ys)).set j (vs ++ b :: ws)) s' := by
  obtain ⟨s', h1, h2⟩ := h.moveOne hi hb he hv htrips
  refine ⟨s', ((s.route i).node (xs.length + 1 - 1)).activity, ?_, ?_, h2⟩
  · rintro xs' a rfl
    have := h.1.visits i hi
    rw [he] at this
    exact node_before this
  · rw [Relocate.applyLoop, h.1.place hi hb he]
    dsimp only
    rw [h1]

theorem last_snoc {seg : List Activity} {b a : Activity}
    (h : ∀ l m, seg ++ [b] = l ++ [m] → a = m) : a = b := h seg b rfl

/-- Moving the last nodes of one route into another. -/
theorem applyLoop_diff {i j : Nat} (hij : i ≠ j) (hi : i < data.numVehicles) {v : NodeRef}
    {xs ys vs ws : List Activity} (seg : List Activity) :
    ∀ {plan : List (List Activity)} {s : SSol} {D : Nat → Prop} {done : List Activity} {a : Activity},
    CleanBut data D plan s → plan.getD i [] = xs ++ seg ++ ys → At data plan v j vs (done ++ ws) →
    Phase.NoDepot seg →
    depotVisits (vs ++ (done ++ ws)) + 1 ≤ (data.vehicleType (vehTypeAt data j)).maxTrips →
    (∀ l m, seg = l ++ [m] → a = m) →
    ∃ s', Relocate.applyLoop data v seg.length a s = .ok s'
      ∧ CleanBut data (fun k => D k ∨ k = i ∨ k = j)
          ((plan.set i (xs ++ ys)).set j (vs ++ seg ++ (done ++ ws))) s' := by
  induction seg using snoc_induction with
  | h0 =>
    intro plan s D done a h he hv _ _ _
    refine ⟨s, rfl, ?_⟩
    have e1 : plan.set i (xs ++ ys) = plan := by
      have : xs ++ ys = plan.getD i [] := by rw [he]; simp
      rw [this, set_getD_self]
    have e2 : plan.set j (vs ++ [] ++ (done ++ ws)) = plan := by
      have : vs ++ [] ++ (done ++ ws) = plan.getD j [] := by rw [hv.2.1]; simp
      rw [this, set_getD_self]
    rw [e1, e2]
    exact h.weaken (fun k _ hk => .inl hk)
  | hs seg b ih =>
    intro plan s D done a h he hv hd ht ha
    have := ha seg b rfl; subst this
    have hb : a.type ≠ .depot := hd a (by simp)
    have he' : plan.getD i [] = (xs ++ seg) ++ a :: ys := by rw [he]; simp
    have hv' : At data (plan.set i (xs ++ seg ++ ys)) v j vs (done ++ ws) :=
      hv.same (by rw [getD_set_ne _ hij.symm]; exact hv.2.1)
    obtain ⟨s', prev, h1, h2, h3⟩ := applyLoop_step h hi hb he' hv' ht seg.length
    have hjl : j < plan.length := h.1.lt_length hv.1
    have hil : i < plan.length := h.1.lt_length hi
    obtain ⟨s'', h4, h5⟩ := ih (done := a :: done) (a := prev) h3
      (by rw [getD_set_ne _ hij, getD_set_self hil])
      (hv.same (by rw [getD_set_self (by simpa using hjl)]; simp))
      (fun x hx => hd x (by simp [hx])) (by
        rw [List.cons_append, depotVisits_mid _ _ hb]; exact ht) (by
        rintro l m rfl
        exact h1 (xs ++ l) m (by simp))
    refine ⟨s'', by rw [List.length_append, List.length_singleton, h2, h4], ?_⟩
    rw [set2_left _ hij, List.set_set] at h5
    have e : vs ++ seg ++ (a :: done ++ ws) = vs ++ (seg ++ [a]) ++ (done ++ ws) := by simp
    rw [e] at h5
    refine h5.weaken ?_
    rintro k - ((h | h | h) | h | h) <;> simp [h]

/-- Moving nodes to a later place in the route. -/
theorem applyLoop_later {i : Nat} (hi : i < data.numVehicles) {v : Activity}
    (hvd : v.type ≠ .depot) {xs ms ws : List Activity} (seg : List Activity) :
    ∀ {plan : List (List Activity)} {s : SSol} {D : Nat → Prop} {done : List Activity} {a : Activity},
    CleanBut data D plan s → plan.getD i [] = xs ++ seg ++ (ms ++ [v]) ++ done ++ ws →
    Phase.NoDepot seg →
    depotVisits (plan.getD i []) + 1 ≤ (data.vehicleType (vehTypeAt data i)).maxTrips →
    (∀ l m, seg = l ++ [m] → a = m) →
    ∃ s', Relocate.applyLoop data (.task v) seg.length a s = .ok s'
      ∧ CleanBut data (fun k => D k ∨ k = i) (plan.set i (xs ++ (ms ++ [v]) ++ seg ++ done ++ ws)) s' := by
  induction seg using snoc_induction with
  | h0 =>
    intro plan s D done a h he _ _ _
    refine ⟨s, rfl, ?_⟩
    have : xs ++ (ms ++ [v]) ++ [] ++ done ++ ws = plan.getD i [] := by rw [he]; simp
    rw [this, set_getD_self]
    exact h.weaken (fun k _ hk => .inl hk)
  | hs seg b ih =>
    intro plan s D done a h he hd ht ha
    have := ha seg b rfl; subst this
    have hb : a.type ≠ .depot := hd a (by simp)
    have hil : i < plan.length := h.1.lt_length hi
    have he' : plan.getD i [] = (xs ++ seg) ++ a :: ((ms ++ [v]) ++ done ++ ws) := by rw [he]; simp
    have hv' : At data (plan.set i (xs ++ seg ++ ((ms ++ [v]) ++ done ++ ws))) (.task v) i
        (xs ++ seg ++ (ms ++ [v])) (done ++ ws) :=
      ⟨hi, by rw [getD_set_self hil]; simp, .inr ⟨v, xs ++ seg ++ ms, hvd, rfl, by simp⟩⟩
    have hcount : depotVisits (xs ++ seg ++ (ms ++ [v]) ++ (done ++ ws)) + 1
        ≤ (data.vehicleType (vehTypeAt data i)).maxTrips := by
      rw [he', depotVisits_mid _ _ hb] at ht
      simpa using ht
    obtain ⟨s', prev, h1, h2, h3⟩ := applyLoop_step h hi hb he' hv' hcount seg.length
    rw [List.set_set] at h3
    obtain ⟨s'', h4, h5⟩ := ih (done := a :: done) (a := prev) h3
      (by rw [getD_set_self hil]; simp) (fun x hx => hd x (by simp [hx])) (by
        rw [getD_set_self hil, depotVisits_mid _ _ hb]; exact hcount) (by
        rintro l m rfl
        exact h1 (xs ++ l) m (by simp))
    refine ⟨s'', by rw [List.length_append, List.length_singleton, h2, h4], ?_⟩
    rw [List.set_set] at h5
    have e : xs ++ (ms ++ [v]) ++ seg ++ (a :: done) ++ ws
        = xs ++ (ms ++ [v]) ++ (seg ++ [a]) ++ done ++ ws := by simp
    rw [e] at h5
    refine h5.weaken ?_
    rintro k - ((h | h | h) | h) <;> simp [h]

/-- Moving nodes to an earlier place in the route. -/
theorem applyLoop_earlier {i : Nat} (hi : i < data.numVehicles) {v : NodeRef}
    {vs ms ys : List Activity} (seg : List Activity) :
    ∀ {plan : List (List Activity)} {s : SSol} {D : Nat → Prop} {done : List Activity} {a : Activity},
    CleanBut data D plan s → At data plan v i vs (done ++ ms ++ seg ++ ys) →
    Phase.NoDepot seg →
    depotVisits (plan.getD i []) + 1 ≤ (data.vehicleType (vehTypeAt data i)).maxTrips →
    (∀ l m, seg = l ++ [m] → a = m) →
    ∃ s', Relocate.applyLoop data v seg.length a s = .ok s'
      ∧ CleanBut data (fun k => D k ∨ k = i) (plan.set i (vs ++ seg ++ done ++ ms ++ ys)) s' := by
  induction seg using snoc_induction with
  | h0 =>
    intro plan s D done a h hv _ _ _
    refine ⟨s, rfl, ?_⟩
    have : vs ++ [] ++ done ++ ms ++ ys = plan.getD i [] := by rw [hv.2.1]; simp
    rw [this, set_getD_self]
    exact h.weaken (fun k _ hk => .inl hk)
  | hs seg b ih =>
    intro plan s D done a h hv hd ht ha
    have := ha seg b rfl; subst this
    have hb : a.type ≠ .depot := hd a (by simp)
    have hil : i < plan.length := h.1.lt_length hi
    have he' : plan.getD i [] = (vs ++ done ++ ms ++ seg) ++ a :: ys := by rw [hv.2.1]; simp
    have hv' : At data (plan.set i (vs ++ done ++ ms ++ seg ++ ys)) v i vs
        (done ++ ms ++ seg ++ ys) := hv.same (by rw [getD_set_self hil]; simp)
    have hcount : depotVisits (vs ++ (done ++ ms ++ seg ++ ys)) + 1
        ≤ (data.vehicleType (vehTypeAt data i)).maxTrips := by
      rw [he', depotVisits_mid _ _ hb] at ht
      simpa using ht
    obtain ⟨s', prev, h1, h2, h3⟩ := applyLoop_step h hi hb he' hv' hcount seg.length
    rw [List.set_set] at h3
    obtain ⟨s'', h4, h5⟩ := ih (done := a :: done) (a := prev) h3
      (hv.same (by rw [getD_set_self hil]; simp)) (fun x hx => hd x (by simp [hx])) (by
        rw [getD_set_self hil, depotVisits_mid _ _ hb]; exact hcount) (by
        rintro l m rfl
        exact h1 (vs ++ done ++ ms ++ l) m (by simp))
    refine ⟨s'', by rw [List.length_append, List.length_singleton, h2, h4], ?_⟩
    rw [List.set_set] at h5
    have e : vs ++ seg ++ (a :: done) ++ ms ++ ys = vs ++ (seg ++ [a]) ++ done ++ ms ++ ys := by simp
    rw [e] at h5
    refine h5.weaken ?_
    rintro k - ((h | h | h) | h) <;> simp [h]

/-- The loops of `SwapTails::apply`. -/
theorem moveAll_spec {i j : Nat} (hij : i ≠ j) (hi : i < data.numVehicles)
    (hj : j < data.numVehicles) {r vs ws : List Activity} (acts : List Activity) :
    ∀ {plan : List (List Activity)} {s : SSol} {D : Nat → Prop} {l : List Activity},
    CleanBut data D plan s → plan.getD i [] = l ++ r → plan.getD j [] = vs ++ acts ++ ws →
    Phase.NoDepot acts →
    depotVisits (l ++ r) + 1 ≤ (data.vehicleType (vehTypeAt data i)).maxTrips →
    ∃ s', SwapTails.moveAll data i (l.length + 1) acts s = .ok s'
      ∧ CleanBut data (fun k => D k ∨ k = i ∨ k = j)
          ((plan.set i (l ++ acts ++ r)).set j (vs ++ ws)) s' := by
  induction acts with
  | nil =>
    intro plan s D l h he hv _ _
    refine ⟨s, rfl, ?_⟩
    have e1 : l ++ [] ++ r = plan.getD i [] := by rw [he]; simp
    have e2 : vs ++ ws = plan.getD j [] := by rw [hv]; simp
    rw [e1, e2, set_getD_self, set_getD_self]
    exact h.weaken (fun k _ hk => .inl hk)
  | cons a acts ih =>
    intro plan s D l h he hv hd ht
    have hb : a.type ≠ .depot := hd a (by simp)
    have hil : i < plan.length := h.1.lt_length hi
    have hjl : j < plan.length := h.1.lt_length hj
    have hv' : plan.getD j [] = vs ++ a :: (acts ++ ws) := by rw [hv]; simp
    have h1 := h.remove hj hv'
    obtain ⟨s', h2, h3⟩ := h1.insert hi (xs := l) (ys := r) (by rw [getD_set_ne _ hij]; exact he)
      (.inr ⟨h.1.isTask hb (i := j) (by rw [hv']; simp), h.1.absent hj hb hv'⟩)
      (by rw [depotVisits_mid _ _ hb]; exact ht)
    rw [List.set_comm _ _ hij.symm] at h3
    obtain ⟨s'', h4, h5⟩ := ih (l := l ++ [a]) h3
      (by rw [getD_set_ne _ hij, getD_set_self hil]; simp)
      (by rw [getD_set_self (by simpa using hjl)]; simp) (fun x hx => hd x (by simp [hx]))
      (by rw [List.append_assoc, List.singleton_append, depotVisits_mid _ _ hb]; exact ht)
    refine ⟨s'', ?_, ?_⟩
    · rw [SwapTails.moveAll, takeOut_eq h.1 hj hb hv', h2]
      simpa using h4
    · rw [set2_left _ hij, List.set_set] at h5
      have e : l ++ [a] ++ acts ++ r = l ++ (a :: acts) ++ r := by simp
      rw [e] at h5
      refine h5.weaken ?_
      rintro k - (((h | h) | h) | h | h) <;> simp [h]

end SSol
end PyVRP
