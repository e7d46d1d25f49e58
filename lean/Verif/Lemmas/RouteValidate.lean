import Verif.Model.Route
import Verif.Spec.WellFormed
/-!
# Lemmas on `Route::validate`
-/
namespace PyVRP
open Spec

namespace Route

/-- What one iteration checks, in terms of the activities `p` before it. -/
def Cond (data : ProblemData) (p : List Activity) (a : Activity) : Prop :=
  InRange data a ∧
  match a.type with
  | .depot => ∀ s, s < data.numShipments → (pickupOf s ∈ p ↔ deliveryOf s ∈ p)
  | .client => True
  | .pickup => pickupOf a.idx ∉ p
  | .delivery => pickupOf a.idx ∈ p ∧ deliveryOf a.idx ∉ p

/-- The state of the loop describes the activities `p` seen so far. -/
structure Descr (data : ProblemData) (p : List Activity) (st : VState) : Prop where
  lp : st.pickupVisited.length = data.numShipments
  ld : st.deliveryVisited.length = data.numShipments
  pv : ∀ s, s < data.numShipments → (st.pickupVisited[s]? = some true ↔ pickupOf s ∈ p)
  dv : ∀ s, s < data.numShipments → (st.deliveryVisited[s]? = some true ↔ deliveryOf s ∈ p)
  trips : st.numTrips = 1 + depotVisits p

theorem getD_eq_true_iff {l : List Bool} {i : Nat} : l.getD i false = true ↔ l[i]? = some true := by
  rw [List.getD_eq_getElem?_getD]
  cases h : l[i]? <;> simp

theorem bits_ext {l l' : List Bool} (h : l.length = l'.length)
    (hi : ∀ i, i < l.length → (l[i]? = some true ↔ l'[i]? = some true)) : l = l' := by
  apply List.ext_getElem? 
  intro i
  by_cases hl : i < l.length
  · have hl' : i < l'.length := by omega
    have := hi i hl
    rw [List.getElem?_eq_getElem hl, List.getElem?_eq_getElem hl'] at this ⊢
    simp only [Option.some.injEq] at this ⊢
    exact Bool.eq_iff_iff.2 this
  · rw [List.getElem?_eq_none (by omega), List.getElem?_eq_none (by omega)]

theorem depotVisits_snoc (p : List Activity) (a : Activity) :
    depotVisits (p ++ [a]) = depotVisits p + if a.type = .depot then 1 else 0 := by
  simp [depotVisits, List.countP_append, List.countP_cons]

theorem mem_snoc_iff {p : List Activity} {a b : Activity} (h : b ≠ a) : b ∈ p ++ [a] ↔ b ∈ p := by
  simp [h]

theorem Descr.bits_eq_iff {data : ProblemData} {p : List Activity} {st : VState}
    (h : Descr data p st) :
    st.pickupVisited = st.deliveryVisited ↔
      ∀ s, s < data.numShipments → (pickupOf s ∈ p ↔ deliveryOf s ∈ p) := by
  constructor
  · intro he s hs
    rw [← h.pv s hs, ← h.dv s hs, he]
  · intro he
    apply bits_ext (by rw [h.lp, h.ld])
    intro i hi
    rw [h.lp] at hi
    rw [h.pv i hi, h.dv i hi, he i hi]

theorem step_iff {data : ProblemData} {p : List Activity} {st : VState} (h : Descr data p st)
    (a : Activity) :
    (Cond data p a → ∃ st', validateStep data st a = .ok st' ∧ Descr data (p ++ [a]) st')
    ∧ (¬ Cond data p a → ∃ m, validateStep data st a = .error (.invalidArgument m)) := by
  obtain ⟨ty, i⟩ := a
  cases ty with
  | depot =>
    simp only [Cond, InRange, validateStep]
    by_cases h1 : i < data.depots.length
    · have h1' : ¬ i ≥ data.numDepots := by simp only [ProblemData.numDepots]; omega
      simp only [h1, true_and, h1', if_false]
      by_cases h2 : st.pickupVisited = st.deliveryVisited
      · have h3 := h.bits_eq_iff.1 h2
        simp only [ne_eq, h2, not_true_eq_false, if_false]
        refine ⟨fun _ => ⟨_, rfl, ⟨h.lp ▸ h2 ▸ rfl, h.ld, ?_, ?_, ?_⟩⟩, fun hn => absurd h3 hn⟩
        · intro s hs
          dsimp only
          rw [mem_snoc_iff (by simp [pickupOf]), ← h2]
          exact h.pv s hs
        · intro s hs
          dsimp only
          rw [mem_snoc_iff (by simp [deliveryOf])]
          exact h.dv s hs
        · dsimp only
          rw [depotVisits_snoc, h.trips]; simp; omega
      · have h3 := fun hh => h2 (h.bits_eq_iff.2 hh)
        simp only [ne_eq, h2, not_false_eq_true, if_true]
        exact ⟨fun hc => absurd hc h3, fun _ => ⟨_, rfl⟩⟩
    · have h1' : i ≥ data.numDepots := by simp only [ProblemData.numDepots]; omega
      simp only [h1, false_and, h1', if_true]
      exact ⟨fun hc => hc.elim, fun _ => ⟨_, rfl⟩⟩
  | client =>
    simp only [Cond, InRange, validateStep, and_true]
    by_cases h1 : i < data.clients.length
    · have h1' : ¬ i ≥ data.numClients := by simp only [ProblemData.numClients]; omega
      simp only [h1, h1', if_false, true_implies, not_true_eq_false, false_implies, and_true]
      refine ⟨_, rfl, ⟨h.lp, h.ld, ?_, ?_, ?_⟩⟩
      · intro s hs
        rw [mem_snoc_iff (by simp [pickupOf])]; exact h.pv s hs
      · intro s hs
        rw [mem_snoc_iff (by simp [deliveryOf])]; exact h.dv s hs
      · rw [depotVisits_snoc, h.trips]; simp
    · have h1' : i ≥ data.numClients := by simp only [ProblemData.numClients]; omega
      simp only [h1, h1', if_true]
      exact ⟨fun hc => hc.elim, fun _ => ⟨_, rfl⟩⟩
  | pickup =>
    simp only [Cond, InRange, validateStep]
    by_cases h1 : i < data.shipments.length
    · have h1' : ¬ i ≥ data.numShipments := by simp only [ProblemData.numShipments]; omega
      have hi : i < data.numShipments := by omega
      simp only [h1, true_and, h1', if_false, getD_eq_true_iff, h.pv i hi]
      by_cases h2 : pickupOf i ∈ p
      · simp only [h2, not_true_eq_false, if_true]
        exact ⟨fun hc => hc.elim, fun _ => ⟨_, rfl⟩⟩
      · simp only [h2, not_false_eq_true, if_false, true_implies, not_true_eq_false, false_implies,
          and_true]
        refine ⟨_, rfl, ⟨by simp [h.lp], h.ld, ?_, ?_, ?_⟩⟩
        · intro s hs
          dsimp only
          by_cases hsi : s = i
          · subst hsi
            have : s < st.pickupVisited.length := by rw [h.lp]; exact hs
            simp [List.getElem?_set_self this, pickupOf]
          · rw [List.getElem?_set_ne (fun hh => hsi hh.symm), mem_snoc_iff (by simp [pickupOf, hsi])]
            exact h.pv s hs
        · intro s hs
          dsimp only
          rw [mem_snoc_iff (by simp [deliveryOf])]; exact h.dv s hs
        · dsimp only
          rw [depotVisits_snoc, h.trips]; simp
    · have h1' : i ≥ data.numShipments := by simp only [ProblemData.numShipments]; omega
      simp only [h1, false_and, h1', if_true]
      exact ⟨fun hc => hc.elim, fun _ => ⟨_, rfl⟩⟩
  | delivery =>
    simp only [Cond, InRange, validateStep]
    by_cases h1 : i < data.shipments.length
    · have h1' : ¬ i ≥ data.numShipments := by simp only [ProblemData.numShipments]; omega
      have hi : i < data.numShipments := by omega
      simp only [h1, true_and, h1', if_false, getD_eq_true_iff, h.pv i hi, h.dv i hi]
      by_cases h2 : pickupOf i ∈ p
      · by_cases h3 : deliveryOf i ∈ p
        · simp only [h2, h3, not_true_eq_false, and_false, if_false, if_true]
          exact ⟨fun hc => hc.elim, fun _ => ⟨_, rfl⟩⟩
        · simp only [h2, h3, not_false_eq_true, and_self, not_true_eq_false, if_false,
            true_implies, false_implies, and_true]
          refine ⟨_, rfl, ⟨h.lp, by simp [h.ld], ?_, ?_, ?_⟩⟩
          · intro s hs
            dsimp only
            rw [mem_snoc_iff (by simp [pickupOf])]; exact h.pv s hs
          · intro s hs
            dsimp only
            by_cases hsi : s = i
            · subst hsi
              have : s < st.deliveryVisited.length := by rw [h.ld]; exact hs
              simp [List.getElem?_set_self this, deliveryOf]
            · rw [List.getElem?_set_ne (fun hh => hsi hh.symm),
                mem_snoc_iff (by simp [deliveryOf, hsi])]
              exact h.dv s hs
          · dsimp only
            rw [depotVisits_snoc, h.trips]; simp
      · simp only [h2, not_false_eq_true, if_true, false_and]
        exact ⟨fun hc => hc.elim, fun _ => ⟨_, rfl⟩⟩
    · have h1' : i ≥ data.numShipments := by simp only [ProblemData.numShipments]; omega
      simp only [h1, false_and, h1', if_true]
      exact ⟨fun hc => hc.elim, fun _ => ⟨_, rfl⟩⟩

theorem loop_iff {data : ProblemData} (acts : List Activity) :
    ∀ (p : List Activity) (st : VState), Descr data p st →
      ((∀ q a r, acts = q ++ a :: r → Cond data (p ++ q) a) →
          ∃ st', validateLoop data st acts = .ok st' ∧ Descr data (p ++ acts) st')
      ∧ ((¬ ∀ q a r, acts = q ++ a :: r → Cond data (p ++ q) a) →
          ∃ m, validateLoop data st acts = .error (.invalidArgument m)) := by
  induction acts with
  | nil =>
    intro p st h
    refine ⟨fun _ => ⟨st, rfl, by simpa using h⟩, fun hn => ?_⟩
    exfalso; apply hn
    intro q a r hq
    cases q <;> cases hq
  | cons a rest ih =>
    intro p st h
    obtain ⟨s1, s2⟩ := step_iff h a
    by_cases hc : Cond data p a
    · obtain ⟨st', hst', hd'⟩ := s1 hc
      obtain ⟨i1, i2⟩ := ih (p ++ [a]) st' hd'
      have heq : (∀ q b r, a :: rest = q ++ b :: r → Cond data (p ++ q) b) ↔
          (∀ q b r, rest = q ++ b :: r → Cond data (p ++ [a] ++ q) b) := by
        constructor
        · intro hh q b r hq
          have := hh (a :: q) b r (by simp [hq])
          simpa using this
        · intro hh q b r hq
          cases q with
          | nil =>
            simp only [List.nil_append, List.cons.injEq] at hq
            obtain ⟨rfl, rfl⟩ := hq
            simpa using hc
          | cons c q =>
            simp only [List.cons_append, List.cons.injEq] at hq
            obtain ⟨rfl, rfl⟩ := hq
            simpa using hh q b r rfl
      rw [heq]
      simp only [validateLoop, hst']
      refine ⟨fun hh => ?_, i2⟩
      obtain ⟨st'', h1, h2⟩ := i1 hh
      exact ⟨st'', h1, by simpa using h2⟩
    · obtain ⟨m, hm⟩ := s2 hc
      simp only [validateLoop, hm]
      refine ⟨fun hh => absurd ?_ hc, fun _ => ⟨m, rfl⟩⟩
      simpa using hh [] a rest rfl

theorem descr_init (data : ProblemData) :
    Descr data [] { numTrips := 1, pickupVisited := List.replicate data.numShipments false
                    deliveryVisited := List.replicate data.numShipments false } := by
  refine ⟨by simp, by simp, ?_, ?_, by simp [depotVisits]⟩ <;>
  · intro s hs
    simp [hs]

/-- The condition all iterations check, together with the final loop. -/
structure PrefixForm (data : ProblemData) (acts : List Activity) : Prop where
  steps : ∀ q a r, acts = q ++ a :: r → Cond data q a
  final : ∀ s, s < data.numShipments → (pickupOf s ∈ acts ↔ deliveryOf s ∈ acts)

theorem split_unique {x : Activity} {a b c d : List Activity} (h : a ++ x :: b = c ++ x :: d)
    (ha : x ∉ a) (hc : x ∉ c) : a = c := by
  rw [List.append_eq_append_iff] at h
  rcases h with ⟨e, rfl, h2⟩ | ⟨e, rfl, h2⟩
  · cases e with
    | nil => simp
    | cons y ys =>
      simp only [List.cons_append, List.cons.injEq] at h2
      exact absurd (by simp [h2.1]) hc
  · cases e with
    | nil => simp
    | cons y ys =>
      simp only [List.cons_append, List.cons.injEq] at h2
      exact absurd (by simp [h2.1]) ha

theorem prefixForm_iff (data : ProblemData) (acts : List Activity) :
    PrefixForm data acts ↔
      (∀ a ∈ acts, InRange data a) ∧
      ∀ s, (∀ a ∈ acts, ¬ Concerns s a) ∨ Served s acts := by
  constructor
  · rintro ⟨hs, hf⟩
    have hr : ∀ a ∈ acts, InRange data a := by
      intro a ha
      obtain ⟨q, r, rfl⟩ := List.append_of_mem ha
      exact (hs q a r rfl).1
    refine ⟨hr, fun s => ?_⟩
    by_cases hall : ∀ a ∈ acts, ¬ Concerns s a
    · exact .inl hall
    · right
      have hmem : pickupOf s ∈ acts ∧ deliveryOf s ∈ acts := by
        simp only [Classical.not_forall, Classical.not_not] at hall
        obtain ⟨a, ha, hc⟩ := hall
        have hin := hr a ha
        rcases hc with rfl | rfl
        · exact ⟨ha, (hf s hin).1 ha⟩
        · exact ⟨(hf s hin).2 ha, ha⟩
      obtain ⟨hp, hd⟩ := hmem
      obtain ⟨p, q, rfl⟩ := List.append_of_mem hp
      have hPp : pickupOf s ∉ p := (hs p _ q rfl).2
      have hDp : deliveryOf s ∉ p := by
        intro hh
        obtain ⟨x, y, rfl⟩ := List.append_of_mem hh
        have := (hs x (deliveryOf s) (y ++ pickupOf s :: q) (by simp)).2.1
        exact hPp (List.mem_append_left _ this)
      have hDq : deliveryOf s ∈ q := by
        rcases List.mem_append.1 hd with h | h
        · exact absurd h hDp
        · rcases List.mem_cons.1 h with h | h
          · simp [deliveryOf, pickupOf] at h
          · exact h
      obtain ⟨m, r, rfl⟩ := List.append_of_mem hDq
      have hDm : deliveryOf s ∉ m := by
        have := (hs (p ++ pickupOf s :: m) (deliveryOf s) r (by simp)).2.2
        intro hh
        exact this (by simp only [deliveryOf] at hh ⊢; simp [hh])
      refine ⟨p, m, r, by simp, ?_, ?_⟩
      · intro a ha hdep
        obtain ⟨m1, m2, rfl⟩ := List.append_of_mem ha
        have hin := hr (pickupOf s) (by simp)
        have := (hs (p ++ pickupOf s :: m1) a (m2 ++ deliveryOf s :: r) (by simp)).2
        simp only [hdep] at this
        have h2 := (this s hin).1 (by simp)
        rcases List.mem_append.1 h2 with h | h
        · exact hDp h
        · rcases List.mem_cons.1 h with h | h
          · simp [deliveryOf, pickupOf] at h
          · exact hDm (List.mem_append_left _ h)
      · intro a ha hc
        simp only [List.mem_append] at ha
        rcases ha with (ha | ha) | ha
        · rcases hc with rfl | rfl
          · exact hPp ha
          · exact hDp ha
        · rcases hc with rfl | rfl
          · obtain ⟨m1, m2, rfl⟩ := List.append_of_mem ha
            exact (hs (p ++ pickupOf s :: m1) (pickupOf s) (m2 ++ deliveryOf s :: r) (by simp)).2
              (by simp only [pickupOf]; simp)
          · exact hDm ha
        · obtain ⟨r1, r2, rfl⟩ := List.append_of_mem ha
          rcases hc with rfl | rfl
          · exact (hs (p ++ pickupOf s :: m ++ deliveryOf s :: r1) (pickupOf s) r2 (by simp)).2
              (by simp only [pickupOf]; simp)
          · exact (hs (p ++ pickupOf s :: m ++ deliveryOf s :: r1) (deliveryOf s) r2 (by simp)).2.2
              (by simp only [deliveryOf]; simp)
  · rintro ⟨hr, hsh⟩
    refine ⟨fun q a r hq => ⟨hr a (by simp [hq]), ?_⟩, fun s _ => ?_⟩
    · obtain ⟨ty, i⟩ := a
      cases ty with
      | client => trivial
      | pickup =>
        dsimp only
        intro hh
        rcases hsh i with h | ⟨p, m, x, he, hm, hc⟩
        · exact h (pickupOf i) (by simp [hq, pickupOf]) (.inl rfl)
        · have hcnt : acts.count (pickupOf i) = 1 := by
            have hz : ∀ l : List Activity, (∀ a ∈ l, a ∈ p ++ m ++ x) → l.count (pickupOf i) = 0 :=
              fun l hl => List.count_eq_zero.2 fun hin => hc _ (hl _ hin) (.inl rfl)
            rw [he]
            simp only [List.count_append, List.count_cons]
            rw [hz p (by simp +contextual), hz m (by simp +contextual), hz x (by simp +contextual)]
            simp [deliveryOf, pickupOf]
          rw [hq] at hcnt
          simp only [List.count_append] at hcnt
          have h1 : 0 < q.count (pickupOf i) := List.count_pos_iff.2 hh
          have h2 : 0 < (⟨.pickup, i⟩ :: r : List Activity).count (pickupOf i) :=
            List.count_pos_iff.2 (by simp [pickupOf])
          omega
      | delivery =>
        dsimp only
        rcases hsh i with h | ⟨p, m, x, he, hm, hc⟩
        · exact absurd (.inr rfl) (h (deliveryOf i) (by simp [hq, deliveryOf]))
        · have hDq : deliveryOf i ∉ q := by
            intro hh
            have hcnt : acts.count (deliveryOf i) = 1 := by
              have hz : ∀ l : List Activity, (∀ a ∈ l, a ∈ p ++ m ++ x) →
                  l.count (deliveryOf i) = 0 :=
                fun l hl => List.count_eq_zero.2 fun hin => hc _ (hl _ hin) (.inr rfl)
              rw [he]
              simp only [List.count_append, List.count_cons]
              rw [hz p (by simp +contextual), hz m (by simp +contextual),
                hz x (by simp +contextual)]
              simp [deliveryOf, pickupOf]
            rw [hq] at hcnt
            simp only [List.count_append] at hcnt
            have h1 : 0 < q.count (deliveryOf i) := List.count_pos_iff.2 hh
            have h2 : 0 < (⟨.delivery, i⟩ :: r : List Activity).count (deliveryOf i) :=
              List.count_pos_iff.2 (by simp [deliveryOf])
            omega
          refine ⟨?_, hDq⟩
          have hpm : deliveryOf i ∉ p ++ pickupOf i :: m := by
            intro hh
            rcases List.mem_append.1 hh with h | h
            · exact hc _ (by simp [h]) (.inr rfl)
            · rcases List.mem_cons.1 h with h | h
              · simp [deliveryOf, pickupOf] at h
              · exact hc _ (by simp [h]) (.inr rfl)
          have := split_unique (x := deliveryOf i) (he.symm.trans hq) hpm hDq
          rw [← this]; simp
      | depot =>
        dsimp only
        intro s _
        rcases hsh s with h | ⟨p, m, x, he, hm, hc⟩
        · have h1 : pickupOf s ∉ q := fun hh => h _ (by simp [hq, hh]) (.inl rfl)
          have h2 : deliveryOf s ∉ q := fun hh => h _ (by simp [hq, hh]) (.inr rfl)
          simp [h1, h2]
        · have e := hq.symm.trans he
          rw [List.append_assoc, List.append_eq_append_iff] at e
          rcases e with ⟨c, rfl, _⟩ | ⟨c, rfl, h2⟩
          · have h1 : pickupOf s ∉ q := fun hh => hc _ (by simp [hh]) (.inl rfl)
            have h2 : deliveryOf s ∉ q := fun hh => hc _ (by simp [hh]) (.inr rfl)
            simp [h1, h2]
          · cases c with
            | nil => simp [pickupOf] at h2
            | cons y c =>
              simp only [List.cons_append, List.cons.injEq] at h2
              obtain ⟨rfl, h2⟩ := h2
              rw [List.append_eq_append_iff] at h2
              rcases h2 with ⟨e, rfl, h3⟩ | ⟨e, rfl, h3⟩
              · cases e with
                | nil => simp [deliveryOf] at h3
                | cons z e =>
                  simp only [List.cons_append, List.cons.injEq] at h3
                  obtain ⟨rfl, h3⟩ := h3
                  simp
              · cases e with
                | nil => simp [deliveryOf] at h3
                | cons z e =>
                  simp only [List.cons_append, List.cons.injEq] at h3
                  obtain ⟨rfl, h3⟩ := h3
                  exact absurd rfl (hm ⟨.depot, i⟩ (by simp))
    · rcases hsh s with h | ⟨p, m, x, he, _, _⟩
      · have h1 : pickupOf s ∉ acts := fun hh => h _ hh (.inl rfl)
        have h2 : deliveryOf s ∉ acts := fun hh => h _ hh (.inr rfl)
        simp [h1, h2]
      · rw [he]; simp

end Route
end PyVRP
