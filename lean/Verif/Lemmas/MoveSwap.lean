import Verif.Lemmas.MoveEdit
/-!
# What swapping nodes does to the routes
-/
namespace PyVRP
open Spec

/-- Two activities change places. -/
def swapAct (a b x : Activity) : Activity := if x = a then b else if x = b then a else x

theorem swapAct_comm (a b : Activity) : swapAct a b = swapAct b a := by
  funext x
  unfold swapAct
  by_cases h1 : x = a <;> by_cases h2 : x = b
  · rw [if_pos h1, if_pos h2, ← h1, ← h2]
  · rw [if_pos h1, if_neg h2, if_pos h1]
  · rw [if_neg h1, if_pos h2, if_pos h2]
  · rw [if_neg h1, if_neg h2, if_neg h2, if_neg h1]

theorem swapAct_left (a b : Activity) : swapAct a b a = b := by simp [swapAct]

theorem swapAct_right (a b : Activity) : swapAct a b b = a := by
  rw [swapAct_comm]; exact swapAct_left b a

theorem swapAct_invol (a b x : Activity) : swapAct a b (swapAct a b x) = x := by
  by_cases h1 : x = a
  · subst h1; rw [swapAct_left, swapAct_right]
  · by_cases h2 : x = b
    · subst h2; rw [swapAct_right, swapAct_left]
    · have : swapAct a b x = x := by simp [swapAct, h1, h2]
      rw [this, this]

theorem swapAct_other {a b x : Activity} (h1 : x ≠ a) (h2 : x ≠ b) : swapAct a b x = x := by
  simp [swapAct, h1, h2]

theorem mem_map_swapAct (a b x : Activity) (l : List Activity) :
    x ∈ l.map (swapAct a b) ↔ swapAct a b x ∈ l := by
  rw [List.mem_map]
  constructor
  · rintro ⟨y, hy, rfl⟩; rwa [swapAct_invol]
  · intro h; exact ⟨_, h, swapAct_invol a b x⟩

theorem count_map_swapAct (a b x : Activity) (l : List Activity) :
    (l.map (swapAct a b)).count x = l.count (swapAct a b x) := by
  induction l with
  | nil => rfl
  | cons y l ih =>
    rw [List.map_cons, List.count_cons, List.count_cons, ih]
    congr 1
    have : (swapAct a b y == x) = (y == swapAct a b x) := by
      rw [Bool.eq_iff_iff, beq_iff_eq, beq_iff_eq]
      constructor
      · rintro rfl; rw [swapAct_invol]
      · rintro rfl; rw [swapAct_invol]
    rw [this]

theorem map_swapAct_id {a b : Activity} {l : List Activity} (ha : a ∉ l) (hb : b ∉ l) :
    l.map (swapAct a b) = l := by
  conv => rhs; rw [← List.map_id l]
  apply List.map_congr_left
  intro x hx
  exact swapAct_other (fun h => ha (h ▸ hx)) (fun h => hb (h ▸ hx))

theorem swapAct_type {a b x : Activity} (ha : a.type ≠ .depot) (hb : b.type ≠ .depot) :
    (swapAct a b x).type ≠ .depot ↔ x.type ≠ .depot := by
  by_cases h1 : x = a
  · subst h1; rw [swapAct_left]; simp [ha, hb]
  · by_cases h2 : x = b
    · subst h2; rw [swapAct_right]; simp [ha, hb]
    · rw [swapAct_other h1 h2]

theorem getD_map_map (plan : List (List Activity)) (f : Activity → Activity) (k : Nat) :
    (plan.map (List.map f)).getD k [] = (plan.getD k []).map f := by
  simp only [List.getD_eq_getElem?_getD, List.getElem?_map]
  cases plan[k]? <;> rfl

namespace SSol

variable {data : ProblemData}

/-- Routes after a swap of two nodes, the first of which is in a route. -/
theorem swapNodes_visits {plan : List (List Activity)} {s : SSol} (h : Holds data plan s)
    {a b : Activity} (hda : a.type ≠ .depot) (hdb : b.type ≠ .depot) (hab : a ≠ b) {i : Nat}
    (hi : a ∈ plan.getD i []) :
    (∀ k, (s.swapNodes a b).route k = s.route k ∨ a ∈ plan.getD k [] ∨ b ∈ plan.getD k [])
    ∧ ∀ k, k < data.numVehicles →
      ((s.swapNodes a b).route k).vehicleType = (s.route k).vehicleType
      ∧ ((s.swapNodes a b).route k).Visits data ((plan.getD k []).map (swapAct a b)) := by
  have hin := h.lt_of_mem hi
  obtain ⟨xs, ys, he⟩ := List.append_of_mem hi
  have hpa := h.place hin hda he
  have hoa := h.once' hda he
  have hlen : i < s.routes.length := by rw [h.sized.routes]; exact hin
  have hvi := h.visits i hin
  rw [he] at hvi
  unfold swapNodes
  rw [hpa]
  simp only [route_setOwner]
  cases hpb : s.place b with
  | none =>
    have hb : ∀ k, b ∉ plan.getD k [] := by
      intro k hm
      obtain ⟨l, r, hlr⟩ := List.append_of_mem hm
      rw [h.place (h.lt_of_mem hm) hdb hlr] at hpb
      cases hpb
    have hroute : ∀ k, ((s.setRoute i ((s.route i).put (xs.length + 1) b)).route k)
        = if k = i then (s.route i).put (xs.length + 1) b else s.route k := by
      intro k
      rw [route_setRoute]
      by_cases hk : k = i
      · rw [if_pos ⟨hk, hlen⟩, if_pos hk]
      · rw [if_neg (fun h => hk h.1), if_neg hk]
    dsimp only
    simp only [hroute]
    refine ⟨fun k => ?_, fun k hk => ?_⟩
    · by_cases hki : k = i
      · subst hki; exact .inr (.inl hi)
      · rw [if_neg hki]; exact .inl rfl
    · by_cases hki : k = i
      · subst hki
        rw [if_pos rfl]
        obtain ⟨h1, h2⟩ := SRoute.put_visits hvi b hdb hda
        refine ⟨h2, ?_⟩
        have e : (plan.getD k []).map (swapAct a b) = xs ++ b :: ys := by
          have hbk := hb k
          rw [he] at hbk ⊢
          simp only [List.mem_append, List.mem_cons, not_or] at hbk
          rw [List.map_append, List.map_cons, swapAct_left, map_swapAct_id hoa.1 hbk.1,
            map_swapAct_id hoa.2 hbk.2.2]
        rw [e]; exact h1
      · rw [if_neg hki]
        refine ⟨rfl, ?_⟩
        rw [map_swapAct_id (fun hm => hki (h.unique hda hm hi)) (hb k)]
        exact h.visits k hk
  | some p =>
    obtain ⟨j, pos⟩ := p
    obtain ⟨hjn, -, l, r, hlr, hpos⟩ := h.place_some hpb
    subst hpos
    have hbj : b ∈ plan.getD j [] := by rw [hlr]; simp
    have hob := h.once' hdb hlr
    have hlenj : j < s.routes.length := by rw [h.sized.routes]; exact hjn
    have hroute : ∀ k, ((s.setRoute i ((s.route i).put (xs.length + 1) b)).route k)
        = if k = i then (s.route i).put (xs.length + 1) b else s.route k := by
      intro k
      rw [route_setRoute]
      by_cases hk : k = i
      · rw [if_pos ⟨hk, hlen⟩, if_pos hk]
      · rw [if_neg (fun h => hk h.1), if_neg hk]
    have hroute2 : ∀ (t : SSol) (k : Nat) (q : SRoute), t.routes.length = s.routes.length →
        (t.setRoute j q).route k = if k = j then q else t.route k := by
      intro t k q ht
      rw [route_setRoute]
      by_cases hk : k = j
      · rw [if_pos ⟨hk, by rw [ht]; exact hlenj⟩, if_pos hk]
      · rw [if_neg (fun h => hk h.1), if_neg hk]
    dsimp only
    have hl1 : (s.setRoute i ((s.route i).put (xs.length + 1) b)).routes.length
        = s.routes.length := by simp [setRoute]
    simp only [hroute2 _ _ _ hl1, hroute]
    refine ⟨fun k => ?_, fun k hk => ?_⟩
    · by_cases hkj : k = j
      · subst hkj; exact .inr (.inr hbj)
      · rw [if_neg hkj]
        by_cases hki : k = i
        · subst hki; exact .inr (.inl hi)
        · rw [if_neg hki]; exact .inl rfl
    · by_cases hji : j = i
      · -- the same route
        subst hji
        by_cases hkj : k = j
        · subst hkj
          rw [if_pos rfl, if_pos rfl]
          obtain ⟨h1, h2⟩ := SRoute.put_visits hvi b hdb hda
          -- where b is in relation to a
          have hb' : b ∈ xs ∨ b ∈ ys := by
            have := hbj; rw [he] at this
            simp only [List.mem_append, List.mem_cons] at this
            rcases this with h | h | h
            · exact .inl h
            · exact absurd h.symm hab
            · exact .inr h
          rcases hb' with hb' | hb'
          · obtain ⟨p, q, rfl⟩ := List.append_of_mem hb'
            have hsplit : plan.getD k [] = p ++ b :: (q ++ a :: ys) := by rw [he]; simp
            have hpl : p.length = l.length := by
              have := h.place hk hdb hsplit
              rw [hpb] at this
              simp only [Option.some.injEq, Prod.mk.injEq, true_and] at this
              omega
            have hobs := h.once' hdb hsplit
            have h3 : ((s.route k).put ((p ++ b :: q).length + 1) b).Visits data
                (p ++ b :: (q ++ b :: ys)) := by simpa using h1
            obtain ⟨h4, h5⟩ := SRoute.put_visits h3 a hda hdb
            rw [hpl] at h4 h5
            refine ⟨by rw [h5, h2], ?_⟩
            have hx := hoa.1
            have hy := hoa.2
            simp only [List.mem_append, List.mem_cons, not_or] at hx hobs
            have e : (plan.getD k []).map (swapAct a b) = p ++ a :: (q ++ b :: ys) := by
              rw [hsplit, List.map_append, List.map_cons, List.map_append, List.map_cons,
                swapAct_left, swapAct_right, map_swapAct_id hx.1 hobs.1,
                map_swapAct_id hx.2.2 hobs.2.1, map_swapAct_id hy hobs.2.2.2]
            rw [e]; exact h4
          · obtain ⟨p, q, rfl⟩ := List.append_of_mem hb'
            have hsplit : plan.getD k [] = (xs ++ a :: p) ++ b :: q := by rw [he]; simp
            have hpl : (xs ++ a :: p).length = l.length := by
              have := h.place hk hdb hsplit
              rw [hpb] at this
              simp only [Option.some.injEq, Prod.mk.injEq, true_and] at this
              omega
            have hobs := h.once' hdb hsplit
            have h3 : ((s.route k).put (xs.length + 1) b).Visits data
                ((xs ++ b :: p) ++ b :: q) := by simpa using h1
            obtain ⟨h4, h5⟩ := SRoute.put_visits h3 a hda hdb
            have hpl' : (xs ++ b :: p).length = l.length := by
              rw [← hpl]; simp
            rw [hpl'] at h4 h5
            refine ⟨by rw [h5, h2], ?_⟩
            have hx := hoa.1
            have hy := hoa.2
            simp only [List.mem_append, List.mem_cons, not_or] at hy hobs
            have e : (plan.getD k []).map (swapAct a b) = (xs ++ b :: p) ++ a :: q := by
              rw [hsplit, List.map_append, List.map_append, List.map_cons, List.map_cons,
                swapAct_left, swapAct_right, map_swapAct_id hx hobs.1.1,
                map_swapAct_id hy.1 hobs.1.2.2, map_swapAct_id hy.2.2 hobs.2]
            rw [e]; exact h4
        · rw [if_neg hkj, if_neg hkj]
          refine ⟨rfl, ?_⟩
          rw [map_swapAct_id (fun hm => hkj (h.unique hda hm hi))
            (fun hm => hkj (h.unique hdb hm hbj))]
          exact h.visits k hk
      · have hbi : b ∉ plan.getD i [] := fun hm => hji (h.unique hdb hbj hm)
        have haj : a ∉ plan.getD j [] := fun hm => hji (h.unique hda hm hi)
        have hvj := h.visits j hjn
        rw [hlr] at hvj
        by_cases hkj : k = j
        · subst hkj
          rw [if_pos rfl, if_neg hji]
          obtain ⟨h1, h2⟩ := SRoute.put_visits hvj a hda hdb
          refine ⟨h2, ?_⟩
          have e : (plan.getD k []).map (swapAct a b) = l ++ a :: r := by
            rw [hlr] at haj ⊢
            simp only [List.mem_append, List.mem_cons, not_or] at haj
            rw [List.map_append, List.map_cons, swapAct_right, map_swapAct_id haj.1 hob.1,
              map_swapAct_id haj.2.2 hob.2]
          rw [e]; exact h1
        · rw [if_neg hkj]
          by_cases hki : k = i
          · subst hki
            rw [if_pos rfl]
            obtain ⟨h1, h2⟩ := SRoute.put_visits hvi b hdb hda
            refine ⟨h2, ?_⟩
            have e : (plan.getD k []).map (swapAct a b) = xs ++ b :: ys := by
              rw [he] at hbi ⊢
              simp only [List.mem_append, List.mem_cons, not_or] at hbi
              rw [List.map_append, List.map_cons, swapAct_left, map_swapAct_id hoa.1 hbi.1,
                map_swapAct_id hoa.2 hbi.2.2]
            rw [e]; exact h1
          · rw [if_neg hki]
            refine ⟨rfl, ?_⟩
            rw [map_swapAct_id (fun hm => hki (h.unique hda hm hi))
              (fun hm => hkj (h.unique hdb hm hbj))]
            exact h.visits k hk

theorem swapNodes_sized {s : SSol} (h : Sized data s) (a b : Activity) :
    Sized data (s.swapNodes a b) := by
  unfold swapNodes
  apply Sized.setOwner
  apply Sized.setOwner
  cases s.place a with
  | none =>
    cases s.place b with
    | none => exact h
    | some q => exact h.setRoute _ _
  | some p =>
    cases s.place b with
    | none => exact h.setRoute _ _
    | some q => exact (h.setRoute _ _).setRoute _ _

theorem setOwner_twice {s t : SSol} (h : Sized data t) (ho : ∀ x, t.owner x = s.owner x)
    {a b : Activity} (ha : IsTask data a) (hb : IsTask data b) (p q : Option Nat) (x : Activity) :
    ((t.setOwner a q).setOwner b p).owner x = if x = b then p else if x = a then q else s.owner x := by
  rw [owner_setOwner (h.setOwner _ _), owner_setOwner h, ho]
  by_cases h1 : x = b
  · rw [if_pos ⟨h1, hb⟩, if_pos h1]
  · rw [if_neg (fun h => h1 h.1), if_neg h1]
    by_cases h2 : x = a
    · rw [if_pos ⟨h2, ha⟩, if_pos h2]
    · rw [if_neg (fun h => h2 h.1), if_neg h2]

theorem swapNodes_owner {s : SSol} (h : Sized data s) {a b : Activity} (ha : IsTask data a)
    (hb : IsTask data b) (x : Activity) :
    (s.swapNodes a b).owner x
      = if x = b then (s.place a).map (·.1) else if x = a then (s.place b).map (·.1) else s.owner x := by
  unfold swapNodes
  cases s.place a with
  | none =>
    cases s.place b with
    | none => exact setOwner_twice h (fun _ => rfl) ha hb _ _ x
    | some q => exact setOwner_twice (h.setRoute _ _) (fun x => owner_setRoute _ _ _ _) ha hb _ _ x
  | some p =>
    cases s.place b with
    | none => exact setOwner_twice (h.setRoute _ _) (fun x => owner_setRoute _ _ _ _) ha hb _ _ x
    | some q =>
      exact setOwner_twice ((h.setRoute _ _).setRoute _ _)
        (fun x => by rw [owner_setRoute, owner_setRoute]) ha hb _ _ x

theorem place_owner (s : SSol) (a : Activity) : (s.place a).map (·.1) = s.owner a := by
  unfold SSol.place
  cases s.owner a <;> rfl

/-- Swapping two nodes, the first of which is in a route. -/
theorem CleanBut.swapNodes {plan : List (List Activity)} {s : SSol} {D : Nat → Prop}
    (h : CleanBut data D plan s) {a b : Activity} (hta : IsTask data a) (htb : IsTask data b)
    (hda : a.type ≠ .depot) (hdb : b.type ≠ .depot) (hab : a ≠ b) {i : Nat}
    (hi : a ∈ plan.getD i []) :
    CleanBut data (fun k => D k ∨ a ∈ plan.getD k [] ∨ b ∈ plan.getD k [])
      (plan.map (List.map (swapAct a b))) (s.swapNodes a b) := by
  obtain ⟨h, hclean⟩ := h
  obtain ⟨h1, h2⟩ := swapNodes_visits h hda hdb hab hi
  refine ⟨⟨swapNodes_sized h.sized a b, by simp [h.length], ?_, ?_, ?_, ?_⟩, ?_⟩
  · intro k hk; rw [(h2 k hk).1]; exact h.types k hk
  · intro k hk; rw [getD_map_map]; exact (h2 k hk).2
  · intro x hx k
    rw [getD_map_map, mem_map_swapAct, swapNodes_owner h.sized hta htb, place_owner, place_owner]
    by_cases hxb : x = b
    · rw [if_pos hxb, hxb, swapAct_right]; exact h.owner a hda k
    · rw [if_neg hxb]
      by_cases hxa : x = a
      · rw [if_pos hxa, hxa, swapAct_left]; exact h.owner b hdb k
      · rw [if_neg hxa, swapAct_other hxa hxb]; exact h.owner x hx k
  · intro x hx k
    rw [getD_map_map, count_map_swapAct]
    exact h.once _ ((swapAct_type hda hdb).2 hx) k
  · intro k hk hn
    rcases h1 k with h3 | h3
    · rw [h3, getD_map_map, hclean k hk (fun hd => hn (.inl hd)),
        map_swapAct_id (fun hm => hn (.inr (.inl hm))) (fun hm => hn (.inr (.inr hm)))]
    · exact absurd (.inr h3) hn

/-- Two nodes of different routes. -/
theorem CleanBut.swap_diff {plan : List (List Activity)} {s : SSol} {D : Nat → Prop}
    (h : CleanBut data D plan s) {i j : Nat} (hij : i ≠ j) {a b : Activity}
    (hda : a.type ≠ .depot) (hdb : b.type ≠ .depot) {xs ys vs ws : List Activity}
    (hi : plan.getD i [] = xs ++ a :: ys) (hj : plan.getD j [] = vs ++ b :: ws) :
    CleanBut data (fun k => D k ∨ k = i ∨ k = j)
      ((plan.set i (xs ++ b :: ys)).set j (vs ++ a :: ws)) (s.swapNodes a b) := by
  have hai : a ∈ plan.getD i [] := by rw [hi]; simp
  have hbj : b ∈ plan.getD j [] := by rw [hj]; simp
  have hab : a ≠ b := fun he => hij (h.1.unique hda hai (by rw [he]; exact hbj))
  have haj : a ∉ plan.getD j [] := fun hm => hij (h.1.unique hda hai hm)
  have hbi : b ∉ plan.getD i [] := fun hm => hij (h.1.unique hdb hm hbj)
  have key := h.swapNodes (h.1.isTask hda hai) (h.1.isTask hdb hbj) hda hdb hab hai
  have hoa := h.1.once' hda hi
  have hob := h.1.once' hdb hj
  have e : plan.map (List.map (swapAct a b)) = (plan.set i (xs ++ b :: ys)).set j (vs ++ a :: ws) := by
    apply plan_ext (by simp)
    intro k hk
    rw [getD_map_map]
    by_cases hkj : k = j
    · subst hkj
      rw [getD_set_self (by simpa using h.1.lt_length (h.1.lt_of_mem hbj))]
      rw [hj] at haj ⊢
      simp only [List.mem_append, List.mem_cons, not_or] at haj
      rw [List.map_append, List.map_cons, swapAct_right, map_swapAct_id haj.1 hob.1,
        map_swapAct_id haj.2.2 hob.2]
    · rw [getD_set_ne _ hkj]
      by_cases hki : k = i
      · subst hki
        rw [getD_set_self (h.1.lt_length (h.1.lt_of_mem hai))]
        rw [hi] at hbi ⊢
        simp only [List.mem_append, List.mem_cons, not_or] at hbi
        rw [List.map_append, List.map_cons, swapAct_left, map_swapAct_id hoa.1 hbi.1,
          map_swapAct_id hoa.2 hbi.2.2]
      · rw [getD_set_ne _ hki]
        exact map_swapAct_id (fun hm => hki (h.1.unique hda hm hai))
          (fun hm => hkj (h.1.unique hdb hm hbj))
  rw [e] at key
  refine key.weaken ?_
  rintro k - (hk | hk | hk)
  · exact .inl hk
  · exact .inr (.inl (h.1.unique hda hk hai))
  · exact .inr (.inr (h.1.unique hdb hk hbj))

/-- Two nodes of the same route, in either order. -/
theorem CleanBut.swap_same {plan : List (List Activity)} {s : SSol} {D : Nat → Prop}
    (h : CleanBut data D plan s) {i : Nat} {a b : Activity}
    (hda : a.type ≠ .depot) (hdb : b.type ≠ .depot) {xs ms ys : List Activity}
    (hi : plan.getD i [] = xs ++ a :: (ms ++ b :: ys)) :
    CleanBut data (fun k => D k ∨ k = i) (plan.set i (xs ++ b :: (ms ++ a :: ys))) (s.swapNodes a b)
    ∧ CleanBut data (fun k => D k ∨ k = i) (plan.set i (xs ++ b :: (ms ++ a :: ys)))
        (s.swapNodes b a) := by
  have hai : a ∈ plan.getD i [] := by rw [hi]; simp
  have hbi : b ∈ plan.getD i [] := by rw [hi]; simp
  have hoa := h.1.once' hda hi
  have hob := h.1.once' hdb (xs := xs ++ a :: ms) (ys := ys) (by rw [hi]; simp)
  have hab : a ≠ b := by rintro rfl; exact hob.1 (by simp)
  have e : plan.map (List.map (swapAct a b)) = plan.set i (xs ++ b :: (ms ++ a :: ys)) := by
    apply plan_ext (by simp)
    intro k hk
    rw [getD_map_map]
    by_cases hki : k = i
    · subst hki
      rw [getD_set_self (h.1.lt_length (h.1.lt_of_mem hai)), hi]
      simp only [List.mem_append, List.mem_cons, not_or] at hoa hob
      rw [List.map_append, List.map_cons, List.map_append, List.map_cons, swapAct_left,
        swapAct_right, map_swapAct_id hoa.1 hob.1.1, map_swapAct_id hoa.2.1 hob.1.2.2,
        map_swapAct_id hoa.2.2.2 hob.2]
    · rw [getD_set_ne _ hki]
      exact map_swapAct_id (fun hm => hki (h.1.unique hda hm hai))
        (fun hm => hki (h.1.unique hdb hm hbi))
  constructor
  · have key := h.swapNodes (h.1.isTask hda hai) (h.1.isTask hdb hbi) hda hdb hab hai
    rw [e] at key
    refine key.weaken ?_
    rintro k - (hk | hk | hk)
    · exact .inl hk
    · exact .inr (h.1.unique hda hk hai)
    · exact .inr (h.1.unique hdb hk hbi)
  · have key := h.swapNodes (h.1.isTask hdb hbi) (h.1.isTask hda hai) hdb hda hab.symm hbi
    rw [swapAct_comm, e] at key
    refine key.weaken ?_
    rintro k - (hk | hk | hk)
    · exact .inl hk
    · exact .inr (h.1.unique hdb hk hbi)
    · exact .inr (h.1.unique hda hk hai)

/-- A node of a route and one that is not in a route. -/
theorem CleanBut.swap_out {plan : List (List Activity)} {s : SSol} {D : Nat → Prop}
    (h : CleanBut data D plan s) {i : Nat} {a b : Activity} (htb : IsTask data b)
    (hda : a.type ≠ .depot) (hdb : b.type ≠ .depot) {xs ys : List Activity}
    (hi : plan.getD i [] = xs ++ a :: ys) (hb : ∀ k, b ∉ plan.getD k []) :
    CleanBut data (fun k => D k ∨ k = i) (plan.set i (xs ++ b :: ys)) (s.swapNodes a b) := by
  have hai : a ∈ plan.getD i [] := by rw [hi]; simp
  have hab : a ≠ b := by rintro rfl; exact hb i hai
  have key := h.swapNodes (h.1.isTask hda hai) htb hda hdb hab hai
  have hoa := h.1.once' hda hi
  have e : plan.map (List.map (swapAct a b)) = plan.set i (xs ++ b :: ys) := by
    apply plan_ext (by simp)
    intro k hk
    rw [getD_map_map]
    have hbk := hb k
    by_cases hki : k = i
    · subst hki
      rw [getD_set_self (h.1.lt_length (h.1.lt_of_mem hai))]
      rw [hi] at hbk ⊢
      simp only [List.mem_append, List.mem_cons, not_or] at hbk
      rw [List.map_append, List.map_cons, swapAct_left, map_swapAct_id hoa.1 hbk.1,
        map_swapAct_id hoa.2 hbk.2.2]
    · rw [getD_set_ne _ hki]
      exact map_swapAct_id (fun hm => hki (h.1.unique hda hm hai)) hbk
  rw [e] at key
  refine key.weaken ?_
  rintro k - (hk | hk | hk)
  · exact .inl hk
  · exact .inr (h.1.unique hda hk hai)
  · exact absurd hk (hb k)

/-! ## The loop that swaps nodes -/

/-- The activity after a position. -/
theorem node_after {r : SRoute} {xs ys : List Activity} {a b : Activity}
    (hv : r.Visits data (xs ++ a :: b :: ys)) : (r.node (xs.length + 1 + 1)).activity = b := by
  have h2 : r.Visits data ((xs ++ [a]) ++ b :: ys) := by simpa using hv
  have := visits_node h2
  simpa using this

/-- Swapping as many nodes of two routes. -/
theorem swapLoop_diff : ∀ (n : Nat) {i j : Nat}, i ≠ j → ∀ {xs as ys vs bs ws : List Activity}
    {plan : List (List Activity)} {s : SSol} {D : Nat → Prop} {a b : Activity},
    CleanBut data D plan s → plan.getD i [] = xs ++ as ++ ys → plan.getD j [] = vs ++ bs ++ ws →
    as.length = n → bs.length = n → Phase.NoDepot as → Phase.NoDepot bs →
    (∀ x l, as = x :: l → a = x) → (∀ x l, bs = x :: l → b = x) →
    CleanBut data (fun k => D k ∨ k = i ∨ k = j)
      ((plan.set i (xs ++ bs ++ ys)).set j (vs ++ as ++ ws)) (Swap.swapLoop n a b s) := by
  intro n
  induction n with
  | zero =>
    intro i j hij xs as ys vs bs ws plan s D a b h hi hj ha hb _ _ _ _
    have := List.eq_nil_of_length_eq_zero ha; subst this
    have := List.eq_nil_of_length_eq_zero hb; subst this
    rw [← hi, set_getD_self, ← hj, set_getD_self]
    exact h.weaken (fun k _ hk => .inl hk)
  | succ n ih =>
    intro i j hij xs as ys vs bs ws plan s D a b h hi hj ha hb hda hdb hha hhb
    cases as with
    | nil => simp at ha
    | cons x as =>
      cases bs with
      | nil => simp at hb
      | cons y bs =>
        have := hha x as rfl; subst this
        have := hhb y bs rfl; subst this
        have hta : a.type ≠ .depot := hda a (by simp)
        have htb : b.type ≠ .depot := hdb b (by simp)
        have hi' : plan.getD i [] = xs ++ a :: (as ++ ys) := by rw [hi]; simp
        have hj' : plan.getD j [] = vs ++ b :: (bs ++ ws) := by rw [hj]; simp
        have hil : i < data.numVehicles := h.1.lt_of_mem (a := a) (by rw [hi']; simp)
        have hjl : j < data.numVehicles := h.1.lt_of_mem (a := b) (by rw [hj']; simp)
        have h1 := h.swap_diff hij hta htb hi' hj'
        have gi : ((plan.set i (xs ++ b :: (as ++ ys))).set j (vs ++ a :: (bs ++ ws))).getD i []
            = xs ++ b :: (as ++ ys) := by
          rw [getD_set_ne _ hij, getD_set_self (h.1.lt_length hil)]
        have gj : ((plan.set i (xs ++ b :: (as ++ ys))).set j (vs ++ a :: (bs ++ ws))).getD j []
            = vs ++ a :: (bs ++ ws) := by
          rw [getD_set_self (by simpa using h.1.lt_length hjl)]
        rw [Swap.swapLoop]
        rw [h1.1.place hjl hta gj, h1.1.place hil htb gi]
        dsimp only
        have key := ih hij.symm (xs := vs ++ [a]) (as := bs) (ys := ws) (vs := xs ++ [b]) (bs := as)
          (ws := ys) (a := (((s.swapNodes a b).route j).node (vs.length + 1 + 1)).activity)
          (b := (((s.swapNodes a b).route i).node (xs.length + 1 + 1)).activity) h1
          (by rw [gj]; simp) (by rw [gi]; simp) (by simpa using hb) (by simpa using ha)
          (fun x hx => hdb x (by simp [hx])) (fun x hx => hda x (by simp [hx]))
          (by
            rintro x l rfl
            have := h1.1.visits j hjl
            rw [gj] at this
            exact node_after this)
          (by
            rintro x l rfl
            have := h1.1.visits i hil
            rw [gi] at this
            exact node_after this)
        rw [List.set_set, List.set_comm _ _ hij.symm, List.set_set] at key
        simp only [List.append_assoc, List.cons_append] at key ⊢
        refine key.weaken ?_
        rintro k - ((hk | hk | hk) | hk | hk) <;> simp [hk]

/-- Swapping as many nodes in a route. -/
theorem swapLoop_same {i : Nat} : ∀ (n : Nat) {xs as ms bs ys : List Activity}
    {plan : List (List Activity)} {s : SSol} {D : Nat → Prop} {a b : Activity},
    CleanBut data D plan s → plan.getD i [] = xs ++ as ++ ms ++ bs ++ ys →
    as.length = n → bs.length = n → Phase.NoDepot as → Phase.NoDepot bs →
    (((∀ x l, as = x :: l → a = x) ∧ (∀ x l, bs = x :: l → b = x))
      ∨ ((∀ x l, as = x :: l → b = x) ∧ (∀ x l, bs = x :: l → a = x))) →
    CleanBut data (fun k => D k ∨ k = i)
      (plan.set i (xs ++ bs ++ ms ++ as ++ ys)) (Swap.swapLoop n a b s) := by
  intro n
  induction n with
  | zero =>
    intro xs as ms bs ys plan s D a b h hi ha hb _ _ _
    have := List.eq_nil_of_length_eq_zero ha; subst this
    have := List.eq_nil_of_length_eq_zero hb; subst this
    rw [← hi, set_getD_self]
    exact h.weaken (fun k _ hk => .inl hk)
  | succ n ih =>
    intro xs as ms bs ys plan s D a b h hi ha hb hda hdb hh
    cases as with
    | nil => simp at ha
    | cons x as =>
      cases bs with
      | nil => simp at hb
      | cons y bs =>
        have htx : x.type ≠ .depot := hda x (by simp)
        have hty : y.type ≠ .depot := hdb y (by simp)
        have hi' : plan.getD i [] = xs ++ x :: ((as ++ ms) ++ y :: (bs ++ ys)) := by rw [hi]; simp
        have hil : i < data.numVehicles := h.1.lt_of_mem (a := x) (by rw [hi']; simp)
        obtain ⟨h1, h1'⟩ := h.swap_same htx hty hi'
        have gi : (plan.set i (xs ++ y :: ((as ++ ms) ++ x :: (bs ++ ys)))).getD i []
            = xs ++ y :: ((as ++ ms) ++ x :: (bs ++ ys)) := getD_set_self (h.1.lt_length hil) _
        have hplace : ∀ {t : SSol}, CleanBut data (fun k => D k ∨ k = i)
            (plan.set i (xs ++ y :: ((as ++ ms) ++ x :: (bs ++ ys)))) t →
            t.place y = some (i, xs.length + 1)
            ∧ t.place x = some (i, (xs ++ y :: (as ++ ms)).length + 1) := by
          intro t ht
          exact ⟨ht.1.place hil hty gi,
            ht.1.place hil htx (xs := xs ++ y :: (as ++ ms)) (ys := bs ++ ys) (by rw [gi]; simp)⟩
        have hnext : ∀ {t : SSol}, CleanBut data (fun k => D k ∨ k = i)
            (plan.set i (xs ++ y :: ((as ++ ms) ++ x :: (bs ++ ys)))) t →
            (∀ z l, as = z :: l → ((t.route i).node (xs.length + 1 + 1)).activity = z)
            ∧ (∀ z l, bs = z :: l →
              ((t.route i).node ((xs ++ y :: (as ++ ms)).length + 1 + 1)).activity = z) := by
          intro t ht
          have hv := ht.1.visits i hil
          rw [gi] at hv
          constructor
          · rintro z l rfl
            exact node_after (ys := l ++ ms ++ x :: (bs ++ ys)) (by simpa using hv)
          · rintro z l rfl
            exact node_after (xs := xs ++ y :: (as ++ ms)) (a := x) (ys := l ++ ys) (by simpa using hv)
        have hrec : ∀ {t : SSol} {c d : Activity}, CleanBut data (fun k => D k ∨ k = i)
            (plan.set i (xs ++ y :: ((as ++ ms) ++ x :: (bs ++ ys)))) t →
            (((∀ z l, as = z :: l → c = z) ∧ (∀ z l, bs = z :: l → d = z))
              ∨ ((∀ z l, as = z :: l → d = z) ∧ (∀ z l, bs = z :: l → c = z))) →
            CleanBut data (fun k => D k ∨ k = i)
              (plan.set i (xs ++ (y :: bs) ++ ms ++ (x :: as) ++ ys)) (Swap.swapLoop n c d t) := by
          intro t c d ht hcd
          have key := ih (xs := xs ++ [y]) (as := as) (ms := ms ++ [x]) (bs := bs) (ys := ys) ht
            (by rw [gi]; simp) (by simpa using ha) (by simpa using hb)
            (fun z hz => hda z (by simp [hz])) (fun z hz => hdb z (by simp [hz])) hcd
          rw [List.set_set] at key
          simp only [List.append_assoc, List.cons_append] at key ⊢
          refine key.weaken ?_
          rintro k - ((hk | hk) | hk) <;> simp [hk]
        rw [Swap.swapLoop]
        rcases hh with ⟨hha, hhb⟩ | ⟨hha, hhb⟩
        · have := hha x as rfl; subst this
          have := hhb y bs rfl; subst this
          rw [(hplace h1).1, (hplace h1).2]
          dsimp only
          exact hrec h1 (.inr ⟨(hnext h1).1, (hnext h1).2⟩)
        · have := hha x as rfl; subst this
          have := hhb y bs rfl; subst this
          rw [(hplace h1').1, (hplace h1').2]
          dsimp only
          exact hrec h1' (.inl ⟨(hnext h1').1, (hnext h1').2⟩)

end SSol
end PyVRP
