import Verif.Model.Penalty
/-!
# Lemmas about the penalty manager
-/
namespace PyVRP
namespace PenaltyManager

theorem le_clip {x lo hi : Rat} (h : lo ≤ hi) : lo ≤ clip x lo hi ∧ clip x lo hi ≤ hi := by
  unfold clip; grind

/-- One penalty and its recent violations. -/
def slot (R : Rounding) (params : PenaltyParams) (s : Rat × List Int) (v : Int) : Rat × List Int :=
  if ((s.2 ++ [v]).length : Int) ≠ params.solutionsBetweenUpdates then (s.1, s.2 ++ [v])
  else (compute R params s.1 (fmean R ((s.2 ++ [v]).map (fun v => if v = 0 then 1 else 0))), [])

/-- The `i`-th penalty and its recent violations. -/
def slotAt (pm : PenaltyManager) (i : Nat) : Option (Rat × List Int) :=
  match pm.penalties[i]?, pm.violLists[i]? with
  | some p, some l => some (p, l)
  | _, _ => none

/-- There is a list of violations for each penalty. -/
def WF (pm : PenaltyManager) : Prop := pm.violLists.length = pm.penalties.length

theorem registerIdx_ok (R : Rounding) (pm : PenaltyManager) (idx : Nat) (v : Int) (hw : pm.WF)
    (hi : idx < pm.penalties.length) :
    ∃ pm', registerIdx R pm idx v = .ok pm' ∧ pm'.params = pm.params ∧ pm'.WF ∧
      pm'.penalties.length = pm.penalties.length ∧
      (∀ i, i ≠ idx → pm'.slotAt i = pm.slotAt i) ∧
      pm'.slotAt idx = (pm.slotAt idx).map (fun s => slot R pm.params s v) := by
  have hw' : pm.violLists.length = pm.penalties.length := hw
  have hi' : idx < pm.violLists.length := by omega
  simp only [registerIdx, List.getElem?_eq_getElem hi, List.getElem?_eq_getElem hi']
  split
  · rename_i hc
    refine ⟨_, rfl, rfl, by simp [WF, hw'], rfl, ?_, ?_⟩
    · intro i hne
      simp only [slotAt, List.getElem?_set_ne (Ne.symm hne)]
    · simp [slotAt, List.getElem?_eq_getElem hi, List.getElem?_eq_getElem hi', slot, hc,
        List.getElem?_set_self hi']
      intro h
      exact absurd (by simpa using h) hc
  · rename_i hc
    refine ⟨_, rfl, rfl, by simp [WF, hw'], by simp, ?_, ?_⟩
    · intro i hne
      simp only [slotAt, List.getElem?_set_ne (Ne.symm hne)]
    · simp only [slotAt, List.getElem?_eq_getElem hi, List.getElem?_eq_getElem hi', slot,
        List.getElem?_set_self hi, List.getElem?_set_self hi', Option.map_some, if_neg hc]

theorem registerFrom_ok (R : Rounding) : ∀ (vs : List Int) (pm : PenaltyManager) (idx : Nat), pm.WF →
    idx + vs.length ≤ pm.penalties.length →
    ∃ pm', registerFrom R pm idx vs = .ok pm' ∧ pm'.params = pm.params ∧ pm'.WF ∧
      pm'.penalties.length = pm.penalties.length ∧
      (∀ i, i < idx → pm'.slotAt i = pm.slotAt i) ∧
      (∀ j, (h : j < vs.length) →
        pm'.slotAt (idx + j) = (pm.slotAt (idx + j)).map (fun s => slot R pm.params s vs[j])) := by
  intro vs
  induction vs with
  | nil => intro pm idx hw _; exact ⟨pm, rfl, rfl, hw, rfl, fun _ _ => rfl, fun _ h => by simp at h⟩
  | cons v vs ih =>
    intro pm idx hw hlen
    simp only [List.length_cons] at hlen
    obtain ⟨pm1, h1, hp1, hw1, hl1, ho1, hs1⟩ := registerIdx_ok R pm idx v hw (by omega)
    obtain ⟨pm2, h2, hp2, hw2, hl2, ho2, hs2⟩ := ih pm1 (idx + 1) hw1 (by omega)
    refine ⟨pm2, by simp only [registerFrom, h1, h2], by rw [hp2, hp1], hw2, by omega, ?_, ?_⟩
    · intro i hi
      rw [ho2 i (by omega), ho1 i (by omega)]
    · intro j hj
      cases j with
      | zero =>
        rw [Nat.add_zero, ho2 idx (by omega), hs1]; rfl
      | succ j =>
        have := hs2 j (by simpa using hj)
        rw [show idx + (j + 1) = idx + 1 + j by omega, this, ho1 _ (by omega), hp1]
        rfl

/-- The violations that `register` looks at. -/
def violations (sol : Solution) : List Int := sol.excessLoad ++ [sol.timeWarp, sol.excessDistance]

theorem register_ok (R : Rounding) (pm : PenaltyManager) (sol : Solution) (hw : pm.WF)
    (hl : (violations sol).length = pm.penalties.length) :
    ∃ pm', register R pm sol = .ok pm' ∧ pm'.params = pm.params ∧ pm'.WF ∧
      pm'.penalties.length = pm.penalties.length ∧
      (∀ i, (h : i < (violations sol).length) →
        pm'.slotAt i = (pm.slotAt i).map (fun s => slot R pm.params s (violations sol)[i])) := by
  obtain ⟨pm', h, hp, hw', hl', _, hs⟩ := registerFrom_ok R (violations sol) pm 0 hw (by omega)
  refine ⟨pm', h, hp, hw', hl', fun i hi => ?_⟩
  have := hs i hi
  simpa using this

/-- Registering several solutions, one after the other. -/
def registerAll (R : Rounding) (pm : PenaltyManager) : List Solution → Except Error PenaltyManager
  | [] => .ok pm
  | s :: rest =>
    match register R pm s with
    | .error e => .error e
    | .ok pm' => registerAll R pm' rest

/-- The `i`-th violations of the solutions. -/
def column (i : Nat) (sols : List Solution) : List Int := sols.map (fun s => (violations s).getD i 0)

theorem registerAll_ok (R : Rounding) : ∀ (sols : List Solution) (pm : PenaltyManager), pm.WF →
    (∀ s ∈ sols, (violations s).length = pm.penalties.length) →
    ∃ pm', registerAll R pm sols = .ok pm' ∧ pm'.params = pm.params ∧ pm'.WF ∧
      pm'.penalties.length = pm.penalties.length ∧
      (∀ i, i < pm.penalties.length →
        pm'.slotAt i = (pm.slotAt i).map (fun s => (column i sols).foldl (slot R pm.params) s)) := by
  intro sols
  induction sols with
  | nil =>
    intro pm hw _
    exact ⟨pm, rfl, rfl, hw, rfl, fun i _ => by simp [column]⟩
  | cons s sols ih =>
    intro pm hw hl
    obtain ⟨pm1, h1, hp1, hw1, hl1, hs1⟩ := register_ok R pm s hw (hl s (by simp))
    obtain ⟨pm2, h2, hp2, hw2, hl2, hs2⟩ := ih pm1 hw1 (fun t ht => by rw [hl t (by simp [ht]), hl1])
    refine ⟨pm2, by simp only [registerAll, h1, h2], by rw [hp2, hp1], hw2, by omega, fun i hi => ?_⟩
    have hi' : i < (violations s).length := by rw [hl s (by simp)]; exact hi
    rw [hs2 i (by omega), hs1 i hi', hp1, Option.map_map]
    congr 1
    funext t
    simp [column, List.getD_eq_getElem?_getD, List.getElem?_eq_getElem hi']

theorem registerAll_append (R : Rounding) : ∀ (a b : List Solution) (pm pm' : PenaltyManager),
    registerAll R pm a = .ok pm' → registerAll R pm (a ++ b) = registerAll R pm' b := by
  intro a
  induction a with
  | nil => intro b pm pm' h; cases h; rfl
  | cons s a ih =>
    intro b pm pm' h
    simp only [registerAll, List.cons_append] at h ⊢
    cases hr : register R pm s with
    | error e => rw [hr] at h; cases h
    | ok pm1 => rw [hr] at h; exact ih b pm1 pm' h

/-- Up to the next update, violations are only collected. -/
theorem slot_collect (R : Rounding) (params : PenaltyParams) (p : Rat) :
    ∀ (vs l : List Int), ((l ++ vs).length : Int) < params.solutionsBetweenUpdates →
      vs.foldl (slot R params) (p, l) = (p, l ++ vs) := by
  intro vs
  induction vs with
  | nil => intro l _; simp
  | cons v vs ih =>
    intro l h
    have h1 : slot R params (p, l) v = (p, l ++ [v]) := by
      simp only [slot]
      rw [if_pos]
      simp only [List.length_append, List.length_cons, List.length_nil] at h ⊢
      omega
    rw [List.foldl_cons, h1, ih (l ++ [v]) (by simpa using h)]
    simp

theorem slot_update (R : Rounding) (params : PenaltyParams) (p : Rat) (vs : List Int)
    (hN : 1 ≤ params.solutionsBetweenUpdates) (h : (vs.length : Int) = params.solutionsBetweenUpdates) :
    vs.foldl (slot R params) (p, [])
      = (compute R params p (fmean R (vs.map (fun v => if v = 0 then 1 else 0))), []) := by
  have hne : vs ≠ [] := by rintro rfl; simp at h; omega
  have hd : vs.dropLast ++ [vs.getLast hne] = vs := List.dropLast_concat_getLast hne
  have hlen : vs.dropLast.length = vs.length - 1 := by simp
  have hpos : 0 < vs.length := List.length_pos_iff.2 hne
  conv => lhs; rw [← hd]
  rw [List.foldl_append, slot_collect R params p vs.dropLast [] (by simp; omega)]
  simp only [List.foldl_cons, List.foldl_nil, List.nil_append, slot]
  rw [hd, if_neg (by omega)]

/-- The number of collected violations. -/
theorem slot_length (R : Rounding) (params : PenaltyParams) (N : Nat)
    (hN : params.solutionsBetweenUpdates = N) (h1 : 1 ≤ N) :
    ∀ (vs : List Int) (s : Rat × List Int) (k : Nat), s.2.length = k % N →
      (vs.foldl (slot R params) s).2.length = (k + vs.length) % N := by
  intro vs
  induction vs with
  | nil => intro s k h; simpa using h
  | cons v vs ih =>
    intro s k h
    rw [List.foldl_cons, ih _ (k + 1), List.length_cons]
    · rw [show k + 1 + vs.length = k + (vs.length + 1) by omega]
    · have hlt : k % N < N := Nat.mod_lt _ (by omega)
      have hm : (k + 1) % N = (k % N + 1) % N := by simp [Nat.add_mod]
      simp only [slot]
      rw [hm]
      split
      · rename_i hc
        simp only [List.length_append, List.length_cons, List.length_nil, hN, h] at hc ⊢
        exact (Nat.mod_eq_of_lt (show k % N + 1 < N by omega)).symm
      · rename_i hc
        simp only [List.length_append, List.length_cons, List.length_nil, hN, h] at hc ⊢
        rw [show k % N + 1 = N by omega, Nat.mod_self]

end PenaltyManager
end PyVRP
