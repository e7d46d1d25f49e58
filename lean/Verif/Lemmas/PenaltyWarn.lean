import Verif.Lemmas.Penalty
/-!
# When the penalty manager warns
-/
namespace PyVRP
namespace PenaltyManager

/-- A penalty, its recent violations, and the average of the violations before. -/
structure Full where
  penalty : Rat
  viols : List Int
  prev : Option Rat

/-- The `i`-th of these. -/
def full (pm : PenaltyManager) (i : Nat) : Option Full :=
  match pm.penalties[i]?, pm.violLists[i]?, pm.prevAvgViolations[i]? with
  | some p, some l, some a => some ⟨p, l, a⟩
  | _, _, _ => none

def Full.step (R : Rounding) (params : PenaltyParams) (s : Full) (v : Int) : Full :=
  if ((s.viols ++ [v]).length : Int) ≠ params.solutionsBetweenUpdates then
    { s with viols := s.viols ++ [v] }
  else ⟨compute R params s.penalty (fmean R ((s.viols ++ [v]).map (fun v => if v = 0 then 1 else 0))),
    [], some (fmean R (s.viols ++ [v]))⟩

/-- A warning at an update with these violations. -/
def Full.warnsWith (R : Rounding) (params : PenaltyParams) (s : Full) (vs : List Int) : Prop :=
  params.maxPenalty ≤ s.penalty
    ∧ params.feasTolerance
      ≤ R.rnd (params.targetFeasible - fmean R (vs.map (fun v => if v = 0 then 1 else 0)))
    ∧ ∃ a, s.prev = some a ∧ a ≤ fmean R vs

/-- A warning when this violation is registered. -/
def Full.warns (R : Rounding) (params : PenaltyParams) (s : Full) (v : Int) : Prop :=
  ((s.viols ++ [v]).length : Int) = params.solutionsBetweenUpdates
    ∧ s.warnsWith R params (s.viols ++ [v])

/-- All lists have the same length. -/
structure Lined (pm : PenaltyManager) (n : Nat) : Prop where
  penalties : pm.penalties.length = n
  viols : pm.violLists.length = n
  prev : pm.prevAvgViolations.length = n

theorem Lined.full {pm : PenaltyManager} {n i : Nat} (h : pm.Lined n) (hi : i < n) :
    ∃ s, pm.full i = some s := by
  have h1 : i < pm.penalties.length := by rw [h.penalties]; exact hi
  have h2 : i < pm.violLists.length := by rw [h.viols]; exact hi
  have h3 : i < pm.prevAvgViolations.length := by rw [h.prev]; exact hi
  unfold PenaltyManager.full
  rw [List.getElem?_eq_getElem h1, List.getElem?_eq_getElem h2, List.getElem?_eq_getElem h3]
  exact ⟨_, rfl⟩

theorem full_slot {pm : PenaltyManager} {i : Nat} {s : Full} (h : pm.full i = some s) :
    pm.slotAt i = some (s.penalty, s.viols) := by
  unfold full at h
  unfold slotAt
  split at h
  · rename_i h1 h2 h3
    cases h
    rw [h1, h2]
  · cases h

open Classical in
theorem registerIdx_full (R : Rounding) (pm : PenaltyManager) (n idx : Nat) (v : Int)
    (hw : pm.Lined n) (s : Full) (hs : pm.full idx = some s) :
    ∃ pm', registerIdx R pm idx v = .ok pm' ∧ pm'.params = pm.params ∧ pm'.Lined n
      ∧ (∀ i, i ≠ idx → pm'.full i = pm.full i)
      ∧ pm'.full idx = some (s.step R pm.params v)
      ∧ pm'.warnings = pm.warnings + if s.warns R pm.params v then 1 else 0 := by
  obtain ⟨hw1, hw2, hw3⟩ := hw
  unfold full at hs
  split at hs
  case h_2 => cases hs
  rename_i p l a h1 h2 h3
  cases hs
  have hi1 := (List.getElem?_eq_some_iff.1 h1).1
  have hi2 := (List.getElem?_eq_some_iff.1 h2).1
  have hi3 := (List.getElem?_eq_some_iff.1 h3).1
  simp only [registerIdx, h1, h2]
  split
  · rename_i hc
    refine ⟨_, rfl, rfl, ⟨hw1, by simp [hw2], hw3⟩, ?_, ?_, ?_⟩
    · intro i hne
      simp only [full, List.getElem?_set_ne (Ne.symm hne)]
    · simp only [full, h1, h3, List.getElem?_set_self hi2, Full.step, if_pos hc]
    · dsimp only
      rw [if_neg (fun h => hc h.1)]
      rfl
  · rename_i hc
    refine ⟨_, rfl, rfl, ⟨by simp [hw1], by simp [hw2], by simp [hw3]⟩, ?_, ?_, ?_⟩
    · intro i hne
      simp only [full, List.getElem?_set_ne (Ne.symm hne)]
    · simp only [full, List.getElem?_set_self hi1, List.getElem?_set_self hi2,
        List.getElem?_set_self hi3, Full.step, if_neg hc]
    · dsimp only
      rw [h3]
      have hc' := Decidable.not_not.1 hc
      simp only [Full.warns, Full.warnsWith, hc', true_and]
      cases a with
      | none => simp
      | some x =>
        simp only [Option.join_some, Bool.and_eq_true, decide_eq_true_eq, and_assoc, ge_iff_le,
          Option.some.injEq, exists_eq_left']
        split <;> simp

open Classical in
/-- Number of warnings of one call to `register`. -/
noncomputable def warned (R : Rounding) (pm : PenaltyManager) (idx : Nat) : List Int → Nat
  | [] => 0
  | v :: vs => (if ∃ s, pm.full idx = some s ∧ s.warns R pm.params v then 1 else 0)
      + warned R pm (idx + 1) vs

theorem warned_congr (R : Rounding) {pm pm' : PenaltyManager} (hp : pm'.params = pm.params) :
    ∀ (vs : List Int) (idx : Nat), (∀ i, idx ≤ i → pm'.full i = pm.full i) →
      warned R pm' idx vs = warned R pm idx vs := by
  intro vs
  induction vs with
  | nil => intro idx _; rfl
  | cons v vs ih =>
    intro idx h
    have he : (∃ s, pm'.full idx = some s ∧ s.warns R pm'.params v)
        ↔ (∃ s, pm.full idx = some s ∧ s.warns R pm.params v) := by
      rw [h idx (Nat.le_refl _), hp]
    rw [warned, warned, ih (idx + 1) fun i hi => h i (by omega)]
    by_cases hc : ∃ s, pm.full idx = some s ∧ s.warns R pm.params v
    · rw [if_pos hc, if_pos (he.2 hc)]
    · rw [if_neg hc, if_neg fun h => hc (he.1 h)]

theorem registerFrom_full (R : Rounding) (n : Nat) : ∀ (vs : List Int) (pm : PenaltyManager) (idx : Nat),
    pm.Lined n → idx + vs.length ≤ n →
    ∃ pm', registerFrom R pm idx vs = .ok pm' ∧ pm'.params = pm.params ∧ pm'.Lined n
      ∧ (∀ i, i < idx → pm'.full i = pm.full i)
      ∧ (∀ j, (h : j < vs.length) →
        pm'.full (idx + j) = (pm.full (idx + j)).map (fun s => s.step R pm.params vs[j]))
      ∧ pm'.warnings = pm.warnings + warned R pm idx vs := by
  intro vs
  induction vs with
  | nil =>
    intro pm idx hw _
    exact ⟨pm, rfl, rfl, hw, fun _ _ => rfl, fun _ h => by simp at h, rfl⟩
  | cons v vs ih =>
    intro pm idx hw hlen
    simp only [List.length_cons] at hlen
    obtain ⟨s, hs⟩ := hw.full (i := idx) (by omega)
    obtain ⟨pm1, h1, hp1, hw1, ho1, hs1, hn1⟩ := registerIdx_full R pm n idx v hw s hs
    obtain ⟨pm2, h2, hp2, hw2, ho2, hs2, hn2⟩ := ih pm1 (idx + 1) hw1 (by omega)
    refine ⟨pm2, by simp only [registerFrom, h1, h2], by rw [hp2, hp1], hw2, ?_, ?_, ?_⟩
    · intro i hi
      rw [ho2 i (by omega), ho1 i (by omega)]
    · intro j hj
      cases j with
      | zero =>
        rw [Nat.add_zero, ho2 idx (by omega), hs1, hs]; rfl
      | succ j =>
        have := hs2 j (by simpa using hj)
        rw [show idx + (j + 1) = idx + 1 + j by omega, this, ho1 _ (by omega), hp1]
        rfl
    · rw [hn2, hn1, warned_congr R hp1 vs (idx + 1) fun i hi => ho1 i (by omega)]
      have he : (∃ t, pm.full idx = some t ∧ t.warns R pm.params v) ↔ s.warns R pm.params v := by
        simp only [hs, Option.some.injEq, exists_eq_left']
      rw [warned]
      by_cases hc : s.warns R pm.params v
      · rw [if_pos hc, if_pos (he.2 hc)]; omega
      · rw [if_neg hc, if_neg fun h => hc (he.1 h)]; omega

theorem register_full (R : Rounding) (n : Nat) (pm : PenaltyManager) (sol : Solution)
    (hw : pm.Lined n) (hl : (violations sol).length = n) :
    ∃ pm', register R pm sol = .ok pm' ∧ pm'.params = pm.params ∧ pm'.Lined n
      ∧ (∀ i < n, pm'.full i
        = (pm.full i).map (fun s => s.step R pm.params ((violations sol).getD i 0)))
      ∧ pm'.warnings = pm.warnings + warned R pm 0 (violations sol) := by
  obtain ⟨pm', h, hp, hw', -, hs, hn⟩ := registerFrom_full R n (violations sol) pm 0 hw (by omega)
  refine ⟨pm', h, hp, hw', fun i hi => ?_, hn⟩
  have := hs i (by omega)
  rw [Nat.zero_add] at this
  rw [this, List.getD_eq_getElem?_getD, List.getElem?_eq_getElem (by omega), Option.getD_some]

open Classical in
theorem warned_eq (R : Rounding) (pm : PenaltyManager) : ∀ (vs : List Int) (idx : Nat),
    warned R pm idx vs = ((List.range vs.length).filter fun j => decide
      (∃ s, pm.full (idx + j) = some s ∧ s.warns R pm.params (vs.getD j 0))).length := by
  intro vs
  induction vs with
  | nil => intro idx; rfl
  | cons v vs ih =>
    intro idx
    rw [warned, ih, List.length_cons, List.range_succ_eq_map, List.filter_cons, List.filter_map]
    have : ((fun j => decide (∃ s, pm.full (idx + j) = some s
          ∧ s.warns R pm.params ((v :: vs).getD j 0))) ∘ Nat.succ)
        = fun j => decide (∃ s, pm.full (idx + 1 + j) = some s ∧ s.warns R pm.params (vs.getD j 0)) := by
      funext j
      rw [Function.comp_apply, show idx + Nat.succ j = idx + 1 + j by omega, Nat.succ_eq_add_one,
        List.getD_cons_succ]
    rw [this]
    simp only [List.getD_cons_zero, decide_eq_true_eq, Nat.add_zero]
    by_cases hc : ∃ s, pm.full idx = some s ∧ s.warns R pm.params v
    · rw [if_pos hc, if_pos hc, List.length_cons, List.length_map]; omega
    · rw [if_neg hc, if_neg hc, List.length_map]; omega

/-- Before the next update nothing is warned about. -/
theorem warned_none (R : Rounding) (pm : PenaltyManager) : ∀ (vs : List Int) (idx : Nat),
    (∀ i s, pm.full i = some s → ((s.viols.length + 1 : Nat) : Int) ≠ pm.params.solutionsBetweenUpdates) →
    warned R pm idx vs = 0 := by
  intro vs
  induction vs with
  | nil => intro idx _; rfl
  | cons v vs ih =>
    intro idx h
    rw [warned, ih _ h, if_neg]
    rintro ⟨s, hs, hw, -⟩
    apply h _ s hs
    simpa using hw

/-- Registrations before the next update: violations are collected. -/
theorem registerAll_collect (R : Rounding) (n : Nat) : ∀ (sols : List Solution) (pm : PenaltyManager),
    pm.Lined n → (∀ s ∈ sols, (violations s).length = n) →
    (∀ i s, pm.full i = some s →
      ((s.viols.length + sols.length : Nat) : Int) < pm.params.solutionsBetweenUpdates) →
    ∃ pm', registerAll R pm sols = .ok pm' ∧ pm'.params = pm.params ∧ pm'.Lined n
      ∧ (∀ i < n, pm'.full i
          = (pm.full i).map (fun s => { s with viols := s.viols ++ column i sols }))
      ∧ pm'.warnings = pm.warnings := by
  intro sols
  induction sols with
  | nil =>
    intro pm hw _ _
    refine ⟨pm, rfl, rfl, hw, fun i _ => ?_, rfl⟩
    cases pm.full i <;> simp [column]
  | cons sol sols ih =>
    intro pm hw hl hk
    obtain ⟨pm1, h1, hp1, hw1, hs1, hn1⟩ := register_full R n pm sol hw (hl sol (by simp))
    have hstep : ∀ i s v, pm.full i = some s →
        s.step R pm.params v = { s with viols := s.viols ++ [v] } := by
      intro i s v hs
      have := hk i s hs
      unfold Full.step
      rw [if_pos]
      simp only [List.length_append, List.length_cons, List.length_nil] at this ⊢
      omega
    have hfull : ∀ i < n, pm1.full i = (pm.full i).map
        (fun s => { s with viols := s.viols ++ [(violations sol).getD i 0] }) := by
      intro i hi
      rw [hs1 i hi]
      cases hf : pm.full i with
      | none => rfl
      | some s => rw [Option.map_some, Option.map_some, hstep i s _ hf]
    have hlt : ∀ i s, pm1.full i = some s → i < n := by
      intro i s hs
      unfold full at hs
      split at hs
      · rename_i h _ _
        have := (List.getElem?_eq_some_iff.1 h).1
        rw [hw1.penalties] at this
        exact this
      · cases hs
    obtain ⟨pm2, h2, hp2, hw2, hs2, hn2⟩ := ih pm1 hw1 (fun t ht => hl t (by simp [ht]))
      (by
        intro i s hs
        rw [hfull i (hlt i s hs)] at hs
        cases hf : pm.full i with
        | none => rw [hf] at hs; cases hs
        | some t =>
          rw [hf, Option.map_some, Option.some_inj] at hs
          subst hs
          have := hk i t hf
          rw [hp1]
          simp only [List.length_append, List.length_cons, List.length_nil] at this ⊢
          omega)
    refine ⟨pm2, by simp only [registerAll, h1, h2], by rw [hp2, hp1], hw2, ?_, ?_⟩
    · intro i hi
      rw [hs2 i hi, hfull i hi, Option.map_map]
      congr 1
      funext s
      simp [column]
    · rw [hn2, hn1, warned_none R pm _ _ ?_, Nat.add_zero]
      intro i s hs
      have := hk i s hs
      simp only [List.length_cons] at this
      omega

open Classical in
/-- All registrations up to and including an update. -/
theorem registerAll_update (R : Rounding) (n : Nat) (sols : List Solution) (pm : PenaltyManager)
    (hw : pm.Lined n) (hl : ∀ s ∈ sols, (violations s).length = n)
    (he : ∀ i s, pm.full i = some s → s.viols = [])
    (hN : 1 ≤ pm.params.solutionsBetweenUpdates)
    (hlen : (sols.length : Int) = pm.params.solutionsBetweenUpdates) :
    ∃ pm', registerAll R pm sols = .ok pm' ∧ pm'.params = pm.params ∧ pm'.Lined n
      ∧ (∀ i < n, ∃ s p, pm.full i = some s
          ∧ pm'.full i = some ⟨p, [], some (fmean R (column i sols))⟩)
      ∧ pm'.warnings = pm.warnings + ((List.range n).filter fun i => decide
          (∃ s, pm.full i = some s ∧ s.warnsWith R pm.params (column i sols))).length := by
  have hne : sols ≠ [] := by rintro rfl; simp at hlen; omega
  have hd : sols.dropLast ++ [sols.getLast hne] = sols := List.dropLast_concat_getLast hne
  have hpos : 0 < sols.length := List.length_pos_iff.2 hne
  obtain ⟨pm1, h1, hp1, hw1, hs1, hn1⟩ := registerAll_collect R n sols.dropLast pm hw
    (fun s hs => hl s (List.dropLast_subset _ hs)) (by
      intro i s hs
      rw [he i s hs]
      simp only [List.length_nil, List.length_dropLast]
      omega)
  have hll := hl _ (List.getLast_mem hne)
  obtain ⟨pm2, h2, hp2, hw2, hs2, hn2⟩ := register_full R n pm1 (sols.getLast hne) hw1 hll
  have hcol : ∀ i, column i sols.dropLast ++ [(violations (sols.getLast hne)).getD i 0]
      = column i sols := by
    intro i
    conv => rhs; rw [← hd]
    simp [column]
  have hf1 : ∀ i < n, ∀ s, pm.full i = some s →
      pm1.full i = some { s with viols := column i sols.dropLast } := by
    intro i hi s hs
    rw [hs1 i hi, hs, Option.map_some, he i s hs, List.nil_append]
  refine ⟨pm2, ?_, by rw [hp2, hp1], hw2, ?_, ?_⟩
  · rw [← hd, registerAll_append R _ _ _ _ h1]
    simp only [registerAll, h2]
  · intro i hi
    obtain ⟨s, hs⟩ := hw.full hi
    refine ⟨s, compute R pm1.params s.penalty
      (fmean R ((column i sols).map (fun v => if v = 0 then 1 else 0))), hs, ?_⟩
    rw [hs2 i hi, hf1 i hi s hs, Option.map_some]
    simp only [Full.step, hcol]
    rw [if_neg (by simp [column]; rw [hp1]; omega)]
  · rw [hn2, hn1, warned_eq, hll]
    congr 2
    apply List.filter_congr
    intro i hi
    have hi' := List.mem_range.1 hi
    obtain ⟨s, hs⟩ := hw.full hi'
    rw [Nat.zero_add, decide_eq_decide]
    simp only [hf1 i hi' s hs, hs, Option.some.injEq, exists_eq_left']
    unfold Full.warns
    dsimp only
    rw [hcol, hp1]
    constructor
    · rintro ⟨-, h⟩; exact h
    · intro h; exact ⟨by simp [column]; omega, h⟩

/-- Registering never changes the shape. -/
theorem registerAll_lined (R : Rounding) (n : Nat) : ∀ (sols : List Solution) (pm : PenaltyManager),
    pm.Lined n → (∀ s ∈ sols, (violations s).length = n) →
    ∃ pm', registerAll R pm sols = .ok pm' ∧ pm'.params = pm.params ∧ pm'.Lined n := by
  intro sols
  induction sols with
  | nil => intro pm hw _; exact ⟨pm, rfl, rfl, hw⟩
  | cons sol sols ih =>
    intro pm hw hl
    obtain ⟨pm1, h1, hp1, hw1, -, -⟩ := register_full R n pm sol hw (hl sol (by simp))
    obtain ⟨pm2, h2, hp2, hw2⟩ := ih pm1 hw1 (fun t ht => hl t (by simp [ht]))
    exact ⟨pm2, by simp only [registerAll, h1, h2], by rw [hp2, hp1], hw2⟩

theorem make_lined (initial : List Rat × Rat × Rat) (params : PenaltyParams) :
    (PenaltyManager.make initial params).Lined (initial.1.length + 2) :=
  ⟨by simp [make], by simp [make], by simp [make]⟩

theorem full_prev_make (initial : List Rat × Rat × Rat) (params : PenaltyParams) (i : Nat) (s : Full)
    (h : (PenaltyManager.make initial params).full i = some s) : s.prev = none ∧ s.viols = [] := by
  unfold full at h
  split at h
  · rename_i h1 h2 h3
    cases h
    simp only [make, List.getElem?_map, Option.map_eq_some_iff] at h2 h3
    obtain ⟨_, _, rfl⟩ := h2
    obtain ⟨_, _, rfl⟩ := h3
    exact ⟨rfl, rfl⟩
  · cases h

end PenaltyManager
end PyVRP
