import Verif.Model.Stop
/-!
# C30: stopping criteria
-/
namespace PyVRP

namespace Spec

/-- The answer to the last of the calls `costs`, when every earlier call was made too. -/
def lastAnswer (c : Criterion) : List Int → Bool
  | [] => false
  | [x] => (c.call x).2
  | x :: rest => lastAnswer (c.call x).1 rest

/-- The criterion has answered `True` in one of the calls. -/
def stops (c : Criterion) : List Int → Bool
  | [] => false
  | x :: rest => (c.call x).2 || stops (c.call x).1 rest

end Spec
open Spec

theorem lastAnswer_cons (c : Criterion) (x : Int) (rest : List Int) (h : rest ≠ []) :
    lastAnswer c (x :: rest) = lastAnswer (c.call x).1 rest := by
  cases rest with
  | nil => exact absurd rfl h
  | cons y ys => rfl

/-- **C30.** `MaxIterations(n)` raises exactly for negative `n`; otherwise it answers `False` to the
first `n` calls and `True` to all later ones, whatever the costs. -/
theorem C30_max_iterations (n : Int) :
    (n < 0 → ∃ e, Criterion.makeMaxIterations n = .error e) ∧
    (0 ≤ n → ∃ c, Criterion.makeMaxIterations n = .ok c ∧
      ∀ costs : List Int, costs ≠ [] → (lastAnswer c costs = true ↔ n < costs.length)) := by
  constructor
  · intro h; exact ⟨_, if_pos h⟩
  · intro h
    refine ⟨.maxIterations n 0, if_neg (by omega), ?_⟩
    have : ∀ (costs : List Int) (k : Nat), costs ≠ [] →
        (lastAnswer (.maxIterations n k) costs = true ↔ n < k + costs.length) := by
      intro costs
      induction costs with
      | nil => intro k h; exact absurd rfl h
      | cons x rest ih =>
        intro k _
        by_cases hr : rest = []
        · subst hr
          simp [lastAnswer, Criterion.call]
        · rw [lastAnswer_cons _ _ _ hr]
          simp only [Criterion.call]
          rw [ih _ hr]
          simp only [List.length_cons]
          omega
    intro costs hc
    simpa using this costs 0 hc

/-- The number of costs after the last strict improvement decides whether the last `n` brought one. -/
theorem no_improvement_iff (p mid : List Int) (t : Int) (n : Nat) (hp : ∀ x ∈ p, t < x)
    (hm : ∀ x ∈ mid, t ≤ x) :
    (∃ before recent, p ++ t :: mid = before ++ recent ∧ recent.length = n ∧
      ∃ m ∈ before, ∀ x ∈ recent, m ≤ x) ↔ n ≤ mid.length := by
  constructor
  · rintro ⟨before, recent, he, hl, m, hmb, hx⟩
    rcases List.append_eq_append_iff.1 he with ⟨as, h1, h2⟩ | ⟨bs, h1, h2⟩
    · cases as with
      | nil =>
        simp only [List.nil_append, List.append_nil] at h1 h2
        exfalso
        have h3 := hx t (by rw [← h2]; simp)
        have h4 := hp m (by rw [← h1]; exact hmb)
        omega
      | cons a as =>
        have := congrArg List.length h2
        simp only [List.length_cons, List.length_append, hl] at this
        omega
    · exfalso
      have h3 := hx t (by rw [h2]; simp)
      have h4 := hp m (by rw [h1]; simp [hmb])
      omega
  · intro h
    refine ⟨p ++ t :: mid.take (mid.length - n), mid.drop (mid.length - n), by simp, ?_, t, by simp,
      fun x hx => hm x (List.mem_of_mem_drop hx)⟩
    rw [List.length_drop]; omega

/-- **C30.** `NoImprovement(n)` raises exactly for negative `n`; otherwise it answers `True` exactly
when none of the last `n` costs it was called with is below all costs before these. -/
theorem C30_no_improvement (n : Int) :
    (n < 0 → ∃ e, Criterion.makeNoImprovement n = .error e) ∧
    (0 ≤ n → ∃ c, Criterion.makeNoImprovement n = .ok c ∧
      ∀ costs : List Int, costs ≠ [] →
        (lastAnswer c costs = true ↔
          ∃ before recent, costs = before ++ recent ∧ recent.length = n.toNat ∧
            ∃ m ∈ before, ∀ x ∈ recent, m ≤ x)) := by
  constructor
  · intro h; exact ⟨_, if_pos h⟩
  · intro h
    refine ⟨.noImprovement n none 0, if_neg (by omega), ?_⟩
    have key : ∀ (costs p mid : List Int) (t : Int), (∀ x ∈ p, t < x) → (∀ x ∈ mid, t ≤ x) →
        costs ≠ [] →
        (lastAnswer (.noImprovement n (some t) mid.length) costs = true ↔
          ∃ before recent, p ++ t :: mid ++ costs = before ++ recent ∧ recent.length = n.toNat ∧
            ∃ m ∈ before, ∀ x ∈ recent, m ≤ x) := by
      intro costs
      induction costs with
      | nil => intro _ _ _ _ _ h; exact absurd rfl h
      | cons y rest ih =>
        intro p mid t hp hm _
        by_cases hy : y < t
        · have h1 : ((Criterion.noImprovement n (some t) mid.length).call y)
              = (.noImprovement n (some y) 0, decide ((0 : Int) ≥ n)) := by
            simp [Criterion.call, hy]
          have h3 : ∀ x ∈ p ++ t :: mid, y < x := by
            intro x hx
            rcases List.mem_append.1 hx with hx | hx
            · have := hp x hx; omega
            · rcases List.mem_cons.1 hx with rfl | hx
              · exact hy
              · have := hm x hx; omega
          by_cases hr : rest = []
          · subst hr
            rw [no_improvement_iff (p ++ t :: mid) [] y n.toNat h3 (by simp)]
            simp [lastAnswer, h1]
          · rw [lastAnswer_cons _ _ _ hr, h1]
            have h2 := ih (p ++ t :: mid) [] y h3 (by simp) hr
            simp only [List.length_nil] at h2
            rw [h2]
            simp [List.append_assoc]
        · have h1 : ((Criterion.noImprovement n (some t) mid.length).call y)
              = (.noImprovement n (some t) (mid ++ [y]).length,
                  decide (((mid ++ [y]).length : Int) ≥ n)) := by
            simp [Criterion.call, hy]
          have h3 : ∀ x ∈ mid ++ [y], t ≤ x := by
            intro x hx
            rcases List.mem_append.1 hx with hx | hx
            · exact hm x hx
            · simp at hx; omega
          by_cases hr : rest = []
          · subst hr
            have h4 := no_improvement_iff p (mid ++ [y]) t n.toNat hp h3
            simp only [List.append_assoc, List.cons_append] at h4 ⊢
            rw [h4]
            simp only [lastAnswer, h1, decide_eq_true_iff]
            omega
          · rw [lastAnswer_cons _ _ _ hr, h1, ih p (mid ++ [y]) t hp h3 hr]
            simp [List.append_assoc]
    intro costs hc
    cases costs with
    | nil => exact absurd rfl hc
    | cons y rest =>
      have h1 : ((Criterion.noImprovement n none 0).call y)
          = (.noImprovement n (some y) 0, decide ((0 : Int) ≥ n)) := by
        simp [Criterion.call]
      by_cases hr : rest = []
      · subst hr
        have h4 := no_improvement_iff [] [] y n.toNat (by simp) (by simp)
        simp only [List.nil_append] at h4
        rw [h4]
        simp [lastAnswer, h1]
      · rw [lastAnswer_cons _ _ _ hr, h1]
        have h2 := key rest [] [] y (by simp) (by simp) hr
        simpa using h2

/-- **C30.** `FirstFeasible` answers `True` exactly when the best cost is not the one that
`CostEvaluator.cost` gives to infeasible solutions. -/
theorem C30_first_feasible (costs : List Int) (x : Int) :
    lastAnswer .firstFeasible (costs ++ [x]) = true ↔ x < 9223372036854775807 := by
  induction costs with
  | nil => exact decide_eq_true_iff (p := x < MAX)
  | cons y rest ih => rw [List.cons_append, lastAnswer_cons _ _ _ (by simp)]; exact ih

/-- **C30.** `MaxRuntime(n)` raises exactly for negative `n`; otherwise it answers `True` exactly when
more than `n` time units have passed since its first call. (The first call reads the clock twice.) -/
theorem C30_max_runtime (n : Int) (clock : Nat → Int) :
    (n < 0 → ∃ e, Criterion.makeMaxRuntime n clock = .error e) ∧
    (0 ≤ n → ∃ c, Criterion.makeMaxRuntime n clock = .ok c ∧
      ∀ costs : List Int, costs ≠ [] →
        (lastAnswer c costs = true ↔ n < clock costs.length - clock 0)) := by
  constructor
  · intro h; exact ⟨_, if_pos h⟩
  · intro h
    refine ⟨.maxRuntime n none clock 0, if_neg (by omega), ?_⟩
    have key : ∀ (costs : List Int) (k : Nat) (s : Int), costs ≠ [] →
        (lastAnswer (.maxRuntime n (some s) clock k) costs = true
          ↔ n < clock (k + costs.length - 1) - s) := by
      intro costs
      induction costs with
      | nil => intro _ _ h; exact absurd rfl h
      | cons y rest ih =>
        intro k s _
        by_cases hr : rest = []
        · subst hr; simp [lastAnswer, Criterion.call]
        · rw [lastAnswer_cons _ _ _ hr]
          simp only [Criterion.call]
          rw [ih _ _ hr, List.length_cons, show k + 1 + rest.length - 1 = k + (rest.length + 1) - 1 by omega]
    intro costs hc
    cases costs with
    | nil => exact absurd rfl hc
    | cons y rest =>
      by_cases hr : rest = []
      · subst hr; simp [lastAnswer, Criterion.call]
      · rw [lastAnswer_cons _ _ _ hr]
        simp only [Criterion.call]
        rw [key _ _ _ hr, List.length_cons, show 0 + 2 + rest.length - 1 = rest.length + 1 by omega]

theorem callAny_snd (cs : List Criterion) (x : Int) :
    (Criterion.callAny cs x).2 = cs.any (fun c => (c.call x).2) := by
  induction cs with
  | nil => rfl
  | cons c rest ih =>
    simp only [Criterion.callAny, List.any_cons]
    cases h : c.call x with
    | mk c' b => cases b <;> simp [ih]

theorem callAny_fst (cs : List Criterion) (x : Int) (h : (Criterion.callAny cs x).2 = false) :
    (Criterion.callAny cs x).1 = cs.map (fun c => (c.call x).1) := by
  induction cs with
  | nil => rfl
  | cons c rest ih =>
    simp only [Criterion.callAny] at h ⊢
    cases hc : c.call x with
    | mk c' b =>
      rw [hc] at h
      cases b with
      | true => simp at h
      | false => simp only at h ⊢; simp [ih h, hc]

/-- **C30.** `MultipleCriteria` raises exactly for an empty list; otherwise it answers `True` at some
point of a history of calls exactly when one of its criteria alone would. -/
theorem C30_multiple_criteria (cs : List Criterion) :
    (cs = [] → ∃ e, Criterion.makeMultipleCriteria cs = .error e) ∧
    (cs ≠ [] → ∃ c, Criterion.makeMultipleCriteria cs = .ok c ∧
      ∀ costs : List Int, (stops c costs = true ↔ ∃ c' ∈ cs, stops c' costs = true)) := by
  constructor
  · intro h; exact ⟨_, if_pos (by simp [h])⟩
  · intro h
    refine ⟨.multipleCriteria cs, if_neg (by simpa using h), fun costs => ?_⟩
    clear h
    induction costs generalizing cs with
    | nil => simp [stops]
    | cons x rest ih =>
      simp only [stops, Criterion.call, callAny_snd]
      cases ha : cs.any (fun c => (c.call x).2) with
      | true =>
        obtain ⟨c, hc, hx⟩ := List.any_eq_true.1 ha
        simp only [Bool.true_or, true_iff]
        exact ⟨c, hc, by simp [hx]⟩
      | false =>
        rw [callAny_fst cs x (by rw [callAny_snd]; exact ha), Bool.false_or, ih]
        have hf := List.any_eq_false.1 ha
        constructor
        · rintro ⟨c', hc', hs⟩
          obtain ⟨c, hc, rfl⟩ := List.mem_map.1 hc'
          exact ⟨c, hc, by simp [hs]⟩
        · rintro ⟨c, hc, hs⟩
          refine ⟨_, List.mem_map.2 ⟨c, hc, rfl⟩, ?_⟩
          have := hf c hc
          simpa [this] using hs

/-- Two iterations without improvement after the best cost of 7. -/
example : (match Criterion.makeNoImprovement 2 with
    | .ok c => [lastAnswer c [10, 7, 7], lastAnswer c [10, 7, 7, 8], lastAnswer c [10, 7, 7, 6]]
    | .error _ => []) = [false, true, false] := by decide

example : (match Criterion.makeMaxIterations 2 with
    | .ok c => [lastAnswer c [10], lastAnswer c [10, 7], lastAnswer c [10, 7, 7]]
    | .error _ => []) = [false, false, true] := by decide

example : stops (.multipleCriteria [.maxIterations 3 0, .noImprovement 1 none 0]) [10, 7] = false ∧
    stops (.multipleCriteria [.maxIterations 3 0, .noImprovement 1 none 0]) [10, 7, 7] = true := by decide

end PyVRP
