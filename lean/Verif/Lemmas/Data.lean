import Verif.Model.Data
import Verif.Spec.Valid
/-!
# Lemmas on the data constructors
-/
namespace PyVRP
open Spec

@[simp] theorem throwIf_orElse_eq_none (c : Prop) [Decidable c] (e : Error) (o : Option Error) :
    (throwIf c e <|> o) = none ↔ ¬ c ∧ o = none := by
  unfold throwIf
  by_cases h : c <;> simp [h]

@[simp] theorem throwIf_eq_none (c : Prop) [Decidable c] (e : Error) :
    throwIf c e = none ↔ ¬ c := by
  unfold throwIf
  by_cases h : c <;> simp [h]

@[simp] theorem orElse_eq_none' (a b : Option Error) : (a <|> b) = none ↔ a = none ∧ b = none := by
  cases a <;> simp

@[simp] theorem anyNegative_eq_false (l : List Int) : anyNegative l = false ↔ Nonneg l := by
  simp [anyNegative, Nonneg]

theorem pad_length (a b : List Int) : (pad a b).length = max a.length b.length := by
  simp [pad]; omega

theorem pad_getD (a b : List Int) (i : Nat) : (pad a b).getD i 0 = a.getD i 0 := by
  simp only [pad, List.getD_eq_getElem?_getD, List.getElem?_append, List.getElem?_replicate]
  split
  · rfl
  · rename_i h
    rw [List.getElem?_eq_none (by omega)]
    split <;> rfl

theorem nonneg_pad (a b : List Int) : Nonneg (pad a b) ↔ Nonneg a := by
  simp only [Nonneg, pad, List.mem_append, List.mem_replicate]
  constructor
  · intro h x hx; exact h x (.inl hx)
  · rintro h x (hx | ⟨_, rfl⟩)
    · exact h x hx
    · omega

theorem pad_eq_self {a b : List Int} (h : b.length ≤ a.length) : pad a b = a := by
  simp [pad, Nat.sub_eq_zero_of_le h]

theorem pad_paddedTo (a b : List Int) : PaddedTo a (pad a b) (max a.length b.length) := by
  refine ⟨pad_length a b, fun i _ => ?_⟩
  rw [pad_getD]
  split
  · rfl
  · rename_i h
    rw [List.getD_eq_getElem?_getD, List.getElem?_eq_none (by omega)]; rfl

theorem pad_pad_length (a b : List Int) : (pad b (pad a b)).length = max a.length b.length := by
  rw [pad_length, pad_length]; omega

theorem pad_pad (a b : List Int) : pad b (pad a b) = pad b a := by
  unfold pad
  congr 2
  simp; omega

/-- The list-wise comparison in the vehicle type constructor. -/
theorem any_zip_gt_eq_false {a b : List Int} (h : a.length = b.length) :
    ((a.zip b).any (fun p => decide (p.1 > p.2))) = false ↔ ∀ i, a.getD i 0 ≤ b.getD i 0 := by
  induction a generalizing b with
  | nil =>
    cases b with
    | nil => simp
    | cons y ys => simp at h
  | cons x xs ih =>
    cases b with
    | nil => simp at h
    | cons y ys =>
      simp only [List.length_cons, Nat.add_right_cancel_iff] at h
      simp only [List.zip_cons_cons, List.any_cons, Bool.or_eq_false_iff, decide_eq_false_iff_not]
      rw [ih h]
      constructor
      · rintro ⟨h1, h2⟩ i
        cases i with
        | zero => simp; omega
        | succ i => simpa using h2 i
      · intro h'
        refine ⟨?_, fun i => by simpa using h' (i + 1)⟩
        have := h' 0
        simp at this; omega

end PyVRP

namespace PyVRP
open Spec

theorem checked_eq_ok {α : Type} {o : Option Error} {x y : α} :
    checked o x = .ok y ↔ o = none ∧ x = y := by
  cases o <;> simp [checked]

/-- A rejected construction raises `ValueError`. -/
def RaisesValueError {α : Type} (r : Except Error α) : Prop :=
  ∃ msg, r = .error (.invalidArgument msg)

/-- All errors of a sequence of checks are `ValueError`s. -/
def AllValue (o : Option Error) : Prop := ∀ e, o = some e → ∃ m, e = .invalidArgument m

theorem AllValue.throwIf_orElse {c : Prop} [Decidable c] {m : String} {o : Option Error}
    (h : AllValue o) : AllValue (throwIf c (.invalidArgument m) <|> o) := by
  intro e he
  unfold throwIf at he
  split at he
  · simp at he; exact ⟨m, he.symm⟩
  · simp at he; exact h e he

theorem AllValue.throwIf {c : Prop} [Decidable c] {m : String} :
    AllValue (throwIf c (.invalidArgument m)) := by
  intro e he
  unfold PyVRP.throwIf at he
  split at he
  · simp at he; exact ⟨m, he.symm⟩
  · simp at he

theorem checked_raises {α : Type} {o : Option Error} {x : α} (h : AllValue o) (hn : o ≠ none) :
    RaisesValueError (checked o x) := by
  cases o with
  | none => exact absurd rfl hn
  | some e => obtain ⟨m, rfl⟩ := h e rfl; exact ⟨m, rfl⟩

end PyVRP
