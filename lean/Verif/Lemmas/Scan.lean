import Verif.Model.Proposal
/-!
# Lemmas on the loops over nodes
-/
namespace PyVRP

theorem snoc_induction {α : Type} {P : List α → Prop} (h0 : P [])
    (hs : ∀ l a, P l → P (l ++ [a])) (l : List α) : P l := by
  have h : ∀ n, ∀ l : List α, l.length = n → P l := by
    intro n
    induction n with
    | zero => intro l hl; rw [List.eq_nil_of_length_eq_zero hl]; exact h0
    | succ n ih =>
      intro l hl
      have hne : l ≠ [] := by intro h; subst h; simp at hl
      rw [← List.dropLast_concat_getLast hne]
      exact hs _ _ (ih _ (by simp; omega))
  exact h l.length l rfl

/-- The value after the last node. -/
def foldNodes {β : Type} (f : SNode → β → SNode → β) (n : SNode) (b : β) : List SNode → β
  | [] => b
  | m :: rest => foldNodes f m (f n b m) rest

/-- The value at the first node. -/
def backNodes {β : Type} [Inhabited β] (f : SNode → SNode → β → β) (last : SNode → β) :
    List SNode → β
  | [] => default
  | [n] => last n
  | n :: m :: rest => f n m (backNodes f last (m :: rest))

theorem scanNodes_length {β : Type} (f : SNode → β → SNode → β) (n : SNode) (b : β)
    (l : List SNode) : (scanNodes f n b l).length = l.length + 1 := by
  induction l generalizing n b with
  | nil => rfl
  | cons m rest ih => simp [scanNodes, ih]

theorem scanNodes_getD {β : Type} (f : SNode → β → SNode → β) (n : SNode) (b : β)
    (l : List SNode) (k : Nat) (hk : k ≤ l.length) (d : β) :
    (scanNodes f n b l).getD k d = foldNodes f n b (l.take k) := by
  induction l generalizing n b k with
  | nil => simp at hk; subst hk; rfl
  | cons m rest ih =>
    cases k with
    | zero => rfl
    | succ k =>
      simp only [scanNodes, List.getD_cons_succ, List.take_succ_cons, foldNodes]
      exact ih _ _ _ (by simpa using hk)

theorem getLastD_eq_getD {α : Type} (l : List α) (d : α) : l.getLastD d = l.getD (l.length - 1) d := by
  rw [List.getLastD_eq_getLast?, List.getLast?_eq_getElem?, List.getD_eq_getElem?_getD]

theorem scanNodes_getLastD {β : Type} (f : SNode → β → SNode → β) (n : SNode) (b : β)
    (l : List SNode) (d : β) : (scanNodes f n b l).getLastD d = foldNodes f n b l := by
  rw [getLastD_eq_getD, scanNodes_length, Nat.add_sub_cancel,
    scanNodes_getD f n b l _ (Nat.le_refl _), List.take_length]

theorem foldNodes_concat {β : Type} (f : SNode → β → SNode → β) (n : SNode) (b : β)
    (l : List SNode) (m : SNode) :
    foldNodes f n b (l ++ [m])
      = f (l.getLastD n) (foldNodes f n b l) m := by
  induction l generalizing n b with
  | nil => rfl
  | cons x rest ih =>
    simp only [List.cons_append, foldNodes, ih]
    cases rest with
    | nil => rfl
    | cons y ys => rw [List.getLastD_cons, List.getLastD_cons, List.getLastD_cons]

theorem scanNodesBack_length {β : Type} [Inhabited β] (f : SNode → SNode → β → β)
    (last : SNode → β) (l : List SNode) : (scanNodesBack f last l).length = l.length := by
  induction l with
  | nil => rfl
  | cons n rest ih =>
    cases rest with
    | nil => rfl
    | cons m rest => simp only [scanNodesBack, List.length_cons, ih]

theorem scanNodesBack_headD {β : Type} [Inhabited β] (f : SNode → SNode → β → β)
    (last : SNode → β) (l : List SNode) (d : β) (h : l ≠ []) :
    (scanNodesBack f last l).headD d = backNodes f last l := by
  induction l generalizing d with
  | nil => exact absurd rfl h
  | cons n rest ih =>
    cases rest with
    | nil => rfl
    | cons m rest =>
      simp only [scanNodesBack, backNodes, List.headD_cons]
      rw [ih _ (by simp)]

theorem scanNodesBack_getD {β : Type} [Inhabited β] (f : SNode → SNode → β → β)
    (last : SNode → β) (l : List SNode) (k : Nat) (hk : k < l.length) (d : β) :
    (scanNodesBack f last l).getD k d = backNodes f last (l.drop k) := by
  induction l generalizing k with
  | nil => simp at hk
  | cons n rest ih =>
    cases rest with
    | nil => simp at hk; subst hk; rfl
    | cons m rest =>
      cases k with
      | zero =>
        have := scanNodesBack_headD f last (n :: m :: rest) d (by simp)
        simpa [scanNodesBack] using this
      | succ k =>
        simp only [scanNodesBack, List.getD_cons_succ, List.drop_succ_cons]
        exact ih k (by simpa using hk)

theorem backNodes_cons {β : Type} [Inhabited β] (f : SNode → SNode → β → β)
    (last : SNode → β) (n : SNode) (l : List SNode) (h : l ≠ []) (d : SNode) :
    backNodes f last (n :: l) = f n (l.headD d) (backNodes f last l) := by
  cases l with
  | nil => exact absurd rfl h
  | cons m rest => rfl

end PyVRP
