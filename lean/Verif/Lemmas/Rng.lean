import Verif.Model.Rng
/-!
# Lemmas on random numbers and shuffling
-/
namespace PyVRP

theorem swapAt_perm {α : Type} (l : List α) (i j : Nat) (hi : i < l.length) (hj : j < l.length) :
    (swapAt l i j).Perm l := by
  unfold swapAt Array.swapIfInBounds
  rw [if_pos ⟨hi, hj⟩]
  split
  · split
    · rename_i h1 h2
      have := Array.swap_perm (xs := l.toArray) h1 h2
      rw [Array.perm_iff_toList_perm] at this
      simpa using this
    · simp
  · simp

theorem shuffleFrom_perm {σ α : Type} (next : σ → Nat × σ) (k : Nat) : ∀ (s : σ) (l : List α),
    k ≤ l.length - 1 → (shuffleFrom next s l k).1.Perm l := by
  induction k with
  | zero => intro s l _; exact List.Perm.refl _
  | succ k ih =>
    intro s l hk
    have hr : randint (next s).1 (k + 2) < k + 2 := Nat.mod_lt _ (by omega)
    have hp := swapAt_perm l (k + 1) (randint (next s).1 (k + 2)) (by omega) (by omega)
    exact (ih _ _ (by rw [hp.length_eq]; omega)).trans hp

theorem shuffle_perm {σ α : Type} (next : σ → Nat × σ) (s : σ) (l : List α) :
    (shuffle next s l).1.Perm l := shuffleFrom_perm next _ s l (Nat.le_refl _)

theorem xor_shiftLeft_inj {k : Nat} (hk : 0 < k) {w : Nat} (x y : BitVec w)
    (h : x ^^^ (x <<< k) = y ^^^ (y <<< k)) : x = y := by
  have key : ∀ i, x.getLsbD i = y.getLsbD i := by
    intro i
    induction i using Nat.strongRecOn with
    | ind i ih =>
      have hb := congrArg (fun z => BitVec.getLsbD z i) h
      simp only [BitVec.getLsbD_xor, BitVec.getLsbD_shiftLeft] at hb
      by_cases hw : i < w
      · by_cases hik : i < k
        · simpa [hw, hik] using hb
        · have := ih (i - k) (by omega)
          simpa [hw, hik, this] using hb
      · rw [BitVec.getLsbD_of_ge x i (by omega), BitVec.getLsbD_of_ge y i (by omega)]
  apply BitVec.eq_of_getLsbD_eq
  intro i _
  exact key i

theorem xor_ushiftRight_inj {k : Nat} (hk : 0 < k) {w : Nat} (x y : BitVec w)
    (h : x ^^^ (x >>> k) = y ^^^ (y >>> k)) : x = y := by
  have key : ∀ n i, w - i ≤ n → x.getLsbD i = y.getLsbD i := by
    intro n
    induction n with
    | zero =>
      intro i hi
      rw [BitVec.getLsbD_of_ge x i (by omega), BitVec.getLsbD_of_ge y i (by omega)]
    | succ n ih =>
      intro i hi
      have hb := congrArg (fun z => BitVec.getLsbD z i) h
      simp only [BitVec.getLsbD_xor, BitVec.getLsbD_ushiftRight] at hb
      have := ih (k + i) (by omega)
      simpa [this] using hb
  apply BitVec.eq_of_getLsbD_eq
  intro i _
  exact key (w - i) i (by omega)

end PyVRP
