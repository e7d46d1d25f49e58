import Verif.Lemmas.Rng
/-!
# C33: the random number generator
-/
namespace PyVRP

/-- The state after `n` random numbers. -/
def Rng.after : Nat → Rng → Rng
  | 0, r => r
  | n + 1, r => Rng.after n (Rng.next r).2

/-- **C33.** Different states have different successors, so the generator never runs into a cycle
it did not start in. -/
theorem C33_successor_injective (a b : Rng) (h : (Rng.next a).2 = (Rng.next b).2) : a = b := by
  obtain ⟨a0, a1, a2, a3⟩ := a
  obtain ⟨b0, b1, b2, b3⟩ := b
  simp only [Rng.next, Rng.step, Rng.mk.injEq] at h
  obtain ⟨h0, rfl, rfl, rfl⟩ := h
  have h1 : (a3 ^^^ a3 <<< 11) ^^^ ((a3 ^^^ a3 <<< 11) >>> 8)
      = (b3 ^^^ b3 <<< 11) ^^^ ((b3 ^^^ b3 <<< 11) >>> 8) := by
    have := congrArg (fun z => z ^^^ (a0 >>> 19) ^^^ a0) h0
    simpa [BitVec.xor_assoc] using this
  have h2 := xor_ushiftRight_inj (by decide) _ _ h1
  have h3 := xor_shiftLeft_inj (by decide) _ _ h2
  rw [h3]

/-- **C33.** From any seed, the state never becomes all zero (where the generator would produce
nothing but zeroes). -/
theorem C33_never_zero (seed : BitVec 32) (n : Nat) :
    Rng.after n (Rng.ofSeed seed) ≠ ⟨0, 0, 0, 0⟩ := by
  have key : ∀ n (r : Rng), r ≠ ⟨0, 0, 0, 0⟩ → Rng.after n r ≠ ⟨0, 0, 0, 0⟩ := by
    intro n
    induction n with
    | zero => intro r h; exact h
    | succ n ih =>
      intro r h
      apply ih
      intro hz
      apply h
      apply C33_successor_injective
      rw [hz]
      decide
  apply key
  intro h
  simp [Rng.ofSeed] at h

/-- The all-zero state is indeed stuck. -/
example : Rng.next ⟨0, 0, 0, 0⟩ = (0, ⟨0, 0, 0, 0⟩) := by decide

/-- **C33.** Two generators in the same state produce the same numbers, and the states never meet
otherwise: after the same number of steps different states are still different. -/
theorem C33_streams_distinct (n : Nat) (a b : Rng) (h : a ≠ b) : Rng.after n a ≠ Rng.after n b := by
  induction n generalizing a b with
  | zero => exact h
  | succ n ih => exact ih _ _ fun hh => h (C33_successor_injective a b hh)

/-- **C33.** Random numbers are at most `max()`, and `randint(high)` is in `[0, high)`. -/
theorem C33_ranges (r : Rng) (high : Nat) (h : 0 < high) :
    (Rng.next r).1 ≤ Rng.maxVal ∧ randint (Rng.next r).1 high < high := by
  constructor
  · have := (Rng.step r).s0.isLt
    simp only [Rng.next, Rng.maxVal]
    omega
  · exact Nat.mod_lt _ h

/-- **C33.** `shuffle` permutes, for whatever random numbers. -/
theorem C33_shuffle_permutes {σ α : Type} (next : σ → Nat × σ) (s : σ) (l : List α) :
    (shuffle next s l).1.Perm l := shuffle_perm next s l

/-- The swaps of `shuffle` are always within the list: with `idx` running from the last index down
to 1 the other index is at most `idx`. -/
theorem C33_shuffle_in_bounds {α : Type} (l : List α) (k x : Nat) (hk : k + 1 ≤ l.length - 1) :
    k + 1 < l.length ∧ randint x (k + 2) < l.length := by
  have := Nat.mod_lt x (show k + 2 > 0 by omega)
  simp only [randint]
  omega

/-- The first random numbers for seed 42, and a shuffle. -/
example : (shuffle Rng.next (Rng.ofSeed 42) [0, 1, 2, 3, 4]).1 ≠ [0, 1, 2, 3, 4] := by decide

/-- The values of `tests/test_RandomNumberGenerator.py` (`test_rng_is_seeded_correctly` and
`test_call`) are those of the model. -/
example : (Rng.next (Rng.ofSeed 42)).1 = 2386648076
    ∧ (Rng.next (Rng.next (Rng.ofSeed 42)).2).1 = 1236469084
    ∧ (Rng.next (Rng.ofSeed 43)).1 = 2386648077
    ∧ (Rng.next (Rng.next (Rng.ofSeed 43)).2).1 = 1236469085 := by decide

end PyVRP
