import Verif.Model.Measure
/-!
# `pyvrp/cpp/RandomNumberGenerator.h` and `.cpp`

The consumers of random numbers are modelled for an arbitrary generator
`next : σ → Nat × σ` (the value of `operator()()` and the new state), so that what is proved about
them holds whatever the random numbers are. `Rng.next` is the generator of the code.
-/
namespace PyVRP

/-- `state_` (`RandomNumberGenerator.h` 27). -/
structure Rng where
  s0 : BitVec 32
  s1 : BitVec 32
  s2 : BitVec 32
  s3 : BitVec 32
deriving DecidableEq, Repr

namespace Rng

/-- `RandomNumberGenerator(seed)` (`RandomNumberGenerator.cpp` 5-8). -/
def ofSeed (seed : BitVec 32) : Rng := ⟨seed, 123456789#32, 362436069#32, 521288629#32⟩

/-- The new state of `operator()()` (`RandomNumberGenerator.cpp` 15-31). -/
def step (r : Rng) : Rng :=
  let t := r.s3
  let s := r.s0
  let t := t ^^^ (t <<< 11)
  let t := t ^^^ (t >>> 8)
  { s0 := t ^^^ s ^^^ (s >>> 19), s1 := s, s2 := r.s1, s3 := r.s2 }

/-- `operator()()` (`RandomNumberGenerator.cpp` 15-31): returns the new `state_[0]`. -/
def next (r : Rng) : Nat × Rng := (r.step.s0.toNat, r.step)

/-- `max()` (`RandomNumberGenerator.h` 89-92). -/
def maxVal : Nat := 4294967295

end Rng

/-- `randint(high)` applied to the random number `x` (`RandomNumberGenerator.h` 94-99); `high = 0`
is undefined behaviour in C++. -/
def randint (x high : Nat) : Nat := x % high

/-- `rand() < 0.5` for the random number `x` (`RandomNumberGenerator.cpp` 38-41):
`x / 4294967295.0 < 0.5`. The division is exact up to 1e-16, while the quotient is at least 1e-10
away from one half, so this is the exact comparison. -/
def randBelowHalf (x : Nat) : Bool := decide (2 * x < Rng.maxVal)

/-- `std::swap(first[i], first[j])`. An index out of range is undefined behaviour in C++; here the result
is then the empty list, so that nothing is proved about it. -/
def swapAt {α : Type} (l : List α) (i j : Nat) : List α :=
  if i < l.length ∧ j < l.length then (l.toArray.swapIfInBounds i j).toList else []

/-- The loop of `shuffle` for `idx, idx-1, ..., 1` (`RandomNumberGenerator.h` 101-107). -/
def shuffleFrom {σ α : Type} (next : σ → Nat × σ) (s : σ) (l : List α) : Nat → List α × σ
  | 0 => (l, s)
  | k + 1 => shuffleFrom next (next s).2 (swapAt l (k + 1) (randint (next s).1 (k + 2))) k

/-- `shuffle` (`RandomNumberGenerator.h` 101-107). -/
def shuffle {σ α : Type} (next : σ → Nat × σ) (s : σ) (l : List α) : List α × σ :=
  shuffleFrom next s l (l.length - 1)

end PyVRP
