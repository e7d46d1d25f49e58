/-!
# `pyvrp/RingBuffer.py`
-/
namespace PyVRP

/-- `RingBuffer` (`RingBuffer.py` 6-19). `None` is `none`. -/
structure RingBuffer (α : Type) where
  buffer : List (Option α)
  idx : Nat
deriving DecidableEq, Repr

namespace RingBuffer
variable {α : Type}

/-- `__init__` (`RingBuffer.py` 17-19). -/
def make (maxlen : Nat) : RingBuffer α := ⟨List.replicate maxlen none, 0⟩

/-- `maxlen` (`RingBuffer.py` 21-23). -/
def maxlen (b : RingBuffer α) : Nat := b.buffer.length

/-- `__len__` (`RingBuffer.py` 25-29). -/
def len (b : RingBuffer α) : Nat := b.buffer.foldl (fun n v => n + if v.isSome then 1 else 0) 0

/-- `clear` (`RingBuffer.py` 31-36). -/
def clear (b : RingBuffer α) : RingBuffer α := ⟨List.replicate b.maxlen none, 0⟩

/-- `append` (`RingBuffer.py` 38-44). With `maxlen = 0` Python raises `ZeroDivisionError`; the
theorems assume a positive length. -/
def append (b : RingBuffer α) (value : α) : RingBuffer α :=
  ⟨b.buffer.set (b.idx % b.maxlen) (some value), b.idx + 1⟩

/-- `peek` (`RingBuffer.py` 46-51). -/
def peek (b : RingBuffer α) : Option α := (b.buffer[b.idx % b.maxlen]?).join

/-- `skip` (`RingBuffer.py` 53-57). -/
def skip (b : RingBuffer α) : RingBuffer α := { b with idx := b.idx + 1 }

end RingBuffer
end PyVRP
