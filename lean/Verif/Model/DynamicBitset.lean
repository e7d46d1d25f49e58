import Verif.Model.Data
/-!
# `pyvrp/cpp/DynamicBitset.cpp`
-/
namespace PyVRP

/-- `DynamicBitset::BLOCK_SIZE` (`DynamicBitset.h`): `sizeof(unsigned long long) * CHAR_BIT`. -/
abbrev BLOCK_SIZE : Nat := 64

/-- `DynamicBitset::Block`: a `std::bitset<64>`. Its members are those of the standard library. -/
abbrev Block := BitVec BLOCK_SIZE

namespace Block

/-- `operator[](r)` for reading. -/
def get (b : Block) (r : Nat) : Bool := b.getLsbD r

/-- `operator[](r) = value`. -/
def put (b : Block) (r : Nat) (value : Bool) : Block :=
  if value then b ||| BitVec.twoPow BLOCK_SIZE r else b &&& ~~~ BitVec.twoPow BLOCK_SIZE r

/-- `all()`, `any()` and `count()`. -/
def all (b : Block) : Bool := b == BitVec.allOnes BLOCK_SIZE
def any (b : Block) : Bool := b != 0#BLOCK_SIZE
def count (b : Block) : Nat := (List.range BLOCK_SIZE).countP (fun r => b.getLsbD r)

end Block

/-- `DynamicBitset` (`DynamicBitset.h`): the blocks. -/
structure Bitset where
  data : List Block
  deriving DecidableEq, Repr

namespace Bitset

/-- `DynamicBitset(numBits)` (`DynamicBitset.cpp` 7-12). -/
def new (numBits : Nat) : Bitset :=
  ⟨List.replicate (numBits / BLOCK_SIZE + if numBits % BLOCK_SIZE ≠ 0 then 1 else 0) 0#BLOCK_SIZE⟩

/-- `size()` (`DynamicBitset.cpp` 68), `__len__` in Python. -/
def size (b : Bitset) : Nat := BLOCK_SIZE * b.data.length

/-- `operator[](idx)` for reading (`DynamicBitset.cpp` 23-28). -/
def get (b : Bitset) (idx : Nat) : Bool :=
  (b.data.getD (idx / BLOCK_SIZE) 0#BLOCK_SIZE).get (idx % BLOCK_SIZE)

/-- `operator[](idx) = value` (`DynamicBitset.cpp` 30-35). -/
def put (b : Bitset) (idx : Nat) (value : Bool) : Bitset :=
  ⟨b.data.modify (idx / BLOCK_SIZE) (fun block => block.put (idx % BLOCK_SIZE) value)⟩

/-- `__getitem__` (`bindings.cpp` 121-129). -/
def getItem (b : Bitset) (idx : Nat) : Except Error Bool :=
  if idx ≥ b.size then .error (.outOfRange "") else .ok (b.get idx)

/-- `__setitem__` (`bindings.cpp` 130-139). -/
def setItem (b : Bitset) (idx : Nat) (value : Bool) : Except Error Bitset :=
  if idx ≥ b.size then .error (.outOfRange "") else .ok (b.put idx value)

/-- `all()` (`DynamicBitset.cpp` 42-48). -/
def all (b : Bitset) : Bool := b.data.all Block.all

/-- `any()` (`DynamicBitset.cpp` 50-56). -/
def any (b : Bitset) : Bool := b.data.any Block.any

/-- `none()` (`DynamicBitset.cpp` 58). -/
def none (b : Bitset) : Bool := !b.any

/-- `count()` (`DynamicBitset.cpp` 60-66). -/
def count (b : Bitset) : Nat := b.data.foldl (fun count block => count + block.count) 0

/-- `operator&=` and `operator&` (`DynamicBitset.cpp` 70-78, 114-118). As for the other operations on two
bitsets, the code assumes equal sizes. -/
def and (a b : Bitset) : Bitset := ⟨List.zipWith (· &&& ·) a.data b.data⟩

/-- `operator|=` and `operator|` (`DynamicBitset.cpp` 80-88, 108-112). -/
def or (a b : Bitset) : Bitset := ⟨List.zipWith (· ||| ·) a.data b.data⟩

/-- `operator^=` and `operator^` (`DynamicBitset.cpp` 90-98, 120-124). -/
def xor (a b : Bitset) : Bitset := ⟨List.zipWith (· ^^^ ·) a.data b.data⟩

/-- `operator~` (`DynamicBitset.cpp` 100-106). -/
def not (a : Bitset) : Bitset := ⟨a.data.map (~~~ ·)⟩

/-- `set()` (`DynamicBitset.cpp` 126-131). -/
def set (a : Bitset) : Bitset := ⟨a.data.map (fun _ => BitVec.allOnes BLOCK_SIZE)⟩

/-- `reset()` (`DynamicBitset.cpp` 133-138). -/
def reset (a : Bitset) : Bitset := ⟨a.data.map (fun _ => 0#BLOCK_SIZE)⟩

/-- `__getstate__` and `__setstate__` (`bindings.cpp` 144-157). -/
def getState (b : Bitset) : List Nat := b.data.map BitVec.toNat
def setState (blocks : List Nat) : Bitset := ⟨blocks.map (BitVec.ofNat BLOCK_SIZE)⟩

end Bitset
end PyVRP
