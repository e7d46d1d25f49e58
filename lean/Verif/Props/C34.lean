import Verif.Model.DynamicBitset
/-!
# C34: dynamic bitset
-/
namespace PyVRP

/-! ## Specification -/

namespace Spec

/-- Operations that change a bitset, or give a new one. -/
inductive BitOp where
  | write (idx : Nat) (value : Bool)
  | setAll
  | resetAll
  | invert
  | or (other : Bitset)
  | and (other : Bitset)
  | xor (other : Bitset)

/-- What the operation does to the indices that are in the set. -/
def BitOp.onMembers : BitOp → (Nat → Prop) → Nat → Prop
  | .write idx value, m, i => if i = idx then value = true else m i
  | .setAll, _, _ => True
  | .resetAll, _, _ => False
  | .invert, m, i => ¬ m i
  | .or other, m, i => m i ∨ other.getItem i = .ok true
  | .and other, m, i => m i ∧ other.getItem i = .ok true
  | .xor other, m, i => ¬ (m i ↔ other.getItem i = .ok true)

/-- The operation may be called: the index is in range, and the other bitset is as long. -/
def BitOp.Legal (len : Nat) : BitOp → Prop
  | .write idx _ => idx < len
  | .setAll | .resetAll | .invert => True
  | .or other | .and other | .xor other => other.size = len

/-- The operation on bitsets. -/
def BitOp.run : BitOp → Bitset → Except Error Bitset
  | .write idx value, b => b.setItem idx value
  | .setAll, b => .ok b.set
  | .resetAll, b => .ok b.reset
  | .invert, b => .ok b.not
  | .or other, b => .ok (b.or other)
  | .and other, b => .ok (b.and other)
  | .xor other, b => .ok (b.xor other)

/-- A bitset of length `len` after some operations on a new one, and the members it should have. -/
inductive BitHistory (n : Nat) : Bitset → (Nat → Prop) → Prop where
  | new : BitHistory n (Bitset.new n) (fun _ => False)
  | step {b b' : Bitset} {m : Nat → Prop} (op : BitOp) (h : BitHistory n b m)
      (hl : op.Legal b.size) (hrun : op.run b = .ok b') : BitHistory n b' (op.onMembers m)

end Spec

open Spec

namespace Bitset

theorem block_put_get (b : Block) (r j : Nat) (hr : r < BLOCK_SIZE) (v : Bool) :
    (b.put r v).get j = if j = r then v else b.get j := by
  unfold Block.put Block.get
  cases v
  · simp only [Bool.false_eq_true, if_false, BitVec.getLsbD_and, BitVec.getLsbD_not,
      BitVec.getLsbD_twoPow]
    split
    · next h => subst h; simp [hr]
    · next h =>
      by_cases hj : j < BLOCK_SIZE
      · simp [hj]
        intro _; exact Or.inr (fun h' => h h'.symm)
      · rw [BitVec.getLsbD_of_ge b j (by omega)]; simp
  · simp only [if_true, BitVec.getLsbD_or, BitVec.getLsbD_twoPow]
    split
    · next h => subst h; simp [hr]
    · next h =>
      simp
      intro _ h'; exact absurd h'.symm h

theorem get_put (b : Bitset) (idx j : Nat) (v : Bool) (h : idx < b.size) :
    (b.put idx v).get j = if j = idx then v else b.get j := by
  unfold Bitset.get Bitset.put Bitset.size at *
  have hq : idx / BLOCK_SIZE < b.data.length := by
    unfold BLOCK_SIZE at *; omega
  by_cases hq' : j / BLOCK_SIZE = idx / BLOCK_SIZE
  · have e : (b.data.modify (idx / BLOCK_SIZE)
        (fun block => block.put (idx % BLOCK_SIZE) v)).getD (j / BLOCK_SIZE) 0#BLOCK_SIZE
        = (b.data.getD (j / BLOCK_SIZE) 0#BLOCK_SIZE).put (idx % BLOCK_SIZE) v := by
      rw [List.getD_eq_getElem?_getD, List.getElem?_modify, hq', List.getD_eq_getElem?_getD,
        List.getElem?_eq_getElem hq]
      simp
    rw [e, block_put_get _ _ _ (Nat.mod_lt _ (by decide))]
    have : j % BLOCK_SIZE = idx % BLOCK_SIZE ↔ j = idx := by
      unfold BLOCK_SIZE at *; omega
    by_cases hj : j = idx
    · rw [if_pos hj, if_pos (this.2 hj)]
    · rw [if_neg hj, if_neg (fun h => hj (this.1 h))]
  · have e : (b.data.modify (idx / BLOCK_SIZE)
        (fun block => block.put (idx % BLOCK_SIZE) v)).getD (j / BLOCK_SIZE) 0#BLOCK_SIZE
        = b.data.getD (j / BLOCK_SIZE) 0#BLOCK_SIZE := by
      rw [List.getD_eq_getElem?_getD, List.getElem?_modify, List.getD_eq_getElem?_getD,
        show (fun a : Block => if idx / BLOCK_SIZE = j / BLOCK_SIZE then a.put (idx % BLOCK_SIZE) v else a)
          = id from funext fun a => if_neg (fun h => hq' h.symm)]
      simp
    have hj : j ≠ idx := fun h => hq' (by rw [h])
    rw [e, if_neg hj]

theorem size_put (b : Bitset) (idx : Nat) (v : Bool) : (b.put idx v).size = b.size := by
  simp [Bitset.size, Bitset.put]

theorem block_lt {b : Bitset} {i : Nat} (h : i < b.size) : i / BLOCK_SIZE < b.data.length := by
  unfold Bitset.size BLOCK_SIZE at *; omega

theorem mod_lt (i : Nat) : i % BLOCK_SIZE < BLOCK_SIZE := Nat.mod_lt _ (by decide)

theorem get_map {b : Bitset} {i : Nat} (f : Block → Block) (h : i < b.size) :
    (Bitset.mk (b.data.map f)).get i
      = (f (b.data.getD (i / BLOCK_SIZE) 0#BLOCK_SIZE)).getLsbD (i % BLOCK_SIZE) := by
  have hq := block_lt h
  simp [Bitset.get, Block.get, List.getD_eq_getElem?_getD, hq]

theorem get_zipWith {a b : Bitset} {i : Nat} (f : Block → Block → Block) (h : i < a.size)
    (hab : b.size = a.size) :
    (Bitset.mk (List.zipWith f a.data b.data)).get i
      = (f (a.data.getD (i / BLOCK_SIZE) 0#BLOCK_SIZE)
          (b.data.getD (i / BLOCK_SIZE) 0#BLOCK_SIZE)).getLsbD (i % BLOCK_SIZE) := by
  have hq := block_lt h
  have hq' : i / BLOCK_SIZE < b.data.length := block_lt (by rw [hab]; exact h)
  simp only [Bitset.get, Block.get, List.getD_eq_getElem?_getD, List.getElem?_zipWith,
    List.getElem?_eq_getElem hq, List.getElem?_eq_getElem hq', Option.getD_some]

theorem size_zipWith {a b : Bitset} (f : Block → Block → Block) (hab : b.size = a.size) :
    (Bitset.mk (List.zipWith f a.data b.data)).size = a.size := by
  unfold Bitset.size BLOCK_SIZE at *
  simp only [List.length_zipWith]
  omega

theorem getItem_of_lt {b : Bitset} {i : Nat} (h : i < b.size) : b.getItem i = .ok (b.get i) := by
  unfold getItem; rw [if_neg (by omega)]

theorem block_ext_iff {a b : Block} :
    a = b ↔ ∀ r, r < BLOCK_SIZE → a.getLsbD r = b.getLsbD r :=
  ⟨fun h _ _ => by rw [h], fun h => BitVec.eq_of_getLsbD_eq h⟩

theorem all_index (b : Bitset) (P : Bool → Prop) :
    (∀ block ∈ b.data, ∀ r, r < BLOCK_SIZE → P (block.getLsbD r)) ↔ ∀ i, i < b.size → P (b.get i) := by
  constructor
  · intro h i hi
    have hq := block_lt hi
    have := h (b.data.getD (i / BLOCK_SIZE) 0#BLOCK_SIZE) (by
      rw [List.getD_eq_getElem?_getD, List.getElem?_eq_getElem hq]; exact List.getElem_mem hq)
      (i % BLOCK_SIZE) (mod_lt i)
    exact this
  · intro h block hb r hr
    obtain ⟨q, hq, rfl⟩ := List.getElem_of_mem hb
    have hi : BLOCK_SIZE * q + r < b.size := by
      unfold Bitset.size BLOCK_SIZE at *; omega
    have := h _ hi
    unfold Bitset.get Block.get at this
    rw [show (BLOCK_SIZE * q + r) / BLOCK_SIZE = q by unfold BLOCK_SIZE at *; omega,
      show (BLOCK_SIZE * q + r) % BLOCK_SIZE = r by unfold BLOCK_SIZE at *; omega,
      List.getD_eq_getElem?_getD, List.getElem?_eq_getElem hq] at this
    exact this

theorem foldl_count (l : List Block) (acc : Nat) :
    l.foldl (fun c block => c + Block.count block) acc
      = acc + (List.range (BLOCK_SIZE * l.length)).countP (fun i => (Bitset.mk l).get i) := by
  induction l generalizing acc with
  | nil => simp
  | cons b rest ih =>
    rw [List.foldl_cons, ih, List.length_cons,
      show BLOCK_SIZE * (rest.length + 1) = BLOCK_SIZE + BLOCK_SIZE * rest.length by
        unfold BLOCK_SIZE; omega,
      List.range_add, List.countP_append, List.countP_map]
    have h1 : (List.range BLOCK_SIZE).countP (fun i => (Bitset.mk (b :: rest)).get i) = Block.count b := by
      unfold Block.count
      apply List.countP_congr
      intro i hi
      have hi := List.mem_range.1 hi
      simp only [Bitset.get, Block.get, Nat.div_eq_of_lt hi, Nat.mod_eq_of_lt hi, List.getD_cons_zero]
    have h2 : (List.range (BLOCK_SIZE * rest.length)).countP
        ((fun i => (Bitset.mk (b :: rest)).get i) ∘ fun x => BLOCK_SIZE + x)
        = (List.range (BLOCK_SIZE * rest.length)).countP (fun i => (Bitset.mk rest).get i) := by
      apply List.countP_congr
      intro i _
      simp only [Function.comp, Bitset.get, Block.get]
      rw [show (BLOCK_SIZE + i) / BLOCK_SIZE = i / BLOCK_SIZE + 1 by unfold BLOCK_SIZE at *; omega,
        show (BLOCK_SIZE + i) % BLOCK_SIZE = i % BLOCK_SIZE by unfold BLOCK_SIZE at *; omega,
        List.getD_cons_succ]
    rw [h1, h2]
    omega

end Bitset

/-! ## C34 -/

/-- **C34.** A new bitset has room for the requested number of indices, rounded up to a multiple of 64,
and is empty. -/
theorem C34_new (n : Nat) :
    n ≤ (Bitset.new n).size ∧ (Bitset.new n).size < n + 64 ∧ (Bitset.new n).size % 64 = 0
    ∧ ∀ i, (Bitset.new n).getItem i = if i < (Bitset.new n).size then .ok false else .error (.outOfRange "") := by
  have hs : (Bitset.new n).size = 64 * (n / 64 + if n % 64 ≠ 0 then 1 else 0) := by
    simp [Bitset.size, Bitset.new, BLOCK_SIZE]
  refine ⟨?_, ?_, ?_, ?_⟩
  · rw [hs]; split <;> omega
  · rw [hs]; split <;> omega
  · rw [hs]; omega
  · intro i
    unfold Bitset.getItem
    split
    · next h => rw [if_neg (by omega)]
    · next h =>
      rw [if_pos (by omega)]
      have hq := Bitset.block_lt (b := Bitset.new n) (i := i) (by omega)
      congr 1
      unfold Bitset.get Block.get
      rw [List.getD_eq_getElem?_getD, List.getElem?_eq_getElem hq]
      simp [Bitset.new]

/-- **C34.** Reading and writing raise exactly when the index is out of range. Reading an index gives
the value written to it, and writing it changes no other index. -/
theorem C34_read_write (b : Bitset) (idx : Nat) (value : Bool) :
    ((∃ v, b.getItem idx = .ok v) ↔ idx < b.size)
    ∧ ((∃ b', b.setItem idx value = .ok b') ↔ idx < b.size)
    ∧ ∀ b', b.setItem idx value = .ok b' →
      b'.size = b.size ∧ b'.getItem idx = .ok value
      ∧ ∀ j, j ≠ idx → b'.getItem j = b.getItem j := by
  refine ⟨?_, ?_, ?_⟩
  · unfold Bitset.getItem
    split
    · simp; omega
    · simp; omega
  · unfold Bitset.setItem
    split
    · simp; omega
    · simp; omega
  · intro b' h
    unfold Bitset.setItem at h
    split at h
    · cases h
    · next hi =>
      cases h
      refine ⟨Bitset.size_put b idx value, ?_, ?_⟩
      · rw [Bitset.getItem_of_lt (by rw [Bitset.size_put]; omega), Bitset.get_put _ _ _ _ (by omega),
          if_pos rfl]
      · intro j hj
        unfold Bitset.getItem
        rw [Bitset.size_put, Bitset.get_put _ _ _ _ (by omega), if_neg hj]

/-- **C34.** After any sequence of operations the bitset holds exactly the indices the set operations
say, and its length is that of the new bitset. -/
theorem C34_behaves_as_set (n : Nat) (b : Bitset) (m : Nat → Prop) (h : BitHistory n b m) :
    b.size = (Bitset.new n).size
    ∧ ∀ i, i < b.size → (b.getItem i = .ok true ↔ m i) := by
  induction h with
  | new =>
    refine ⟨rfl, fun i hi => ?_⟩
    rw [(C34_new n).2.2.2 i, if_pos hi]
    simp
  | @step b b' m op _ hl hrun ih =>
    obtain ⟨hs, ih⟩ := ih
    have key : ∀ i, i < b.size → (b.get i = true ↔ m i) := by
      intro i hi
      rw [← ih i hi, Bitset.getItem_of_lt hi]
      simp
    cases op with
    | write idx value =>
      obtain ⟨_, _, h3⟩ := C34_read_write b idx value
      obtain ⟨e1, e2, e3⟩ := h3 b' hrun
      refine ⟨by rw [e1, hs], fun i hi => ?_⟩
      simp only [BitOp.onMembers]
      split
      · next h => subst h; rw [e2]; simp
      · next h => rw [e3 i h]; exact ih i (by omega)
    | setAll =>
      cases hrun
      have e : b.set.size = b.size := by simp [Bitset.size, Bitset.set]
      refine ⟨by rw [e, hs], fun i hi => ?_⟩
      rw [Bitset.getItem_of_lt hi, Bitset.set, Bitset.get_map _ (by omega)]
      simp [BitOp.onMembers, Bitset.mod_lt]
    | resetAll =>
      cases hrun
      have e : b.reset.size = b.size := by simp [Bitset.size, Bitset.reset]
      refine ⟨by rw [e, hs], fun i hi => ?_⟩
      rw [Bitset.getItem_of_lt hi, Bitset.reset, Bitset.get_map _ (by omega)]
      simp [BitOp.onMembers]
    | invert =>
      cases hrun
      have e : b.not.size = b.size := by simp [Bitset.size, Bitset.not]
      refine ⟨by rw [e, hs], fun i hi => ?_⟩
      have := key i (by omega)
      unfold Bitset.get Block.get at this
      rw [Bitset.getItem_of_lt hi, Bitset.not, Bitset.get_map _ (by omega)]
      simp only [BitOp.onMembers, ← this, BitVec.getLsbD_not, Bitset.mod_lt i, decide_true, Bool.true_and]
      simp
    | or other =>
      cases hrun
      have e : (b.or other).size = b.size := Bitset.size_zipWith _ hl
      refine ⟨by rw [e, hs], fun i hi => ?_⟩
      have := key i (by omega)
      rw [Bitset.getItem_of_lt hi, Bitset.or, Bitset.get_zipWith _ (by omega) hl]
      have ho : i < other.size := by
        have : other.size = b.size := hl
        omega
      simp only [BitOp.onMembers, ← this, Bitset.getItem_of_lt ho, BitVec.getLsbD_or]
      simp [Bitset.get, Block.get]
    | and other =>
      cases hrun
      have e : (b.and other).size = b.size := Bitset.size_zipWith _ hl
      refine ⟨by rw [e, hs], fun i hi => ?_⟩
      have := key i (by omega)
      rw [Bitset.getItem_of_lt hi, Bitset.and, Bitset.get_zipWith _ (by omega) hl]
      have ho : i < other.size := by
        have : other.size = b.size := hl
        omega
      simp only [BitOp.onMembers, ← this, Bitset.getItem_of_lt ho, BitVec.getLsbD_and]
      simp [Bitset.get, Block.get]
    | xor other =>
      cases hrun
      have e : (b.xor other).size = b.size := Bitset.size_zipWith _ hl
      refine ⟨by rw [e, hs], fun i hi => ?_⟩
      have := key i (by omega)
      rw [Bitset.getItem_of_lt hi, Bitset.xor, Bitset.get_zipWith _ (by omega) hl]
      have ho : i < other.size := by
        have : other.size = b.size := hl
        omega
      simp only [BitOp.onMembers, ← this, Bitset.getItem_of_lt ho, BitVec.getLsbD_xor]
      simp only [Bitset.get, Block.get]
      generalize BitVec.getLsbD _ _ = x
      generalize BitVec.getLsbD _ _ = y
      revert x y
      decide

/-- **C34.** `count`, `any`, `none` and `all` count and quantify over the indices below the length. -/
theorem C34_queries (b : Bitset) :
    b.count = (List.range b.size).countP (fun i => b.getItem i = .ok true)
    ∧ (b.any = true ↔ ∃ i, i < b.size ∧ b.getItem i = .ok true)
    ∧ (b.none = true ↔ ∀ i, i < b.size → b.getItem i = .ok false)
    ∧ (b.all = true ↔ ∀ i, i < b.size → b.getItem i = .ok true) := by
  have hnone : b.none = true ↔ ∀ i, i < b.size → b.getItem i = .ok false := by
    have : b.none = true ↔ ∀ block ∈ b.data, ∀ r, r < BLOCK_SIZE → block.getLsbD r = false := by
      unfold Bitset.none Bitset.any
      simp only [Bool.not_eq_true', List.any_eq_false, Block.any, bne_iff_ne, ne_eq, Classical.not_not]
      refine forall₂_congr fun block _ => ?_
      rw [Bitset.block_ext_iff]
      simp
    rw [this, Bitset.all_index b (fun x => x = false)]
    refine forall₂_congr fun i hi => ?_
    rw [Bitset.getItem_of_lt hi]
    simp
  refine ⟨?_, ?_, hnone, ?_⟩
  · unfold Bitset.count
    rw [Bitset.foldl_count, Nat.zero_add]
    apply List.countP_congr
    intro i hi
    have hi : i < b.size := List.mem_range.1 hi
    rw [Bitset.getItem_of_lt hi]
    simp
  · constructor
    · intro h
      apply Classical.byContradiction
      intro hc
      have : b.none = true := hnone.2 (fun i hi => by
        rw [Bitset.getItem_of_lt hi]
        congr 1
        cases hv : b.get i
        · rfl
        · exact absurd ⟨i, hi, by rw [Bitset.getItem_of_lt hi, hv]⟩ hc)
      unfold Bitset.none at this
      simp [h] at this
    · rintro ⟨i, hi, hv⟩
      cases h : b.any
      · have : b.none = true := by unfold Bitset.none; rw [h]; rfl
        rw [hnone.1 this i hi] at hv
        cases hv
      · rfl
  · have : b.all = true ↔ ∀ block ∈ b.data, ∀ r, r < BLOCK_SIZE → block.getLsbD r = true := by
      unfold Bitset.all
      simp only [List.all_eq_true, Block.all, beq_iff_eq]
      refine forall₂_congr fun block _ => ?_
      rw [Bitset.block_ext_iff]
      refine forall₂_congr fun r hr => ?_
      rw [BitVec.getLsbD_allOnes, decide_eq_true hr]
    rw [this, Bitset.all_index b (fun x => x = true)]
    refine forall₂_congr fun i hi => ?_
    rw [Bitset.getItem_of_lt hi]
    simp

/-- **C34.** Two bitsets are equal exactly when they have the same length and the same members, and
pickling preserves them. -/
theorem C34_equality (a b : Bitset) :
    (a = b ↔ a.size = b.size ∧ ∀ i, a.getItem i = b.getItem i)
    ∧ Bitset.setState a.getState = a := by
  constructor
  · constructor
    · rintro rfl; exact ⟨rfl, fun _ => rfl⟩
    · rintro ⟨hs, h⟩
      obtain ⟨as⟩ := a
      obtain ⟨bs⟩ := b
      congr 1
      have hl : as.length = bs.length := by
        unfold Bitset.size BLOCK_SIZE at hs; simp only at hs; omega
      refine List.ext_getElem hl fun q h1 h2 => ?_
      rw [Bitset.block_ext_iff]
      intro r hr
      have hia : BLOCK_SIZE * q + r < (Bitset.mk as).size := by
        unfold Bitset.size BLOCK_SIZE at *; simp only; omega
      have hib : BLOCK_SIZE * q + r < (Bitset.mk bs).size := by rw [← hs]; exact hia
      have := h (BLOCK_SIZE * q + r)
      rw [Bitset.getItem_of_lt hia, Bitset.getItem_of_lt hib] at this
      injection this with this
      unfold Bitset.get Block.get at this
      rw [show (BLOCK_SIZE * q + r) / BLOCK_SIZE = q by unfold BLOCK_SIZE at *; omega,
        show (BLOCK_SIZE * q + r) % BLOCK_SIZE = r by unfold BLOCK_SIZE at *; omega] at this
      simp only [List.getD_eq_getElem?_getD, List.getElem?_eq_getElem h1,
        List.getElem?_eq_getElem h2, Option.getD_some] at this
      exact this
  · unfold Bitset.setState Bitset.getState
    rw [List.map_map]
    have : (BitVec.ofNat BLOCK_SIZE ∘ BitVec.toNat) = (id : Block → Block) := by
      funext x; simp
    rw [this, List.map_id]

/-! ## Non-vacuity -/

/-- A history across a block boundary. -/
example : ∃ b m, BitHistory 65 b m ∧ b.size = 128 ∧ b.count = 126 ∧ b.getItem 64 = .ok false
    ∧ b.getItem 65 = .ok true ∧ b.getItem 128 = .error (.outOfRange "") :=
  ⟨_, _, .step .invert (.step (.write 63 true) (.step (.write 64 true) .new (by show 64 < _; decide) rfl)
    (by show 63 < _; decide) rfl) trivial rfl, by decide, by decide +kernel, by decide +kernel, by decide +kernel,
    by decide⟩

end PyVRP
