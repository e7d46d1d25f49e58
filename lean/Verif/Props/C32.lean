import Verif.Model.RingBuffer
/-!
# C32: the ring buffer

Specification: an unbounded record of what was stored in each step since the last `clear`. The
element to be overwritten next is the one recorded `n` steps ago.
-/
namespace PyVRP

namespace Spec

/-- The operations of a user. -/
inductive BufOp (α : Type) where
  | append (v : α)
  | skip
  | clear

/-- What was stored `n` steps ago, if there are that many steps. -/
def stored {α : Type} (n : Nat) (record : List α) : Option α :=
  if record.length < n then none else record[record.length - n]?

/-- The record after one operation: appending records the value, skipping records what is already
there (possibly nothing), clearing forgets everything. -/
def recordOp {α : Type} (n : Nat) (record : List (Option α)) : BufOp α → List (Option α)
  | .append v => record ++ [some v]
  | .skip => record ++ [(stored n record).join]
  | .clear => []

/-- The record after a history of operations. -/
def record {α : Type} (n : Nat) (ops : List (BufOp α)) : List (Option α) :=
  ops.foldl (recordOp n) []

end Spec

open Spec

namespace RingBuffer
variable {α : Type}

/-- Performing one operation. -/
def perform (b : RingBuffer α) : BufOp α → RingBuffer α
  | .append v => b.append v
  | .skip => b.skip
  | .clear => b.clear

/-- Performing a history of operations on a new buffer. -/
def history (n : Nat) (ops : List (BufOp α)) : RingBuffer α := ops.foldl perform (make n)

/-- The buffer holds the last `n` records, the one of step `t` at index `t % n`. -/
structure Holds (n : Nat) (b : RingBuffer α) (rec : List (Option α)) : Prop where
  len : b.buffer.length = n
  idx : b.idx = rec.length
  slots : ∀ k < n, (b.buffer[(rec.length + k) % n]?).join
    = if rec.length + k < n then none else (rec[rec.length + k - n]?).join

theorem Holds.peek {n : Nat} {b : RingBuffer α} {rec : List (Option α)} (h : Holds n b rec)
    (hn : 0 < n) : b.peek = (stored n rec).join := by
  have := h.slots 0 hn
  simp only [RingBuffer.peek, maxlen, h.len, h.idx, stored]
  simp only [Nat.add_zero] at this
  rw [this]
  split <;> rfl

theorem mod_ne {T k n : Nat} (h0 : 0 < k) (hk : k < n) : (T + k) % n ≠ T % n := by
  intro h
  have h1 : (T + k) % n = (T % n + k) % n := by simp [Nat.add_mod]
  have h2 : T % n < n := Nat.mod_lt _ (by omega)
  rw [h1] at h
  by_cases h3 : T % n + k < n
  · rw [Nat.mod_eq_of_lt h3] at h; omega
  · rw [Nat.mod_eq_sub_mod (by omega), Nat.mod_eq_of_lt (by omega)] at h; omega

/-- Recording `v` in the next slot. -/
theorem Holds.push {n : Nat} {b : RingBuffer α} {rec : List (Option α)} (h : Holds n b rec)
    (hn : 0 < n) (v : Option α) (buf : List (Option α)) (hlen : buf.length = n)
    (hv : (buf[rec.length % n]?).join = v)
    (ho : ∀ i, i ≠ rec.length % n → buf[i]? = b.buffer[i]?) :
    Holds n ⟨buf, b.idx + 1⟩ (rec ++ [v]) := by
  refine ⟨hlen, by simp [h.idx], fun k hk => ?_⟩
  simp only [List.length_append, List.length_cons, List.length_nil, Nat.zero_add]
  by_cases hk1 : k + 1 < n
  · have hne := mod_ne (T := rec.length) (k := k + 1) (n := n) (by omega) hk1
    have hs := h.slots (k + 1) hk1
    rw [show rec.length + 1 + k = rec.length + (k + 1) by omega, ho _ hne, hs]
    split
    · rfl
    · rw [List.getElem?_append_left (by omega)]
  · have : k + 1 = n := by omega
    rw [show rec.length + 1 + k = rec.length + n by omega, Nat.add_mod_right, hv,
      if_neg (by omega), Nat.add_sub_cancel, List.getElem?_append_right (Nat.le_refl _)]
    simp

theorem Holds.perform {n : Nat} {b : RingBuffer α} {rec : List (Option α)} (h : Holds n b rec)
    (hn : 0 < n) (op : BufOp α) : Holds n (b.perform op) (recordOp n rec op) := by
  have hlt : rec.length % n < b.buffer.length := by rw [h.len]; exact Nat.mod_lt _ hn
  cases op with
  | append v =>
    refine h.push hn _ _ (by simp [h.len]) ?_ (fun i hi => ?_)
    · simp [maxlen, h.len, h.idx, List.getElem?_set_self hlt]
    · simp only [maxlen, h.len, h.idx]
      exact List.getElem?_set_ne (Ne.symm hi)
  | skip =>
    refine h.push hn _ _ h.len ?_ (fun i hi => rfl)
    have := h.peek hn
    simpa [RingBuffer.peek, maxlen, h.len, h.idx] using this
  | clear =>
    refine ⟨by simp [RingBuffer.perform, RingBuffer.clear, maxlen, h.len], rfl, fun k hk => ?_⟩
    simp [RingBuffer.perform, RingBuffer.clear, recordOp, maxlen, h.len, List.getElem?_replicate, hk,
      Nat.mod_eq_of_lt hk]

theorem history_holds (n : Nat) (hn : 0 < n) (ops : List (BufOp α)) :
    Holds n (history n ops) (record n ops) := by
  have : ∀ (ops : List (BufOp α)) (b : RingBuffer α) (rec : List (Option α)), Holds n b rec →
      Holds n (ops.foldl RingBuffer.perform b) (ops.foldl (recordOp n) rec) := by
    intro ops
    induction ops with
    | nil => intro b rec h; exact h
    | cons op ops ih => intro b rec h; exact ih _ _ (h.perform hn op)
  refine this ops _ _ ⟨by simp [make], rfl, fun k hk => ?_⟩
  simp [make, List.getElem?_replicate, hk, Nat.mod_eq_of_lt hk]

end RingBuffer

open RingBuffer

/-- **C32.** After any history of operations on a buffer of positive length `n`, `peek` returns what
was stored `n` steps ago (nothing if there were fewer steps since the last `clear`). -/
theorem C32_peek {α : Type} (n : Nat) (hn : 0 < n) (ops : List (BufOp α)) :
    (history n ops).peek = (stored n (record n ops)).join :=
  (history_holds n hn ops).peek hn

/-- **C32.** Only the element that `peek` returns is overwritten by `append`: the following elements,
in the order in which they will be overwritten, stay. `skip` keeps all of them, and the skipped one
comes up again after `n - 1` more steps. -/
theorem C32_order {α : Type} (n : Nat) (hn : 0 < n) (ops : List (BufOp α)) (k : Nat) (hk : k < n)
    (v : α) :
    let b := history n ops
    let upcoming := fun (b : RingBuffer α) (k : Nat) => (List.replicate k ()).foldl (fun b _ => b.skip) b
    (upcoming (b.append v) k).peek = (if k + 1 = n then some v else (upcoming b (k + 1)).peek) ∧
    (upcoming b.skip k).peek = (if k + 1 = n then b.peek else (upcoming b (k + 1)).peek) := by
  have hup : ∀ (k : Nat) (b : RingBuffer α),
      (List.replicate k ()).foldl (fun b _ => b.skip) b = { b with idx := b.idx + k } := by
    intro k
    induction k with
    | zero => intro b; rfl
    | succ k ih =>
      intro b
      rw [List.replicate_succ, List.foldl_cons, ih]
      simp only [skip]
      congr 1; omega
  have h := history_holds n hn ops
  generalize history n ops = b at h
  generalize record n ops = rec at h
  have hlt : rec.length % n < b.buffer.length := by rw [h.len]; exact Nat.mod_lt _ hn
  simp only [hup]
  simp only [append, skip, peek, maxlen, List.length_set, h.len, h.idx]
  constructor
  · split
    · rw [show rec.length + 1 + k = rec.length + n by omega, Nat.add_mod_right,
        List.getElem?_set_self hlt]; rfl
    · rw [show rec.length + 1 + k = rec.length + (k + 1) by omega,
        List.getElem?_set_ne (Ne.symm (mod_ne (by omega) (by omega)))]
  · split
    · rw [show rec.length + 1 + k = rec.length + n by omega, Nat.add_mod_right]
    · rw [show rec.length + 1 + k = rec.length + (k + 1) by omega]

theorem RingBuffer.len_eq {α : Type} (b : RingBuffer α) :
    b.len = b.buffer.countP (·.isSome) := by
  have : ∀ (l : List (Option α)) (m : Nat),
      l.foldl (fun n v => n + if v.isSome then 1 else 0) m = m + l.countP (·.isSome) := by
    intro l
    induction l with
    | nil => intro m; rfl
    | cons x l ih =>
      intro m
      rw [List.foldl_cons, ih, List.countP_cons]; omega
  rw [len, this]; omega

/-- **C32.** The length is the number of values among the last `n` steps: never more than `n`, zero after
`clear`, and it grows exactly when a value is appended where there was none. -/
theorem C32_len {α : Type} (n : Nat) (hn : 0 < n) (ops : List (BufOp α)) (v : α) :
    (history n ops).len ≤ n ∧
    (history n ops).clear.len = 0 ∧ (history n ops).clear.peek = none ∧
    (history n ops).skip.len = (history n ops).len ∧
    ((history n ops).append v).len
      = (history n ops).len + (if (history n ops).peek = none then 1 else 0) := by
  have h := history_holds n hn ops
  generalize history n ops = b at h
  generalize record n ops = rec at h
  have hlt : rec.length % n < b.buffer.length := by rw [h.len]; exact Nat.mod_lt _ hn
  refine ⟨?_, ?_, ?_, rfl, ?_⟩
  · rw [len_eq, ← h.len]; exact List.countP_le_length
  · rw [len_eq, clear, List.countP_replicate]; rfl
  · simp only [clear, peek, maxlen, List.length_replicate, h.len, List.getElem?_replicate]
    split <;> rfl
  · rw [len_eq, len_eq]
    simp only [append, peek, maxlen, h.len, h.idx, List.countP_set hlt, List.getElem?_eq_getElem hlt,
      Option.join_some, Option.isSome_some, if_true]
    cases hb : b.buffer[rec.length % n] with
    | none => simp
    | some x =>
      have : 0 < b.buffer.countP (·.isSome) := by
        rw [List.countP_pos_iff]
        exact ⟨_, List.getElem_mem hlt, by rw [hb]; rfl⟩
      simp; omega

/-- A buffer of length three after some operations: the element stored three steps ago comes next. -/
example : let ops : List (BufOp Nat) := [.append 1, .clear, .append 5, .append 6, .skip, .append 8, .skip]
    (history 3 ops).peek = none ∧ (history 3 (ops ++ [.append 9])).peek = some 8 ∧
      (history 3 ops).len = 2 ∧ record 3 ops = [some 5, some 6, none, some 8, some 6] := by decide

end PyVRP
