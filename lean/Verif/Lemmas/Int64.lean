import Verif.Model.Int64
/-!
# Computations with 64-bit integers: segments
-/
namespace PyVRP

namespace I64

theorem chk_eq {x : Int} (h : -MAX - 1 ≤ x ∧ x ≤ MAX) : chk x = some x := if_pos h

theorem add_eq {a b : Int} (h : -MAX - 1 ≤ a + b ∧ a + b ≤ MAX) : add a b = some (a + b) := if_pos h

theorem sub_eq {a b : Int} (h : -MAX - 1 ≤ a - b ∧ a - b ≤ MAX) : sub a b = some (a - b) := if_pos h

theorem mul_eq {a b : Int} (h : -MAX - 1 ≤ a * b ∧ a * b ≤ MAX) : mul a b = some (a * b) := if_pos h

theorem neg_eq {a : Int} (h : -MAX - 1 ≤ -a ∧ -a ≤ MAX) : neg a = some (-a) := if_pos h

theorem ternary_sub {c : Prop} [Decidable c] {a b y : Int}
    (h : c → -MAX - 1 ≤ a - b ∧ a - b ≤ MAX) :
    ternary c (sub a b) y = some (if c then a - b else y) := by
  unfold ternary
  split
  · rw [sub_eq (h ‹_›)]
  · rfl

theorem ternary_some {c : Prop} [Decidable c] {x y : Int} :
    ternary c (some x) y = some (if c then x else y) := by
  unfold ternary
  split <;> rfl

theorem each_eq {α β : Type} {f : α → Option β} {g : α → β} :
    ∀ {l : List α}, (∀ a ∈ l, f a = some (g a)) → each f l = some (l.map g)
  | [], _ => rfl
  | a :: l, h => by
    rw [each, h a (by simp), each_eq (l := l) (fun b hb => h b (by simp [hb]))]
    rfl

/-- A segment whose numbers are small: earliest start and release time are at most `a`, its
duration is at most `p`, and the statistics of earlier trips are at most `c`. -/
structure Bd (a p c : Int) (s : DurSeg) : Prop where
  early : 0 ≤ s.startEarly_ ∧ s.startEarly_ ≤ a
  late : s.startEarly_ ≤ s.startLate_ ∧ s.startLate_ ≤ MAX
  dur : 0 ≤ s.duration_ ∧ s.duration_ ≤ p
  tw : 0 ≤ s.timeWarp_ ∧ s.timeWarp_ ≤ s.startEarly_ + s.duration_
  fixed : 0 < s.timeWarp_ → s.startLate_ = s.startEarly_
  rel : 0 ≤ s.releaseTime_ ∧ s.releaseTime_ ≤ a
  cumD : 0 ≤ s.cumDuration_ ∧ s.cumDuration_ ≤ c
  cumT : 0 ≤ s.cumTimeWarp_ ∧ s.cumTimeWarp_ ≤ c
  prev : 0 ≤ s.prevEndLate_ ∧ s.prevEndLate_ ≤ MAX

theorem Bd.mono {a p c a' p' c' : Int} {s : DurSeg} (h : Bd a p c s) (ha : a ≤ a') (hp : p ≤ p')
    (hc : c ≤ c') : Bd a' p' c' s := by
  obtain ⟨h1, h2, h3, h4, h5, h6, h7, h8, h9⟩ := h
  constructor <;> omega

theorem Bd.merge {e : Int} {s t : DurSeg} {a a1 p1 c1 a2 p2 c2 : Int} (hs : Bd a1 p1 c1 s)
    (ht : Bd a2 p2 c2 t) (he : 0 ≤ e) (ha1 : a1 ≤ a) (ha2 : a2 ≤ a) (hh : a1 + a2 ≤ HALF) :
    Bd a (p1 + p2 + e + a2) (c1 + c2) (DurSeg.merge e s t) := by
  have hm := MAX_eq
  have hh' := HALF_eq
  obtain ⟨h1, h2, h3, h4, h5, h6, h7, h8, h9⟩ := hs
  obtain ⟨g1, g2, g3, g4, g5, g6, g7, g8, g9⟩ := ht
  constructor <;> simp only [DurSeg.merge] <;> omega

theorem merge_eq {e : Int} {s t : DurSeg} {a1 p1 c1 a2 p2 c2 : Int} (hs : Bd a1 p1 c1 s)
    (ht : Bd a2 p2 c2 t) (he : 0 ≤ e) (hb : a1 + a2 + p1 + p2 + e + c1 + c2 ≤ HALF) :
    merge e s t = some (DurSeg.merge e s t) := by
  have hm := MAX_eq
  have hh := HALF_eq
  obtain ⟨h1, h2, h3, h4, h5, h6, h7, h8, h9⟩ := hs
  obtain ⟨g1, g2, g3, g4, g5, g6, g7, g8, g9⟩ := ht
  unfold merge DurSeg.merge
  simp (disch := omega) only [add_eq, sub_eq, ternary_sub, ternary_some, Option.bind_eq_bind,
    Option.bind_some]

theorem duration_eq {s : DurSeg} {a p c : Int} (h : Bd a p c s) (hb : a + p + c ≤ MAX) :
    duration s = some s.duration ∧ 0 ≤ s.duration ∧ s.duration ≤ a + p + c := by
  have hm := MAX_eq
  obtain ⟨h1, h2, h3, h4, h5, h6, h7, h8, h9⟩ := h
  unfold duration DurSeg.duration DurSeg.startEarly
  simp (disch := omega) only [add_eq, sub_eq, Option.bind_eq_bind, Option.bind_some]
  exact ⟨trivial, by omega, by omega⟩

theorem timeWarp_eq {s : DurSeg} {a p c D : Int} (h : Bd a p c s) (hD : 0 ≤ D)
    (hb : 3 * a + 2 * p + 2 * c ≤ MAX) :
    timeWarp s D = some (s.timeWarp D) ∧ 0 ≤ s.timeWarp D
      ∧ s.timeWarp D ≤ 3 * a + 2 * p + 2 * c := by
  have hm := MAX_eq
  obtain ⟨hd, hd0, hd1⟩ := duration_eq h (by have := h.early; have := h.dur; have := h.cumD; omega)
  obtain ⟨h1, h2, h3, h4, h5, h6, h7, h8, h9⟩ := h
  unfold timeWarp DurSeg.timeWarp
  rw [hd]
  generalize s.duration = d at *
  simp (disch := omega) only [add_eq, sub_eq, ternary_sub, Option.bind_eq_bind,
    Option.bind_some]
  exact ⟨trivial, by omega, by omega⟩

theorem slack_eq {s : DurSeg} {a p c : Int} (h : Bd a p c s) (ha : a ≤ MAX) : slack s = some s.slack := by
  have hm := MAX_eq
  obtain ⟨h1, h2, h3, h4, h5, h6, h7, h8, h9⟩ := h
  unfold slack DurSeg.slack DurSeg.startLate DurSeg.startEarly
  simp (disch := omega) only [sub_eq, Option.bind_eq_bind, Option.bind_some]

theorem Bd.release {s : DurSeg} {a p c : Int} (h : Bd a p c s) (ha : a ≤ MAX) :
    Bd a 0 0 { startEarly_ := s.startEarly, startLate_ := s.startLate } := by
  have hm := MAX_eq
  obtain ⟨h1, h2, h3, h4, h5, h6, h7, h8, h9⟩ := h
  constructor <;> simp only [DurSeg.startEarly, DurSeg.startLate] <;> omega

theorem Bd.trip {s : DurSeg} {a p c : Int} (h : Bd a p c s) :
    Bd a p 0 { duration_ := s.duration_, timeWarp_ := s.timeWarp_, startEarly_ := s.startEarly_,
               startLate_ := s.startLate_ } := by
  have hm := MAX_eq
  obtain ⟨h1, h2, h3, h4, h5, h6, h7, h8, h9⟩ := h
  constructor <;> dsimp only <;> omega

theorem Bd.finaliseFront {s : DurSeg} {a p c : Int} (h : Bd a p c s) (ha : a + a ≤ HALF) :
    Bd a p 0 s.finaliseFront := by
  have hm := MAX_eq
  have hh := HALF_eq
  have h0 : 0 ≤ a := by have := h.early; omega
  have hb := Bd.merge (e := 0) (a := a) (h.release (by omega)) h.trip (by omega) (by omega)
    (by omega) (by omega)
  obtain ⟨h1, h2, h3, h4, h5, h6, h7, h8, h9⟩ := h
  obtain ⟨g1, g2, g3, g4, g5, g6, g7, g8, g9⟩ := hb
  refine ⟨g1, g2, ⟨g3.1, ?_⟩, g4, g5, g6, ?_, ?_, g9⟩ <;> clear g1 g2 g3 g4 g5 g6 g7 g8 g9 <;>
    simp only [DurSeg.finaliseFront, DurSeg.merge, DurSeg.startEarly, DurSeg.startLate] <;> omega

theorem finaliseFront_eq {s : DurSeg} {a p c : Int} (h : Bd a p c s) (hb : a + a + p ≤ HALF) :
    finaliseFront s = some s.finaliseFront := by
  have hm := MAX_eq
  have hh := HALF_eq
  have h0 := h.early
  have h1 := h.dur
  exact merge_eq (h.release (by omega)) h.trip (by omega) (by omega)

/-! ## Loads -/

/-- A load segment of which the sum of all loads is at most `q`. -/
structure LBd (q : Int) (s : LoadSeg) : Prop where
  initial : 0 ≤ s.initial_
  increase : 0 ≤ s.increase_
  delta : -q ≤ s.delta_ ∧ s.delta_ ≤ s.increase_
  excess : 0 ≤ s.excessLoad_
  total : s.excessLoad_ + s.initial_ + s.increase_ ≤ 2 * q

theorem LBd.mono {q q' : Int} {s : LoadSeg} (h : LBd q s) (hq : q ≤ q') : LBd q' s := by
  obtain ⟨h1, h2, h3, h4, h5⟩ := h
  constructor <;> omega

theorem mergeLoad_eq {s t : LoadSeg} {q r : Int} (hs : LBd q s) (ht : LBd r t)
    (hb : 2 * (q + r) ≤ MAX) :
    mergeLoad s t = some (LoadSeg.merge s t) ∧ LBd (q + r) (LoadSeg.merge s t) := by
  have hm := MAX_eq
  obtain ⟨h1, h2, h3, h4, h5⟩ := hs
  obtain ⟨g1, g2, g3, g4, g5⟩ := ht
  constructor
  · unfold mergeLoad LoadSeg.merge
    simp (disch := omega) only [add_eq, Option.bind_eq_bind, Option.bind_some]
  · constructor <;> simp only [LoadSeg.merge] <;> omega

theorem excessLoad_eq {s : LoadSeg} {q cap : Int} (hs : LBd q s) (hc : 0 ≤ cap)
    (hb : 2 * q ≤ MAX) (hcm : cap ≤ MAX) :
    excessLoad s cap = some (s.excessLoad cap) ∧ 0 ≤ s.excessLoad cap ∧ s.excessLoad cap ≤ 2 * q := by
  have hm := MAX_eq
  obtain ⟨h1, h2, h3, h4, h5⟩ := hs
  unfold excessLoad LoadSeg.excessLoad load LoadSeg.load
  simp (disch := omega) only [add_eq, sub_eq, Option.bind_eq_bind, Option.bind_some]
  exact ⟨trivial, by omega, by omega⟩

theorem finalise_eq {s : LoadSeg} {q cap : Int} (hs : LBd q s) (hc : 0 ≤ cap)
    (hb : 2 * q ≤ MAX) (hcm : cap ≤ MAX) :
    finalise s cap = some (s.finalise cap) ∧ LBd q (s.finalise cap) := by
  obtain ⟨h1, h2, h3⟩ := excessLoad_eq hs hc hb hcm
  unfold finalise LoadSeg.finalise
  rw [h1]
  exact ⟨rfl, ⟨by dsimp only; omega, by dsimp only; omega, by dsimp only; omega, h2,
    by dsimp only; omega⟩⟩

theorem loadOfClient_eq {c : Client} {dim : Nat} {B : Int} (hB : B ≤ HALF)
    (hd : 0 ≤ c.delivery.getD dim 0 ∧ c.delivery.getD dim 0 ≤ B)
    (hp : 0 ≤ c.pickup.getD dim 0 ∧ c.pickup.getD dim 0 ≤ B) :
    loadOfClient c dim = some (LoadSeg.ofClient c dim) ∧ LBd B (LoadSeg.ofClient c dim) := by
  have hm := MAX_eq
  have hh := HALF_eq
  unfold loadOfClient LoadSeg.ofClient
  generalize c.delivery.getD dim 0 = d at *
  generalize c.pickup.getD dim 0 = p at *
  constructor
  · simp (disch := omega) only [sub_eq, Option.bind_eq_bind, Option.bind_some]
  · constructor <;> dsimp only <;> omega

theorem loadOfShipment_eq {s : Shipment} {t : ActivityType} {dim : Nat} {B : Int} (hB : B ≤ HALF)
    (hd : 0 ≤ s.amount.getD dim 0 ∧ s.amount.getD dim 0 ≤ B) :
    loadOfShipment s t dim = some (LoadSeg.ofShipment s t dim) ∧ LBd B (LoadSeg.ofShipment s t dim) := by
  have hm := MAX_eq
  have hh := HALF_eq
  unfold loadOfShipment LoadSeg.ofShipment
  generalize s.amount.getD dim 0 = d at *
  constructor
  · rw [neg_eq (by omega)]
    unfold ternary
    by_cases h : t = .pickup
    · rw [if_neg (fun k => k h), if_pos h]
      rfl
    · rw [if_pos h, if_neg h]
      rfl
  · by_cases h : t = .pickup
    · rw [if_pos h]
      constructor <;> dsimp only <;> omega
    · rw [if_neg h]
      constructor <;> dsimp only <;> omega

end I64
end PyVRP
