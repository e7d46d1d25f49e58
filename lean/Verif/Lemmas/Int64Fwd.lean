import Verif.Lemmas.Int64
/-!
# Computations with 64-bit integers: segments that end earlier trips
-/
namespace PyVRP.I64

/-- A segment that begins at the start of a route, with earlier trips. All its numbers are bounded by
`N`. A trip starts at most `B` after the end of the previous trip. -/
structure Fwd (B N : Int) (s : DurSeg) : Prop where
  early : 0 ≤ s.startEarly_ ∧ s.startEarly_ + s.duration_ ≤ N
  late : s.startEarly_ ≤ s.startLate_ ∧ s.startLate_ ≤ MAX
  dur : 0 ≤ s.duration_
  tw : 0 ≤ s.timeWarp_ ∧ s.timeWarp_ ≤ s.startEarly_ + s.duration_
  fixed : 0 < s.timeWarp_ → s.startLate_ = s.startEarly_
  rel : 0 ≤ s.releaseTime_ ∧ s.releaseTime_ + s.duration_ ≤ N
  cumD : 0 ≤ s.cumDuration_ ∧ s.cumDuration_ + s.duration_ ≤ N
  cumT : 0 ≤ s.cumTimeWarp_ ∧ s.cumTimeWarp_ + s.startEarly_ ≤ s.cumDuration_ + N
    ∧ s.cumTimeWarp_ + s.releaseTime_ ≤ s.cumDuration_ + N
  prev : 0 ≤ s.prevEndLate_ ∧ s.prevEndLate_ ≤ MAX
  gap : s.startEarly_ ≤ s.prevEndLate_ + B ∧ s.releaseTime_ ≤ s.prevEndLate_ + B

theorem Fwd.mono {B N N' : Int} {s : DurSeg} (h : Fwd B N s) (hN : N ≤ N') : Fwd B N' s := by
  obtain ⟨h1, h2, h3, h4, h5, h6, h7, h8, h9, h10⟩ := h
  constructor <;> omega

theorem Fwd.bd {B N : Int} {s : DurSeg} (h : Fwd B N s) : Bd N N (2 * N) s := by
  obtain ⟨h1, h2, h3, h4, h5, h6, h7, h8, h9, h10⟩ := h
  constructor <;> omega

/-- A first segment without earlier trips. -/
theorem Bd.fwd {B p : Int} {s : DurSeg} (h : Bd B p 0 s) (hB : 0 ≤ B)
    (hp : s.prevEndLate_ = MAX) : Fwd B (B + p) s := by
  have hm := MAX_eq
  obtain ⟨h1, h2, h3, h4, h5, h6, h7, h8, h9⟩ := h
  constructor <;> omega

/-- Another segment at the end. -/
theorem Fwd.merge {B N e p : Int} {s t : DurSeg} (hs : Fwd B N s) (ht : Bd B p 0 t) (he : 0 ≤ e)
    (hB : 0 ≤ B) (hh : N + B ≤ HALF) : Fwd B (N + p + e + 2 * B) (DurSeg.merge e s t) := by
  have hm := MAX_eq
  have hh' := HALF_eq
  obtain ⟨h1, h2, h3, h4, h5, h6, h7, h8, h9, h10⟩ := hs
  obtain ⟨g1, g2, g3, g4, g5, g6, g7, g8, g9⟩ := ht
  constructor <;> simp only [DurSeg.merge] <;> omega

theorem Fwd.merge_eq {B N e p : Int} {s t : DurSeg} (hs : Fwd B N s) (ht : Bd B p 0 t) (he : 0 ≤ e)
    (hb : 4 * N + B + p + e ≤ HALF) : I64.merge e s t = some (DurSeg.merge e s t) :=
  I64.merge_eq hs.bd ht he (by omega)

theorem Fwd.duration_eq {B N : Int} {s : DurSeg} (h : Fwd B N s) (hB : 0 ≤ B) (hb : N + B ≤ MAX) :
    duration s = some s.duration ∧ 0 ≤ s.duration ∧ s.duration ≤ N + B := by
  have hm := MAX_eq
  obtain ⟨h1, h2, h3, h4, h5, h6, h7, h8, h9, h10⟩ := h
  unfold duration DurSeg.duration DurSeg.startEarly
  simp (disch := omega) only [add_eq, sub_eq, Option.bind_eq_bind, Option.bind_some]
  exact ⟨trivial, by omega, by omega⟩

theorem Fwd.timeWarp_eq {B N D : Int} {s : DurSeg} (h : Fwd B N s) (hB : 0 ≤ B) (hD : 0 ≤ D)
    (hb : 4 * N + B ≤ MAX) :
    timeWarp s D = some (s.timeWarp D) ∧ 0 ≤ s.timeWarp D ∧ s.timeWarp D ≤ 4 * N + B := by
  have hm := MAX_eq
  obtain ⟨hd, hd0, hd1⟩ := h.duration_eq hB (by have := h.early; have := h.dur; omega)
  obtain ⟨h1, h2, h3, h4, h5, h6, h7, h8, h9, h10⟩ := h
  unfold timeWarp DurSeg.timeWarp
  rw [hd]
  generalize s.duration = d at *
  simp (disch := omega) only [add_eq, sub_eq, ternary_sub, Option.bind_eq_bind,
    Option.bind_some]
  exact ⟨trivial, by omega, by omega⟩

theorem finaliseFront_val {B N : Int} {s : DurSeg} (h : Fwd B N s) :
    s.finaliseFront = { duration_ := s.duration_
                        timeWarp_ := s.timeWarp_ + max (s.releaseTime_ - s.startLate_) 0
                        startEarly_ := max s.startEarly_ s.releaseTime_
                        startLate_ := max s.startLate_ s.releaseTime_ } := by
  have hm := MAX_eq
  obtain ⟨h1, h2, h3, h4, h5, h6, h7, h8, h9, h10⟩ := h
  unfold DurSeg.finaliseFront DurSeg.merge DurSeg.startEarly DurSeg.startLate
  simp only [DurSeg.mk.injEq]
  refine ⟨?_, ?_, ?_, ?_, ?_, ?_, ?_, trivial⟩ <;> omega

/-- The value that `finaliseBack` calls `finalised`. -/
theorem finalised_val {B N : Int} {s : DurSeg} (h : Fwd B N s) :
    DurSeg.merge 0 { startLate_ := s.prevEndLate_ } s.finaliseFront
      = { duration_ := s.duration_ + max (max s.startEarly_ s.releaseTime_ - s.prevEndLate_) 0
          timeWarp_ := s.timeWarp_ + max (s.releaseTime_ - s.startLate_) 0
          startEarly_ := min (max s.startEarly_ s.releaseTime_) s.prevEndLate_
          startLate_ := min (max s.startLate_ s.releaseTime_) s.prevEndLate_ } := by
  rw [finaliseFront_val h]
  have hm := MAX_eq
  obtain ⟨h1, h2, h3, h4, h5, h6, h7, h8, h9, h10⟩ := h
  unfold DurSeg.merge
  simp only [DurSeg.mk.injEq]
  refine ⟨?_, ?_, ?_, ?_, ?_, ?_, ?_, trivial⟩ <;> omega

/-- The same value as a segment. -/
theorem Fwd.finalised {B N : Int} {s : DurSeg} (h : Fwd B N s) (hB : 0 ≤ B) (hN : N + B ≤ HALF) :
    Bd N (N + B) 0 (DurSeg.merge 0 { startLate_ := s.prevEndLate_ } s.finaliseFront) := by
  rw [finalised_val h]
  have hm := MAX_eq
  have hh := HALF_eq
  obtain ⟨h1, h2, h3, h4, h5, h6, h7, h8, h9, h10⟩ := h
  constructor <;> dsimp only <;> omega

/-- The end of a trip. -/
theorem Fwd.finaliseBack {B N : Int} {s : DurSeg} (h : Fwd B N s) (hB : 0 ≤ B) (hb : N + B ≤ HALF) :
    Fwd B (N + B) s.finaliseBack := by
  have hk := h.finalised hB hb
  have hv := finalised_val h
  unfold DurSeg.finaliseBack
  dsimp only
  rw [hv] at hk ⊢
  have hm := MAX_eq
  have hh := HALF_eq
  obtain ⟨h1, h2, h3, h4, h5, h6, h7, h8, h9, h10⟩ := h
  obtain ⟨g1, g2, g3, g4, g5, g6, g7, g8, g9⟩ := hk
  have e1 : max s.startEarly_ s.releaseTime_ + s.duration_ ≤ N := by omega
  have e2 : s.cumTimeWarp_ + max s.startEarly_ s.releaseTime_ ≤ s.cumDuration_ + N := by omega
  have e3 : max (max s.startEarly_ s.releaseTime_ - s.prevEndLate_) 0 ≤ B := by omega
  dsimp only at g1 g2 g3 g4 g5
  clear h1 h2 h4 h5 h6 h10 g6 g7 g8 g9
  generalize max s.startEarly_ s.releaseTime_ = x at *
  generalize s.timeWarp_ + max (s.releaseTime_ - s.startLate_) 0 = t at *
  generalize max s.startLate_ s.releaseTime_ = y at *
  constructor <;> simp only [DurSeg.endEarly,
    DurSeg.endLate, DurSeg.duration, DurSeg.timeWarp, DurSeg.startEarly, DurSeg.startLate] <;> omega

theorem Fwd.finaliseBack_eq {B N : Int} {s : DurSeg} (h : Fwd B N s) (hB : 0 ≤ B)
    (hb : 4 * (N + B) ≤ HALF) : I64.finaliseBack s = some s.finaliseBack := by
  have hm := MAX_eq
  have hh := HALF_eq
  have h0 : 0 ≤ N := by have := h.early; have := h.dur; omega
  have hk := h.finalised hB (by omega)
  have hf := h.bd.finaliseFront (by omega)
  have hp : Bd 0 0 0 ({ startLate_ := s.prevEndLate_ } : DurSeg) := by
    have := h.prev
    constructor <;> dsimp only <;> omega
  unfold I64.finaliseBack DurSeg.finaliseBack
  rw [finaliseFront_eq h.bd (by omega)]
  simp only [Option.bind_eq_bind, Option.bind_some]
  rw [I64.merge_eq hp hf (by omega) (by omega)]
  have hc1 : (DurSeg.merge 0 { startLate_ := s.prevEndLate_ } s.finaliseFront).cumDuration_ = 0 := by
    have := hk.cumD; omega
  have hc2 : (DurSeg.merge 0 { startLate_ := s.prevEndLate_ } s.finaliseFront).cumTimeWarp_ = 0 := by
    have := hk.cumT; omega
  simp only [Option.bind_some]
  generalize DurSeg.merge 0 { startLate_ := s.prevEndLate_ } s.finaliseFront = f at *
  obtain ⟨d1, d2, d3⟩ := I64.duration_eq hk (by omega)
  obtain ⟨t1, t2, t3⟩ := I64.timeWarp_eq (D := MAX) hk (by omega) (by omega)
  have b1 := h.cumD
  have b2 := h.cumT
  have b3 := h.dur
  have b4 := hk.early
  have b5 := hk.late
  have b6 := hk.rel
  have b7 := h.early
  unfold endEarly endLate DurSeg.endEarly DurSeg.endLate
  rw [d1, t1, hc1, hc2]
  have c1 : 0 ≤ f.startEarly ∧ f.startEarly ≤ N := by unfold DurSeg.startEarly; omega
  have c2 : 0 ≤ f.startLate ∧ f.startLate ≤ MAX := by unfold DurSeg.startLate; omega
  generalize f.duration = d at *
  generalize f.timeWarp = t at *
  generalize f.startEarly = x at *
  generalize f.startLate = y at *
  clear hk hf hp h
  simp (disch := omega) only [add_eq, sub_eq, ternary, Option.bind_eq_bind, Option.bind_some]
  by_cases hc : d - 0 - (t - 0) > MAX - y
  · rw [if_neg (by omega), if_pos hc]
    rfl
  · rw [if_pos hc, if_neg hc]
    rfl

end PyVRP.I64
