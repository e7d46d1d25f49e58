import Verif.Lemmas.Drive
/-!
# Lemmas on finalising duration segments

`finaliseBack` closes a trip at its end, `finaliseFront` opens one at its start; the two ways of
joining trips report the same duration and time warp (`merge_finaliseBack`).
-/
namespace PyVRP
namespace DurSeg
open Spec

theorem ext_of_functions' {a b : DurSeg}
    (hD : ∀ t, a.D t = b.D t) (hW : ∀ t, a.W t = b.W t)
    (h5 : a.releaseTime_ = b.releaseTime_) (h6 : a.cumDuration_ = b.cumDuration_)
    (h7 : a.cumTimeWarp_ = b.cumTimeWarp_) (h8 : a.prevEndLate_ = b.prevEndLate_) : a = b := by
  have d1 := hD (max a.startEarly_ b.startEarly_)
  have d2 := hD (min a.startEarly_ b.startEarly_)
  have w1 := hW (min a.startLate_ b.startLate_)
  have w2 := hW (max a.startLate_ b.startLate_)
  unfold DurSeg.D at d1 d2
  unfold DurSeg.W at w1 w2
  cases a; cases b
  simp only [DurSeg.mk.injEq] at *
  omega

theorem merge_fin {e : Int} {a b : DurSeg} (he : 0 ≤ e) (ha : a.Ok) (hb : b.Ok) (t : Int) :
    (merge e a b).fin t = b.fin (a.fin t + e) := by
  unfold DurSeg.fin; rw [DurSeg.merge_D he ha hb, DurSeg.merge_W he ha hb]
  unfold DurSeg.fin; omega

theorem merge_assoc {e f : Int} {a b c : DurSeg} (he : 0 ≤ e) (hf : 0 ≤ f)
    (ha : a.Ok) (hb : b.Ok) (hc : c.Ok) :
    merge f (merge e a b) c = merge e a (merge f b c) := by
  have hab := DurSeg.Ok.merge he ha hb
  have hbc := DurSeg.Ok.merge hf hb hc
  apply ext_of_functions'
  · intro t
    rw [merge_D hf hab hc, merge_D he ha hb, merge_D he ha hbc, merge_D hf hb hc,
      merge_fin he ha hb]
    omega
  · intro t
    rw [merge_W hf hab hc, merge_W he ha hb, merge_W he ha hbc, merge_W hf hb hc,
      merge_fin he ha hb]
    omega
  · simp only [merge]; omega
  · simp only [merge]; omega
  · simp only [merge]; omega
  · rfl

theorem prev_merge_fields {f : DurSeg} {q : Int} (h0 : 0 ≤ f.startEarly_)
    (hl : f.startEarly_ ≤ f.startLate_) (hM : f.startLate_ ≤ MAX)
    (hr : f.releaseTime_ = 0) (hc : f.cumDuration_ = 0) (hw : f.cumTimeWarp_ = 0) :
    merge 0 { startLate_ := q } f =
      { duration_ := f.duration_ + max (f.startEarly_ - q) 0
        timeWarp_ := f.timeWarp_
        startEarly_ := min f.startEarly_ q
        startLate_ := min q f.startLate_ } := by
  simp only [DurSeg.merge, DurSeg.mk.injEq, hr, hc, hw]
  refine ⟨?_, ?_, ?_, ?_, ?_, ?_, ?_, ?_⟩ <;> first | trivial | omega

theorem end_fields {f : DurSeg} (h0 : 0 ≤ f.startEarly_) (hl : f.startEarly_ ≤ f.startLate_)
    (hM : f.startLate_ ≤ MAX) (hr : f.releaseTime_ = 0) (hc : f.cumDuration_ = 0)
    (hw : f.cumTimeWarp_ = 0) (hp : f.prevEndLate_ = MAX) (hd : f.duration_ - f.timeWarp_ ≤ MAX) :
    f.duration = f.duration_ ∧ f.timeWarp = f.timeWarp_
    ∧ f.endEarly = f.startEarly_ + f.duration_ - f.timeWarp_
    ∧ f.endLate = min MAX (f.startLate_ + f.duration_ - f.timeWarp_) := by
  have h1 : f.startEarly = f.startEarly_ := by simp only [startEarly, hr]; omega
  have h2 : f.startLate = f.startLate_ := by simp only [startLate, hr]; omega
  have h3 : f.duration = f.duration_ := by simp only [duration, h1, hc, hp]; omega
  have h4 : f.timeWarp = f.timeWarp_ := by simp only [timeWarp, h3, hw, hr]; omega
  refine ⟨h3, h4, ?_, ?_⟩
  · simp only [endEarly, h1, h3, h4, hc, hw]; omega
  · simp only [endLate, h2, h3, h4, hc, hw]; omega

/-- What a segment reports without a duration limit. -/
def obs (s : DurSeg) : Int × Int :=
  (s.duration, s.cumTimeWarp_ + s.timeWarp_ + max (s.releaseTime_ - s.startLate_) 0)

theorem duration_eq (s : DurSeg) :
    s.duration = s.cumDuration_ + max (s.releaseTime_ - s.prevEndLate_) 0
      + s.D (max s.prevEndLate_ s.releaseTime_) := by
  simp only [duration, D, startEarly]; omega

theorem obs_eq (s : DurSeg) :
    s.obs = (s.cumDuration_ + max (s.releaseTime_ - s.prevEndLate_) 0
      + s.D (max s.prevEndLate_ s.releaseTime_), s.cumTimeWarp_ + s.W s.releaseTime_) := by
  rw [obs, duration_eq]; simp only [W, Prod.mk.injEq, true_and]; omega

theorem finaliseFront_D {s : DurSeg} (h : s.Ok) (t : Int) :
    s.finaliseFront.D t = max (s.releaseTime_ - t) 0 + s.D (max t s.releaseTime_) := by
  rw [finaliseFront_fields h]; simp only [D, startEarly]; omega

theorem finaliseFront_W {s : DurSeg} (h : s.Ok) (t : Int) :
    s.finaliseFront.W t = s.W (max t s.releaseTime_) := by
  rw [finaliseFront_fields h]; simp only [W, startLate]; omega

/-- Invariant of a prefix, which may have earlier trips. -/
structure Pre (p : DurSeg) : Prop where
  ok : p.Ok
  r0 : 0 ≤ p.releaseTime_
  rH : p.releaseTime_ ≤ HALF
  q0 : 0 ≤ p.prevEndLate_
  qM : p.prevEndLate_ ≤ MAX
  fH : p.fin p.releaseTime_ ≤ HALF

theorem Pre.finaliseBack_fields {p : DurSeg} (h : p.Pre) :
    p.finaliseBack =
      { duration_ := 0, timeWarp_ := 0
        startEarly_ := p.fin p.releaseTime_
        startLate_ := MAX
        releaseTime_ := p.fin p.releaseTime_
        cumDuration_ := p.cumDuration_ + max (p.releaseTime_ - p.prevEndLate_) 0
          + p.D (max p.prevEndLate_ p.releaseTime_)
        cumTimeWarp_ := p.cumTimeWarp_ + p.W p.releaseTime_
        prevEndLate_ := min MAX (p.fin (max p.prevEndLate_ p.releaseTime_)) } := by
  have hM := MAX_eq; have hH := HALF_eq
  have hp := h.ok
  have hr := h.rH; have hr0 := h.r0; have hq := h.qM; have hq0 := h.q0
  have hfH := h.fH
  rw [fin_eq hp] at hfH
  have hel := hp.el
  have heH := hp.eH
  have h1 : 0 ≤ p.startEarly := by simp only [startEarly]; omega
  have h2 : p.startEarly ≤ p.startLate := by simp only [startEarly, startLate]; omega
  have h3 : p.startLate ≤ MAX := by have := hp.lM; simp only [startLate]; omega
  have e1 : p.startEarly = max p.startEarly_ p.releaseTime_ := rfl
  have e2 : p.startLate = max p.startLate_ p.releaseTime_ := rfl
  unfold finaliseBack
  rw [finaliseFront_fields hp]
  dsimp only
  rw [prev_merge_fields (by simpa using h1) (by simpa using h2) (by simpa using h3) rfl rfl rfl]
  obtain ⟨g1, g2, g3, g4⟩ := end_fields (f :=
     { duration_ := p.duration_ + max (p.startEarly - p.prevEndLate_) 0
       timeWarp_ := p.timeWarp_ + max (p.releaseTime_ - p.startLate_) 0
       startEarly_ := min p.startEarly p.prevEndLate_
       startLate_ := min p.prevEndLate_ p.startLate })
    (by simp only; omega) (by simp only; omega) (by simp only; omega) rfl rfl rfl rfl
    (by simp only; omega)
  simp only [g1, g2, g3, g4, DurSeg.mk.injEq, fin_eq hp, D, W, true_and]
  clear g1 g2 g3 g4
  repeat' apply And.intro
  all_goals omega

theorem Pre.fin_nonneg {p : DurSeg} (hp : p.Pre) (t : Int) : 0 ≤ p.fin t := by
  rw [fin_eq hp.ok]; have := hp.ok.en; omega

theorem Pre.finaliseBack_ok {p : DurSeg} (hp : p.Pre) : p.finaliseBack.Ok := by
  have hf := hp.fH
  have h0 := hp.fin_nonneg p.releaseTime_
  have := MAX_eq; have := HALF_eq
  rw [hp.finaliseBack_fields]
  constructor <;> simp only <;> omega

/-- Closing the trips so far at the back and going on with `x` reports the same as opening `x`
at the front and merging it. -/
theorem merge_finaliseBack {p x : DurSeg} (hp : p.Pre) (hx : x.Ok) (hxr : x.releaseTime_ ≤ HALF)
    (hxr0 : 0 ≤ x.releaseTime_) (hxc : x.cumDuration_ = 0) (hxw : x.cumTimeWarp_ = 0) :
    obs (merge 0 p.finaliseBack x) = obs (merge 0 p x.finaliseFront) := by
  have hx' := hx.finaliseFront hxr
  have hb := hp.finaliseBack_ok
  rw [obs_eq, obs_eq, merge_D (Int.le_refl 0) hb hx, merge_D (Int.le_refl 0) hp.ok hx',
    merge_W (Int.le_refl 0) hb hx, merge_W (Int.le_refl 0) hp.ok hx', finaliseFront_D hx,
    finaliseFront_W hx, fin_eq hb, fin_eq hb]
  have hmono : p.fin p.releaseTime_ ≤ p.fin (max p.prevEndLate_ p.releaseTime_) := by
    rw [fin_eq hp.ok, fin_eq hp.ok]; omega
  have hf0 := hp.fin_nonneg p.releaseTime_
  have hfH := hp.fH
  have r1 : (merge 0 p.finaliseBack x).releaseTime_
      = max (p.fin p.releaseTime_) x.releaseTime_ := by
    simp only [merge, hp.finaliseBack_fields]
  have r2 : (merge 0 p x.finaliseFront).releaseTime_ = p.releaseTime_ := by
    have := hp.r0
    simp only [merge, finaliseFront_fields hx]; omega
  have r3 : (merge 0 p.finaliseBack x).prevEndLate_
      = min MAX (p.fin (max p.prevEndLate_ p.releaseTime_)) := by
    simp only [merge, hp.finaliseBack_fields]
  have r4 : (merge 0 p x.finaliseFront).prevEndLate_ = p.prevEndLate_ := by simp only [merge]
  rw [r1, r2, r3, r4]
  have c1 : (merge 0 p.finaliseBack x).cumDuration_
      = p.cumDuration_ + max (p.releaseTime_ - p.prevEndLate_) 0
        + p.D (max p.prevEndLate_ p.releaseTime_) := by
    simp only [merge, hp.finaliseBack_fields]; omega
  have c2 : (merge 0 p.finaliseBack x).cumTimeWarp_ = p.cumTimeWarp_ + p.W p.releaseTime_ := by
    simp only [merge, hp.finaliseBack_fields]; omega
  have c3 : (merge 0 p x.finaliseFront).cumDuration_ = p.cumDuration_ := by
    simp only [merge, finaliseFront_fields hx]; omega
  have c4 : (merge 0 p x.finaliseFront).cumTimeWarp_ = p.cumTimeWarp_ := by
    simp only [merge, finaliseFront_fields hx]; omega
  have hse := hx.eH
  have := MAX_eq; have := HALF_eq
  rw [c1, c2, c3, c4, hp.finaliseBack_fields]
  generalize p.fin (max p.prevEndLate_ p.releaseTime_) = F at *
  generalize p.fin p.releaseTime_ = E at *
  simp only [Prod.mk.injEq]
  generalize p.D (max p.prevEndLate_ p.releaseTime_) = d
  generalize p.W p.releaseTime_ = w
  constructor
  · simp only [D]; omega
  · simp only [W]; omega

/-! ## Depots -/

/-- A window without service. -/
def window (e l : Int) : DurSeg := { startEarly_ := e, startLate_ := l }

/-- Service without a window. -/
def service (sv : Int) : DurSeg := { duration_ := sv }

theorem window_ok {e l : Int} (h0 : 0 ≤ e) (hl : e ≤ l) (hM : l ≤ MAX) (hH : e ≤ HALF) :
    (window e l).Ok := by
  constructor <;> simp only [window] <;> omega

theorem service_ok {sv : Int} (h : 0 ≤ sv) : (service sv).Ok := by
  have := MAX_eq; have := HALF_eq
  constructor <;> simp only [service] <;> omega

/-- Service after the window, before or after the edge, is a window with service. -/
theorem merge_window_service {e l sv : Int} {x : DurSeg} (h0 : 0 ≤ e) (hl : e ≤ l) (hM : l ≤ MAX)
    (hH : e ≤ HALF) (hs : 0 ≤ sv) (hx : x.Ok) {edge : Int} (hedge : 0 ≤ edge)
    (hr : 0 ≤ x.releaseTime_) :
    merge edge (window e l) (merge 0 (service sv) x)
      = merge edge { duration_ := sv, startEarly_ := e, startLate_ := l } x := by
  have hw := window_ok h0 hl hM hH
  have hsv := service_ok hs
  have hws : DurSeg.Ok { duration_ := sv, startEarly_ := e, startLate_ := l } := by
    constructor <;> simp only <;> omega
  have hm := Ok.merge (Int.le_refl 0) hsv hx
  have he := hx.eH; have hel := hx.el; have hlM := hx.lM; have h00 := hx.e0
  have := MAX_eq; have := HALF_eq
  apply ext_of_functions'
  · intro t
    rw [merge_D hedge hw hm, merge_D (Int.le_refl 0) hsv hx, merge_D hedge hws hx, fin_eq hw,
      fin_eq hsv, fin_eq hws]
    simp only [D, window, service]
    omega
  · intro t
    rw [merge_W hedge hw hm, merge_W (Int.le_refl 0) hsv hx, merge_W hedge hws hx, fin_eq hw,
      fin_eq hsv, fin_eq hws]
    simp only [W, window, service]
    omega
  · simp only [merge, window, service]; omega
  · simp only [merge, window, service]; omega
  · simp only [merge, window, service]; omega
  · rfl

theorem merge_window_service' {e l sv : Int} {x : DurSeg} (h0 : 0 ≤ e) (hl : e ≤ l) (hM : l ≤ MAX)
    (hH : e ≤ HALF) (hs : 0 ≤ sv) (hx : x.Ok) {edge : Int} (hedge : 0 ≤ edge)
    (hr : 0 ≤ x.releaseTime_) :
    merge 0 (window e l) (merge edge (service sv) x)
      = merge edge { duration_ := sv, startEarly_ := e, startLate_ := l } x := by
  have hw := window_ok h0 hl hM hH
  have hsv := service_ok hs
  have hws : DurSeg.Ok { duration_ := sv, startEarly_ := e, startLate_ := l } := by
    constructor <;> simp only <;> omega
  have hm := Ok.merge hedge hsv hx
  have he := hx.eH; have hel := hx.el; have hlM := hx.lM; have h00 := hx.e0
  have := MAX_eq; have := HALF_eq
  apply ext_of_functions'
  · intro t
    rw [merge_D (Int.le_refl 0) hw hm, merge_D hedge hsv hx, merge_D hedge hws hx, fin_eq hw,
      fin_eq hsv, fin_eq hws]
    simp only [D, window, service]
    omega
  · intro t
    rw [merge_W (Int.le_refl 0) hw hm, merge_W hedge hsv hx, merge_W hedge hws hx, fin_eq hw,
      fin_eq hsv, fin_eq hws]
    simp only [W, window, service]
    omega
  · simp only [merge, window, service]; omega
  · simp only [merge, window, service]; omega
  · simp only [merge, window, service]; omega
  · rfl

/-- A window does nothing in front of a segment with a tighter window. -/
theorem merge_window_self {e l : Int} {f : DurSeg} (h0 : 0 ≤ e) (hl : e ≤ l) (hM : l ≤ MAX)
    (hH : e ≤ HALF) (hf : f.Ok) (he : e ≤ f.startEarly_) (hle : f.startLate_ ≤ l)
    (hr : 0 ≤ f.releaseTime_) (hp : f.prevEndLate_ = MAX) : merge 0 (window e l) f = f := by
  have hw := window_ok h0 hl hM hH
  have hel := hf.el
  apply ext_of_functions'
  · intro t
    rw [merge_D (Int.le_refl 0) hw hf, fin_eq hw]
    simp only [D, window]; omega
  · intro t
    rw [merge_W (Int.le_refl 0) hw hf, fin_eq hw]
    simp only [W, window]; omega
  · simp only [merge, window]; omega
  · simp only [merge, window]; omega
  · simp only [merge, window]; omega
  · simp only [merge, window]; exact hp.symm

/-- The window of a segment that starts with a window is within it, also after opening it at the
front, unless the release is later. -/
theorem finaliseFront_window {edge e l sv : Int} {x : DurSeg} (h0 : 0 ≤ e) (hl : e ≤ l)
    (hM : l ≤ MAX) (hH : e ≤ HALF) (hs : 0 ≤ sv) (hx : x.Ok) (hedge : 0 ≤ edge)
    (hr0 : 0 ≤ x.releaseTime_) (hr : x.releaseTime_ ≤ l) :
    let f := (merge edge { duration_ := sv, startEarly_ := e, startLate_ := l } x).finaliseFront
    e ≤ f.startEarly_ ∧ f.startLate_ ≤ l := by
  have hws : DurSeg.Ok { duration_ := sv, startEarly_ := e, startLate_ := l } := by
    constructor <;> simp only <;> omega
  have hm := Ok.merge hedge hws hx
  intro f
  have hf : f = _ := finaliseFront_fields hm
  rw [hf]
  have hel := hx.el; have hlM := hx.lM; have hx0 := hx.e0
  have := MAX_eq; have := HALF_eq
  simp only [startEarly, startLate, merge]
  constructor <;> omega

/-- Opening at the front after a depot's window, before or after taking it into account. -/
theorem merge_window_finaliseFront {e l : Int} {y : DurSeg} (h0 : 0 ≤ e) (hl : e ≤ l)
    (hM : l ≤ MAX) (hH : e ≤ HALF) (hy : y.Ok) (hr0 : 0 ≤ y.releaseTime_) (hr : y.releaseTime_ ≤ l)
    (hrH : y.releaseTime_ ≤ HALF) :
    merge 0 (window e l) y.finaliseFront = (merge 0 (window e l) y).finaliseFront := by
  have hw := window_ok h0 hl hM hH
  have hy' := hy.finaliseFront hrH
  have hm := Ok.merge (Int.le_refl 0) hw hy
  have hmr : (merge 0 (window e l) y).releaseTime_ = y.releaseTime_ := by
    simp only [merge, window]; omega
  apply ext_of_functions'
  · intro t
    rw [merge_D (Int.le_refl 0) hw hy', finaliseFront_D hy, finaliseFront_D hm,
      merge_D (Int.le_refl 0) hw hy, fin_eq hw, fin_eq hw, hmr]
    simp only [D, window]; omega
  · intro t
    rw [merge_W (Int.le_refl 0) hw hy', finaliseFront_W hy, finaliseFront_W hm,
      merge_W (Int.le_refl 0) hw hy, fin_eq hw, fin_eq hw, hmr]
    simp only [W, window]; omega
  all_goals rw [finaliseFront_fields hm, finaliseFront_fields hy]; simp only [merge, window]
  all_goals omega

end DurSeg
end PyVRP
