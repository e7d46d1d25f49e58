import Verif.Model.Pwl
import Verif.Lemmas.Data
/-!
# C35: piecewise linear functions
-/
namespace PyVRP

/-! ## Specification -/

namespace Spec

/-- `q` and `q'` are consecutive points. -/
def Consecutive (points : List (Int × Int)) (q q' : Int × Int) : Prop :=
  ∃ l r, points = l ++ q :: q' :: r

/-- The value `y` at `x` lies on the line through `q` and `q'`. -/
def OnLine (q q' : Int × Int) (x y : Int) : Prop :=
  (y - q.2) * (q'.1 - q.1) = (q'.2 - q.2) * (x - q.1)

/-- Which point lists are accepted. -/
structure GoodPoints (points : List (Int × Int)) : Prop where
  first : ∃ q q' r, points = q :: q' :: r ∧ q.1 ≠ q'.1
  last : ∃ l q q', points = l ++ [q, q'] ∧ q.1 ≠ q'.1
  sorted : ∀ q q', Consecutive points q q' → q.1 ≤ q'.1
  slope : ∀ q q', Consecutive points q q' → q.1 < q'.1 → q'.1 - q.1 ∣ q'.2 - q.2

end Spec

open Spec

namespace Pwl

/-- Evaluation by going through the breakpoints. -/
def walk : List Int → List (Int × Int) → Int → Int
  | [], s :: _, x => s.1 + s.2 * x
  | b :: bs, s :: ss, x => if x < b then s.1 + s.2 * x else walk bs ss x
  | _, [], _ => 0

theorem eval_eq_walk (bs : List Int) (ss : List (Int × Int)) (h : bs.length < ss.length) (x : Int) :
    Pwl.eval ⟨bs, ss⟩ x = walk bs ss x := by
  induction bs generalizing ss with
  | nil =>
    cases ss with
    | nil => simp at h
    | cons s ss => simp [Pwl.eval, walk]
  | cons b bs ih =>
    cases ss with
    | nil => simp at h
    | cons s ss =>
      have := ih ss (by simpa using h)
      unfold Pwl.eval at this ⊢
      simp only [List.takeWhile_cons, walk] at this ⊢
      by_cases hx : x < b
      · simp [hx, show ¬ b ≤ x by omega]
      · rw [if_neg hx, ← this]
        simp [show b ≤ x by omega]

theorem consecutive_cons {p : Int × Int} {rest : List (Int × Int)} {q q' : Int × Int}
    (h : Consecutive (p :: rest) q q') :
    (p = q ∧ ∃ r, rest = q' :: r) ∨ Consecutive rest q q' := by
  obtain ⟨l, r, h⟩ := h
  cases l with
  | nil =>
    simp only [List.nil_append, List.cons.injEq] at h
    exact Or.inl ⟨h.1, r, h.2⟩
  | cons a l =>
    simp only [List.cons_append, List.cons.injEq] at h
    exact Or.inr ⟨l, r, h.2⟩

theorem Consecutive.cons {p : Int × Int} {rest : List (Int × Int)} {q q' : Int × Int}
    (h : Consecutive rest q q') : Consecutive (p :: rest) q q' := by
  obtain ⟨l, r, h⟩ := h
  exact ⟨p :: l, r, by rw [h]; rfl⟩

theorem loop_cons (first : Bool) (curr next : Int × Int) (rest : List (Int × Int)) :
    loop first (curr :: next :: rest)
      = if curr.1 = next.1 then loop false (next :: rest)
        else if next.1 - curr.1 < 0 then
          .error (.invalidArgument "Points must be non-decreasing in x.")
        else if (next.2 - curr.2).tmod (next.1 - curr.1) ≠ 0 then
          .error (.invalidArgument "Slope is not integral.")
        else
          match loop false (next :: rest) with
          | .error e => .error e
          | .ok f =>
            .ok ⟨if first then f.breakpoints else curr.1 :: f.breakpoints,
              (curr.2 - (next.2 - curr.2).tdiv (next.1 - curr.1) * curr.1,
                (next.2 - curr.2).tdiv (next.1 - curr.1)) :: f.segments⟩ := rfl

/-- When the loop succeeds. -/
theorem loop_ok_iff (first : Bool) (points : List (Int × Int)) :
    (∃ f, loop first points = .ok f)
      ↔ ∀ q q', Consecutive points q q' →
          q.1 ≤ q'.1 ∧ (q.1 < q'.1 → q'.1 - q.1 ∣ q'.2 - q.2) := by
  induction points generalizing first with
  | nil =>
    simp only [loop]
    refine ⟨fun _ q q' h => ?_, fun _ => ⟨_, rfl⟩⟩
    obtain ⟨l, r, h⟩ := h
    simp at h
  | cons curr rest ih =>
    cases rest with
    | nil =>
      simp only [loop]
      refine ⟨fun _ q q' h => ?_, fun _ => ⟨_, rfl⟩⟩
      rcases consecutive_cons h with ⟨_, r, h⟩ | ⟨l, r, h⟩ <;> simp at h
    | cons next rest =>
      have hstep : (∀ q q', Consecutive (curr :: next :: rest) q q' →
            q.1 ≤ q'.1 ∧ (q.1 < q'.1 → q'.1 - q.1 ∣ q'.2 - q.2))
          ↔ (curr.1 ≤ next.1 ∧ (curr.1 < next.1 → next.1 - curr.1 ∣ next.2 - curr.2))
            ∧ ∀ q q', Consecutive (next :: rest) q q' →
              q.1 ≤ q'.1 ∧ (q.1 < q'.1 → q'.1 - q.1 ∣ q'.2 - q.2) := by
        constructor
        · intro h
          exact ⟨h _ _ ⟨[], rest, rfl⟩, fun q q' hq => h q q' (Consecutive.cons hq)⟩
        · rintro ⟨h1, h2⟩ q q' h
          rcases consecutive_cons h with ⟨rfl, r, h⟩ | h
          · simp only [List.cons.injEq] at h
            rw [← h.1]; exact h1
          · exact h2 q q' h
      rw [hstep, ← ih false]
      rw [loop_cons]
      by_cases he : curr.1 = next.1
      · rw [if_pos he]
        constructor
        · intro h; exact ⟨⟨by omega, fun h' => by omega⟩, h⟩
        · intro h; exact h.2
      · rw [if_neg he]
        by_cases hd : next.1 - curr.1 < 0
        · rw [if_pos hd]
          constructor
          · rintro ⟨_, h⟩; cases h
          · rintro ⟨⟨h, _⟩, _⟩; omega
        · rw [if_neg hd]
          by_cases hm : (next.2 - curr.2).tmod (next.1 - curr.1) ≠ 0
          · rw [if_pos hm]
            constructor
            · rintro ⟨_, h⟩; cases h
            · rintro ⟨⟨_, h⟩, _⟩
              exact absurd (Int.tmod_eq_zero_of_dvd (h (by omega))) hm
          · rw [if_neg hm]
            have hdvd : next.1 - curr.1 ∣ next.2 - curr.2 :=
              Int.dvd_of_tmod_eq_zero (Classical.not_not.1 hm)
            constructor
            · rintro ⟨f, h⟩
              refine ⟨⟨by omega, fun _ => hdvd⟩, ?_⟩
              cases hl : loop false (next :: rest) with
              | error e => rw [hl] at h; cases h
              | ok f => exact ⟨f, rfl⟩
            · rintro ⟨_, f, h⟩
              rw [h]
              exact ⟨_, rfl⟩

/-- The first loop step only leaves out the first breakpoint. -/
theorem loop_first {curr next : Int × Int} {rest : List (Int × Int)} (h : curr.1 ≠ next.1) {f : Pwl}
    (hf : loop true (curr :: next :: rest) = .ok f) :
    loop false (curr :: next :: rest) = .ok ⟨curr.1 :: f.breakpoints, f.segments⟩ := by
  rw [loop_cons] at hf ⊢
  rw [if_neg h] at hf ⊢
  split at hf
  · cases hf
  · split at hf
    · cases hf
    · cases hl : loop false (next :: rest) with
      | error e => rw [hl] at hf; cases hf
      | ok g =>
        rw [hl] at hf
        cases hf
        rename_i h1 h2
        rw [if_neg h1, if_neg h2]
        simp

/-- What the loop makes of points whose last two are distinct. -/
theorem loop_spec (points : List (Int × Int)) (bs : List Int) (ss : List (Int × Int))
    (hlast : points.length ≤ 1 ∨ ∃ l q q', points = l ++ [q, q'] ∧ q.1 ≠ q'.1)
    (h : loop false points = .ok ⟨bs, ss⟩) :
    bs.length = ss.length ∧ bs.Pairwise (· < ·)
    ∧ (∀ b ∈ bs, ∀ p r, points = p :: r → p.1 ≤ b)
    ∧ (bs = [] → points.length ≤ 1)
    ∧ ∀ l r q q', points = l ++ q :: q' :: r → q.1 < q'.1 →
        bs.headD 0 ≤ q.1
        ∧ ∀ x, q.1 ≤ x ∨ l = [] → x < q'.1 ∨ r = [] → OnLine q q' x (walk bs.tail ss x) := by
  induction points generalizing bs ss with
  | nil =>
    simp only [loop, Except.ok.injEq, Pwl.mk.injEq] at h
    obtain ⟨rfl, rfl⟩ := h
    refine ⟨rfl, List.Pairwise.nil, by simp, by simp, ?_⟩
    intro l r q q' h; simp at h
  | cons curr rest ih =>
    cases rest with
    | nil =>
      simp only [loop, Except.ok.injEq, Pwl.mk.injEq] at h
      obtain ⟨rfl, rfl⟩ := h
      refine ⟨rfl, List.Pairwise.nil, by simp, by simp, ?_⟩
      intro l r q q' h
      have := congrArg List.length h
      simp at this
      omega
    | cons next rest =>
      have hlast' : (next :: rest).length ≤ 1 ∨ ∃ l q q', next :: rest = l ++ [q, q'] ∧ q.1 ≠ q'.1 := by
        rcases hlast with h | ⟨l, q, q', h, hne⟩
        · simp at h
        · cases l with
          | nil =>
            simp only [List.nil_append, List.cons.injEq] at h
            left; rw [h.2.2]; simp
          | cons a l =>
            simp only [List.cons_append, List.cons.injEq] at h
            exact Or.inr ⟨l, q, q', h.2, hne⟩
      rw [loop_cons] at h
      by_cases he : curr.1 = next.1
      · rw [if_pos he] at h
        obtain ⟨i1, i2, i3, i4, i5⟩ := ih bs ss hlast' h
        have hrest : rest ≠ [] := by
          rintro rfl
          rcases hlast with h | ⟨l, q, q', h, hne⟩
          · simp at h
          · cases l with
            | nil =>
              simp only [List.nil_append, List.cons.injEq] at h
              rw [h.1, h.2.1] at he; exact hne he
            | cons a l =>
              simp only [List.cons_append, List.cons.injEq] at h
              have := congrArg List.length h.2
              simp at this
        refine ⟨i1, i2, ?_, ?_, ?_⟩
        · intro b hb p r hp
          simp only [List.cons.injEq] at hp
          rw [← hp.1, he]
          exact i3 b hb next rest rfl
        · intro hb
          have := i4 hb
          cases rest with
          | nil => exact absurd rfl hrest
          | cons _ _ => simp at this
        · intro l r q q' hc hlt
          cases l with
          | nil =>
            simp only [List.nil_append, List.cons.injEq] at hc
            rw [← hc.1, ← hc.2.1] at hlt; omega
          | cons a l =>
            simp only [List.cons_append, List.cons.injEq] at hc
            obtain ⟨j1, j2⟩ := i5 l r q q' hc.2 hlt
            exact ⟨j1, fun x hx hx' => j2 x (Or.inl (hx.resolve_right (by simp))) hx'⟩
      · rw [if_neg he] at h
        split at h
        · cases h
        split at h
        · cases h
        rename_i hd hm
        cases hl : loop false (next :: rest) with
        | error e => rw [hl] at h; cases h
        | ok g =>
          obtain ⟨bs', ss'⟩ := g
          rw [hl] at h
          simp only [Bool.false_eq_true, if_false, Except.ok.injEq, Pwl.mk.injEq] at h
          obtain ⟨rfl, rfl⟩ := h
          obtain ⟨i1, i2, i3, i4, i5⟩ := ih bs' ss' hlast' hl
          have hlt : curr.1 < next.1 := by omega
          have hdvd : next.1 - curr.1 ∣ next.2 - curr.2 :=
            Int.dvd_of_tmod_eq_zero (Classical.not_not.1 hm)
          have hslope : (next.2 - curr.2).tdiv (next.1 - curr.1) * (next.1 - curr.1)
              = next.2 - curr.2 := Int.tdiv_mul_cancel hdvd
          refine ⟨by simp [i1], ?_, ?_, by simp, ?_⟩
          · rw [List.pairwise_cons]
            exact ⟨fun b hb => by have := i3 b hb next rest rfl; omega, i2⟩
          · intro b hb p r hp
            simp only [List.cons.injEq] at hp
            rw [← hp.1]
            rcases List.mem_cons.1 hb with rfl | hb
            · exact Int.le_refl _
            · have := i3 b hb next rest rfl; omega
          · intro l r q q' hc hq
            cases l with
            | nil =>
              simp only [List.nil_append, List.cons.injEq] at hc
              obtain ⟨rfl, rfl, rfl⟩ := hc
              refine ⟨Int.le_refl _, fun x _ hx' => ?_⟩
              have hw : walk bs' ((curr.2 - (next.2 - curr.2).tdiv (next.1 - curr.1) * curr.1,
                  (next.2 - curr.2).tdiv (next.1 - curr.1)) :: ss') x
                  = curr.2 - (next.2 - curr.2).tdiv (next.1 - curr.1) * curr.1
                    + (next.2 - curr.2).tdiv (next.1 - curr.1) * x := by
                cases bs' with
                | nil => rfl
                | cons b bs' =>
                  have hb := i3 b (List.mem_cons_self ..) next rest rfl
                  have : x < b := by
                    rcases hx' with hx' | hx'
                    · omega
                    · subst hx'
                      simp [loop] at hl
                  simp only [walk]
                  rw [if_pos this]
              simp only [List.tail_cons]
              rw [hw]
              unfold OnLine
              generalize (next.2 - curr.2).tdiv (next.1 - curr.1) = k at *
              grind
            | cons a l =>
              simp only [List.cons_append, List.cons.injEq] at hc
              obtain ⟨j1, j2⟩ := i5 l r q q' hc.2 hq
              cases bs' with
              | nil =>
                have := i4 rfl
                rw [hc.2] at this
                simp at this
                omega
              | cons b bs' =>
                simp only [List.headD_cons] at j1
                have hb := i3 b (List.mem_cons_self ..) next rest rfl
                refine ⟨by simp only [List.headD_cons]; omega, fun x hx hx' => ?_⟩
                have hx := hx.resolve_right (by simp)
                simp only [List.tail_cons, walk]
                rw [if_neg (by omega)]
                exact j2 x (Or.inl hx) hx'

theorem length_of_ofPoints {points : List (Int × Int)} {f : Pwl} (h : ofPoints points = .ok f) :
    ∃ p p' r, points = p :: p' :: r ∧ p.1 ≠ p'.1 ∧ loop true points = .ok f
      ∧ ∃ l q q', points = l ++ [q, q'] ∧ q.1 ≠ q'.1 := by
  unfold ofPoints at h
  split at h
  · cases h
  split at h
  · cases h
  split at h
  · cases h
  rename_i h1 h2 h3
  obtain ⟨p, p', r, rfl⟩ : ∃ p p' r, points = p :: p' :: r := by
    match points, h1 with
    | [], h1 => simp at h1
    | [_], h1 => simp at h1
    | p :: p' :: r, _ => exact ⟨p, p', r, rfl⟩
  refine ⟨p, p', r, rfl, by simpa using h2, h, ?_⟩
  generalize p :: p' :: r = points at *
  have hn : points ≠ [] := by rintro rfl; simp at h1
  have h4 := List.dropLast_concat_getLast hn
  have hn' : points.dropLast ≠ [] := by
    intro h5
    have := congrArg List.length h5
    simp at this; omega
  have h5 := List.dropLast_concat_getLast hn'
  refine ⟨points.dropLast.dropLast, points.dropLast.getLast hn', points.getLast hn, ?_, ?_⟩
  · rw [List.append_cons, h5, h4]
  · intro he
    apply h3
    rw [List.getLast_eq_getElem, List.getLast_eq_getElem] at he
    simp only [List.length_dropLast, List.getElem_dropLast] at he
    rw [List.getD_eq_getElem?_getD, List.getD_eq_getElem?_getD, List.getElem?_eq_getElem (by omega),
      List.getElem?_eq_getElem (by omega)]
    exact he

end Pwl

/-! ## C35 -/

/-- **C35.** Which points are accepted. -/
theorem C35_accepts (points : List (Int × Int)) :
    (∃ f, Pwl.ofPoints points = .ok f) ↔ GoodPoints points := by
  constructor
  · rintro ⟨f, h⟩
    obtain ⟨p, p', r, h1, h2, h3, h4⟩ := Pwl.length_of_ofPoints h
    have := (Pwl.loop_ok_iff true points).1 ⟨f, h3⟩
    exact ⟨⟨p, p', r, h1, h2⟩, h4, fun q q' hq => (this q q' hq).1, fun q q' hq => (this q q' hq).2⟩
  · intro ⟨⟨p, p', r, h1, h2⟩, ⟨l, q, q', h3, h4⟩, h5, h6⟩
    obtain ⟨f, hf⟩ := (Pwl.loop_ok_iff true points).2 (fun q q' hq => ⟨h5 q q' hq, h6 q q' hq⟩)
    refine ⟨f, ?_⟩
    unfold Pwl.ofPoints
    rw [if_neg (by rw [h1]; simp), if_neg (by rw [h1]; simpa using h2), if_neg ?_, hf]
    rw [h3]
    simpa [List.getD_eq_getElem?_getD] using h4

/-- **C35.** The function passes through every point that is not followed by another point at the same
`x`. From one point up to (but not including) the next it follows the line through the two, and so is
continuous from the right; before the first and after the last point the outer lines are extended. -/
theorem C35_interpolates (points : List (Int × Int)) (f : Pwl) (h : Pwl.ofPoints points = .ok f) :
    (∀ l q r, points = l ++ q :: r → (∀ p ∈ r, p.1 ≠ q.1) → f.eval q.1 = q.2)
    ∧ (∀ l r q q', points = l ++ q :: q' :: r → q.1 < q'.1 →
        ∀ x, q.1 ≤ x ∨ l = [] → x < q'.1 ∨ r = [] → OnLine q q' x (f.eval x)) := by
  obtain ⟨p, p', r, h1, h2, h3, h4⟩ := Pwl.length_of_ofPoints h
  have hsorted := fun q q' hc => (((Pwl.loop_ok_iff true _).1 ⟨_, h3⟩) q q' hc).1
  subst h1
  have h5 := Pwl.loop_first h2 h3
  obtain ⟨i1, _, _, _, i5⟩ := Pwl.loop_spec _ _ _ (Or.inr h4) h5
  have hlen : f.breakpoints.length < f.segments.length := by simp at i1; omega
  have main : ∀ l r' q q', p :: p' :: r = l ++ q :: q' :: r' → q.1 < q'.1 →
        ∀ x, q.1 ≤ x ∨ l = [] → x < q'.1 ∨ r' = [] → OnLine q q' x (f.eval x) := by
    intro l r' q q' hp hq x hx hx'
    rw [Pwl.eval_eq_walk _ _ hlen]
    exact (i5 l r' q q' hp hq).2 x hx hx'
  refine ⟨?_, main⟩
  intro l q r' hp hr
  cases r' with
  | cons q' r' =>
    have hle := hsorted q q' ⟨l, r', hp⟩
    have hne := hr q' (List.mem_cons_self ..)
    have := main l r' q q' hp (by omega) q.1 (Or.inl (Int.le_refl _)) (Or.inl (by omega))
    unfold OnLine at this
    rw [Int.sub_self, Int.mul_zero] at this
    rcases Int.mul_eq_zero.1 this with h | h <;> omega
  | nil =>
    obtain ⟨l', a, b, hab, hne⟩ := h4
    have hq : q = b ∧ l = l' ++ [a] := by
      have h6 : l ++ [q] = (l' ++ [a]) ++ [b] := by rw [← hp, hab]; simp
      have := List.append_inj' h6 rfl
      exact ⟨by simpa using this.2, this.1⟩
    obtain ⟨rfl, rfl⟩ := hq
    have hle := hsorted a q ⟨l', [], hab⟩
    have := main l' [] a q hab (by omega) q.1 (Or.inl hle) (Or.inr rfl)
    unfold OnLine at this
    have h7 : (f.eval q.1 - q.2) * (q.1 - a.1) = 0 := by grind
    rcases Int.mul_eq_zero.1 h7 with h | h <;> omega

/-! ## Monotonicity -/

namespace Spec

/-- The function on rational arguments: the segment for `x` is the one after the last breakpoint that
is not larger than `x`. -/
def evalRat (f : Pwl) (x : Rat) : Rat :=
  let idx := (f.breakpoints.takeWhile (fun b : Int => decide ((b : Rat) ≤ x))).length
  let segment := f.segments.getD idx (0, 0)
  (segment.1 : Rat) + (segment.2 : Rat) * x

/-- Increasing breakpoints, and one more segment. -/
def Valid (f : Pwl) : Prop :=
  f.breakpoints.length + 1 = f.segments.length ∧ f.breakpoints.Pairwise (· < ·)

end Spec

namespace Pwl

/-- `evalRat` by going through the breakpoints. -/
def walkRat : List Int → List (Int × Int) → Rat → Rat
  | [], s :: _, x => (s.1 : Rat) + (s.2 : Rat) * x
  | b :: bs, s :: ss, x => if x < b then (s.1 : Rat) + (s.2 : Rat) * x else walkRat bs ss x
  | _, [], _ => 0

theorem evalRat_eq_walk (bs : List Int) (ss : List (Int × Int)) (h : bs.length < ss.length) (x : Rat) :
    Spec.evalRat ⟨bs, ss⟩ x = walkRat bs ss x := by
  induction bs generalizing ss with
  | nil =>
    cases ss with
    | nil => simp at h
    | cons s ss => simp [Spec.evalRat, walkRat]
  | cons b bs ih =>
    cases ss with
    | nil => simp at h
    | cons s ss =>
      have := ih ss (by simpa using h)
      unfold Spec.evalRat at this ⊢
      simp only [List.takeWhile_cons, walkRat] at this ⊢
      by_cases hx : x < b
      · simp [hx, show ¬ (b : Rat) ≤ x from Rat.not_le.2 hx]
      · rw [if_neg hx, ← this]
        simp [show (b : Rat) ≤ x from Rat.not_lt.1 hx]

/-- The test of `isMonotonicallyIncreasing`, by going through the breakpoints. -/
def Mono : List Int → List (Int × Int) → Prop
  | [], s :: _ => 0 ≤ s.2
  | b :: bs, s :: s' :: ss => 0 ≤ s.2 ∧ s.1 + s.2 * b ≤ s'.1 + s'.2 * b ∧ Mono bs (s' :: ss)
  | _, _ => True

theorem mono_iff (bs : List Int) (ss : List (Int × Int)) (h : bs.length + 1 = ss.length) :
    isMonotonicallyIncreasing ⟨bs, ss⟩ = true ↔ Mono bs ss := by
  have key : isMonotonicallyIncreasing ⟨bs, ss⟩ = true ↔ (∀ s ∈ ss, 0 ≤ s.2) ∧
      ∀ i, i < bs.length → (ss.getD i (0, 0)).1 + (ss.getD i (0, 0)).2 * bs.getD i 0
        ≤ (ss.getD (i + 1) (0, 0)).1 + (ss.getD (i + 1) (0, 0)).2 * bs.getD i 0 := by
    unfold isMonotonicallyIncreasing
    simp only [Bool.and_eq_true, Bool.not_eq_true', List.any_eq_false, decide_eq_true_eq,
      List.mem_range, Int.not_lt]
  rw [key]
  clear key
  induction bs generalizing ss with
  | nil =>
    match ss, h with
    | [s], _ => simp [Mono]
  | cons b bs ih =>
    match ss, h with
    | s :: s' :: ss, h =>
      have := ih (s' :: ss) (by simpa using h)
      unfold Mono
      constructor
      · rintro ⟨h1, h2⟩
        refine ⟨h1 s (List.mem_cons_self ..), by simpa using h2 0 (by simp), this.1
          ⟨fun t ht => h1 t (List.mem_cons_of_mem _ ht), fun i hi => ?_⟩⟩
        simpa using h2 (i + 1) (by simpa using hi)
      · rintro ⟨h1, h2, h⟩
        obtain ⟨h3, h4⟩ := this.2 h
        refine ⟨fun t ht => ?_, fun i hi => ?_⟩
        · rcases List.mem_cons.1 ht with rfl | ht
          · exact h1
          · exact h3 t ht
        · cases i with
          | zero => simpa using h2
          | succ i => simpa using h4 i (by simpa using hi)

theorem line_mono {i k x y : Rat} (hk : 0 ≤ k) (h : x ≤ y) : i + k * x ≤ i + k * y := by
  have := Rat.mul_le_mul_of_nonneg_left h hk
  grind

theorem walkRat_at (b : Int) (bs : List Int) (s : Int × Int) (ss : List (Int × Int))
    (hb : ∀ b' ∈ bs, b < b') : walkRat bs (s :: ss) b = (s.1 : Rat) + (s.2 : Rat) * b := by
  cases bs with
  | nil => rfl
  | cons b' bs =>
    simp only [walkRat]
    rw [if_pos]
    exact Rat.intCast_lt_intCast.2 (hb b' (List.mem_cons_self ..))

/-- From `lo` on, the function is non-decreasing exactly if the test succeeds. -/
theorem mono_from (bs : List Int) (ss : List (Int × Int)) (hlen : bs.length + 1 = ss.length)
    (hs : bs.Pairwise (· < ·)) (lo : Rat) (hlo : ∀ b ∈ bs, lo < b) :
    (∀ x y : Rat, lo ≤ x → x ≤ y → walkRat bs ss x ≤ walkRat bs ss y) ↔ Mono bs ss := by
  induction bs generalizing ss lo with
  | nil =>
    match ss, hlen with
    | [s], _ =>
      simp only [walkRat, Mono]
      constructor
      · intro h
        have := h lo (lo + 1) (Rat.le_refl) (by grind)
        have : (0 : Rat) ≤ (s.2 : Rat) := by grind
        exact Rat.intCast_nonneg.1 this
      · intro h x y _ hxy
        exact line_mono (Rat.intCast_nonneg.2 h) hxy
  | cons b bs ih =>
    match ss, hlen with
    | s :: s' :: ss, hlen =>
      rw [List.pairwise_cons] at hs
      have hb := hlo b (List.mem_cons_self ..)
      have ih := ih (s' :: ss) (by simpa using hlen) hs.2 (b : Rat)
        (fun b' hb' => Rat.intCast_lt_intCast.2 (hs.1 b' hb'))
      have hat := walkRat_at b bs s' ss hs.1
      unfold Mono
      rw [← ih]
      have hcast : s.1 + s.2 * b ≤ s'.1 + s'.2 * b
          ↔ (s.1 : Rat) + (s.2 : Rat) * b ≤ (s'.1 : Rat) + (s'.2 : Rat) * b := by
        rw [← Rat.intCast_le_intCast]
        simp only [Rat.intCast_add, Rat.intCast_mul]
      rw [hcast, ← Rat.intCast_nonneg]
      constructor
      · intro h
        have h1 : ∀ x : Rat, lo ≤ x → x < b →
            (s.1 : Rat) + (s.2 : Rat) * x ≤ (s'.1 : Rat) + (s'.2 : Rat) * b := by
          intro x hx hxb
          have := h x b hx (Rat.le_of_lt hxb)
          simp only [walkRat] at this
          rw [if_pos hxb, if_neg (Rat.not_lt.2 Rat.le_refl), hat] at this
          exact this
        have hk : (0 : Rat) ≤ (s.2 : Rat) := by
          have hm : lo < (lo + b) / 2 ∧ (lo + b) / 2 < b := by grind
          have := h lo ((lo + b) / 2) Rat.le_refl (Rat.le_of_lt hm.1)
          simp only [walkRat] at this
          rw [if_pos hb, if_pos hm.2] at this
          have h2 : 0 ≤ (s.2 : Rat) * ((lo + b) / 2 - lo) := by grind
          apply Rat.not_lt.1
          intro hneg
          have h3 : 0 < (lo + b) / 2 - lo := by grind
          have := Rat.mul_pos (show 0 < -(s.2 : Rat) by grind) h3
          grind
        refine ⟨hk, ?_, ?_⟩
        · apply Rat.not_lt.1
          intro hc
          generalize (s.2 : Rat) = k at *
          generalize (s'.1 : Rat) + (s'.2 : Rat) * b = R at *
          generalize (s.1 : Rat) = i at *
          -- a point before `b` with a value above `R`
          have hd : 0 < i + k * b - R := by grind
          have hk1 : (0 : Rat) < k + 1 := by grind
          have hk2 : k + 1 ≠ 0 := by grind
          have he : (i + k * b - R) / (k + 1) * (k + 1) = i + k * b - R := Rat.div_mul_cancel hk2
          have hepos : 0 < (i + k * b - R) / (k + 1) := by
            rw [Rat.div_def]
            exact Rat.mul_pos hd (Rat.inv_pos.2 hk1)
          generalize (i + k * b - R) / (k + 1) = e at *
          by_cases hle : lo ≤ b - e
          · have := h1 (b - e) hle (by grind)
            grind
          · have h4 := h1 lo Rat.le_refl hb
            have h5 := line_mono (i := i) hk (Rat.le_of_lt (Rat.not_le.1 hle))
            grind
        · intro x y hx hxy
          have := h x y (by grind) hxy
          simp only [walkRat] at this
          rw [if_neg (Rat.not_lt.2 hx), if_neg (Rat.not_lt.2 (by grind))] at this
          exact this
      · rintro ⟨hk, hj, hr⟩ x y hx hxy
        simp only [walkRat]
        by_cases hxb : x < b
        · rw [if_pos hxb]
          by_cases hyb : y < b
          · rw [if_pos hyb]; exact line_mono hk hxy
          · rw [if_neg hyb]
            have h1 := line_mono (i := (s.1 : Rat)) hk (Rat.le_of_lt hxb)
            have h2 := hr b y Rat.le_refl (Rat.not_lt.1 hyb)
            rw [hat] at h2
            grind
        · rw [if_neg hxb, if_neg (by grind)]
          exact hr x y (Rat.not_lt.1 hxb) hxy

theorem notIncreasing_iff (l : List Int) : notIncreasing l = false ↔ l.Pairwise (· < ·) := by
  induction l with
  | nil => simp [notIncreasing]
  | cons a rest ih =>
    cases rest with
    | nil => simp [notIncreasing]
    | cons b rest =>
      unfold notIncreasing
      rw [Bool.or_eq_false_iff, ih, List.pairwise_cons (a := a)]
      simp only [decide_eq_false_iff_not, ge_iff_le, Int.not_le]
      constructor
      · rintro ⟨h1, h2⟩
        refine ⟨fun c hc => ?_, h2⟩
        rcases List.mem_cons.1 hc with rfl | hc
        · exact h1
        · have := (List.pairwise_cons.1 h2).1 c hc; omega
      · rintro ⟨h1, h2⟩
        exact ⟨h1 b (List.mem_cons_self ..), h2⟩

end Pwl

/-- **C35.** Both constructors give increasing breakpoints and one more segment than breakpoints, the
second accepts exactly those, and pickling preserves the function. -/
theorem C35_valid (points : List (Int × Int)) (breakpoints : List Int) (segments : List (Int × Int)) :
    (∀ f, Pwl.ofPoints points = .ok f → Valid f)
    ∧ (∀ f, Pwl.make breakpoints segments = .ok f
        ↔ f = ⟨breakpoints, segments⟩ ∧ Valid f)
    ∧ (∀ f, Valid f → f.pickled = .ok f) := by
  have hmake : ∀ bs ss f, Pwl.make bs ss = .ok f ↔ f = ⟨bs, ss⟩ ∧ Valid f := by
    intro bs ss f
    unfold Pwl.make Valid
    rw [checked_eq_ok]
    simp only [throwIf_orElse_eq_none, throwIf_eq_none]
    rw [Bool.not_eq_true, Pwl.notIncreasing_iff]
    constructor
    · rintro ⟨⟨h1, h2, h3⟩, rfl⟩
      exact ⟨rfl, by simpa using h2, h3⟩
    · rintro ⟨rfl, h2, h3⟩
      refine ⟨⟨?_, by simpa using h2, h3⟩, rfl⟩
      rintro rfl
      simp at h2
  refine ⟨?_, hmake breakpoints segments, ?_⟩
  · intro f h
    obtain ⟨p, p', r, h1, h2, h3, h4⟩ := Pwl.length_of_ofPoints h
    subst h1
    obtain ⟨i1, i2, _⟩ := Pwl.loop_spec _ _ _ (Or.inr h4) (Pwl.loop_first h2 h3)
    exact ⟨by simpa using i1, (List.pairwise_cons.1 i2).2⟩
  · intro f h
    unfold Pwl.pickled
    exact (hmake _ _ f).2 ⟨rfl, h⟩

/-- **C35.** On integers, the function on rationals is the function itself. -/
theorem C35_evalRat (f : Pwl) (x : Int) : evalRat f (x : Rat) = (f.eval x : Int) := by
  unfold evalRat Pwl.eval
  have : (fun b : Int => decide ((b : Rat) ≤ (x : Rat))) = fun b => decide (b ≤ x) := by
    funext b
    simp only [Rat.intCast_le_intCast]
  rw [this]
  simp only [Rat.intCast_add, Rat.intCast_mul]

/-- **C35.** `is_monotonically_increasing` tells exactly whether the function is non-decreasing on the
rational numbers; if it says so, then the function is non-decreasing on integers too. -/
theorem C35_monotone_partial (f : Pwl) (h : Valid f) :
    (f.isMonotonicallyIncreasing = true ↔ ∀ x y : Rat, x ≤ y → evalRat f x ≤ evalRat f y)
    ∧ (f.isMonotonicallyIncreasing = true → ∀ x y : Int, x ≤ y → f.eval x ≤ f.eval y) := by
  obtain ⟨bs, ss⟩ := f
  obtain ⟨h1, h2⟩ := h
  dsimp only at h1 h2
  have hlo : ∀ x : Rat, ∃ lo, lo ≤ x ∧ ∀ b ∈ bs, lo < (b : Rat) := by
    intro x
    clear h1
    induction bs with
    | nil => exact ⟨x, Rat.le_refl, by simp⟩
    | cons b bs ih =>
      obtain ⟨lo, hx, hb⟩ := ih (List.pairwise_cons.1 h2).2
      by_cases h : lo < b
      · refine ⟨lo, hx, fun c hc => ?_⟩
        rcases List.mem_cons.1 hc with rfl | hc
        · exact h
        · exact hb c hc
      · refine ⟨(b : Rat) - 1, by grind, fun c hc => ?_⟩
        rcases List.mem_cons.1 hc with rfl | hc
        · grind
        · have := hb c hc; grind
  have hiff : Pwl.isMonotonicallyIncreasing ⟨bs, ss⟩ = true
      ↔ ∀ x y : Rat, x ≤ y → evalRat ⟨bs, ss⟩ x ≤ evalRat ⟨bs, ss⟩ y := by
    rw [Pwl.mono_iff bs ss h1]
    constructor
    · intro h x y hxy
      obtain ⟨lo, hx, hb⟩ := hlo x
      rw [Pwl.evalRat_eq_walk _ _ (by omega), Pwl.evalRat_eq_walk _ _ (by omega)]
      exact (Pwl.mono_from bs ss h1 h2 lo hb).2 h x y hx hxy
    · intro h
      obtain ⟨lo, hx, hb⟩ := hlo 0
      refine (Pwl.mono_from bs ss h1 h2 lo hb).1 (fun x y _ hxy => ?_)
      have := h x y hxy
      rw [Pwl.evalRat_eq_walk _ _ (by omega), Pwl.evalRat_eq_walk _ _ (by omega)] at this
      exact this
  refine ⟨hiff, fun h x y hxy => ?_⟩
  have := hiff.1 h x y (Rat.intCast_le_intCast.2 hxy)
  rw [C35_evalRat, C35_evalRat] at this
  exact Rat.intCast_le_intCast.1 this

/-- **C35, negation.** On integer arguments, the only ones `__call__` takes, the test is too strict: here
it says no, although no two integers have decreasing values. -/
theorem C35_negation :
    ∃ f, Pwl.ofPoints [(0, 0), (10, 100), (10, 95), (11, 96)] = .ok f
      ∧ f.isMonotonicallyIncreasing = false ∧ ∀ x y : Int, x ≤ y → f.eval x ≤ f.eval y := by
  refine ⟨⟨[10], [(0, 10), (85, 1)]⟩, by decide, by decide, ?_⟩
  intro x y h
  rw [Pwl.eval_eq_walk _ _ (by decide), Pwl.eval_eq_walk _ _ (by decide)]
  simp only [Pwl.walk]
  split <;> split <;> omega

/-! ## Non-vacuity -/

/-- Three points at `x = 1`, of which the last counts, and extrapolation. -/
example : (match Pwl.ofPoints [(0, 0), (1, 1), (1, 5), (1, 9), (3, 13)] with
    | .ok f => decide (f.eval 1 = 9 ∧ f.eval 2 = 11 ∧ f.eval 3 = 13 ∧ f.eval (-1) = -1 ∧ f.eval 4 = 15
        ∧ f.breakpoints = [1] ∧ f.segments = [(0, 1), (7, 2)] ∧ f.isMonotonicallyIncreasing = true)
    | .error _ => false) = true := by decide

example : Valid ⟨[0, 5], [(0, 1), (3, -2), (1, 1)]⟩ := ⟨rfl, by decide⟩

end PyVRP
