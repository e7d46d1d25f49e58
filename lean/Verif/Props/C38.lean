import Verif.Model.Text
/-!
# C38: text form of activities
-/
namespace PyVRP

/-! ## Specification -/

namespace Spec

/-- Space, tab, newline, vertical tab, form feed and carriage return. -/
def whiteSpace : List Char := [' ', '\t', '\n', '\x0b', '\x0c', '\r']

/-- The decimal digits. -/
def digits : List Char := ['0', '1', '2', '3', '4', '5', '6', '7', '8', '9']

/-- Text `text` starts with white space, an optional sign and decimal digits `ds`, followed by something
that does not begin with a digit. -/
def NumberText (text ws sign ds rest : List Char) : Prop :=
  text = ws ++ sign ++ ds ++ rest
  ∧ (∀ c ∈ ws, c ∈ whiteSpace)
  ∧ (sign = [] ∨ sign = ['+'] ∨ sign = ['-'])
  ∧ ds ≠ [] ∧ (∀ c ∈ ds, c ∈ digits)
  ∧ ∀ c r, rest = c :: r → c ∉ digits

end Spec

open Spec

theorem isSpace_iff (c : Char) : isSpace c = true ↔ c ∈ whiteSpace := by
  have e : ∀ d : Char, c = d ↔ c.toNat = d.toNat := fun d => ⟨fun h => h ▸ rfl, fun h => Char.toNat_inj.1 h⟩
  simp only [whiteSpace, List.mem_cons, List.not_mem_nil, or_false, e, isSpace, Bool.or_eq_true, beq_iff_eq,
    Bool.and_eq_true, decide_eq_true_eq]
  simp only [Char.reduceToNat]
  omega

theorem isDigit_iff (c : Char) : isDigit c = true ↔ c ∈ digits := by
  have e : ∀ d : Char, c = d ↔ c.toNat = d.toNat := fun d => ⟨fun h => h ▸ rfl, fun h => Char.toNat_inj.1 h⟩
  simp only [digits, List.mem_cons, List.not_mem_nil, or_false, e, isDigit,
    Bool.and_eq_true, decide_eq_true_eq]
  simp only [Char.reduceToNat]
  omega

theorem numberText_iff {text ws sign ds rest : List Char} : NumberText text ws sign ds rest ↔
    text = ws ++ sign ++ ds ++ rest
    ∧ (∀ c ∈ ws, isSpace c = true)
    ∧ (sign = [] ∨ sign = ['+'] ∨ sign = ['-'])
    ∧ ds ≠ [] ∧ (∀ c ∈ ds, isDigit c = true)
    ∧ ∀ c r, rest = c :: r → isDigit c = false := by
  unfold NumberText
  simp only [← isSpace_iff, ← isDigit_iff, Bool.not_eq_true]

theorem digitChar_toNat {d : Nat} (h : d < 10) : (digitChar d).toNat = 48 + d := by
  have : ∀ d : Fin 10, (digitChar d.1).toNat = 48 + d.1 := by decide
  exact this ⟨d, h⟩

theorem isDigit_digitChar {d : Nat} (h : d < 10) : isDigit (digitChar d) = true := by
  unfold isDigit
  rw [digitChar_toNat h]
  simp
  omega

theorem decimal_digits (n : Nat) : (∀ c ∈ decimal n, isDigit c = true) ∧ decimal n ≠ [] := by
  induction n using Nat.strongRecOn with
  | _ n ih =>
    rw [decimal]
    split
    · next h =>
      refine ⟨?_, by simp⟩
      intro c hc
      rw [List.mem_singleton.1 hc]
      exact isDigit_digitChar h
    · refine ⟨?_, by simp⟩
      intro c hc
      rcases List.mem_append.1 hc with hc | hc
      · exact (ih (n / 10) (by omega)).1 c hc
      · rw [List.mem_singleton.1 hc]
        exact isDigit_digitChar (by omega)

theorem readDigits_append (cs : List Char) (c : Char) :
    readDigits (cs ++ [c]) = 10 * readDigits cs + (c.toNat - 48) := by
  simp [readDigits]

theorem readDigits_decimal (n : Nat) : readDigits (decimal n) = n := by
  induction n using Nat.strongRecOn with
  | _ n ih =>
    rw [decimal]
    split
    · next h =>
      show 10 * 0 + ((digitChar n).toNat - 48) = n
      rw [digitChar_toNat h]; omega
    · rw [readDigits_append, ih (n / 10) (by omega), digitChar_toNat (by omega)]
      omega

theorem takeWhile_of_all {α : Type} {p : α → Bool} (l r : List α) (hl : ∀ a ∈ l, p a = true)
    (hr : ∀ a r', r = a :: r' → p a = false) : (l ++ r).takeWhile p = l := by
  induction l with
  | nil =>
    cases r with
    | nil => rfl
    | cons a r => simp [hr a r rfl]
  | cons a l ih =>
    rw [List.cons_append, List.takeWhile_cons, hl a (List.mem_cons_self ..)]
    simp [ih (fun b hb => hl b (List.mem_cons_of_mem _ hb))]

theorem dropWhile_of_all {α : Type} {p : α → Bool} (l r : List α) (hl : ∀ a ∈ l, p a = true)
    (hr : ∀ a r', r = a :: r' → p a = false) : (l ++ r).dropWhile p = r := by
  induction l with
  | nil =>
    cases r with
    | nil => rfl
    | cons a r => simp [hr a r rfl]
  | cons a l ih =>
    rw [List.cons_append, List.dropWhile_cons, hl a (List.mem_cons_self ..)]
    simp [ih (fun b hb => hl b (List.mem_cons_of_mem _ hb))]

theorem not_space_of_digit {c : Char} (h : isDigit c = true) : isSpace c = false := by
  unfold isDigit at h
  unfold isSpace
  simp only [Bool.and_eq_true, decide_eq_true_eq] at h
  simp
  omega

theorem digit_ne_sign {c : Char} (h : isDigit c = true) : c ≠ '-' ∧ c ≠ '+' := by
  constructor <;> rintro rfl <;> exact absurd h (by decide)

theorem headIs_cons (c d : Char) (r : List Char) :
    ((c :: r).head? == some d) = decide (c = d) := by
  simp [List.head?_cons]
  rw [Bool.eq_iff_iff]
  simp

/-- What `stoul` makes of a number text. -/
theorem stoul_of_text {text ws sign ds rest : List Char} (h : NumberText text ws sign ds rest) :
    stoul text = if readDigits ds > SIZE_MAX then .error (.outOfRange "stoul")
      else if sign = ['-'] then .ok ((SIZE_MAX + 1 - readDigits ds) % (SIZE_MAX + 1))
      else .ok (readDigits ds) := by
  obtain ⟨rfl, hws, hsign, hne, hds, hrest⟩ := numberText_iff.1 h
  obtain ⟨d, ds', hd⟩ : ∃ d ds', ds = d :: ds' := by
    cases ds with
    | nil => exact absurd rfl hne
    | cons d ds' => exact ⟨d, ds', rfl⟩
  have hdig : isDigit d = true := hds d (by rw [hd]; exact List.mem_cons_self ..)
  have h1 : (ws ++ sign ++ ds ++ rest).dropWhile isSpace = sign ++ ds ++ rest := by
    rw [show ws ++ sign ++ ds ++ rest = ws ++ (sign ++ ds ++ rest) by simp]
    apply dropWhile_of_all _ _ hws
    intro a r' har
    rcases hsign with rfl | rfl | rfl
    · rw [hd] at har
      simp only [List.nil_append, List.cons_append, List.cons.injEq] at har
      rw [← har.1]; exact not_space_of_digit hdig
    · simp only [List.cons_append, List.cons.injEq] at har
      rw [← har.1]; decide
    · simp only [List.cons_append, List.cons.injEq] at har
      rw [← har.1]; decide
  have h2 : (ds ++ rest).takeWhile isDigit = ds := takeWhile_of_all _ _ hds hrest
  unfold stoul
  rw [h1]
  rcases hsign with rfl | rfl | rfl
  · simp only [List.nil_append]
    have e1 : ((ds ++ rest).head? == some '-') = false := by
      rw [hd, List.cons_append, headIs_cons]
      exact decide_eq_false (digit_ne_sign hdig).1
    have e2 : ((ds ++ rest).head? == some '+') = false := by
      rw [hd, List.cons_append, headIs_cons]
      exact decide_eq_false (digit_ne_sign hdig).2
    rw [e1, e2]
    simp only [Bool.or_self, Bool.false_eq_true, if_false, h2, hne]
    simp
  · simp only [List.cons_append, List.nil_append]
    rw [headIs_cons, headIs_cons]
    have e1 : decide ('+' = '-') = false := by decide
    rw [e1]
    simp [h2, hne]
  · simp only [List.cons_append, List.nil_append]
    rw [headIs_cons]
    simp [h2, hne]

/-- Every text has at most the parts of a number text; if `stoul` succeeds they are there. -/
theorem text_of_stoul {text : List Char} {n : Nat} (h : stoul text = .ok n) :
    ∃ ws sign ds rest, NumberText text ws sign ds rest := by
  unfold stoul at h
  generalize ht : text.dropWhile isSpace = t at h
  have hsplit := List.takeWhile_append_dropWhile (p := isSpace) (l := text)
  rw [ht] at hsplit
  have hws : ∀ c ∈ text.takeWhile isSpace, isSpace c = true := by
    intro c hc
    exact List.all_eq_true.1 (List.all_takeWhile) c hc
  -- the sign
  obtain ⟨sign, u, hu, hsign, hdrop⟩ : ∃ sign u, t = sign ++ u
      ∧ (sign = [] ∨ sign = ['+'] ∨ sign = ['-'])
      ∧ (if t.head? == some '-' || t.head? == some '+' then t.drop 1 else t) = u := by
    cases t with
    | nil => exact ⟨[], [], rfl, Or.inl rfl, rfl⟩
    | cons c t =>
      rw [headIs_cons, headIs_cons]
      by_cases hc : c = '-'
      · subst hc
        exact ⟨['-'], t, rfl, Or.inr (Or.inr rfl), by simp⟩
      · by_cases hc' : c = '+'
        · subst hc'
          exact ⟨['+'], t, rfl, Or.inr (Or.inl rfl), by simp⟩
        · exact ⟨[], c :: t, rfl, Or.inl rfl, by simp [hc, hc']⟩
  dsimp only at h
  rw [hdrop] at h
  split at h
  · cases h
  · next hne =>
    refine ⟨text.takeWhile isSpace, sign, u.takeWhile isDigit, u.dropWhile isDigit, numberText_iff.2 ⟨?_, hws, hsign, hne,
      fun c hc => List.all_eq_true.1 (List.all_takeWhile) c hc, ?_⟩⟩
    · rw [List.append_assoc, List.takeWhile_append_dropWhile, List.append_assoc, ← hu, hsplit]
    · intro c r hr
      have := List.head?_dropWhile_not isDigit u
      rw [hr] at this
      simpa using this

theorem char2type_type2char (t : ActivityType) : char2type (type2char t) = .ok t := by
  cases t <;> rfl

theorem char2type_eq {c : Char} {t : ActivityType} (h : char2type c = .ok t) : c = type2char t := by
  unfold char2type at h
  repeat' split at h
  all_goals first | cases h; assumption | cases h

/-! ## C38 -/

/-- **C38.** The text of an activity can be parsed back to the same activity. -/
theorem C38_round_trip (a : Activity) (h : a.idx ≤ SIZE_MAX) : Activity.parse a.print = .ok a := by
  obtain ⟨h1, h2⟩ := decimal_digits a.idx
  have : NumberText (decimal a.idx) [] [] (decimal a.idx) [] :=
    numberText_iff.2 ⟨by simp, by simp, Or.inl rfl, h2, h1, by simp⟩
  unfold Activity.parse Activity.print
  rw [List.headD_cons, char2type_type2char]
  dsimp only
  rw [stoul_of_text this, readDigits_decimal, if_neg (by omega), if_neg (by simp)]

/-- **C38.** Different activities have different text. -/
theorem C38_injective (a b : Activity) (h : a.print = b.print) : a = b := by
  unfold Activity.print at h
  simp only [List.cons.injEq] at h
  have h1 : a.type = b.type := by
    have := char2type_type2char a.type
    rw [h.1, char2type_type2char] at this
    injection this with this
    exact this.symm
  have h2 : a.idx = b.idx := by
    rw [← readDigits_decimal a.idx, h.2, readDigits_decimal]
  cases a; cases b
  simp_all

/-- **C38.** Which strings are accepted, and as what: a type letter, white space, an optional sign, digits,
and then anything. All other strings raise. -/
theorem C38_accepts_exactly_partial (s : List Char) (a : Activity) :
    Activity.parse s = .ok a ↔
      ∃ text ws sign ds rest, s = type2char a.type :: text ∧ NumberText text ws sign ds rest
        ∧ readDigits ds ≤ SIZE_MAX
        ∧ a.idx = if sign = ['-'] then (SIZE_MAX + 1 - readDigits ds) % (SIZE_MAX + 1)
            else readDigits ds := by
  constructor
  · intro h
    unfold Activity.parse at h
    cases hc : char2type (s.headD ' ') with
    | error e => rw [hc] at h; cases h
    | ok t =>
      rw [hc] at h
      dsimp only at h
      cases s with
      | nil => exact absurd hc (by simp [char2type])
      | cons c text =>
        rw [List.headD_cons] at hc
        dsimp only at h
        cases hs : stoul text with
        | error e => rw [hs] at h; cases h
        | ok n =>
          rw [hs] at h
          cases h
          obtain ⟨ws, sign, ds, rest, ht⟩ := text_of_stoul hs
          rw [stoul_of_text ht] at hs
          refine ⟨text, ws, sign, ds, rest, by rw [char2type_eq hc], ht, ?_, ?_⟩
          · split at hs
            · cases hs
            · omega
          · dsimp only
            split at hs
            · cases hs
            · split at hs
              · next h => rw [if_pos h]; cases hs; rfl
              · next h => rw [if_neg h]; cases hs; rfl
  · rintro ⟨text, ws, sign, ds, rest, rfl, ht, hn, hi⟩
    unfold Activity.parse
    rw [List.headD_cons, char2type_type2char]
    dsimp only
    rw [stoul_of_text ht, if_neg (by omega)]
    obtain ⟨t, idx⟩ := a
    dsimp only at hi ⊢
    by_cases h : sign = ['-']
    · rw [if_pos h] at hi ⊢; rw [hi]
    · rw [if_neg h] at hi ⊢; rw [hi]

/-- **C38, negation.** Some strings that are not the text of any activity are accepted too: digits may
be followed by anything, and a minus sign wraps around. -/
theorem C38_negation :
    Activity.parse "C1x".toList = .ok ⟨.client, 1⟩ ∧ (∀ a : Activity, a.print ≠ "C1x".toList)
    ∧ Activity.parse "D-1".toList = .ok ⟨.depot, 18446744073709551615⟩ := by
  refine ⟨by decide, ?_, by decide⟩
  intro a h
  have := (decimal_digits a.idx).1 'x' (by
    unfold Activity.print at h
    have : decimal a.idx = ['1', 'x'] := (List.cons.inj h).2
    rw [this]; simp)
  exact absurd this (by decide)

/-- Hashes of activities with indices below 2^20 do not collide. -/
theorem C38_hash (a b : Activity) (ha : a.idx < 2 ^ 20) (hb : b.idx < 2 ^ 20) :
    a.hash = b.hash ↔ a = b := by
  constructor
  · intro h
    obtain ⟨s, i⟩ := a
    obtain ⟨t, j⟩ := b
    unfold Activity.hash SIZE_MAX at h
    dsimp only at *
    have : s.toNat < 4 ∧ t.toNat < 4 := by constructor <;> cases s <;> cases t <;> decide
    have h1 : s.toNat = t.toNat ∧ i = j := by omega
    obtain ⟨h1, rfl⟩ := h1
    cases s <;> cases t <;> first | rfl | exact absurd h1 (by decide)
  · rintro rfl; rfl

/-! ## Non-vacuity -/

example : (⟨.pickup, 1207⟩ : Activity).print = "L1207".toList := by decide +kernel
example : Activity.parse "U42".toList = .ok ⟨.delivery, 42⟩ := by decide
example : Activity.parse "C \t+7 ".toList = .ok ⟨.client, 7⟩ := by decide
example : Activity.parse "".toList = .error (.invalidArgument "Activity type not understood.") := by decide
example : Activity.parse "D".toList = .error (.invalidArgument "stoul") := by decide
example : Activity.parse "V0".toList = .error (.invalidArgument "Activity type not understood.") := by decide
example : Activity.parse "C18446744073709551616".toList = .error (.outOfRange "stoul") := by decide +kernel

end PyVRP
