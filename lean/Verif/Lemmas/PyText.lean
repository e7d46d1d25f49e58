import Verif.Model.SolutionFile
import Verif.Props.C42
/-!
# Lemmas about splitting and joining text
-/
namespace PyVRP
open Csv
namespace Py

theorem split_ne_nil (sep : Char) (t : Text) : split sep t ≠ [] := by
  cases t with
  | nil => simp [split]
  | cons c cs =>
    rw [split]
    split
    · simp
    · split <;> simp

theorem split_of_not_mem {sep : Char} {t : Text} (h : sep ∉ t) : split sep t = [t] := by
  induction t with
  | nil => rfl
  | cons c cs ih =>
    rw [List.mem_cons, not_or] at h
    rw [split, if_neg (Ne.symm h.1), ih h.2]

theorem split_append {sep : Char} {t : Text} (h : sep ∉ t) (rest : Text) :
    split sep (t ++ sep :: rest) = t :: split sep rest := by
  induction t with
  | nil => simp [split]
  | cons c cs ih =>
    rw [List.mem_cons, not_or] at h
    rw [List.cons_append, split, if_neg (Ne.symm h.1), ih h.2]

theorem split_join {sep : Char} : ∀ {parts : List Text}, parts ≠ [] → (∀ t ∈ parts, sep ∉ t) →
    split sep (join [sep] parts) = parts
  | [], h, _ => absurd rfl h
  | [t], _, h => split_of_not_mem (h t (by simp))
  | t :: u :: ts, _, h => by
    rw [join, List.append_assoc, List.singleton_append, split_append (h t (by simp)),
      split_join (by simp) fun x hx => h x (by simp [hx])]
    simp

theorem mapE_ok {α β γ : Type} (f : α → Except Error β) (g : γ → α) (k : γ → β) :
    ∀ (l : List γ), (∀ x ∈ l, f (g x) = .ok (k x)) → mapE f (l.map g) = .ok (l.map k)
  | [], _ => rfl
  | x :: l, h => by
    rw [List.map_cons, mapE, h x (by simp)]
    dsimp only
    rw [mapE_ok f g k l fun y hy => h y (by simp [hy])]
    rfl

theorem mapE_eq_ok {α β : Type} (f : α → Except Error β) : ∀ (l : List α) (l' : List β),
    mapE f l = .ok l' ↔ l.map f = l'.map Except.ok
  | [], l' => by
    cases l' <;> simp [mapE]
  | x :: l, l' => by
    rw [mapE]
    cases hx : f x with
    | error e => cases l' <;> simp [hx]
    | ok b =>
      have ih := mapE_eq_ok f l
      cases hl : mapE f l with
      | error e =>
        dsimp only
        cases l' with
        | nil => simp
        | cons c l' =>
          rw [List.map_cons, List.map_cons, hx]
          constructor
          · intro h; cases h
          · intro h
            have := (ih l').2 (List.cons.inj h).2
            rw [hl] at this; cases this
      | ok bs =>
        have hbs := (ih bs).1 hl
        dsimp only
        rw [List.map_cons, hx, hbs]
        cases l' with
        | nil => simp
        | cons c l' =>
          rw [List.map_cons]
          constructor
          · intro h; cases h; rfl
          · intro h
            obtain ⟨h1, h2⟩ := List.cons.inj h
            cases h1
            have : bs = l' := by
              have hl2 := (ih l').2 (by rw [hbs, h2])
              rw [hl] at hl2
              cases hl2; rfl
            rw [this]

theorem int_decimal (n : Nat) : int (decimal n) = .ok (n : Int) := by
  have h := readInt_showInt (n : Int)
  have hs : showInt (n : Int) = decimal n := by
    unfold showInt
    rw [if_neg (by omega)]
    rfl
  rw [hs] at h
  unfold int
  rw [h]

theorem not_mem_decimal {c : Char} (hc : isDigit c = false) (n : Nat) : c ∉ decimal n := by
  intro h
  have := (decimal_digits n).1 c h
  rw [hc] at this
  cases this

theorem decimal_last (n : Nat) : ∃ t c, decimal n = t ++ [c] ∧ isDigit c = true := by
  have h := (decimal_digits n).2
  exact ⟨_, _, (List.dropLast_concat_getLast h).symm, (decimal_digits n).1 _ (List.getLast_mem h)⟩

theorem strip_id {t : Text} (c d : Char) (u : Text) (h1 : t = c :: u) (hc : isSpace c = false)
    (v : Text) (h2 : t = v ++ [d]) (hd : isSpace d = false) : strip t = t := by
  unfold strip
  have e1 : t.dropWhile isSpace = t := by
    rw [h1, List.dropWhile_cons, hc]
    rfl
  have e2 : t.reverse.dropWhile isSpace = t.reverse := by
    rw [h2, List.reverse_append, List.reverse_singleton, List.singleton_append, List.dropWhile_cons,
      hd]
    rfl
  rw [e1, e2, List.reverse_reverse]

theorem mem_of_mem_strip {t : Text} {c : Char} (h : c ∈ strip t) : c ∈ t := by
  unfold strip at h
  have h1 := List.mem_reverse.1 h
  have h2 := (List.dropWhile_sublist _).subset h1
  exact (List.dropWhile_sublist _).subset (List.mem_reverse.1 h2)

theorem contains_mem {needle t : Text} (h : contains needle t = true) : ∀ c ∈ needle, c ∈ t := by
  induction t with
  | nil =>
    intro c hc
    rw [contains] at h
    exact (List.isPrefixOf_iff_prefix.1 h).subset hc
  | cons d t ih =>
    intro c hc
    rw [contains, Bool.or_eq_true] at h
    rcases h with h | h
    · exact (List.isPrefixOf_iff_prefix.1 h).subset hc
    · exact List.mem_cons_of_mem _ (ih h c hc)

theorem contains_append {needle t : Text} : contains needle (needle ++ t) = true := by
  cases h : needle ++ t with
  | nil =>
    have := List.append_eq_nil_iff.1 h
    rw [this.1]; rfl
  | cons c cs =>
    rw [contains, Bool.or_eq_true]
    exact .inl (List.isPrefixOf_iff_prefix.2 ⟨t, h⟩)

theorem get_nat {α : Type} {l : List α} {i : Nat} {a : α} (h : l[i]? = some a) :
    get l (i : Int) = .ok a := by
  have hi := (List.getElem?_eq_some_iff.1 h).1
  unfold get position
  rw [if_pos (by omega), if_pos (by omega), Option.bind_some, Int.toNat_natCast, h]

theorem modify_nat {α : Type} {l : List α} {i : Nat} {a : α} (h : l[i]? = some a) (f : α → α) :
    modify l (i : Int) f = .ok (l.set i (f a)) := by
  have hi := (List.getElem?_eq_some_iff.1 h).1
  unfold modify position
  rw [if_pos (by omega), if_pos (by omega)]
  dsimp only
  rw [Int.toNat_natCast, h]

end Py

namespace SolutionFile

/-- The line of a route with the given visits. -/
def lineText (k : Nat) (vs : List Nat) : Text :=
  label k ++ (if vs = [] then [] else ' ' :: visitText vs)

theorem digit_chars : isDigit ':' = false ∧ isDigit ' ' = false ∧ isDigit '\n' = false
    ∧ isDigit ',' = false ∧ isDigit 'R' = false := by decide

theorem mem_visitText {c : Char} {vs : List Nat} (h : c ∈ visitText vs) : c = ' ' ∨ isDigit c = true := by
  unfold visitText at h
  induction vs with
  | nil => cases h
  | cons v vs ih =>
    cases vs with
    | nil => exact .inr ((decimal_digits v).1 c (by simpa [Py.join] using h))
    | cons w vs =>
      simp only [List.map_cons, Py.join, List.append_assoc, List.mem_append, List.mem_singleton] at h
      rcases h with h | h | h
      · exact .inr ((decimal_digits v).1 c h)
      · exact .inl h
      · exact ih (by simpa using h)

theorem visitText_last {vs : List Nat} (h : vs ≠ []) : ∃ t c, visitText vs = t ++ [c] ∧ isDigit c = true := by
  unfold visitText
  induction vs with
  | nil => exact absurd rfl h
  | cons v vs ih =>
    cases vs with
    | nil => exact Py.decimal_last v
    | cons w vs =>
      obtain ⟨t, c, ht, hc⟩ := ih (by simp)
      rw [List.map_cons] at ht
      refine ⟨decimal v ++ [' '] ++ t, c, ?_, hc⟩
      rw [List.map_cons, List.map_cons, Py.join, ht, List.append_assoc (decimal v ++ [' '])]
      simp

theorem label_colon (k : Nat) : ':' ∉ "Route #".toList ++ decimal k := by
  rw [List.mem_append, not_or]
  exact ⟨by decide, Py.not_mem_decimal digit_chars.1 k⟩

theorem parse_line (k : Nat) (vs : List Nat) :
    parseRoute (lineText k vs) = .ok (vs.map Int.ofNat) := by
  unfold parseRoute lineText label
  rw [List.append_assoc, List.append_assoc, ← List.append_assoc, List.singleton_append,
    Py.split_append (label_colon k)]
  have htail : ':' ∉ (if vs = [] then [] else ' ' :: visitText vs) := by
    split
    · simp
    · rw [List.mem_cons, not_or]
      refine ⟨by decide, fun h => ?_⟩
      rcases mem_visitText h with h | h
      · exact absurd h (by decide)
      · rw [digit_chars.1] at h; cases h
  rw [Py.split_of_not_mem htail]
  simp only [List.getElem?_cons_succ, List.getElem?_cons_zero]
  by_cases hv : vs = []
  · subst hv; rfl
  · rw [if_neg hv]
    have hs : Py.split ' ' (' ' :: visitText vs) = [] :: vs.map decimal := by
      rw [Py.split, if_pos rfl]
      congr 1
      refine Py.split_join (by simpa using hv) ?_
      intro t ht
      obtain ⟨n, _, rfl⟩ := List.mem_map.1 ht
      exact Py.not_mem_decimal digit_chars.2.1 n
    rw [hs]
    have hf : (([] : Text) :: vs.map decimal).filter (· ≠ []) = vs.map decimal := by
      rw [List.filter_cons_of_neg (by simp), List.filter_eq_self]
      intro t ht
      obtain ⟨n, _, rfl⟩ := List.mem_map.1 ht
      simpa using (decimal_digits n).2
    rw [hf]
    exact Py.mapE_ok Py.int decimal Int.ofNat vs fun n _ => Py.int_decimal n

theorem line_newline (k : Nat) (vs : List Nat) : '\n' ∉ lineText k vs := by
  unfold lineText label
  intro h
  rcases List.mem_append.1 h with h | h
  · rcases List.mem_append.1 h with h | h
    · rcases List.mem_append.1 h with h | h
      · exact absurd h (by decide)
      · exact Py.not_mem_decimal digit_chars.2.2.1 k h
    · exact absurd h (by decide)
  · split at h
    · cases h
    · rcases List.mem_cons.1 h with h | h
      · exact absurd h (by decide)
      · rcases mem_visitText h with h | h
        · exact absurd h (by decide)
        · rw [digit_chars.2.2.1] at h; cases h

theorem line_strip (k : Nat) (vs : List Nat) : Py.strip (lineText k vs) = lineText k vs := by
  have h1 : ∃ u, lineText k vs = 'R' :: u := ⟨_, rfl⟩
  obtain ⟨u, hu⟩ := h1
  by_cases hv : vs = []
  · refine Py.strip_id 'R' ':' u hu (by decide) ("Route #".toList ++ decimal k) ?_ (by decide)
    unfold lineText label
    rw [if_pos hv, List.append_nil]
  · obtain ⟨t, c, ht, hc⟩ := visitText_last hv
    refine Py.strip_id 'R' c u hu (by decide) (label k ++ ' ' :: t) ?_ (not_space_of_digit hc)
    unfold lineText
    rw [if_neg hv, ht, List.append_assoc, List.cons_append]

theorem line_ne_nil (k : Nat) (vs : List Nat) : lineText k vs ≠ [] := by
  intro h; cases h

theorem line_contains (k : Nat) (vs : List Nat) : Py.contains "Route".toList (lineText k vs) = true := by
  have : lineText k vs = "Route".toList ++ ([' ', '#'] ++ decimal k ++ [':']
      ++ (if vs = [] then [] else ' ' :: visitText vs)) := by
    unfold lineText label
    simp
  rw [this]
  exact Py.contains_append

/-- The lines of a file with route lines `ls` and a line with the cost. -/
theorem split_lines (ls : List Text) (hls : ∀ l ∈ ls, '\n' ∉ l) (cost : Text) (hc : '\n' ∉ cost) :
    Py.split '\n' ((ls.map (· ++ ['\n'])).flatten ++ costLine cost)
      = ls ++ ["Cost: ".toList ++ cost, []] := by
  induction ls with
  | nil =>
    simp only [List.map_nil, List.flatten_nil, List.nil_append]
    unfold costLine
    rw [Py.split_append (rest := []) (by
      rw [List.mem_append, not_or]; exact ⟨by decide, hc⟩)]
    rfl
  | cons l ls ih =>
    rw [List.map_cons, List.flatten_cons, List.append_assoc, List.append_assoc,
      List.singleton_append, Py.split_append (hls l (by simp)), ih fun x hx => hls x (by simp [hx])]
    rfl

/-- Reading route lines gives the visits. -/
theorem parse_file (vss : List (Nat × List Nat)) (cost : Text) (hc : '\n' ∉ cost) (hR : 'R' ∉ cost) :
    parseRoutes (((vss.map fun p => lineText p.1 p.2).map (· ++ ['\n'])).flatten ++ costLine cost)
      = .ok (vss.map fun p => p.2.map Int.ofNat) := by
  unfold parseRoutes
  rw [split_lines _ (by
    intro l hl
    obtain ⟨p, _, rfl⟩ := List.mem_map.1 hl
    exact line_newline _ _) cost hc, List.map_append, List.filter_append, List.filter_append]
  have e1 : (vss.map fun p => lineText p.1 p.2).map Py.strip = vss.map fun p => lineText p.1 p.2 := by
    rw [List.map_map]
    apply List.map_congr_left
    intro p _
    exact line_strip _ _
  have e2 : ((vss.map fun p => lineText p.1 p.2).filter (· ≠ [])) = vss.map fun p => lineText p.1 p.2 := by
    rw [List.filter_eq_self]
    intro l hl
    obtain ⟨p, _, rfl⟩ := List.mem_map.1 hl
    simpa using line_ne_nil _ _
  have e3 : ((vss.map fun p => lineText p.1 p.2).filter (Py.contains "Route".toList))
      = vss.map fun p => lineText p.1 p.2 := by
    rw [List.filter_eq_self]
    intro l hl
    obtain ⟨p, _, rfl⟩ := List.mem_map.1 hl
    exact line_contains _ _
  have e4 : (((["Cost: ".toList ++ cost, []] : List Text).map Py.strip).filter (· ≠ [])).filter
      (Py.contains "Route".toList) = [] := by
    rw [List.filter_eq_nil_iff]
    intro l hl hcon
    have hm := Py.contains_mem hcon 'R' (by decide)
    have hl' := (List.mem_filter.1 hl).1
    simp only [List.map_cons, List.map_nil, List.mem_cons, List.not_mem_nil, or_false] at hl'
    rcases hl' with rfl | rfl
    · rcases List.mem_append.1 (Py.mem_of_mem_strip hm) with h | h
      · exact absurd h (by decide)
      · exact hR h
    · exact absurd (Py.mem_of_mem_strip hm) (by simp)
  rw [e1, e2, e3, e4, List.append_nil]
  exact Py.mapE_ok _ _ _ vss fun p _ => parse_line _ _

end SolutionFile
end PyVRP
