import Verif.Model.Csv
import Verif.Props.C38
import Verif.Props.C29
/-!
# C42: writing statistics to a file and reading them again
-/
namespace PyVRP
open Csv

namespace Spec

/-- The text of a floating point number can be read again, and has no line ends. -/
structure FloatText (showFloat : Int → Text) (readFloat : Text → Option Int) : Prop where
  read : ∀ x, readFloat (showFloat x) = some x
  line : ∀ x, '\n' ∉ showFloat x ∧ '\r' ∉ showFloat x

/-- A delimiter that the `csv` module accepts. -/
def Delimiter (delim : Char) : Prop := delim ≠ '"' ∧ delim ≠ '\n' ∧ delim ≠ '\r'

/-- As many runtimes as data, and as many iterations. -/
def Complete (s : Statistics) : Prop :=
  s.runtimes.length = s.data.length ∧ s.numIterations = s.data.length

end Spec
open Spec

namespace Csv

/-- A text without line ends. -/
def OneLine (t : Text) : Prop := '\n' ∉ t ∧ '\r' ∉ t

theorem not_special {d c : Char} (h : special d c = false) :
    c ≠ d ∧ c ≠ '"' ∧ c ≠ '\n' ∧ c ≠ '\r' := by
  simpa [special, not_or, and_assoc] using h

theorem parse_inField {d : Char} {f : Text} (hf : ∀ c ∈ f, special d c = false) (cur : Text)
    (row : List Text) (t : Text) :
    parse d .inField cur row (f ++ t) = parse d .inField (cur ++ f) row t := by
  induction f generalizing cur with
  | nil => simp
  | cons c cs ih =>
    obtain ⟨h1, h2, h3, h4⟩ := not_special (hf c (by simp))
    rw [List.cons_append, parse, if_neg h3, if_neg h1,
      ih (fun c hc => hf c (List.mem_cons_of_mem _ hc))]
    simp

theorem parse_inQuoted {d : Char} (f : Text) (cur : Text) (row : List Text) (t : Text) :
    parse d .inQuoted cur row (doubleQuotes f ++ '"' :: t)
      = parse d .quoteInQuoted (cur ++ f) row t := by
  induction f generalizing cur with
  | nil => simp [doubleQuotes, parse]
  | cons c cs ih =>
    unfold doubleQuotes
    by_cases h : c = '"'
    · rw [if_pos h, List.cons_append, parse, if_pos rfl, List.cons_append, parse, if_pos rfl, ih, h]
      simp
    · rw [if_neg h, List.cons_append, parse, if_neg h, ih]
      simp

/-- The text starts with the delimiter or a line end. -/
def Ends (d : Char) (t : Text) : Prop := ∃ r, t = d :: r ∨ t = '\n' :: r

theorem parse_quoteInQuoted {d : Char} (hd : Delimiter d) {t : Text} (ht : Ends d t) (f : Text)
    (row : List Text) : parse d .quoteInQuoted f row t = parse d .inField f row t := by
  obtain ⟨h1, h2, h3⟩ := hd
  obtain ⟨r, rfl | rfl⟩ := ht
  · simp [parse, h1, h2]
  · simp [parse, Ne.symm h2]

theorem parse_field {q : Quoting} {d : Char} (hd : Delimiter d) {num : Bool} {f w : Text}
    (hw : writeField q d num f = some w) {t : Text} (ht : Ends d t) (row : List Text) :
    parse d .startField [] row (w ++ t) = parse d .inField f row t := by
  have hplain : f.any (special d) = false →
      parse d .startField [] row (f ++ t) = parse d .inField f row t := by
    intro ha
    rw [List.any_eq_false] at ha
    cases f with
    | nil =>
      obtain ⟨h1, h2, h3⟩ := hd
      obtain ⟨r, rfl | rfl⟩ := ht
      · simp [parse, h1, h2]
      · simp [parse]
    | cons c cs =>
      obtain ⟨h1, h2, h3, h4⟩ := not_special (by simpa using ha c (by simp))
      rw [List.cons_append, parse, if_neg h3, if_neg h2, if_neg h1,
        parse_inField (fun c hc => by simpa using ha c (List.mem_cons_of_mem _ hc))]
      rfl
  have hquoted : parse d .startField [] row ('"' :: doubleQuotes f ++ ['"'] ++ t)
      = parse d .inField f row t := by
    have : '"' :: doubleQuotes f ++ ['"'] ++ t = '"' :: (doubleQuotes f ++ '"' :: t) := by simp
    rw [this, parse, if_neg (by decide), if_pos rfl, parse_inQuoted, parse_quoteInQuoted hd ht]
    rfl
  unfold writeField at hw
  cases q with
  | none =>
    cases ha : f.any (special d) with
    | true => simp [ha] at hw
    | false => simp [ha] at hw; subst hw; exact hplain ha
  | all => simp only [Option.some.injEq] at hw; subst hw; exact hquoted
  | nonnumeric =>
    cases ha : f.any (special d) with
    | true => simp only [ha, Bool.or_true, if_true, Option.some.injEq] at hw; subst hw; exact hquoted
    | false =>
      cases num with
      | true => simp [ha] at hw; subst hw; exact hplain ha
      | false =>
        simp only [Bool.not_false, Bool.true_or, if_true, Option.some.injEq] at hw
        subst hw; exact hquoted
  | minimal =>
    cases ha : f.any (special d) with
    | true => simp only [ha, if_true, Option.some.injEq] at hw; subst hw; exact hquoted
    | false => simp [ha] at hw; subst hw; exact hplain ha

/-- Which characters a written field has. -/
theorem mem_writeField {q : Quoting} {d : Char} {num : Bool} {f w : Text}
    (hw : writeField q d num f = some w) {c : Char} (hc : c ∈ w) : c ∈ f ∨ c = '"' := by
  have hdq : ∀ g : Text, c ∈ doubleQuotes g → c ∈ g ∨ c = '"' := by
    intro g hg
    induction g with
    | nil => simp [doubleQuotes] at hg
    | cons x xs ih =>
      unfold doubleQuotes at hg
      split at hg
      · simp only [List.mem_cons] at hg
        rcases hg with h | h | h
        · exact .inr h
        · exact .inr h
        · exact (ih h).imp_left (List.mem_cons_of_mem _)
      · simp only [List.mem_cons] at hg
        rcases hg with h | h
        · exact .inl (by simp [h])
        · exact (ih h).imp_left (List.mem_cons_of_mem _)
  have hq : c ∈ '"' :: doubleQuotes f ++ ['"'] → c ∈ f ∨ c = '"' := by
    intro h
    simp only [List.cons_append, List.mem_cons, List.mem_append, List.not_mem_nil, or_false] at h
    rcases h with h | h | h
    · exact .inr h
    · exact hdq f h
    · exact .inr h
  unfold writeField at hw
  cases q <;> dsimp only at hw
  · split at hw <;> simp only [Option.some.injEq] at hw <;> subst hw
    · exact hq hc
    · exact .inl hc
  · simp only [Option.some.injEq] at hw; subst hw; exact hq hc
  · split at hw <;> simp only [Option.some.injEq] at hw <;> subst hw
    · exact hq hc
    · exact .inl hc
  · split at hw
    · cases hw
    · simp only [Option.some.injEq] at hw; subst hw; exact .inl hc

theorem writeFields_cons {q : Quoting} {d : Char} {num : Bool} {f g : Text} {fs : List Text}
    {w : Text} (h : writeFields q d num (f :: g :: fs) = some w) :
    ∃ t rest, writeField q d num f = some t ∧ writeFields q d num (g :: fs) = some rest
      ∧ w = t ++ d :: rest := by
  unfold writeFields at h
  cases ht : writeField q d num f with
  | none => rw [ht] at h; simp at h
  | some t =>
    cases hr : writeFields q d num (g :: fs) with
    | none => rw [ht, hr] at h; simp at h
    | some rest => rw [ht, hr] at h; simp at h; exact ⟨t, rest, rfl, rfl, h.symm⟩

theorem parse_fields {q : Quoting} {d : Char} (hd : Delimiter d) {num : Bool} {fs : List Text}
    (hne : fs ≠ []) {w : Text} (hw : writeFields q d num fs = some w) (row : List Text) (rest : Text) :
    parse d .startField [] row (w ++ '\n' :: rest)
      = (row ++ fs) :: parse d .startRecord [] [] rest := by
  induction fs generalizing w row with
  | nil => exact absurd rfl hne
  | cons f fs ih =>
    cases fs with
    | nil =>
      rw [parse_field hd (show writeField q d num f = some w from hw) ⟨rest, .inr rfl⟩]
      simp [parse]
    | cons g gs =>
      obtain ⟨t, r, h1, h2, rfl⟩ := writeFields_cons hw
      rw [List.append_assoc, List.cons_append, parse_field hd h1 ⟨_, .inl rfl⟩, parse,
        if_neg hd.2.1, if_pos rfl, ih (by simp) h2]
      simp

/-- The first character of a row of at least two fields is not a line end. -/
theorem parse_startRecord {q : Quoting} {d : Char} (hd : Delimiter d) {num : Bool} {f g : Text}
    {fs : List Text} (hf : OneLine f) {w : Text} (hw : writeFields q d num (f :: g :: fs) = some w)
    (rest : Text) :
    parse d .startRecord [] [] (w ++ rest) = parse d .startField [] [] (w ++ rest) := by
  obtain ⟨t, r, h1, h2, rfl⟩ := writeFields_cons hw
  have hc : ∃ c cs, t ++ d :: r ++ rest = c :: cs ∧ c ≠ '\n' := by
    cases t with
    | nil => exact ⟨d, _, rfl, hd.2.1⟩
    | cons c cs =>
      refine ⟨c, _, rfl, ?_⟩
      rintro rfl
      rcases mem_writeField h1 (List.mem_cons_self) with h | h
      · exact hf.1 h
      · revert h; decide
  obtain ⟨c, cs, he, hn⟩ := hc
  rw [he, parse, parse, if_neg hn, if_neg hn]

theorem universalNewlines_row {w : Text} (hw : '\r' ∉ w) (rest : Text) :
    universalNewlines (w ++ '\r' :: '\n' :: rest) = w ++ '\n' :: universalNewlines rest := by
  induction w with
  | nil => simp [universalNewlines]
  | cons c cs ih =>
    rw [List.mem_cons, not_or] at hw
    have hc : c ≠ '\r' := Ne.symm hw.1
    rw [List.cons_append, universalNewlines, if_neg hc, ih hw.2]
    · rfl
    · intro r h; exact absurd h hc

theorem no_cr_writeFields {q : Quoting} {d : Char} (hd : Delimiter d) {num : Bool} {fs : List Text}
    (hf : ∀ f ∈ fs, OneLine f) {w : Text} (hw : writeFields q d num fs = some w) : '\r' ∉ w := by
  have hfield : ∀ f t, OneLine f → writeField q d num f = some t → '\r' ∉ t := by
    intro f t h1 h2 h3
    rcases mem_writeField h2 h3 with h | h
    · exact h1.2 h
    · revert h; decide
  induction fs generalizing w with
  | nil => cases hw; simp
  | cons f fs ih =>
    cases fs with
    | nil => exact hfield f w (hf f (by simp)) hw
    | cons g gs =>
      obtain ⟨t, r, h1, h2, rfl⟩ := writeFields_cons hw
      simp only [List.mem_append, List.mem_cons, not_or]
      exact ⟨hfield f t (hf f (by simp)) h1, Ne.symm hd.2.2,
        ih (fun x hx => hf x (List.mem_cons_of_mem _ hx)) h2⟩

/-- A row that was written is read. -/
theorem read_row {q : Quoting} {d : Char} (hd : Delimiter d) {num : Bool} {f g : Text}
    {fs : List Text} (hf : ∀ x ∈ f :: g :: fs, OneLine x) {w : Text}
    (hw : writeRow q d num (f :: g :: fs) = some w) (rest : Text) :
    parse d .startRecord [] [] (universalNewlines (w ++ rest))
      = (f :: g :: fs) :: parse d .startRecord [] [] (universalNewlines rest) := by
  unfold writeRow at hw
  rw [Option.map_eq_some_iff] at hw
  obtain ⟨w', hw', rfl⟩ := hw
  have : w' ++ ['\r', '\n'] ++ rest = w' ++ '\r' :: '\n' :: rest := by simp
  rw [this, universalNewlines_row (no_cr_writeFields hd hf hw'),
    parse_startRecord hd (hf f (by simp)) hw', parse_fields hd (by simp) hw']
  rfl

/-- Rows that were written are read. -/
theorem read_rows {q : Quoting} {d : Char} (hd : Delimiter d) {num : Bool} {rows : List (List Text)}
    (hrows : ∀ r ∈ rows, 2 ≤ r.length ∧ ∀ f ∈ r, OneLine f) {w : Text}
    (hw : writeRows q d num rows = some w) :
    parse d .startRecord [] [] (universalNewlines w) = rows := by
  induction rows generalizing w with
  | nil => cases hw; simp [universalNewlines, parse]
  | cons r rs ih =>
    unfold writeRows at hw
    cases h1 : writeRow q d num r with
    | none => rw [h1] at hw; simp at hw
    | some t =>
      cases h2 : writeRows q d num rs with
      | none => rw [h1, h2] at hw; simp at hw
      | some rest =>
        rw [h1, h2] at hw
        simp only [Option.some.injEq] at hw
        subst hw
        obtain ⟨hl, ho⟩ := hrows r (by simp)
        match r, hl with
        | f :: g :: fs, _ =>
          rw [read_row hd ho h1, ih (fun x hx => hrows x (List.mem_cons_of_mem _ hx)) h2]

theorem readInt_showInt (n : Int) : readInt (showInt n) = some n := by
  obtain ⟨hdig, hne⟩ := decimal_digits n.natAbs
  unfold showInt
  split
  · rename_i hn
    unfold readInt
    have ha : (decimal n.natAbs).all isDigit = true := List.all_eq_true.2 hdig
    simp only [List.head?_cons, BEq.rfl, Bool.true_or, if_true, List.drop_succ_cons, List.drop_zero, hne,
      ha, not_true_eq_false, or_self, if_false, readDigits_decimal]
    rw [Option.some.injEq]; omega
  · rename_i hn
    have ha : (decimal n.natAbs).all isDigit = true := List.all_eq_true.2 hdig
    have hhead : ∀ c, (decimal n.natAbs).head? = some c → c ≠ '-' ∧ c ≠ '+' := by
      intro c hc
      exact digit_ne_sign (hdig c (List.mem_of_mem_head? (by simpa using hc)))
    have h1 : ((decimal n.natAbs).head? == some '-') = false := by
      cases hh : (decimal n.natAbs).head? with
      | none => rfl
      | some c => simpa using (hhead c hh).1
    have h2 : ((decimal n.natAbs).head? == some '+') = false := by
      cases hh : (decimal n.natAbs).head? with
      | none => rfl
      | some c => simpa using (hhead c hh).2
    unfold readInt
    simp only [h1, h2, Bool.or_self, Bool.false_eq_true, if_false, hne, ha, not_true_eq_false,
      or_self, readDigits_decimal]
    rw [Option.some.injEq]; omega

theorem oneLine_showInt (n : Int) : OneLine (showInt n) := by
  have hdig := (decimal_digits n.natAbs).1
  have h1 : '\n' ∉ decimal n.natAbs := fun h => absurd (hdig _ h) (by decide)
  have h2 : '\r' ∉ decimal n.natAbs := fun h => absurd (hdig _ h) (by decide)
  unfold showInt OneLine
  split
  · simp [h1, h2]
  · exact ⟨h1, h2⟩

theorem readBool_showBool (b : Bool) : readBool (Statistics.showBool b) = some b := by
  unfold readBool Statistics.showBool
  rw [readInt_showInt]
  cases b <;> simp

end Csv

namespace Statistics

theorem oneLine_csvRow {showFloat : Int → Text} {readFloat : Text → Option Int}
    (hf : FloatText showFloat readFloat) (x : Datum) (r : Int) :
    ∀ f ∈ csvRow showFloat x r, OneLine f := by
  intro f h
  simp only [csvRow, List.mem_cons, List.not_mem_nil, or_false] at h
  rcases h with rfl | rfl | rfl | rfl | rfl | rfl | rfl
  · exact hf.line r
  all_goals exact oneLine_showInt _

theorem value_csvRow (showFloat : Int → Text) (x : Datum) (r : Int) :
    let row := (header.map (·.toList)).zip (csvRow showFloat x r)
    value row "runtime" = some (showFloat r)
    ∧ value row "current_cost" = some (showInt x.currentCost)
    ∧ value row "current_feas" = some (showBool x.currentFeas)
    ∧ value row "candidate_cost" = some (showInt x.candidateCost)
    ∧ value row "candidate_feas" = some (showBool x.candidateFeas)
    ∧ value row "best_cost" = some (showInt x.bestCost)
    ∧ value row "best_feas" = some (showBool x.bestFeas) := by
  simp [header, csvRow, value]

theorem readRows_csvRows {showFloat : Int → Text} {readFloat : Text → Option Int}
    (hf : FloatText showFloat readFloat) (rows : List (Datum × Int)) (s : Statistics) :
    readRows readFloat s
        (rows.map fun r => (header.map (·.toList)).zip (csvRow showFloat r.1 r.2))
      = some { s with
          runtimes := s.runtimes ++ rows.map (·.2)
          numIterations := s.numIterations + rows.length
          data := s.data ++ rows.map (·.1) } := by
  induction rows generalizing s with
  | nil => simp [readRows]
  | cons r rs ih =>
    obtain ⟨h1, h2, h3, h4, h5, h6, h7⟩ := value_csvRow showFloat r.1 r.2
    rw [List.map_cons, readRows]
    simp only [makeDatum, h1, h2, h3, h4, h5, h6, h7, Option.bind_some, readInt_showInt,
      readBool_showBool, hf.read, ih]
    simp; omega

end Statistics

/-- **C42.** Statistics that were collected are equal to those read from the file that they were written
to, with any delimiter and quoting strategy with which they can be written. -/
theorem C42_csv_round_trip {showFloat : Int → Text} {readFloat : Text → Option Int}
    (hf : FloatText showFloat readFloat) {delim : Char} (hd : Delimiter delim) (q : Quoting)
    (s : Statistics) (hs : Complete s) (hc : s.collectStats = true) {text : Text}
    (hw : s.toCsv showFloat q delim = some text) (now : Int) :
    ∃ s', Statistics.fromCsv readFloat delim text now = some s' ∧ s.eq s' = true := by
  unfold Statistics.toCsv at hw
  cases h1 : writeRow q delim false (Statistics.header.map (·.toList)) with
  | none => rw [h1] at hw; simp at hw
  | some head =>
    cases h2 : writeRows q delim true
        ((s.data.zip s.runtimes).map fun r => Statistics.csvRow showFloat r.1 r.2) with
    | none => rw [h1, h2] at hw; simp at hw
    | some rows =>
      rw [h1, h2] at hw
      simp only [Option.some.injEq] at hw
      subst hw
      have hhead : ∀ f ∈ Statistics.header.map (·.toList), OneLine f := by
        unfold OneLine; decide
      have hrows := read_rows hd (fun r hr => by
        rw [List.mem_map] at hr
        obtain ⟨x, -, rfl⟩ := hr
        exact ⟨by simp [Statistics.csvRow], Statistics.oneLine_csvRow hf x.1 x.2⟩) h2
      have hparse : parse delim .startRecord [] [] (universalNewlines (head ++ rows))
          = Statistics.header.map (·.toList)
            :: (s.data.zip s.runtimes).map fun r => Statistics.csvRow showFloat r.1 r.2 := by
        rw [← hrows]
        exact read_row hd hhead h1 rows
      unfold Statistics.fromCsv
      rw [hparse]
      have hdict : dictRows (Statistics.header.map (·.toList)
            :: (s.data.zip s.runtimes).map fun r => Statistics.csvRow showFloat r.1 r.2)
          = (s.data.zip s.runtimes).map fun r =>
            (Statistics.header.map (·.toList)).zip (Statistics.csvRow showFloat r.1 r.2) := by
        show (List.filter _ _).map _ = _
        rw [List.filter_eq_self.2, List.map_map]
        · rfl
        · intro r hr
          rw [List.mem_map] at hr
          obtain ⟨x, -, rfl⟩ := hr
          simp [Statistics.csvRow]
      rw [hdict, Statistics.readRows_csvRows hf]
      refine ⟨_, rfl, ?_⟩
      have e1 : (s.data.zip s.runtimes).map (·.1) = s.data :=
        List.map_fst_zip (Nat.le_of_eq hs.1.symm)
      have e2 : (s.data.zip s.runtimes).map (·.2) = s.runtimes :=
        List.map_snd_zip (Nat.le_of_eq hs.1)
      have e3 : (s.data.zip s.runtimes).length = s.data.length := by
        rw [List.length_zip, hs.1, Nat.min_self]
      simp [Statistics.eq, Statistics.make, e1, e2, e3, hc, hs.2]

/-- **C42.** Statistics can be written, unless quotes are turned off. -/
theorem C42_csv_written (showFloat : Int → Text) (delim : Char) (q : Quoting) (hq : q ≠ .none)
    (s : Statistics) : ∃ text, s.toCsv showFloat q delim = some text := by
  have hfield : ∀ num f, ∃ w, writeField q delim num f = some w := by
    intro num f
    unfold writeField
    cases q <;> dsimp only
    · split <;> exact ⟨_, rfl⟩
    · exact ⟨_, rfl⟩
    · split <;> exact ⟨_, rfl⟩
    · exact absurd rfl hq
  have hfields : ∀ num fs, ∃ w, writeFields q delim num fs = some w := by
    intro num fs
    induction fs with
    | nil => exact ⟨_, rfl⟩
    | cons f fs ih =>
      obtain ⟨t, ht⟩ := hfield num f
      obtain ⟨rest, hr⟩ := ih
      cases fs with
      | nil => exact ⟨t, ht⟩
      | cons g gs => exact ⟨t ++ delim :: rest, by unfold writeFields; rw [ht, hr]⟩
  have hrow : ∀ num fs, ∃ w, writeRow q delim num fs = some w := by
    intro num fs
    obtain ⟨w, hw⟩ := hfields num fs
    exact ⟨_, by unfold writeRow; rw [hw]; rfl⟩
  have hrows : ∀ num rs, ∃ w, writeRows q delim num rs = some w := by
    intro num rs
    induction rs with
    | nil => exact ⟨_, rfl⟩
    | cons r rs ih =>
      obtain ⟨t, ht⟩ := hrow num r
      obtain ⟨rest, hr⟩ := ih
      exact ⟨t ++ rest, by unfold writeRows; rw [ht, hr]⟩
  obtain ⟨h, hh⟩ := hrow false (Statistics.header.map (·.toList))
  obtain ⟨r, hr⟩ := hrows true
    ((s.data.zip s.runtimes).map fun r => Statistics.csvRow showFloat r.1 r.2)
  exact ⟨h ++ r, by unfold Statistics.toCsv; rw [hh, hr]⟩

/-- **C42.** The statistics of a run, at any point, are complete, as the round trip needs. -/
theorem C42_run_complete {σ τ : Type} (env : IlsEnv σ τ) (pm : PenaltyManager) (ss : σ) (ts : τ)
    (s : IlsState σ τ) (h : Ils.Reachable env pm ss ts true s) :
    Complete s.stats ∧ s.stats.collectStats = true := by
  obtain ⟨h1, h2, -⟩ := C42_one_datum_per_iteration env pm ss ts true s h
  obtain ⟨-, h3, h4, h5, -⟩ := h2 rfl
  exact ⟨⟨by rw [h4, h3], by rw [h5, h3]⟩, h1⟩

namespace C42

/-- Numbers of seconds as integers, for the demo. -/
theorem intText : FloatText showInt readInt := ⟨readInt_showInt, oneLine_showInt⟩

def demo : Statistics :=
  { runtimes := [3, 12], numIterations := 2, clock := 15
    data := [⟨10, true, -25, false, 10, true⟩, ⟨10, true, 9, true, 9, true⟩] }

/-- The file, with the default delimiter and quoting. -/
example : (demo.toCsv showInt .minimal ',').map String.ofList = some
    ("runtime,current_cost,current_feas,candidate_cost,candidate_feas,best_cost,best_feas\r\n"
      ++ "3,10,1,-25,0,10,1\r\n12,10,1,9,1,9,1\r\n") := by decide +kernel

/-- A delimiter that occurs in numbers. -/
example : ((demo.toCsv showInt .minimal '1').bind
    (Statistics.fromCsv readInt '1' · 0)).map (fun s => s.data) = some demo.data := by decide +kernel

example : Complete demo ∧ demo.collectStats = true ∧ Delimiter ',' := by
  simp [Complete, demo, Delimiter]

end C42

/-- **C42**, negation for statistics that were not collected: those read from the file are collected, so
that they are not equal. -/
theorem C42_negation_not_collected {showFloat : Int → Text} {readFloat : Text → Option Int}
    (delim : Char) (s s' : Statistics) (hs : s.collectStats = false) {text : Text}
    (_ : s.toCsv showFloat .minimal delim = some text) (now : Int)
    (hr : Statistics.fromCsv readFloat delim text now = some s') : s.eq s' = false := by
  have key : ∀ rows s0, Statistics.readRows readFloat s0 rows = some s' →
      s'.collectStats = s0.collectStats := by
    intro rows
    induction rows with
    | nil => intro s0 h; cases h; rfl
    | cons r rs ih =>
      intro s0 h
      unfold Statistics.readRows at h
      split at h
      · have := ih _ h; exact this
      · cases h
  have := key _ _ hr
  simp [Statistics.eq, hs, this, Statistics.make]

/-- **C42**, negation without quotes: with a delimiter that occurs in a name, writing raises an
exception. -/
theorem C42_negation_no_quotes (showFloat : Int → Text) (s : Statistics) :
    s.toCsv showFloat .none '_' = none := by
  unfold Statistics.toCsv
  have : writeRow .none '_' false (Statistics.header.map (·.toList)) = none := by decide
  rw [this]

end PyVRP
