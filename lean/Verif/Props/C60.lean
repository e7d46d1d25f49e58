import Verif.Model.Progress
import Verif.Lemmas.PyText
import Verif.Props.C29
/-!
# C60: what is displayed about a run
-/
namespace PyVRP
open Csv

namespace Spec

/-- The calls of the printer during the search. -/
inductive PrinterCall where
  | iteration (stats : Statistics) (now : Int)
  | restart

/-- Calls the printer: the printer afterwards, and the lines printed by each call. -/
def replay (toSeconds : Int → Int) (p : Progress) : List PrinterCall → Except Error (Progress × List (List Text))
  | [] => .ok (p, [])
  | .restart :: calls =>
    match replay toSeconds p calls with
    | .error e => .error e
    | .ok (p', outs) => .ok (p', p.restart :: outs)
  | .iteration stats now :: calls =>
    match p.iteration toSeconds stats now with
    | .error e => .error e
    | .ok (p', out) =>
      match replay toSeconds p' calls with
      | .error e => .error e
      | .ok (p'', outs) => .ok (p'', out :: outs)

/-- When a line about an iteration has last been printed, if the printer was made at time `t0`. -/
def lastPrint (t0 : Int) (history : List (PrinterCall × List Text)) : Int :=
  history.foldl (fun t c => match c with
    | (.iteration _ now, _ :: _) => now
    | _ => t) t0

/-- The costs of the feasible best solutions about which lines have been printed. -/
def printedBest (history : List (PrinterCall × List Text)) : List Int :=
  history.filterMap fun c => match c with
    | (.iteration stats _, _ :: _) =>
      stats.data.getLast?.bind fun datum => if datum.bestFeas then some datum.bestCost else none
    | _ => none

/-- The words of a text, separated by spaces. -/
def words (t : Text) : List Text := (Py.split ' ' t).filter (· ≠ [])

end Spec

open Spec

namespace Progress

/-- What the printer remembers. -/
structure Remembers (shouldPrint : Bool) (interval t0 : Int) (history : List (PrinterCall × List Text))
    (p : Progress) : Prop where
  enabled : p.enabled = shouldPrint
  interval : p.displayInterval = interval
  last : p.lastPrintTime = lastPrint t0 history
  best : ∀ c, lower c p.bestCost = true ↔ ∀ c' ∈ printedBest history, c < c'

theorem lastPrint_append (t0 : Int) (h : List (PrinterCall × List Text)) (c : PrinterCall × List Text) :
    lastPrint t0 (h ++ [c]) = match c with
      | (.iteration _ now, _ :: _) => now
      | _ => lastPrint t0 h := by
  unfold lastPrint
  rw [List.foldl_append]
  rfl

theorem printedBest_append (h k : List (PrinterCall × List Text)) :
    printedBest (h ++ k) = printedBest h ++ printedBest k := by
  unfold printedBest
  rw [List.filterMap_append]

/-- What one call about an iteration prints. -/
def Printed (toSeconds : Int → Int) (shouldPrint : Bool) (interval t0 : Int)
    (before : List (PrinterCall × List Text)) (stats : Statistics) (now : Int) (out : List Text) : Prop :=
  (out = [] ∧ ¬ (shouldPrint = true ∧ stats.collectStats = true ∧ interval ≤ now - lastPrint t0 before))
  ∨ ((shouldPrint = true ∧ stats.collectStats = true ∧ interval ≤ now - lastPrint t0 before)
    ∧ ∃ datum mark, stats.data.getLast? = some datum ∧ out = [line toSeconds mark stats datum]
      ∧ (mark = true ↔ datum.bestFeas = true ∧ ∀ c ∈ printedBest before, datum.bestCost < c))

theorem iteration_step {toSeconds : Int → Int} {shouldPrint : Bool} {interval t0 : Int}
    {h : List (PrinterCall × List Text)} {p p' : Progress} {stats : Statistics} {now : Int} {out : List Text}
    (hr : Remembers shouldPrint interval t0 h p) (hi : p.iteration toSeconds stats now = .ok (p', out)) :
    Remembers shouldPrint interval t0 (h ++ [(.iteration stats now, out)]) p'
    ∧ Printed toSeconds shouldPrint interval t0 h stats now out := by
  obtain ⟨h1, h2, h3, h4⟩ := hr
  unfold iteration at hi
  dsimp only at hi
  split at hi
  · rename_i hc
    injection hi with hi
    obtain ⟨rfl, rfl⟩ := Prod.mk.inj hi
    refine ⟨⟨h1, h2, ?_, ?_⟩, Or.inl ⟨rfl, ?_⟩⟩
    · rw [lastPrint_append]; exact h3
    · intro c
      rw [printedBest_append, h4 c]
      simp [printedBest]
    · rintro ⟨a1, a2, a3⟩
      rw [h1, h2, h3, a1, a2] at hc
      simp at hc
      omega
  · rename_i hc
    have hcond : shouldPrint = true ∧ stats.collectStats = true ∧ interval ≤ now - lastPrint t0 h := by
      rw [h1, h2, h3] at hc
      simp at hc
      exact ⟨hc.1.1, hc.1.2, by omega⟩
    split at hi
    · cases hi
    · rename_i datum hd
      injection hi with hi
      obtain ⟨rfl, rfl⟩ := Prod.mk.inj hi
      refine ⟨⟨h1, h2, ?_, ?_⟩, Or.inr ⟨hcond, datum, _, hd, rfl, ?_⟩⟩
      · rw [lastPrint_append]
      · intro c
        dsimp only
        rw [printedBest_append, List.forall_mem_append, ← h4 c]
        have hp : ∀ t : Text, printedBest [(.iteration stats now, [t])]
            = if datum.bestFeas then [datum.bestCost] else [] := by
          intro t
          unfold printedBest
          rw [List.filterMap_cons]
          dsimp only
          rw [hd]
          dsimp only [Option.bind_some]
          cases datum.bestFeas <;> rfl
        rw [hp]
        cases hf : datum.bestFeas with
        | false => simp
        | true =>
          simp only [Bool.true_and, if_true, List.mem_singleton, forall_eq]
          cases hb : p.bestCost with
          | none => simp [lower]
          | some b =>
            by_cases hlt : datum.bestCost < b
            · simp [lower, hlt]; omega
            · simp [lower, hlt]; omega
      · rw [Bool.and_eq_true, h4]

theorem replay_spec {toSeconds : Int → Int} {shouldPrint : Bool} {interval t0 : Int} :
    ∀ (calls : List PrinterCall) (h : List (PrinterCall × List Text)) (p p' : Progress) (outs : List (List Text)),
      Remembers shouldPrint interval t0 h p → replay toSeconds p calls = .ok (p', outs) →
      Remembers shouldPrint interval t0 (h ++ calls.zip outs) p'
      ∧ outs.length = calls.length
      ∧ (∀ (i : Nat), calls[i]? = some .restart → outs[i]? = some p.restart)
      ∧ ∀ (i : Nat) stats now, calls[i]? = some (.iteration stats now) →
        ∃ out, outs[i]? = some out
          ∧ Printed toSeconds shouldPrint interval t0 (h ++ (calls.zip outs).take i) stats now out
  | [], h, p, p', outs, hr, he => by
    rw [replay] at he
    injection he with he
    obtain ⟨rfl, rfl⟩ := Prod.mk.inj he
    exact ⟨by simpa using hr, rfl, by simp, by simp⟩
  | .restart :: calls, h, p, p', outs, hr, he => by
    rw [replay] at he
    split at he
    · cases he
    · rename_i p1 outs1 h1
      injection he with he
      obtain ⟨rfl, rfl⟩ := Prod.mk.inj he
      have hr2 : Remembers shouldPrint interval t0 (h ++ [(.restart, p.restart)]) p := by
        refine ⟨hr.enabled, hr.interval, ?_, ?_⟩
        · rw [lastPrint_append]; exact hr.last
        · intro c
          rw [printedBest_append, hr.best c]
          simp [printedBest]
      obtain ⟨i1, i2, i3, i4⟩ := replay_spec calls _ p p1 outs1 hr2 h1
      refine ⟨by simpa using i1, by simp [i2], ?_, ?_⟩
      · intro i hi
        cases i with
        | zero => rfl
        | succ i => exact i3 i hi
      · intro i stats now hi
        cases i with
        | zero => simp at hi
        | succ i =>
          obtain ⟨out, o1, o2⟩ := i4 i stats now hi
          exact ⟨out, o1, by simpa using o2⟩
  | .iteration stats now :: calls, h, p, p', outs, hr, he => by
    rw [replay] at he
    split at he
    · cases he
    · rename_i p1 out h1
      split at he
      · cases he
      · rename_i p2 outs2 h2
        injection he with he
        obtain ⟨rfl, rfl⟩ := Prod.mk.inj he
        obtain ⟨s1, s2⟩ := iteration_step hr h1
        obtain ⟨i1, i2, i3, i4⟩ := replay_spec calls _ p1 p2 outs2 s1 h2
        have hres : p1.restart = p.restart := by
          unfold restart
          rw [s1.enabled, hr.enabled]
        refine ⟨by simpa using i1, by simp [i2], ?_, ?_⟩
        · intro i hi
          cases i with
          | zero => simp at hi
          | succ i => rw [← hres]; exact i3 i hi
        · intro i stats' now' hi
          cases i with
          | zero =>
            simp only [List.getElem?_cons_zero, Option.some.injEq, PrinterCall.iteration.injEq] at hi
            obtain ⟨rfl, rfl⟩ := hi
            exact ⟨out, rfl, by simpa using s2⟩
          | succ i =>
            obtain ⟨out', o1, o2⟩ := i4 i stats' now' hi
            exact ⟨out', o1, by simpa using o2⟩

theorem make_remembers {shouldPrint : Bool} {interval t0 : Int} {p : Progress}
    (h : make shouldPrint interval t0 = .ok p) : Remembers shouldPrint interval t0 [] p := by
  unfold make at h
  split at h
  · cases h
  · injection h with h
    subst h
    exact ⟨rfl, rfl, rfl, by simp [lower, printedBest]⟩

end Progress

/-- **C60.** A printer is made exactly if the display interval is not negative. A line about an iteration is
printed exactly if display is on, statistics are collected, and at least the display interval has passed since
the last such line (or since the printer was made). The line is about the last iteration, and is marked
exactly if the best solution is feasible and cheaper than all feasible best solutions printed before. -/
theorem C60_printed (toSeconds : Int → Int) (shouldPrint : Bool) (interval t0 : Int) :
    ((∃ p, Progress.make shouldPrint interval t0 = .ok p) ↔ 0 ≤ interval)
    ∧ ∀ p p' calls outs, Progress.make shouldPrint interval t0 = .ok p →
        replay toSeconds p calls = .ok (p', outs) →
        ∀ (i : Nat) stats now, calls[i]? = some (.iteration stats now) →
          let before := (calls.zip outs).take i
          (shouldPrint = true ∧ stats.collectStats = true ∧ interval ≤ now - lastPrint t0 before →
            ∃ datum mark, stats.data.getLast? = some datum
              ∧ outs[i]? = some [Progress.line toSeconds mark stats datum]
              ∧ (mark = true ↔ datum.bestFeas = true ∧ ∀ c ∈ printedBest before, datum.bestCost < c))
          ∧ (¬ (shouldPrint = true ∧ stats.collectStats = true ∧ interval ≤ now - lastPrint t0 before) →
              outs[i]? = some []) := by
  constructor
  · unfold Progress.make
    constructor
    · rintro ⟨p, h⟩
      split at h
      · cases h
      · omega
    · intro h
      rw [if_neg (by omega)]
      exact ⟨_, rfl⟩
  · intro p p' calls outs hm hr i stats now hi
    obtain ⟨_, _, _, h⟩ := Progress.replay_spec calls [] p p' outs (Progress.make_remembers hm) hr
    obtain ⟨out, h1, h2⟩ := h i stats now hi
    rw [List.nil_append] at h2
    rcases h2 with ⟨rfl, h3⟩ | ⟨h3, datum, mark, h4, rfl, h5⟩
    · exact ⟨fun h => absurd h h3, fun _ => h1⟩
    · exact ⟨fun _ => ⟨datum, mark, h4, h1, h5⟩, fun h => absurd h3 h⟩

/-- **C60.** Restarts are always announced. -/
theorem C60_restarts (toSeconds : Int → Int) (shouldPrint : Bool) (interval t0 : Int) (p p' : Progress)
    (calls : List PrinterCall) (outs : List (List Text))
    (hm : Progress.make shouldPrint interval t0 = .ok p) (hr : replay toSeconds p calls = .ok (p', outs))
    (i : Nat) (hi : calls[i]? = some .restart) :
    outs[i]? = some (if shouldPrint then ["R                 |                      restart".toList] else []) := by
  obtain ⟨_, _, h, _⟩ := Progress.replay_spec calls [] p p' outs (Progress.make_remembers hm) hr
  rw [h i hi]
  unfold Progress.restart
  rw [(Progress.make_remembers hm).enabled]

/-- **C60.** Nothing is printed when display is off. -/
theorem C60_disabled (toSeconds : Int → Int) (showSeconds : Int → Text) (version : Text) (interval t0 : Int)
    (p p' : Progress) (calls : List PrinterCall) (outs : List (List Text)) (data : ProblemData) (res : Result)
    (hm : Progress.make false interval t0 = .ok p) (hr : replay toSeconds p calls = .ok (p', outs)) :
    p.start version data = [] ∧ (∀ out ∈ outs, out = []) ∧ p'.finish showSeconds res = [] := by
  have hrem := Progress.make_remembers hm
  obtain ⟨h1, h2, h3, h4⟩ := Progress.replay_spec calls [] p p' outs hrem hr
  refine ⟨?_, ?_, ?_⟩
  · unfold Progress.start
    rw [hrem.enabled]
    rfl
  · intro out ho
    obtain ⟨i, hi⟩ := List.mem_iff_getElem?.1 ho
    have hlt : i < calls.length := by
      rw [← h2]
      exact (List.getElem?_eq_some_iff.1 hi).1
    have hc := List.getElem?_eq_getElem hlt
    cases hcall : calls[i] with
    | restart =>
      rw [hcall] at hc
      have := h3 i hc
      rw [hi] at this
      unfold Progress.restart at this
      rw [hrem.enabled] at this
      simpa using this
    | iteration stats now =>
      rw [hcall] at hc
      obtain ⟨out', o1, o2⟩ := h4 i stats now hc
      rw [hi] at o1
      injection o1 with o1
      subst o1
      rcases o2 with ⟨rfl, _⟩ | ⟨⟨h, _⟩, _⟩
      · rfl
      · cases h
  · unfold Progress.finish
    rw [h1.enabled]
    rfl

/-! ### Time between lines -/

theorem lastPrint_after {t0 : Int} {calls : List PrinterCall} {outs : List (List Text)}
    (hl : outs.length = calls.length) {i : Nat} {stats : Statistics} {now : Int} {x : Text} {xs : List Text}
    (hc : calls[i]? = some (.iteration stats now)) (ho : outs[i]? = some (x :: xs)) :
    ∀ (j : Nat), i < j → j ≤ calls.length →
      ∃ (k : Nat) (stats' : Statistics), i ≤ k ∧ k < j
        ∧ calls[k]? = some (.iteration stats' (lastPrint t0 ((calls.zip outs).take j))) := by
  intro j
  induction j with
  | zero => intro h; omega
  | succ j ih =>
    intro hij hj
    have hz : (calls.zip outs)[j]? = some (calls[j], outs[j]) := by
      rw [List.getElem?_eq_getElem (by rw [List.length_zip]; omega), List.getElem_zip]
    have ht : (calls.zip outs).take (j + 1) = (calls.zip outs).take j ++ [(calls[j], outs[j])] := by
      rw [List.take_add_one, hz]
      rfl
    rw [ht, Progress.lastPrint_append]
    by_cases hji : j = i
    · subst hji
      rw [List.getElem?_eq_getElem (by omega)] at hc ho
      injection hc with hc
      injection ho with ho
      rw [hc, ho]
      exact ⟨j, stats, Nat.le_refl _, by omega, by rw [List.getElem?_eq_getElem (by omega), hc]⟩
    · obtain ⟨k, st, hk1, hk2, hk3⟩ := ih (by omega) (by omega)
      cases hcall : calls[j] with
      | restart => exact ⟨k, st, hk1, by omega, hk3⟩
      | iteration stats2 now2 =>
        cases hout : outs[j] with
        | nil => exact ⟨k, st, hk1, by omega, hk3⟩
        | cons y ys => exact ⟨j, stats2, by omega, by omega, by rw [List.getElem?_eq_getElem (by omega), hcall]⟩

/-- **C60.** If the clock does not go back, then any two lines about iterations are at least the display
interval apart. -/
theorem C60_spacing (toSeconds : Int → Int) (shouldPrint : Bool) (interval t0 : Int) (p p' : Progress)
    (calls : List PrinterCall) (outs : List (List Text))
    (hm : Progress.make shouldPrint interval t0 = .ok p) (hr : replay toSeconds p calls = .ok (p', outs))
    (hclock : ∀ (i j : Nat) stats now stats' now', i < j → calls[i]? = some (.iteration stats now) →
      calls[j]? = some (.iteration stats' now') → now ≤ now')
    (i j : Nat) (stats stats' : Statistics) (now now' : Int) (out out' : List Text) (hij : i < j)
    (hi : calls[i]? = some (.iteration stats now)) (hoi : outs[i]? = some out) (hpi : out ≠ [])
    (hj : calls[j]? = some (.iteration stats' now')) (hoj : outs[j]? = some out') (hpj : out' ≠ []) :
    now + interval ≤ now' := by
  obtain ⟨_, hl, _, _⟩ := Progress.replay_spec calls [] p p' outs (Progress.make_remembers hm) hr
  obtain ⟨_, h2⟩ := C60_printed toSeconds shouldPrint interval t0
  have h3 := (h2 p p' calls outs hm hr j stats' now' hj).2
  have hcond : shouldPrint = true ∧ stats'.collectStats = true
      ∧ interval ≤ now' - lastPrint t0 ((calls.zip outs).take j) := by
    by_cases hc : shouldPrint = true ∧ stats'.collectStats = true
        ∧ interval ≤ now' - lastPrint t0 ((calls.zip outs).take j)
    · exact hc
    · have := h3 hc
      rw [hoj] at this
      injection this with this
      exact absurd this hpj
  obtain ⟨x, xs, rfl⟩ := List.exists_cons_of_ne_nil hpi
  obtain ⟨k, st, hk1, hk2, hk3⟩ := lastPrint_after (t0 := t0) hl hi hoi j hij
    (Nat.le_of_lt (List.getElem?_eq_some_iff.1 hj).1)
  have : now ≤ lastPrint t0 ((calls.zip outs).take j) := by
    rcases Nat.lt_or_ge i k with h | h
    · exact hclock i k _ _ _ _ h hi hk3
    · have : k = i := by omega
      subst this
      rw [hi] at hk3
      injection hk3 with hk3
      injection hk3 with _ hk3
      omega
  omega

/-! ### The words of a line -/

theorem words_append {t : Text} (h : ' ' ∉ t) (rest : Text) :
    words (t ++ ' ' :: rest) = (if t = [] then [] else [t]) ++ words rest := by
  unfold words
  rw [Py.split_append h]
  by_cases ht : t = []
  · simp [ht]
  · simp [ht]

theorem words_space (rest : Text) : words (' ' :: rest) = words rest := by
  have := words_append (t := []) (by simp) rest
  simpa using this

theorem words_single {t : Text} (h : ' ' ∉ t) (hn : t ≠ []) : words t = [t] := by
  unfold words
  rw [Py.split_of_not_mem h]
  simp [hn]

theorem words_replicate (n : Nat) (rest : Text) : words (List.replicate n ' ' ++ rest) = words rest := by
  induction n with
  | zero => rfl
  | succ n ih => rw [List.replicate_succ, List.cons_append, words_space, ih]

theorem words_padLeft (n : Nat) (t rest : Text) : words (Cli.padLeft n t ++ rest) = words (t ++ rest) := by
  unfold Cli.padLeft
  rw [List.append_assoc, words_replicate]

theorem space_not_mem_decimal (n : Nat) : ' ' ∉ decimal n := Py.not_mem_decimal (by decide) n

theorem space_not_mem_showInt (n : Int) : ' ' ∉ showInt n := by
  unfold showInt
  split
  · rw [List.mem_cons, not_or]
    exact ⟨by decide, space_not_mem_decimal _⟩
  · exact space_not_mem_decimal _

theorem showInt_ne_nil (n : Int) : showInt n ≠ [] := by
  unfold showInt
  split
  · simp
  · exact (decimal_digits _).2

theorem yesNo_word (b : Bool) : ' ' ∉ Progress.yesNo b ∧ Progress.yesNo b ≠ [] := by
  cases b <;> decide

/-- **C60.** The words of a line about an iteration: a mark for a new best solution, the number of
iterations, the seconds passed, and the costs of the current, the candidate and the best solution, each with
whether it is feasible. -/
theorem C60_words (toSeconds : Int → Int) (mark : Bool) (stats : Statistics) (datum : Datum) :
    words (Progress.line toSeconds mark stats datum)
      = (if mark then [['H']] else [])
        ++ [decimal stats.numIterations, showInt (toSeconds stats.runtimes.sum) ++ ['s'], ['|'],
            showInt datum.currentCost, if datum.currentFeas then ['Y'] else ['N'],
            showInt datum.candidateCost, if datum.candidateFeas then ['Y'] else ['N'],
            showInt datum.bestCost, if datum.bestFeas then ['Y'] else ['N']] := by
  have hs : "s | ".toList = 's' :: ' ' :: '|' :: ' ' :: [] := rfl
  have hint : ∀ (n : Int) (rest : Text), words (showInt n ++ ' ' :: rest) = showInt n :: words rest := by
    intro n rest
    rw [words_append (space_not_mem_showInt n), if_neg (showInt_ne_nil n)]
    rfl
  have hyn : ∀ (b : Bool) (rest : Text),
      words (Progress.yesNo b ++ ' ' :: rest) = (if b then ['Y'] else ['N']) :: words rest := by
    intro b rest
    rw [words_append (yesNo_word b).1, if_neg (yesNo_word b).2]
    rfl
  unfold Progress.line
  rw [hs]
  simp only [List.append_assoc, List.cons_append, List.nil_append]
  have hfirst : ∀ rest : Text, words ((if mark then ['H'] else [' ']) ++ ' ' :: rest)
      = (if mark then [['H']] else []) ++ words rest := by
    intro rest
    cases mark
    · show words (' ' :: ' ' :: rest) = words rest
      rw [words_space, words_space]
    · exact words_append (t := ['H']) (by decide) rest
  rw [hfirst, words_padLeft, words_append (space_not_mem_decimal _), if_neg (decimal_digits _).2,
    words_padLeft]
  have hsec : ∀ (n : Int) (rest : Text), words (showInt n ++ 's' :: ' ' :: '|' :: ' ' :: rest)
      = (showInt n ++ ['s']) :: ['|'] :: words rest := by
    intro n rest
    have e : showInt n ++ 's' :: ' ' :: '|' :: ' ' :: rest = (showInt n ++ ['s']) ++ ' ' :: ('|' :: ' ' :: rest) := by
      simp
    rw [e, words_append (by
      rw [List.mem_append, not_or]
      exact ⟨space_not_mem_showInt n, by decide⟩), if_neg (by simp)]
    have := words_append (t := ['|']) (by decide) rest
    simpa using this
  rw [hsec, words_padLeft, hint, words_space, hyn, words_padLeft, hint, words_space, hyn, words_padLeft, hint,
    words_space, words_single (yesNo_word _).1 (yesNo_word _).2]
  rfl

/-- The singular for one, the plural otherwise. -/
def Spec.noun (n : Nat) (one many : String) : Text := if n = 1 then one.toList else many.toList

theorem words_indent (rest : Text) : words ("    ".toList ++ rest) = words rest :=
  words_replicate 4 rest

theorem words_counted (n : Nat) (noun : String) (rest : Text) :
    words (Progress.counted n noun ++ rest)
      = decimal n :: words (noun.toList ++ (if n ≠ 1 then ['s'] else []) ++ rest) := by
  unfold Progress.counted
  simp only [List.append_assoc, List.cons_append]
  rw [words_append (space_not_mem_decimal _), if_neg (decimal_digits _).2]
  rfl

/-- **C60.** The words of the lines about the instance: how many depots, clients, shipments, vehicles and
vehicle types there are. -/
theorem C60_heading (version : Text) (interval t0 : Int) (p : Progress) (data : ProblemData)
    (hm : Progress.make true interval t0 = .ok p) :
    (((p.start version data).drop 3).take 4).map words
      = [[decimal data.numDepots, noun data.numDepots "depot" "depots"],
         [decimal data.numClients, noun data.numClients "client" "clients"],
         [decimal data.numShipments, noun data.numShipments "shipment" "shipments"],
         [decimal data.numVehicles, noun data.numVehicles "vehicle" "vehicles",
          '(' :: decimal data.numVehicleTypes, "vehicle".toList,
          noun data.numVehicleTypes "type)" "types)"]] := by
  have hen : p.enabled = true := (Progress.make_remembers hm).enabled
  have one : ∀ (n : Nat) (a b : String), ' ' ∉ a.toList → a.toList ≠ [] → a.toList ++ ['s'] = b.toList →
      words ("    ".toList ++ Progress.counted n a) = [decimal n, noun n a b] := by
    intro n a b h1 h2 h3
    have := words_counted n a []
    rw [List.append_nil, List.append_nil] at this
    rw [words_indent, this]
    unfold noun
    by_cases hn : n = 1
    · rw [if_neg (by simp [hn]), if_pos hn, List.append_nil, words_single h1 h2]
    · rw [if_pos hn, if_neg hn, h3, words_single (by rw [← h3]; simp [h1]) (by rw [← h3]; simp)]
  unfold Progress.start
  rw [hen]
  simp only [Bool.not_true, Bool.false_eq_true, if_false, List.drop_succ_cons, List.drop_zero,
    List.take_succ_cons, List.take_zero, List.map_cons, List.map_nil]
  rw [one data.numDepots "depot" "depots" (by decide +kernel) (by decide +kernel) (by decide +kernel),
    one data.numClients "client" "clients" (by decide +kernel) (by decide +kernel) (by decide +kernel),
    one data.numShipments "shipment" "shipments" (by decide +kernel) (by decide +kernel) (by decide +kernel)]
  congr 4
  simp only [List.append_assoc]
  rw [words_indent, words_counted]
  congr 1
  have hmid : ∀ rest, words ("vehicle".toList ++ ((if data.numVehicles ≠ 1 then ['s'] else [])
      ++ (" (".toList ++ rest))) = noun data.numVehicles "vehicle" "vehicles" :: words ('(' :: rest) := by
    intro rest
    have e : ∀ w : Text, w ++ (" (".toList ++ rest) = w ++ ' ' :: ('(' :: rest) := fun w => rfl
    unfold noun
    by_cases hn : data.numVehicles = 1
    · rw [if_neg (by simp [hn]), if_pos hn, List.nil_append, e, words_append (by decide +kernel),
        if_neg (by decide +kernel)]
      rfl
    · rw [if_pos hn, if_neg hn, ← List.append_assoc, e, words_append (by decide +kernel),
        if_neg (by decide +kernel)]
      rfl
  rw [List.append_assoc, hmid]
  congr 1
  unfold Progress.counted
  have e : ∀ rest : Text, '(' :: (decimal data.numVehicleTypes ++ ' ' :: "vehicle type".toList ++ rest)
      = ('(' :: decimal data.numVehicleTypes) ++ ' ' :: ("vehicle".toList ++ ' ' :: ("type".toList ++ rest)) := by
    intro rest
    have : "vehicle type".toList = "vehicle".toList ++ ' ' :: "type".toList := by decide +kernel
    rw [this]
    simp
  simp only [List.append_assoc] at e ⊢
  rw [e, words_append (by
      rw [List.mem_cons, not_or]
      exact ⟨by decide, space_not_mem_decimal _⟩), if_neg (by simp),
    words_append (by decide +kernel), if_neg (by decide +kernel)]
  unfold noun
  by_cases hn : data.numVehicleTypes = 1
  · have h : words ("type".toList ++ ")".toList) = ["type)".toList] := by decide +kernel
    rw [if_neg (by simp [hn]), if_pos hn, List.nil_append, h]
    rfl
  · have h : words ("type".toList ++ (['s'] ++ ")".toList)) = ["types)".toList] := by decide +kernel
    rw [if_pos hn, if_neg hn, h]
    rfl

/-! ### Runs -/

/-- The statistics and times given to the printer. -/
def Spec.iterationCalls (calls : List PrinterCall) : List (Statistics × Int) :=
  calls.filterMap fun c => match c with
    | .iteration stats now => some (stats, now)
    | .restart => none

theorem replay_append (toSeconds : Int → Int) : ∀ (calls more : List PrinterCall) (p p' p'' : Progress)
    (outs outs' : List (List Text)), replay toSeconds p calls = .ok (p', outs) →
      replay toSeconds p' more = .ok (p'', outs') →
      replay toSeconds p (calls ++ more) = .ok (p'', outs ++ outs')
  | [], more, p, p', p'', outs, outs', h, h' => by
    rw [replay] at h
    injection h with h
    obtain ⟨rfl, rfl⟩ := Prod.mk.inj h
    exact h'
  | .restart :: calls, more, p, p', p'', outs, outs', h, h' => by
    rw [replay] at h
    split at h
    · cases h
    · rename_i p1 outs1 h1
      injection h with h
      obtain ⟨rfl, rfl⟩ := Prod.mk.inj h
      have := replay_append toSeconds calls more p p1 p'' outs1 outs' h1 h'
      rw [List.cons_append, replay, this]
      rfl
  | .iteration stats now :: calls, more, p, p', p'', outs, outs', h, h' => by
    rw [replay] at h
    split at h
    · cases h
    · rename_i p1 out h1
      split at h
      · cases h
      · rename_i p2 outs2 h2
        injection h with h
        obtain ⟨rfl, rfl⟩ := Prod.mk.inj h
        have := replay_append toSeconds calls more p1 p2 p'' outs2 outs' h2 h'
        rw [List.cons_append, replay, h1]
        dsimp only
        rw [this]
        rfl

namespace Ils
variable {σ τ : Type}

theorem iteration_collects {env : IlsEnv σ τ} {s s' : IlsState σ τ} (h : iteration env s = .ok s') :
    s'.iters = s.iters + 1 ∧ ∃ a b c ce now, s'.stats = s.stats.collect a b c ce now := by
  obtain ⟨ce, pm', _, _, rfl⟩ := iteration_ok h
  have er : (restart env s).stats = s.stats ∧ (restart env s).iters = s.iters + 1 := by
    simp only [restart]
    split <;> exact ⟨rfl, rfl⟩
  dsimp only
  generalize restart env s = s3 at er ⊢
  generalize env.search _ _ ce false = call
  generalize hs4 : ({ s3 with costEval := ce, searchState := call.1, pm := pm' } : IlsState σ τ) = s4
  have e4 : s4.stats = s.stats ∧ s4.iters = s.iters + 1 := by
    rw [← hs4]; exact er
  have e5 : (updateBest env s4 call.2).1.stats = s.stats ∧
      (updateBest env s4 call.2).1.iters = s.iters + 1 := by
    rcases updateBest_cases env s4 call.2 with ⟨_, h⟩ | ⟨_, _, h⟩ | ⟨_, _, _, h⟩ | ⟨_, _, _, h⟩ <;> rw [h] <;>
      exact e4
  generalize updateBest env s4 call.2 = ub at e5
  obtain ⟨s5, cand⟩ := ub
  dsimp only at e5 ⊢
  have e6 := accept_best env s5 cand
  generalize accept env s5 cand = s6 at e6 ⊢
  rw [e6.2.2.2.2.2.2.2.1, e6.2.2.2.2.2.1, e5.1]
  exact ⟨e5.2, _, _, _, _, _, rfl⟩

theorem collect_true {s : Statistics} (hs : s.collectStats = true) (a b c : Solution) (ce : CostEvaluator)
    (now : Int) : (s.collect a b c ce now).collectStats = true
      ∧ (s.collect a b c ce now).numIterations = s.numIterations + 1
      ∧ (∃ d, (s.collect a b c ce now).data = s.data ++ [d])
      ∧ ∃ t, (s.collect a b c ce now).runtimes = s.runtimes ++ [t] := by
  unfold Statistics.collect
  rw [if_neg (by simp [hs])]
  exact ⟨hs, rfl, ⟨_, rfl⟩, ⟨_, rfl⟩⟩

theorem collect_false {s : Statistics} (hs : s.collectStats = false) (a b c : Solution) (ce : CostEvaluator)
    (now : Int) : s.collect a b c ce now = s := by
  unfold Statistics.collect
  rw [if_pos (by simp [hs])]

/-- The printer finds the data that it needs. -/
theorem printer_ok {env : IlsEnv σ τ} {s s' : IlsState σ τ} (h : iteration env s = .ok s')
    (toSeconds : Int → Int) (p : Progress) (now : Int) : ∃ r, p.iteration toSeconds s'.stats now = .ok r := by
  obtain ⟨_, a, b, c, ce, t, hs⟩ := iteration_collects h
  unfold Progress.iteration
  dsimp only
  split
  · exact ⟨_, rfl⟩
  · rename_i hc
    have hcol : s'.stats.collectStats = true := by
      simp at hc
      exact hc.1.2
    have hcol' : s.stats.collectStats = true := by
      cases hcs : s.stats.collectStats with
      | true => rfl
      | false =>
        rw [hs, collect_false hcs] at hcol
        rw [hcs] at hcol
        exact hcol
    obtain ⟨_, _, ⟨d, hd⟩, _⟩ := collect_true hcol' a b c ce t
    rw [hs, hd]
    simp

/-- The display leaves the loop as it is. -/
theorem shownLoop_eq (env : IlsEnv σ τ) (d : Display) : ∀ (fuel : Nat) (s : IlsState σ τ) (out : Shown),
    (match shownLoop env d fuel s out with
      | .error e => .error e
      | .ok (s', _, b) => .ok (s', b)) = loop env fuel s
  | 0, _, _ => rfl
  | fuel + 1, s, out => by
    rw [shownLoop, loop]
    generalize env.stop s.stopState (s.costEval.cost s.best) = answer
    obtain ⟨ts, ans⟩ := answer
    cases ans with
    | true => rfl
    | false =>
      dsimp only
      rw [if_neg (by simp), if_neg (by simp)]
      unfold shownIteration
      cases hi : iteration env { s with stopState := ts } with
      | error e => rfl
      | ok s' =>
        dsimp only
        obtain ⟨⟨printer, lines⟩, hr⟩ := printer_ok hi d.toSeconds out.printer (d.clock (out.calls + 1))
        rw [hr]
        dsimp only
        exact shownLoop_eq env d fuel s' _

end Ils

/-- **C60.** Display does not influence a run: it returns, raises or goes on exactly as without, except that
a negative display interval raises. -/
theorem C60_same_result {σ τ : Type} (env : IlsEnv σ τ) (d : Ils.Display) (data : ProblemData)
    (pm : PenaltyManager) (ss : σ) (ts : τ) (cs : Bool) (fuel : Nat) :
    (0 ≤ d.interval →
      (match Ils.shownRun env d data pm ss ts cs fuel with
        | .error e => .error e
        | .ok r => .ok (r.map (·.1))) = Ils.run env pm ss ts cs fuel)
    ∧ (d.interval < 0 → Ils.shownRun env d data pm ss ts cs fuel
        = .error (.invalidArgument "Expected display_interval >= 0.")) := by
  constructor
  · intro h
    unfold Ils.shownRun Ils.run Progress.make
    rw [if_neg (by omega)]
    dsimp only
    cases Ils.start env pm ss ts cs with
    | error e => rfl
    | ok s =>
      dsimp only
      rw [← Ils.shownLoop_eq env d fuel s ⟨⟨d.shouldPrint, d.interval, d.clock 0, none⟩, 0,
        Progress.start d.version ⟨d.shouldPrint, d.interval, d.clock 0, none⟩ data⟩]
      cases Ils.shownLoop env d fuel s _ with
      | error e => rfl
      | ok r =>
        obtain ⟨s', out, b⟩ := r
        cases b with
        | false => rfl
        | true =>
          dsimp only
          cases Ils.finish env s' with
          | error e => rfl
          | ok res => rfl
  · intro h
    unfold Ils.shownRun Progress.make
    rw [if_pos h]

namespace Ils
variable {σ τ : Type}

/-- What the log contains after some iterations. -/
def Logged (d : Display) (cs : Bool) (p : Progress) (header : List Text) (s : IlsState σ τ) (out : Shown) : Prop :=
  s.stats.collectStats = cs ∧ out.calls = s.iters
  ∧ (cs = true → s.stats.data.length = s.iters ∧ s.stats.runtimes.length = s.iters
      ∧ s.stats.numIterations = s.iters)
  ∧ ∃ calls outs, replay d.toSeconds p calls = .ok (out.printer, outs)
    ∧ out.log = header ++ outs.flatten
    ∧ (iterationCalls calls).length = s.iters
    ∧ ∀ (k : Nat) stats now, (iterationCalls calls)[k]? = some (stats, now) →
        now = d.clock (k + 1) ∧ stats.collectStats = cs
        ∧ (cs = true → stats.data = s.stats.data.take (k + 1) ∧ stats.runtimes = s.stats.runtimes.take (k + 1)
            ∧ stats.numIterations = k + 1)

theorem iterationCalls_append (l m : List PrinterCall) :
    iterationCalls (l ++ m) = iterationCalls l ++ iterationCalls m := by
  unfold iterationCalls
  rw [List.filterMap_append]

theorem logged_step {env : IlsEnv σ τ} {d : Display} {cs : Bool} {p : Progress} {header : List Text}
    {s s' : IlsState σ τ} {out out' : Shown} (hl : Logged d cs p header s out)
    (h : shownIteration env d s out = .ok (s', out')) : Logged d cs p header s' out' := by
  unfold shownIteration at h
  dsimp only at h
  cases hi : iteration env s with
  | error e => rw [hi] at h; cases h
  | ok s1 =>
    rw [hi] at h
    dsimp only at h
    cases hr : out.printer.iteration d.toSeconds s1.stats (d.clock (out.calls + 1)) with
    | error e => rw [hr] at h; cases h
    | ok r =>
      obtain ⟨printer, lines⟩ := r
      rw [hr] at h
      dsimp only at h
      injection h with h
      obtain ⟨rfl, rfl⟩ := Prod.mk.inj h
      obtain ⟨l1, l2, l3, calls, outs, l4, l5, l6, l7⟩ := hl
      obtain ⟨hit, a, b, c, ce, now, hst⟩ := iteration_collects hi
      have hcol : s1.stats.collectStats = cs ∧ (cs = true → s1.stats.numIterations = s1.iters
          ∧ (∃ x, s1.stats.data = s.stats.data ++ [x]) ∧ ∃ t, s1.stats.runtimes = s.stats.runtimes ++ [t]) := by
        cases cs with
        | false =>
          rw [hst, collect_false l1]
          exact ⟨l1, fun h => by cases h⟩
        | true =>
          obtain ⟨c1, c2, c3, c4⟩ := collect_true l1 a b c ce now
          rw [← hst] at c1 c2 c3 c4
          exact ⟨c1, fun _ => ⟨by rw [c2, (l3 rfl).2.2, hit], c3, c4⟩⟩
      obtain ⟨hc1, hc2⟩ := hcol
      -- the calls made by this iteration
      have hmore : ∃ more outs', replay d.toSeconds out.printer more = .ok (printer, outs')
          ∧ outs'.flatten = (if (s.itersNoImprovement : Int) = env.params.numItersNoImprovement
              then out.printer.restart else []) ++ lines
          ∧ iterationCalls more = [(s1.stats, d.clock (s.iters + 1))] := by
        have hone : replay d.toSeconds out.printer [.iteration s1.stats (d.clock (out.calls + 1))]
            = .ok (printer, [lines]) := by
          rw [replay, hr]
          rfl
        by_cases hrs : (s.itersNoImprovement : Int) = env.params.numItersNoImprovement
        · refine ⟨[.restart, .iteration s1.stats (d.clock (out.calls + 1))], [out.printer.restart, lines], ?_, ?_, ?_⟩
          · rw [replay, hone]
          · rw [if_pos hrs]; simp
          · rw [← l2]; rfl
        · refine ⟨[.iteration s1.stats (d.clock (out.calls + 1))], [lines], hone, ?_, ?_⟩
          · rw [if_neg hrs]; simp
          · rw [← l2]; rfl
      obtain ⟨more, outs', m1, m2, m3⟩ := hmore
      refine ⟨hc1, by rw [hit, ← l2], ?_, calls ++ more, outs ++ outs',
        replay_append _ _ _ _ _ _ _ _ l4 m1, ?_, ?_, ?_⟩
      · intro hcs
        obtain ⟨c1, ⟨x, c2⟩, ⟨t, c3⟩⟩ := hc2 hcs
        obtain ⟨k1, k2, _⟩ := l3 hcs
        exact ⟨by rw [c2, hit]; simp [k1], by rw [c3, hit]; simp [k2], c1⟩
      · dsimp only
        rw [l5, List.flatten_append, m2]
        simp [List.append_assoc]
      · rw [iterationCalls_append, m3, List.length_append, l6, hit]
        rfl
      · intro k stats now hk
        rw [iterationCalls_append, m3] at hk
        by_cases hlt : k < (iterationCalls calls).length
        · rw [List.getElem?_append_left hlt] at hk
          obtain ⟨g1, g2, g3⟩ := l7 k stats now hk
          refine ⟨g1, g2, fun hcs => ?_⟩
          obtain ⟨_, ⟨x, c2⟩, ⟨t, c3⟩⟩ := hc2 hcs
          obtain ⟨k1, k2, _⟩ := l3 hcs
          obtain ⟨f1, f2, f3⟩ := g3 hcs
          rw [l6] at hlt
          refine ⟨?_, ?_, f3⟩
          · rw [f1, c2, List.take_append_of_le_length (by omega)]
          · rw [f2, c3, List.take_append_of_le_length (by omega)]
        · rw [List.getElem?_append_right (by omega)] at hk
          have hk0 : k - (iterationCalls calls).length = 0 := by
            rcases Nat.eq_zero_or_pos (k - (iterationCalls calls).length) with h0 | h0
            · exact h0
            · rw [List.getElem?_eq_none (by simp; omega)] at hk
              cases hk
          rw [hk0, List.getElem?_cons_zero] at hk
          injection hk with hk
          obtain ⟨rfl, rfl⟩ := Prod.mk.inj hk
          have hkn : k = s.iters := by omega
          subst hkn
          refine ⟨rfl, hc1, fun hcs => ?_⟩
          obtain ⟨c1, ⟨x, c2⟩, ⟨t, c3⟩⟩ := hc2 hcs
          obtain ⟨k1, k2, _⟩ := l3 hcs
          refine ⟨?_, ?_, by rw [c1, hit]⟩
          · rw [c2, List.take_of_length_le (by simp [k1])]
          · rw [c3, List.take_of_length_le (by simp [k2])]

theorem logged_loop {env : IlsEnv σ τ} {d : Display} {cs : Bool} {p : Progress} {header : List Text} :
    ∀ (fuel : Nat) (s s' : IlsState σ τ) (out out' : Shown) (b : Bool), Logged d cs p header s out →
      shownLoop env d fuel s out = .ok (s', out', b) → Logged d cs p header s' out'
  | 0, s, s', out, out', b, hl, h => by
    rw [shownLoop] at h
    cases h
    exact hl
  | fuel + 1, s, s', out, out', b, hl, h => by
    rw [shownLoop] at h
    generalize env.stop s.stopState (s.costEval.cost s.best) = answer at h
    obtain ⟨ts, ans⟩ := answer
    have hl2 : Logged d cs p header { s with stopState := ts } out := hl
    cases ans with
    | true =>
      dsimp only at h
      rw [if_pos rfl] at h
      cases h
      exact hl2
    | false =>
      dsimp only at h
      rw [if_neg (by simp)] at h
      cases hs : shownIteration env d { s with stopState := ts } out with
      | error e => rw [hs] at h; cases h
      | ok r =>
        obtain ⟨s1, out1⟩ := r
        rw [hs] at h
        exact logged_loop fuel s1 s' out1 out' b (logged_step hl2 hs) h

end Ils

/-- **C60.** The log of a run consists of the header, what the printer prints when it is called with the
statistics after each iteration (and at restarts), and the summary of the result. -/
theorem C60_log {σ τ : Type} (env : IlsEnv σ τ) (d : Ils.Display) (data : ProblemData) (pm : PenaltyManager)
    (ss : σ) (ts : τ) (cs : Bool) (fuel : Nat) (res : Result) (log : List Text)
    (h : Ils.shownRun env d data pm ss ts cs fuel = .ok (some (res, log))) :
    ∃ p p' calls outs, Progress.make d.shouldPrint d.interval (d.clock 0) = .ok p
      ∧ replay d.toSeconds p calls = .ok (p', outs)
      ∧ log = p.start d.version data ++ outs.flatten ++ p'.finish d.showSeconds res
      ∧ ((iterationCalls calls).length : Int) = res.numIterations
      ∧ ∀ (k : Nat) stats now, (iterationCalls calls)[k]? = some (stats, now) →
          now = d.clock (k + 1) ∧ stats.collectStats = cs
          ∧ (cs = true → stats.data = res.stats.data.take (k + 1)
              ∧ stats.runtimes = res.stats.runtimes.take (k + 1) ∧ stats.numIterations = k + 1) := by
  unfold Ils.shownRun at h
  cases hp : Progress.make d.shouldPrint d.interval (d.clock 0) with
  | error e => rw [hp] at h; cases h
  | ok p =>
    rw [hp] at h
    dsimp only at h
    cases hs : Ils.start env pm ss ts cs with
    | error e => rw [hs] at h; cases h
    | ok s =>
      rw [hs] at h
      dsimp only at h
      have h0 : Ils.Logged d cs p (p.start d.version data) s ⟨p, 0, p.start d.version data⟩ := by
        unfold Ils.start at hs
        split at hs
        · cases hs
        · injection hs with hs
          subst hs
          exact ⟨rfl, rfl, fun _ => ⟨rfl, rfl, rfl⟩, [], [], rfl, by simp, rfl, by simp [iterationCalls]⟩
      cases hl : Ils.shownLoop env d fuel s ⟨p, 0, p.start d.version data⟩ with
      | error e => rw [hl] at h; cases h
      | ok r =>
        obtain ⟨s', out, b⟩ := r
        rw [hl] at h
        cases b with
        | false => cases h
        | true =>
          dsimp only at h
          unfold Ils.finish Result.make at h
          split at h
          · cases h
          · rename_i hfin
            split at hfin
            · cases hfin
            · split at hfin
              · cases hfin
              · injection hfin with hfin
                injection h with h
                injection h with h
                obtain ⟨rfl, rfl⟩ := Prod.mk.inj h
                subst hfin
                obtain ⟨_, _, _, calls, outs, l4, l5, l6, l7⟩ := Ils.logged_loop fuel s s' _ out true h0 hl
                exact ⟨p, out.printer, calls, outs, rfl, l4, by rw [l5], by rw [l6], l7⟩

end PyVRP

namespace PyVRP.Demo
open Csv Spec

/-- A printer that shows all lines at least four time units apart; it is called every three. -/
def display (on : Bool) : Ils.Display :=
  { shouldPrint := on, interval := 4, clock := fun n => 3 * n, toSeconds := id, showSeconds := showInt
    version := "1".toList }

/-- The log of a run of three iterations. The second iteration is shown, and is marked. -/
example : (match Ils.shownRun (env keep true) (display true) small (.make ([20], 6, 6) params) ()
      (.maxIterations 3 0) true 4 with
    | .ok (some (res, log)) => some (res.numIterations, (log.drop 9).take 4, log.length)
    | _ => none) = some (3,
      ["H       2      3s |           12  Y           12  Y           12  Y".toList, [],
       "Search terminated in 4s after 3 iterations.".toList, "Best-found solution has cost 12.".toList], 25) := by
  decide +kernel

/-- The lines about the instance. -/
example : ((((Progress.mk true 0 0 none).start "1".toList small).drop 3).take 4).map String.ofList
    = ["    1 depot", "    2 clients", "    0 shipments", "    2 vehicles (1 vehicle type)"] := by
  decide +kernel

/-- Nothing is logged if display is off. -/
example : (match Ils.shownRun (env keep true) (display false) small (.make ([20], 6, 6) params) ()
      (.maxIterations 3 0) true 4 with
    | .ok (some (res, log)) => some (res.numIterations, log)
    | _ => none) = some (3, []) := by
  decide +kernel

def someStats (n : Nat) (cost : Int) : Statistics :=
  { clock := 0, numIterations := n, runtimes := [1], data := [⟨cost, true, cost, true, cost, true⟩] }

/-- Four calls: the second comes too early, and the third is not cheaper than the first. -/
example : (match Progress.make true 2 0 with
    | .error _ => none
    | .ok p =>
      match replay id p [.iteration (someStats 1 7) 2, .iteration (someStats 2 5) 3, .restart,
          .iteration (someStats 3 7) 4, .iteration (someStats 4 6) 6] with
      | .error _ => none
      | .ok (_, outs) => some (outs.map (·.map String.ofList))) = some
    [["H       1      1s |            7  Y            7  Y            7  Y"], [],
     ["R                 |                      restart"],
     ["        3      1s |            7  Y            7  Y            7  Y"],
     ["H       4      1s |            6  Y            6  Y            6  Y"]] := by decide +kernel

/-- The values of `test_ProgressPrinter.py`. -/
example : String.ofList (Progress.line id true (someStats 1 0) ⟨28408, false, 10012, true, 9725, true⟩)
    = "H       1      1s |        28408  N        10012  Y         9725  Y" := by decide +kernel

end PyVRP.Demo
