import Verif.Model.Benchmark
import Verif.Props.C56
import Verif.Props.C65
/-!
# C67: the command line with several instances
-/
namespace PyVRP
open Spec

namespace Spec

/-- `s` comes before `t`, or is `t`: either `t` goes on where `s` ends, or at the first place where they
differ, what `s` has is less. -/
def LexBefore {α : Type} (lt : α → α → Prop) (s t : List α) : Prop :=
  (∃ rest, t = s ++ rest)
  ∨ ∃ common a b s' t', s = common ++ a :: s' ∧ t = common ++ b :: t' ∧ lt a b

/-- The order of strings: by the code points of their characters. -/
def TextBefore : List Char → List Char → Prop := LexBefore (fun a b => a.toNat < b.toNat)

/-- The order of paths: by their components. -/
def PathBefore : List (List Char) → List (List Char) → Prop := LexBefore (fun s t => TextBefore s t ∧ s ≠ t)

/-- An instance that was solved: where it is, what it is, the solution found, and what is reported. -/
structure Solved where
  path : List (List Char)
  data : ProblemData
  best : Solution
  out : Cli.Output

/-- The cells of the table about an instance. -/
def cells (showObj : Option Int → Csv.Text) (showTime : Int → Csv.Text) (r : Solved) : List Csv.Text :=
  [(Cli.stem r.path).take 37, if r.best.isFeasible then ['Y'] else ['N'],
    showObj (if r.best.isFeasible then some (objective r.best) else none), Csv.showInt r.out.iterations,
    showTime r.out.runtime]

/-- What the command line does for these instances is right.
- Each instance is solved once, and what is reported about it is true (see C56). They are in the order of their
  paths.
- The table has a row for each of them. The averages and the number of infeasible ones are those of what is
  reported; the average objective is infinite (`none`) if a solution is not feasible.
- If all names differ, then each instance's files are there, no matter in which order they are written, and other
  files are as they were. -/
structure Benchmarked (R : Rat → Rat) (load : List (List Char) → Vrplib) (readFloat : Csv.Text → Option Int)
    (args : Cli.Args) (showObj : Option Int → Csv.Text) (showTime : Int → Csv.Text)
    (instances : List (List (List Char))) (runs : List Solved) (summary : Cli.Summary) : Prop where
  once : (runs.map (·.path)).Perm instances
  sorted : (runs.map (·.path)).Pairwise PathBefore
  reported : ∀ r ∈ runs, (∃ w, Read.build R (load r.path) = .ok (r.data, w))
    ∧ Reported r.data readFloat args (String.ofList (Cli.stem r.path)) r.best r.out
  table : summary.table = Cli.tabulate ["Instance".toList, "OK".toList, "Obj.".toList, "Iters. (#)".toList,
    "Time (s)".toList] (runs.map (cells showObj showTime))
  objective : (∀ r ∈ runs, r.best.isFeasible = true) → ∃ avg, summary.avgObjective = some avg
    ∧ avg * (instances.length : Rat) = ((runs.map fun r => Spec.objective r.best).sum : Int)
  infinite : (∃ r ∈ runs, r.best.isFeasible = false) → summary.avgObjective = none
  iterations : summary.avgIterations * (instances.length : Rat) = ((runs.map (·.out.iterations)).sum : Int)
  runtime : summary.avgRuntime * (instances.length : Rat) = ((runs.map (·.out.runtime)).sum : Int)
  notOk : summary.notOk = (runs.filter fun r => !r.best.isFeasible).length
  files : (instances.map Cli.stem).Nodup → ∀ order, order.Perm (runs.map (·.out)) → ∀ stats sols,
    (∀ r ∈ runs, ∀ file,
      (r.out.stats = some file → (Cli.written order (stats, sols)).1 (Cli.stem r.path ++ ".csv".toList) = some file)
      ∧ (r.out.sol = some file → (Cli.written order (stats, sols)).2 (Cli.stem r.path ++ ".sol".toList) = some file))
    ∧ ∀ name,
      ((∀ r ∈ runs, name ≠ Cli.stem r.path ++ ".csv".toList) → (Cli.written order (stats, sols)).1 name = stats name)
      ∧ ((∀ r ∈ runs, name ≠ Cli.stem r.path ++ ".sol".toList) → (Cli.written order (stats, sols)).2 name = sols name)

/-- A file of an instance that can be read and has sensible numbers. -/
def GoodFile (R : Rat → Rat) (inst : Vrplib) : Prop :=
  ∃ data w, Read.build R inst = .ok (data, w) ∧ File.InRange R inst ∧ File.PickupsOk inst ∧ FitsMemory data

/-- The parameters are those of the file with parameters, or the default ones if there is none. -/
def ParamsFrom (config : Option Config.File) (params : SolveParams) : Prop :=
  match config with
  | none => params = {}
  | some file => UniqueKeys file ∧ ∃ interval, SaysParams file params interval

end Spec

namespace Cli

/-! ## Sorting -/

/-- What is needed of `<` for sorting. -/
structure StrictOrder {α : Type} (lt : α → α → Bool) : Prop where
  irrefl : ∀ a, lt a a = false
  trans : ∀ a b c, lt a b = true → lt b c = true → lt a c = true
  total : ∀ a b, lt a b = false → lt b a = false → a = b

theorem StrictOrder.asymm {α : Type} {lt : α → α → Bool} (h : StrictOrder lt) {a b : α} (hab : lt a b = true) :
    lt b a = false := by
  cases hba : lt b a with
  | false => rfl
  | true => have := h.trans a b a hab hba; rw [h.irrefl] at this; cases this

theorem lexLe_refl {α : Type} {lt : α → α → Bool} (h : StrictOrder lt) : ∀ s, lexLe lt s s = true
  | [] => rfl
  | a :: s => by simp only [lexLe, h.irrefl, lexLe_refl h s]; rfl

theorem lexLe_total {α : Type} {lt : α → α → Bool} (h : StrictOrder lt) : ∀ s t,
    lexLe lt s t = true ∨ lexLe lt t s = true
  | [], _ => .inl rfl
  | _ :: _, [] => .inr rfl
  | a :: s, b :: t => by
    simp only [lexLe, Bool.or_eq_true, Bool.and_eq_true, Bool.not_eq_true']
    cases hab : lt a b with
    | true => simp
    | false =>
      cases hba : lt b a with
      | true => simp
      | false => simpa using lexLe_total h s t

theorem lexLe_antisymm {α : Type} {lt : α → α → Bool} (h : StrictOrder lt) : ∀ s t,
    lexLe lt s t = true → lexLe lt t s = true → s = t
  | [], [], _, _ => rfl
  | [], _ :: _, _, h2 => by cases h2
  | _ :: _, [], h1, _ => by cases h1
  | a :: s, b :: t, h1, h2 => by
    simp only [lexLe, Bool.or_eq_true, Bool.and_eq_true, Bool.not_eq_true'] at h1 h2
    rcases h1 with h1 | ⟨h1, h1'⟩
    · have := h.asymm h1
      rcases h2 with h2 | ⟨h2, h2'⟩
      · rw [this] at h2; cases h2
      · rw [h1] at h2; cases h2
    · rcases h2 with h2 | ⟨h2, h2'⟩
      · rw [h1] at h2; cases h2
      · rw [h.total a b h2 h1, lexLe_antisymm h s t h1' h2']

theorem lexLe_trans {α : Type} {lt : α → α → Bool} (h : StrictOrder lt) : ∀ s t u,
    lexLe lt s t = true → lexLe lt t u = true → lexLe lt s u = true
  | [], _, _, _, _ => by simp [lexLe]
  | _ :: _, [], _, h1, _ => by cases h1
  | _ :: _, _ :: _, [], _, h2 => by cases h2
  | a :: s, b :: t, c :: u, h1, h2 => by
    simp only [lexLe, Bool.or_eq_true, Bool.and_eq_true, Bool.not_eq_true'] at h1 h2 ⊢
    rcases h1 with h1 | ⟨h1, h1'⟩
    · rcases h2 with h2 | ⟨h2, _⟩
      · exact .inl (h.trans a b c h1 h2)
      · cases hbc : lt b c with
        | true => exact .inl (h.trans a b c h1 hbc)
        | false => rw [← h.total b c hbc h2]; exact .inl h1
    · cases hab : lt a b with
      | true =>
        rcases h2 with h2 | ⟨h2, _⟩
        · exact .inl (h.trans a b c hab h2)
        · cases hbc : lt b c with
          | true => exact .inl (h.trans a b c hab hbc)
          | false => rw [← h.total b c hbc h2]; exact .inl hab
      | false =>
        have := h.total a b hab h1
        subst this
        rcases h2 with h2 | ⟨h2, h2'⟩
        · exact .inl h2
        · exact .inr ⟨h2, lexLe_trans h s t u h1' h2'⟩

/-- Comparing lists gives an order again. -/
theorem lex_strict {α : Type} {lt : α → α → Bool} (h : StrictOrder lt) :
    StrictOrder (fun s t => !lexLe lt t s) := by
  refine ⟨fun s => by simp [lexLe_refl h], fun s t u h1 h2 => ?_, fun s t h1 h2 => ?_⟩
  · simp only [Bool.not_eq_true'] at h1 h2 ⊢
    cases hus : lexLe lt u s with
    | false => rfl
    | true =>
      have ht : lexLe lt t u = true := by
        rcases lexLe_total h t u with h3 | h3
        · exact h3
        · rw [h2] at h3; cases h3
      have := lexLe_trans h t u s ht hus
      rw [h1] at this; cases this
  · simp only [Bool.not_eq_false'] at h1 h2
    exact lexLe_antisymm h s t h2 h1

theorem lexLe_before {α : Type} {lt : α → α → Bool} (h : StrictOrder lt) {Lt : α → α → Prop}
    (hlt : ∀ a b, lt a b = true → Lt a b) : ∀ s t, lexLe lt s t = true → LexBefore Lt s t
  | [], t, _ => .inl ⟨t, rfl⟩
  | _ :: _, [], h1 => by cases h1
  | a :: s, b :: t, h1 => by
    simp only [lexLe, Bool.or_eq_true, Bool.and_eq_true, Bool.not_eq_true'] at h1
    cases hab : lt a b with
    | true => exact .inr ⟨[], a, b, s, t, rfl, rfl, hlt a b hab⟩
    | false =>
      rw [hab] at h1
      rcases h1 with h1 | ⟨h1, h2⟩
      · cases h1
      · have := h.total a b hab h1
        subst this
        rcases lexLe_before h hlt s t h2 with ⟨rest, rfl⟩ | ⟨c, x, y, s', t', rfl, rfl, hxy⟩
        · exact .inl ⟨rest, rfl⟩
        · exact .inr ⟨a :: c, x, y, s', t', rfl, rfl, hxy⟩

theorem charOrder : StrictOrder (fun a b : Char => decide (a.toNat < b.toNat)) := by
  refine ⟨fun a => by simp, fun a b c h1 h2 => ?_, fun a b h1 h2 => ?_⟩
  · simp only [decide_eq_true_eq] at h1 h2 ⊢; omega
  · simp only [decide_eq_false_iff_not] at h1 h2
    have : a.toNat = b.toNat := by omega
    exact Char.toNat_inj.1 this

theorem componentOrder : StrictOrder (fun s t : Csv.Text => !textLe t s) := lex_strict charOrder

theorem pathLe_before {p q : Path} (h : pathLe p q = true) : PathBefore p q := by
  refine lexLe_before componentOrder (fun s t hst => ?_) p q h
  simp only [Bool.not_eq_true'] at hst
  constructor
  · refine lexLe_before charOrder (fun a b hab => by simpa using hab) s t ?_
    rcases lexLe_total charOrder s t with h1 | h1
    · exact h1
    · have h2 : textLe t s = true := h1
      rw [hst] at h2; cases h2
  · rintro rfl
    have : textLe s s = true := lexLe_refl charOrder s
    rw [hst] at this; cases this

theorem insertPath_perm (p : Path) : ∀ ps, (insertPath p ps).Perm (p :: ps)
  | [] => List.Perm.refl _
  | q :: qs => by
    unfold insertPath
    split
    · exact List.Perm.refl _
    · exact ((insertPath_perm p qs).cons q).trans (List.Perm.swap p q qs)

theorem sortPaths_perm : ∀ ps, (sortPaths ps).Perm ps
  | [] => List.Perm.refl _
  | p :: ps => (insertPath_perm p (sortPaths ps)).trans ((sortPaths_perm ps).cons p)

theorem insertPath_sorted (p : Path) : ∀ ps, ps.Pairwise (fun a b => pathLe a b = true) →
    (insertPath p ps).Pairwise (fun a b => pathLe a b = true)
  | [], _ => by simp [insertPath]
  | q :: qs, h => by
    unfold insertPath
    rw [List.pairwise_cons] at h
    split
    · rename_i hpq
      refine List.pairwise_cons.2 ⟨fun a ha => ?_, List.pairwise_cons.2 h⟩
      rcases List.mem_cons.1 ha with rfl | ha
      · exact hpq
      · exact lexLe_trans componentOrder p q a hpq (h.1 a ha)
    · rename_i hpq
      refine List.pairwise_cons.2 ⟨fun a ha => ?_, insertPath_sorted p qs h.2⟩
      rcases List.mem_cons.1 ((insertPath_perm p qs).mem_iff.1 ha) with rfl | ha
      · rcases lexLe_total componentOrder a q with h1 | h1
        · exact absurd h1 hpq
        · exact h1
      · exact h.1 a ha

theorem sortPaths_sorted : ∀ ps, (sortPaths ps).Pairwise (fun a b => pathLe a b = true)
  | [] => List.Pairwise.nil
  | p :: ps => insertPath_sorted p _ (sortPaths_sorted ps)

/-- The order in which instances are given does not matter. -/
theorem sortPaths_eq {ps qs : List Path} (h : ps.Perm qs) : sortPaths ps = sortPaths qs := by
  refine List.Perm.eq_of_pairwise (le := fun a b => pathLe a b = true) ?_ (sortPaths_sorted ps) (sortPaths_sorted qs)
    ((sortPaths_perm ps).trans (h.trans (sortPaths_perm qs).symm))
  intro a b _ _ h1 h2
  exact lexLe_antisymm componentOrder a b h1 h2

/-! ## All instances -/

theorem solveAll_ok {solve : Path → Except Error (Option Output)} {Q : Solved → Prop} : ∀ {ps : List Path},
    (∀ p ∈ ps, solve p = .ok none ∨ ∃ r : Solved, r.path = p ∧ solve p = .ok (some r.out) ∧ Q r) →
    solveAll solve ps = .ok none
    ∨ ∃ runs : List Solved, runs.map (·.path) = ps ∧ solveAll solve ps = .ok (some (runs.map (·.out)))
      ∧ ∀ r ∈ runs, Q r
  | [], _ => .inr ⟨[], rfl, rfl, by intro r hr; cases hr⟩
  | p :: ps, h => by
    unfold solveAll
    rcases h p (List.mem_cons_self ..) with h1 | ⟨r, hp, h1, hq⟩
    · rw [h1]; exact .inl rfl
    · rw [h1]; dsimp only
      rcases solveAll_ok (fun q hq => h q (List.mem_cons_of_mem _ hq)) with h2 | ⟨runs, e1, e2, e3⟩
      · rw [h2]; exact .inl rfl
      · rw [e2]
        refine .inr ⟨r :: runs, by simp [hp, e1], rfl, fun x hx => ?_⟩
        rcases List.mem_cons.1 hx with rfl | hx
        · exact hq
        · exact e3 x hx

theorem totalCost_some : ∀ {cs : List (Option Int)} {xs : List Int}, cs = xs.map some → totalCost cs = some xs.sum
  | _, [], h => by subst h; rfl
  | _, x :: xs, h => by
    subst h
    simp only [List.map_cons, totalCost, totalCost_some (cs := xs.map some) rfl, List.sum_cons]

theorem totalCost_none : ∀ {cs : List (Option Int)}, none ∈ cs → totalCost cs = none
  | c :: cs, h => by
    unfold totalCost
    rcases List.mem_cons.1 h with rfl | h
    · rfl
    · rw [totalCost_none h]
      cases c <;> rfl

/-! ## Files -/

theorem write_other {dir : Directory} {name n : Csv.Text} (h : n ≠ name) (text : Option Csv.Text) :
    dir.write name text n = dir n := by
  cases text with
  | none => rfl
  | some t => exact if_neg h

theorem written_other : ∀ (outs : List Output) (stats sols : Directory) (n : Csv.Text),
    ((∀ o ∈ outs, n ≠ o.name.toList ++ ".csv".toList) → (written outs (stats, sols)).1 n = stats n)
    ∧ ((∀ o ∈ outs, n ≠ o.name.toList ++ ".sol".toList) → (written outs (stats, sols)).2 n = sols n)
  | [], _, _, _ => ⟨fun _ => rfl, fun _ => rfl⟩
  | o :: outs, stats, sols, n => by
    unfold written
    obtain ⟨h1, h2⟩ := written_other outs (stats.write (o.name.toList ++ ".csv".toList) o.stats)
      (sols.write (o.name.toList ++ ".sol".toList) o.sol) n
    refine ⟨fun h => ?_, fun h => ?_⟩
    · rw [h1 fun x hx => h x (List.mem_cons_of_mem _ hx)]
      exact write_other (h o (List.mem_cons_self ..)) _
    · rw [h2 fun x hx => h x (List.mem_cons_of_mem _ hx)]
      exact write_other (h o (List.mem_cons_self ..)) _

theorem written_own : ∀ (outs : List Output) (stats sols : Directory), (outs.map (·.name)).Nodup → ∀ o ∈ outs,
    ∀ file,
    (o.stats = some file → (written outs (stats, sols)).1 (o.name.toList ++ ".csv".toList) = some file)
    ∧ (o.sol = some file → (written outs (stats, sols)).2 (o.name.toList ++ ".sol".toList) = some file)
  | x :: outs, stats, sols, hn, o, ho, file => by
    rw [List.map_cons, List.nodup_cons] at hn
    unfold written
    rcases List.mem_cons.1 ho with rfl | ho
    · have hne : ∀ (suffix : Csv.Text), ∀ y ∈ outs, o.name.toList ++ suffix ≠ y.name.toList ++ suffix := by
        intro suffix y hy e
        have e := String.toList_inj.1 (List.append_cancel_right e)
        exact hn.1 (e ▸ List.mem_map_of_mem hy)
      obtain ⟨h1, -⟩ := written_other outs (stats.write (o.name.toList ++ ".csv".toList) o.stats)
        (sols.write (o.name.toList ++ ".sol".toList) o.sol) (o.name.toList ++ ".csv".toList)
      obtain ⟨-, h2⟩ := written_other outs (stats.write (o.name.toList ++ ".csv".toList) o.stats)
        (sols.write (o.name.toList ++ ".sol".toList) o.sol) (o.name.toList ++ ".sol".toList)
      refine ⟨fun h => ?_, fun h => ?_⟩
      · rw [h1 (hne _), h]; exact if_pos rfl
      · rw [h2 (hne _), h]; exact if_pos rfl
    · exact written_own outs _ _ hn.2 o ho file

theorem div_mul {x : Rat} {n : Nat} (h : n ≠ 0) : x / (n : Rat) * (n : Rat) = x := by
  have : (n : Rat) ≠ 0 := by exact_mod_cast h
  grind

/-- What is printed and written for instances about which the truth is reported. -/
theorem benchmarked {R : Rat → Rat} {load : Path → Vrplib} {readFloat : Csv.Text → Option Int} {args : Args}
    (showObj : Option Int → Csv.Text) (showTime : Int → Csv.Text) {instances : List Path} (hne : instances ≠ [])
    {runs : List Solved} (hp : runs.map (·.path) = sortPaths instances)
    (hr : ∀ r ∈ runs, (∃ w, Read.build R (load r.path) = .ok (r.data, w))
      ∧ Reported r.data readFloat args (String.ofList (stem r.path)) r.best r.out) :
    Benchmarked R load readFloat args showObj showTime instances runs
      (summarise showObj showTime (runs.map (·.out))) := by
  have hperm : (runs.map (·.path)).Perm instances := hp ▸ sortPaths_perm instances
  have hlen : (runs.map (·.out)).length = instances.length := by
    rw [List.length_map, ← hperm.length_eq, List.length_map]
  have hne : instances.length ≠ 0 := fun h => hne (List.length_eq_zero_iff.1 h)
  have hname : ∀ r ∈ runs, r.out.name.toList = stem r.path := by
    intro r h
    rw [(hr r h).2.name, String.toList_ofList]
  refine ⟨hperm, ?_, hr, ?_, fun hall => ?_, fun hex => ?_, ?_, ?_, ?_, fun hnd order ho stats sols => ?_⟩
  · rw [hp]
    exact (sortPaths_sorted instances).imp fun h => pathLe_before h
  · unfold summarise
    dsimp only
    rw [List.map_map]
    congr 1
    refine List.map_congr_left fun r h => ?_
    obtain ⟨_, hrep⟩ := hr r h
    unfold Function.comp row cells
    rw [hname r h, hrep.ok, hrep.cost]
    have hy : "Y".toList.take 1 = ['Y'] := by decide +kernel
    have hn : "N".toList.take 1 = ['N'] := by decide +kernel
    cases r.best.isFeasible
    · simp only [Bool.false_eq_true, if_false, hn]
    · simp only [if_true, hy]
  · have : totalCost ((runs.map (·.out)).map (·.cost)) = some (runs.map fun r => Spec.objective r.best).sum := by
      refine totalCost_some ?_
      rw [List.map_map, List.map_map]
      refine List.map_congr_left fun r h => ?_
      show r.out.cost = some (Spec.objective r.best)
      rw [(hr r h).2.cost, hall r h, if_pos rfl]
    refine ⟨_, by unfold summarise; dsimp only; rw [this]; rfl, ?_⟩
    rw [hlen]
    exact div_mul hne
  · obtain ⟨r, h, hf⟩ := hex
    unfold summarise
    dsimp only
    rw [totalCost_none]
    · rfl
    · rw [List.map_map]
      refine List.mem_map.2 ⟨r, h, ?_⟩
      show r.out.cost = none
      rw [(hr r h).2.cost, hf]; rfl
  · unfold summarise
    dsimp only
    rw [hlen, div_mul hne, List.map_map]; rfl
  · unfold summarise
    dsimp only
    rw [hlen, div_mul hne, List.map_map]; rfl
  · unfold summarise
    dsimp only
    rw [List.countP_map, List.countP_eq_length_filter]
    congr 1
    refine List.filter_congr fun r h => ?_
    show decide (r.out.ok = "N") = _
    rw [(hr r h).2.ok]
    cases r.best.isFeasible <;> decide +kernel
  · have hnames : (order.map (·.name)).Nodup := by
      rw [(ho.map _).nodup_iff, List.map_map]
      have : runs.map ((fun o : Output => o.name) ∘ fun r : Solved => r.out)
          = (runs.map (·.path)).map (fun p => String.ofList (stem p)) := by
        rw [List.map_map]
        exact List.map_congr_left fun r h => (hr r h).2.name
      rw [this, (hperm.map _).nodup_iff]
      have e : instances.map (fun p => String.ofList (stem p)) = (instances.map stem).map String.ofList := by
        rw [List.map_map]; rfl
      rw [e]
      refine List.Pairwise.map _ (fun a b hab e => ?_) hnd
      exact hab (String.ofList_inj.1 e)
    refine ⟨fun r h file => ?_, fun name => ⟨fun hn => ?_, fun hn => ?_⟩⟩
    · rw [← hname r h]
      exact written_own order stats sols hnames r.out (ho.mem_iff.2 (List.mem_map_of_mem h)) file
    · refine (written_other order stats sols name).1 fun o hmem => ?_
      obtain ⟨r, h, rfl⟩ := List.mem_map.1 (ho.mem_iff.1 hmem)
      rw [hname r h]; exact hn r h
    · refine (written_other order stats sols name).2 fun o hmem => ?_
      obtain ⟨r, h, rfl⟩ := List.mem_map.1 (ho.mem_iff.1 hmem)
      rw [hname r h]; exact hn r h

end Cli

theorem Cli.paramsOf_ok {config : Option Config.File} {params : SolveParams} (h : ParamsFrom config params) :
    Cli.paramsOf config = .ok params := by
  cases config with
  | none => have h : params = {} := h; rw [h]; rfl
  | some file =>
    obtain ⟨hw, interval, h⟩ : UniqueKeys file ∧ ∃ interval, SaysParams file params interval := h
    unfold Cli.paramsOf
    dsimp only
    rw [(C65_read file hw params interval).2 h]

/-- **C67.** Solving several instance files from the command line does not raise, for files that can be read and
have sensible numbers, for limits that are not negative, and for parameters that are fit for a run (such as the
default ones, or those of C65). What it prints and the files it writes are as `Benchmarked` says. Here `fuel` and
`rounds` are arbitrary: whenever the command ends, it does so with enough of them. -/
theorem C67_reported (F : Rounding) (showFloat : Int → Csv.Text) (readFloat : Csv.Text → Option Int)
    (hft : FloatText showFloat readFloat) (config : Option Config.File) (params : SolveParams)
    (hconf : ParamsFrom config params) (hparams : GoodParams F params)
    (args : Cli.Args) (hl1 : LimitOk args.maxRuntime) (hl2 : LimitOk args.maxIterations)
    (hl3 : LimitOk args.noImprovement) (R : Rat → Rat) (hR : Read.roundFunc args.roundFunc = some R)
    (showObj : Option Int → Csv.Text) (showTime : Int → Csv.Text)
    (load : Cli.Path → Vrplib) (instances : List Cli.Path) (hne : instances ≠ [])
    (hfiles : ∀ p ∈ instances, GoodFile R (load p)) (stopClock clock : Cli.Path → Nat → Int)
    (hclock : ∀ p i j, i ≤ j → clock p i ≤ clock p j) (fuel rounds : Nat) :
    Cli.benchmark showObj showTime (Cli.solvePath F showFloat config args load stopClock clock fuel rounds) instances
      = .ok none
    ∨ ∃ runs summary, Cli.benchmark showObj showTime
        (Cli.solvePath F showFloat config args load stopClock clock fuel rounds) instances
          = .ok (some (runs.map (·.out), summary))
      ∧ Benchmarked R load readFloat args showObj showTime instances runs summary := by
  have := Cli.solveAll_ok (solve := Cli.solvePath F showFloat config args load stopClock clock fuel rounds)
    (Q := fun r => (∃ w, Read.build R (load r.path) = .ok (r.data, w))
      ∧ Reported r.data readFloat args (String.ofList (Cli.stem r.path)) r.best r.out)
    (ps := Cli.sortPaths instances) (by
      intro p hp
      obtain ⟨data, w, hread, hr, hpk, hfit⟩ := hfiles p ((Cli.sortPaths_perm instances).mem_iff.1 hp)
      unfold Cli.solvePath
      rw [Cli.paramsOf_ok hconf]
      rcases C56_reported F showFloat readFloat hft params hparams args hl1 hl2 hl3 (String.ofList (Cli.stem p))
        (load p) R hR data w hread hr hpk hfit (stopClock p) (clock p) (hclock p) fuel rounds with
        h | ⟨out, best, h, h'⟩
      · exact .inl h
      · exact .inr ⟨⟨p, data, best, out⟩, rfl, h, ⟨w, hread⟩, h'⟩)
  unfold Cli.benchmark
  rcases this with h | ⟨runs, h1, h2, h3⟩
  · rw [h]; exact .inl rfl
  · rw [h2]
    exact .inr ⟨runs, _, rfl, Cli.benchmarked showObj showTime hne h1 h3⟩

/-- **C67.** The result does not depend on the order in which the instances are given. -/
theorem C67_order (showObj : Option Int → Csv.Text) (showTime : Int → Csv.Text)
    (solve : Cli.Path → Except Error (Option Cli.Output)) (instances instances' : List Cli.Path)
    (h : instances.Perm instances') :
    Cli.benchmark showObj showTime solve instances = Cli.benchmark showObj showTime solve instances' := by
  unfold Cli.benchmark
  rw [Cli.sortPaths_eq h]

namespace Cli

theorem solveAll_enough {solve : Nat → Nat → Path → Except Error (Option Output)} {Q : Solved → Prop} :
    ∀ {ps : List Path},
    (∀ p ∈ ps, ∃ (enough : Nat) (r : Solved), r.path = p
      ∧ (∀ fuel rounds, enough ≤ fuel → enough ≤ rounds → solve fuel rounds p = .ok (some r.out)) ∧ Q r) →
    ∃ (enough : Nat) (runs : List Solved), runs.map (·.path) = ps
      ∧ (∀ fuel rounds, enough ≤ fuel → enough ≤ rounds →
        solveAll (solve fuel rounds) ps = .ok (some (runs.map (·.out))))
      ∧ ∀ r ∈ runs, Q r
  | [], _ => ⟨0, [], rfl, fun _ _ _ _ => rfl, by intro r hr; cases hr⟩
  | p :: ps, h => by
    obtain ⟨n, r, e1, e2, e3⟩ := h p (List.mem_cons_self ..)
    obtain ⟨m, runs, f1, f2, f3⟩ := solveAll_enough (fun q hq => h q (List.mem_cons_of_mem _ hq))
    refine ⟨max n m, r :: runs, by simp [e1, f1], fun fuel rounds h1 h2 => ?_, fun x hx => ?_⟩
    · unfold solveAll
      rw [e2 fuel rounds (by omega) (by omega)]; dsimp only
      rw [f2 fuel rounds (by omega) (by omega)]; rfl
    · rcases List.mem_cons.1 hx with rfl | hx
      · exact e3
      · exact f3 x hx

theorem solveAll_error {solve : Path → Except Error (Option Output)} {p : Path} {e : Error} (he : solve p = .error e) :
    ∀ {ps : List Path}, p ∈ ps → (∀ q ∈ ps, solve q ≠ .ok none) → ∃ q ∈ ps, ∃ e', solve q = .error e'
      ∧ solveAll solve ps = .error e'
  | q :: ps, hp, hn => by
    unfold solveAll
    cases hq : solve q with
    | error e' => exact ⟨q, List.mem_cons_self .., e', hq, rfl⟩
    | ok o =>
      cases o with
      | none => exact absurd hq (hn q (List.mem_cons_self ..))
      | some out =>
        rcases List.mem_cons.1 hp with rfl | hp
        · rw [he] at hq; cases hq
        · obtain ⟨x, hx, e', h1, h2⟩ := solveAll_error he hp (fun y hy => hn y (List.mem_cons_of_mem _ hy))
          refine ⟨x, List.mem_cons_of_mem _ hx, e', h1, ?_⟩
          dsimp only
          rw [h2]

end Cli

/-- **C67 (returns).** With at least one limit that is reached, and numbers in the files that are not too
large, the command ends. (`_partial` for the reason given with `C56_returns_partial`.) -/
theorem C67_returns_partial (F : Rounding) (showFloat : Int → Csv.Text) (readFloat : Csv.Text → Option Int)
    (hft : FloatText showFloat readFloat) (config : Option Config.File) (params : SolveParams)
    (hconf : ParamsFrom config params) (hparams : GoodParams F params)
    (args : Cli.Args) (hl1 : LimitOk args.maxRuntime) (hl2 : LimitOk args.maxIterations)
    (hl3 : LimitOk args.noImprovement) (R : Rat → Rat) (hR : Read.roundFunc args.roundFunc = some R)
    (showObj : Option Int → Csv.Text) (showTime : Int → Csv.Text)
    (load : Cli.Path → Vrplib) (instances : List Cli.Path) (hne : instances ≠ [])
    (stopClock clock : Cli.Path → Nat → Int) (hclock : ∀ p i j, i ≤ j → clock p i ≤ clock p j)
    (hfiles : ∀ p ∈ instances, ∃ data w B, Read.build R (load p) = .ok (data, w) ∧ File.InRange R (load p)
      ∧ File.PickupsOk (load p) ∧ Moderate data B
      ∧ ((∃ n, args.maxIterations = .finite n) ∨ (∃ n, args.noImprovement = .finite n)
        ∨ ∃ n m, args.maxRuntime = .finite n
          ∧ (if args.perClient then n * data.numClients else n) < stopClock p m - stopClock p 0)) :
    ∃ enough runs summary, (∀ fuel rounds, enough ≤ fuel → enough ≤ rounds →
        Cli.benchmark showObj showTime (Cli.solvePath F showFloat config args load stopClock clock fuel rounds)
          instances = .ok (some (runs.map (·.out), summary)))
      ∧ Benchmarked R load readFloat args showObj showTime instances runs summary := by
  obtain ⟨enough, runs, h1, h2, h3⟩ := Cli.solveAll_enough
    (solve := fun fuel rounds => Cli.solvePath F showFloat config args load stopClock clock fuel rounds)
    (Q := fun r => (∃ w, Read.build R (load r.path) = .ok (r.data, w))
      ∧ Reported r.data readFloat args (String.ofList (Cli.stem r.path)) r.best r.out)
    (ps := Cli.sortPaths instances) (by
      intro p hp
      obtain ⟨data, w, B, hread, hr, hpk, hB, hlim⟩ := hfiles p ((Cli.sortPaths_perm instances).mem_iff.1 hp)
      obtain ⟨enough, out, best, h, h'⟩ := C56_returns_partial F showFloat readFloat hft params hparams args hl1 hl2
        hl3 (String.ofList (Cli.stem p)) (load p) R hR data w hread hr hpk B hB (stopClock p) (clock p) (hclock p) hlim
      refine ⟨enough, ⟨p, data, best, out⟩, rfl, fun fuel rounds a b => ?_, ⟨w, hread⟩, h'⟩
      unfold Cli.solvePath
      rw [Cli.paramsOf_ok hconf]
      exact h fuel rounds a b)
  refine ⟨enough, runs, _, fun fuel rounds a b => ?_, Cli.benchmarked showObj showTime hne h1 h3⟩
  unfold Cli.benchmark
  rw [h2 fuel rounds a b]

/-- **C67.** If solving one of the instances raises, for example because its file cannot be read, then so does the
command, with the exception of one of its instances: nothing is printed about the others. -/
theorem C67_one_raises (showObj : Option Int → Csv.Text) (showTime : Int → Csv.Text)
    (solve : Cli.Path → Except Error (Option Cli.Output)) (instances : List Cli.Path)
    (hends : ∀ p ∈ instances, solve p ≠ .ok none) (p : Cli.Path) (hp : p ∈ instances) (e : Error)
    (he : solve p = .error e) :
    ∃ q ∈ instances, ∃ e', solve q = .error e' ∧ Cli.benchmark showObj showTime solve instances = .error e' := by
  have hperm := Cli.sortPaths_perm instances
  obtain ⟨q, hq, e', h1, h2⟩ := Cli.solveAll_error he (hperm.mem_iff.2 hp) (fun q hq => hends q (hperm.mem_iff.1 hq))
  refine ⟨q, hperm.mem_iff.1 hq, e', h1, ?_⟩
  unfold Cli.benchmark
  rw [h2]

/-- **C67.** The name of an instance is the name of its file, without the directory, and without the part from the
last dot on. A dot at the start or at the end of the name does not count. -/
theorem C67_name (dir : Cli.Path) (front suffix : Csv.Text) (h : '.' ∉ suffix) :
    (front ≠ [] → suffix ≠ [] → Cli.stem (dir ++ [front ++ '.' :: suffix]) = front)
    ∧ Cli.stem (dir ++ [suffix]) = suffix ∧ Cli.stem (dir ++ ['.' :: suffix]) = '.' :: suffix
    ∧ Cli.stem (dir ++ [front ++ ['.']]) = front ++ ['.'] := by
  have hall : ∀ c ∈ suffix.reverse, (decide (c ≠ '.')) = true := by
    intro c hc
    rw [decide_eq_true_eq]
    rintro rfl
    exact h (List.mem_reverse.1 hc)
  have t : ∀ rest, (suffix.reverse ++ '.' :: rest).takeWhile (· ≠ '.') = suffix.reverse := by
    intro rest
    rw [List.takeWhile_append_of_pos hall]
    simp
  have d : ∀ rest, (suffix.reverse ++ '.' :: rest).dropWhile (· ≠ '.') = '.' :: rest := by
    intro rest
    rw [List.dropWhile_append_of_pos hall]
    simp
  have hname : ∀ (n : Csv.Text), (dir ++ [n]).getLast?.getD [] = n := by intro n; simp
  refine ⟨fun hf hs => ?_, ?_, ?_, ?_⟩
  · unfold Cli.stem
    simp only [hname, List.reverse_append, List.reverse_cons, List.append_assoc, List.singleton_append]
    rw [t, d]; dsimp only
    rw [if_neg (by simp [hf, hs]), List.reverse_reverse]
  · unfold Cli.stem
    simp only [hname]
    have : suffix.reverse.dropWhile (· ≠ '.') = [] := by
      have := List.dropWhile_append_of_pos (l₂ := []) hall
      simpa using this
    rw [this]
  · unfold Cli.stem
    simp only [hname, List.reverse_cons]
    rw [d]; dsimp only
    rw [if_pos (by simp)]
  · unfold Cli.stem
    simp only [hname, List.reverse_append, List.reverse_cons, List.reverse_nil, List.nil_append, List.singleton_append]
    simp

/-- **C67 (finding).** Instances in different directories whose files have the same name overwrite each other's
files. If the solutions written for two instances of the same name differ, then afterwards one of them is
not in the file of that name, no matter in which order they are written. -/
theorem C67_overwritten (r r' : Solved) (hstem : Cli.stem r.path = Cli.stem r'.path) (file file' : Csv.Text)
    (h : r.out.sol = some file) (h' : r'.out.sol = some file') (hne : file ≠ file') (order : List Cli.Output)
    (stats sols : Cli.Directory) :
    (Cli.written order (stats, sols)).2 (Cli.stem r.path ++ ".sol".toList) ≠ r.out.sol
    ∨ (Cli.written order (stats, sols)).2 (Cli.stem r'.path ++ ".sol".toList) ≠ r'.out.sol := by
  rw [← hstem, h, h']
  by_cases hx : (Cli.written order (stats, sols)).2 (Cli.stem r.path ++ ".sol".toList) = some file
  · right; rw [hx]; intro e; exact hne (Option.some.inj e)
  · exact .inl hx

/-- **C67 (finding).** The table shows at most 37 characters of a name, so that instances with different names may
look the same there. -/
theorem C67_cut_names : ∃ p q : Cli.Path, Cli.stem p ≠ Cli.stem q ∧
    ∀ showObj showTime (a b : Solved), a.path = p → b.path = q →
      (cells showObj showTime a).head? = (cells showObj showTime b).head? := by
  refine ⟨[List.replicate 37 'X' ++ "1.vrp".toList], [List.replicate 37 'X' ++ "2.vrp".toList],
    by decide +kernel, fun showObj showTime a b ha hb => ?_⟩
  have : (Cli.stem [List.replicate 37 'X' ++ "1.vrp".toList]).take 37
      = (Cli.stem [List.replicate 37 'X' ++ "2.vrp".toList]).take 37 := by decide +kernel
  unfold cells
  rw [ha, hb, this]
  rfl

/-! ## Concrete cases -/

namespace Demo
/-- Two files in one directory, and one of the same name in another directory. -/
def pathA : Cli.Path := ["data".toList, "A-n3.vrp".toList]
def pathB : Cli.Path := ["data".toList, "B-n3.vrp".toList]
def pathA' : Cli.Path := ["more".toList, "A-n3.vrp".toList]

/-- The command ends for two instances, with any seed. Both solution files are there, whichever is written
first, and the row of `A-n3` comes first. -/
example (seed : BitVec 32) : ∃ (enough : Nat) (runs : List Solved) (summary : Cli.Summary), (∀ fuel rounds, enough ≤ fuel → enough ≤ rounds →
      Cli.benchmark Cli.costText Csv.showInt (Cli.solvePath .exact Csv.showInt none (okArgs seed)
        (fun _ => okSmall) (fun _ i => i) (fun _ i => i) fuel rounds) [pathB, pathA]
        = .ok (some (runs.map (·.out), summary)))
    ∧ (runs.map (·.path)).Perm [pathB, pathA]
    ∧ ∀ order, order.Perm (runs.map (·.out)) → ∀ r ∈ runs, ∃ file s,
      (Cli.written order (fun _ => none, fun _ => none)).2 (Cli.stem r.path ++ ".sol".toList) = some file
      ∧ SolutionFile.read r.data file = .ok s ∧ s.isComplete = true := by
  obtain ⟨enough, runs, summary, h1, h2⟩ := C67_returns_partial .exact Csv.showInt Csv.readInt C42.intText none {}
    rfl defaultParams_good (okArgs seed) trivial (by decide : (0 : Int) ≤ 10) trivial id rfl Cli.costText Csv.showInt
    (fun _ => okSmall) [pathB, pathA] (by simp) (fun _ i => i) (fun _ i => i) (fun _ i j h => Int.ofNat_le.2 h)
    (fun p _ => ⟨(dataOf okSmall).1, (dataOf okSmall).2, _, okSmall_ok, okSmall_inRange, (by intro rows h; cases h),
      okSmall_moderate, .inl ⟨10, rfl⟩⟩)
  refine ⟨enough, runs, summary, h1, h2.once, fun order ho r hr => ?_⟩
  obtain ⟨file, s, e1, e2, _, e3, _⟩ := (h2.reported r hr).2.sol rfl
  exact ⟨file, s, ((h2.files (by decide +kernel) order ho _ _).1 r hr file).2 e1, e2, e3⟩

/-- The same with a file with parameters (the one of `C65`). -/
example : ParamsFrom (some configFile) configParams := ⟨configFile_unique, 10, configFile_says⟩

/-- What is in the files: those other than the first one have twice the distances. -/
def twoFiles (p : Cli.Path) : Vrplib :=
  if p = pathA then { half with unitDistanceCost := none } else { half with unitDistanceCost := none, edgeWeight := [[0, 20], [20, 0]] }

def benchmarkTwo (instances : List Cli.Path) : Except Error (Option (List Cli.Output × Cli.Summary)) :=
  Cli.benchmark Cli.costText Csv.showInt (Cli.solvePath .exact Csv.showInt none
    { seed := 42, maxIterations := .finite 1, solDir := true } twoFiles (fun _ i => i) (fun _ i => i) 10 20) instances

/-- What is printed for two instances. -/
example : (match benchmarkTwo [pathB, pathA] with
    | .ok (some (_, summary)) => some (String.ofList summary.table, summary.avgObjective, summary.avgIterations,
      summary.notOk)
    | _ => none) = some ("Instance  OK  Obj.  Iters. (#)  Time (s)\n" ++ "--------  --  ----  ----------  --------\n"
      ++ "    A-n3   Y    20           1         1\n" ++ "    B-n3   Y    40           1         1",
      some 30, 1, 0) := by decide +kernel

/-- Of the solution files for two instances of the same name, only the last one remains. -/
example : (match benchmarkTwo [pathA, pathA'] with
    | .ok (some (outs, _)) => some (outs.map (fun o => o.sol.map String.ofList),
      ((Cli.written outs (fun _ => none, fun _ => none)).2 "A-n3.sol".toList).map String.ofList)
    | _ => none)
    = some ([some "Route #1: 1\nCost: 20\n", some "Route #1: 1\nCost: 40\n"], some "Route #1: 1\nCost: 40\n") := by
  decide +kernel

/-- A file that cannot be read. -/
example : ∃ e, Cli.benchmark Cli.costText Csv.showInt (fun p => if p = pathA then .error (.runtimeError "cannot be read") else .ok (some
    { name := "B-n3", ok := "Y", cost := some 1, iterations := 0, runtime := 0, stats := none, sol := none }))
    [pathB, pathA] = .error e := by
  obtain ⟨_, _, e, _, h⟩ := C67_one_raises Cli.costText Csv.showInt (fun p => if p = pathA then .error (.runtimeError "cannot be read")
    else .ok (some
    { name := "B-n3", ok := "Y", cost := some 1, iterations := 0, runtime := 0, stats := none, sol := none }))
    [pathB, pathA] (fun p _ => by split <;> simp) pathA (by simp) (.runtimeError "cannot be read") (if_pos rfl)
  exact ⟨e, h⟩

end Demo
end PyVRP
