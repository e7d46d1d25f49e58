import Verif.Model.Config
import Verif.Props.C29
import Verif.Props.C47
/-!
# C65: parameters read from a file

`SolveParams.from_file` returns exactly the parameters written in the file, with the documented default for each
parameter that the file does not give, and raises if a name or a value in one of its sections is not understood.
-/
namespace PyVRP
open Config

namespace Spec

/-- What a file says about one parameter: it has a value, which `isValue`, or it does not mention the parameter, which
then has its default. -/
def Given {α : Type} (entries : List (String × α)) (key : String) (isValue : α → Prop) (isDefault : Prop) :
    Prop :=
  (∃ v, (key, v) ∈ entries ∧ isValue v) ∨ (key ∉ entries.map (·.1) ∧ isDefault)

/-- A value is the number `x`. -/
def IsNumber (x : Rat) (v : Value) : Prop := v = .float x ∨ ∃ n : Int, v = .int n ∧ x = n

/-- A section has no other keys than the given ones. -/
def OnlyKeys (t : Table) (keys : List String) : Prop := ∀ e ∈ t, e.1 ∈ keys

/-- The section about the algorithm says `p`. -/
structure SaysIls (t : Table) (p : IlsParams) : Prop where
  keys : OnlyKeys t ["num_iters_no_improvement", "history_length", "exhaustive_on_best"]
  iters : Given t "num_iters_no_improvement" (· = .int p.numItersNoImprovement) (p.numItersNoImprovement = 150000)
  history : Given t "history_length" (· = .int p.historyLength) (p.historyLength = 300)
  exhaustive : Given t "exhaustive_on_best" (· = .bool p.exhaustiveOnBest) (p.exhaustiveOnBest = true)
  valid : 0 ≤ p.numItersNoImprovement ∧ 1 ≤ p.historyLength

/-- The section about penalties says `p`. -/
structure SaysPenalty (t : Table) (p : PenaltyParams) : Prop where
  keys : OnlyKeys t ["solutions_between_updates", "penalty_increase", "penalty_decrease", "target_feasible",
    "feas_tolerance", "min_penalty", "max_penalty"]
  updates : Given t "solutions_between_updates" (· = .int p.solutionsBetweenUpdates)
    (p.solutionsBetweenUpdates = 500)
  increase : Given t "penalty_increase" (IsNumber p.penaltyIncrease) (p.penaltyIncrease = 3 / 2)
  decrease : Given t "penalty_decrease" (IsNumber p.penaltyDecrease) (p.penaltyDecrease = 9 / 10)
  target : Given t "target_feasible" (IsNumber p.targetFeasible) (p.targetFeasible = 65 / 100)
  tolerance : Given t "feas_tolerance" (IsNumber p.feasTolerance) (p.feasTolerance = 5 / 100)
  min : Given t "min_penalty" (IsNumber p.minPenalty) (p.minPenalty = 1 / 10)
  max : Given t "max_penalty" (IsNumber p.maxPenalty) (p.maxPenalty = 100000)
  valid : ValidParams p

/-- The section about the neighbourhood says `p`. -/
structure SaysNeighbourhood (t : Table) (p : NeighbourhoodParams) : Prop where
  keys : OnlyKeys t ["weight_wait_time", "num_neighbours", "symmetric_proximity"]
  weight : Given t "weight_wait_time" (IsNumber p.weightWaitTime) (p.weightWaitTime = 1 / 5)
  num : Given t "num_neighbours" (· = .int p.numNeighbours) (p.numNeighbours = 50)
  symmetric : Given t "symmetric_proximity" (· = .bool p.symmetricProximity) (p.symmetricProximity = true)
  valid : 0 < p.numNeighbours ∧ p.numNeighbours ≤ SIZE_MAX

/-- The section about perturbation says `p`. -/
structure SaysPerturbation (t : Table) (p : PerturbationParams) : Prop where
  keys : OnlyKeys t ["min_perturbations", "max_perturbations"]
  min : Given t "min_perturbations" (· = .int p.minPerturbations) (p.minPerturbations = 1)
  max : Given t "max_perturbations" (· = .int p.maxPerturbations) (p.maxPerturbations = 25)
  valid : p.minPerturbations ≤ p.maxPerturbations ∧ p.maxPerturbations ≤ SIZE_MAX

/-- The name of an operator. -/
def nameOf : Operator → String
  | .unary .removeAdjacentDepot => "RemoveAdjacentDepot"
  | .unary .removeOptionalClient => "RemoveOptionalClient"
  | .unary .removeOptionalShipment => "RemoveOptionalShipment"
  | .unary .relocatePickup => "RelocatePickup"
  | .unary .relocateDelivery => "RelocateDelivery"
  | .unary .replaceGroup => "ReplaceGroup"
  | .binary (.relocate n) => "Relocate" ++ toString n
  | .binary (.swap n m) => "Swap" ++ toString n ++ toString m
  | .binary .swapTails => "SwapTails"
  | .binary .relocateAlternative => "RelocateAlternative"
  | .binary .relocateWithDepot => "RelocateWithDepot"
  | .binary .relocateShipment => "RelocateShipment"
  | .binary .insertOptionalClient => "InsertOptionalClient"
  | .binary .insertOptionalShipment => "InsertOptionalShipment"
  | .binary .replaceOptionalClient => "ReplaceOptionalClient"
  | .binary .replaceOptionalShipment => "ReplaceOptionalShipment"

/-- The operators there are: segments have at most three stops, and the first segment of a swap is not the
shorter one. -/
def Provided : Operator → Prop
  | .binary (.relocate n) => 1 ≤ n ∧ n ≤ 3
  | .binary (.swap n m) => 1 ≤ m ∧ m ≤ n ∧ n ≤ 3
  | _ => True

/-- The names of the operators that are used if a file does not name any. -/
def defaultNames : List String :=
  ["Relocate1", "Relocate2", "Swap11", "Swap21", "Swap22", "SwapTails", "RelocateAlternative", "RelocatePickup",
    "RelocateDelivery", "RelocateWithDepot", "RemoveAdjacentDepot", "RemoveOptionalClient",
    "InsertOptionalClient", "ReplaceOptionalClient", "RemoveOptionalShipment", "InsertOptionalShipment",
    "ReplaceOptionalShipment", "ReplaceGroup", "RelocateShipment"]

/-- The entry `name` of the file is the section `t`; a section that is not there is empty. -/
def IsSection (file : File) (name : String) (t : Table) : Prop :=
  Given file name (· = .table t) (t = [])

/-- The file says `p`, and `interval` for the progress display. -/
structure SaysParams (file : File) (p : SolveParams) (interval : Rat) : Prop where
  ils : ∃ t, IsSection file "ils" t ∧ SaysIls t p.ils
  penalty : ∃ t, IsSection file "penalty" t ∧ SaysPenalty t p.penalty
  neighbourhood : ∃ t, IsSection file "neighbourhood" t ∧ SaysNeighbourhood t p.neighbourhood
  perturbation : ∃ t, IsSection file "perturbation" t ∧ SaysPerturbation t p.perturbation
  operators : Given file "operators" (· = .strings (p.operators.map nameOf))
    (p.operators.map nameOf = defaultNames)
  exist : ∀ op ∈ p.operators, Provided op
  interval : Given file "display_interval" (fun e => ∃ v, e = .value v ∧ IsNumber interval v) (interval = 5)

/-- No key occurs twice, in the file or in one of its sections: TOML does not allow it. -/
structure UniqueKeys (file : File) : Prop where
  keys : (file.map (·.1)).Nodup
  sections : ∀ name t, (name, Entry.table t) ∈ file → (t.map (·.1)).Nodup

end Spec
open Spec

namespace Config

theorem bind_ok {α β : Type} {x : Except Error α} {f : α → Except Error β} {b : β} :
    (x >>= f) = .ok b ↔ ∃ a, x = .ok a ∧ f a = .ok b := by
  cases x with
  | error e => simp [bind, Except.bind]
  | ok a => simp [bind, Except.bind]

theorem lookup_none {α : Type} {l : List (String × α)} {key : String} :
    l.lookup key = none ↔ key ∉ l.map (·.1) := by
  induction l with
  | nil => simp
  | cons e l ih =>
    rw [List.lookup_cons]
    by_cases h : key = e.1
    · subst h; simp
    · have : (key == e.1) = false := by simpa using h
      rw [this]
      simp only [List.map_cons, List.mem_cons, not_or]
      exact ⟨fun h' => ⟨h, ih.1 h'⟩, fun h' => ih.2 h'.2⟩

theorem lookup_some {α : Type} {l : List (String × α)} {key : String} {v : α} (hd : (l.map (·.1)).Nodup) :
    l.lookup key = some v ↔ (key, v) ∈ l := by
  induction l with
  | nil => simp
  | cons e l ih =>
    obtain ⟨k, w⟩ := e
    rw [List.map_cons, List.nodup_cons] at hd
    rw [List.lookup_cons]
    by_cases h : key = k
    · subst h
      simp only [beq_self_eq_true, Option.some.injEq, List.mem_cons, Prod.mk.injEq, true_and]
      refine ⟨fun h => .inl h.symm, ?_⟩
      rintro (rfl | h)
      · rfl
      · exact absurd (List.mem_map_of_mem (f := (·.1)) h) hd.1
    · have hk : (key == k) = false := by simpa using h
      rw [hk]
      simp only [List.mem_cons, Prod.mk.injEq, h, false_and, false_or]
      exact ih hd.2

theorem argument_ok {α : Type} {conv : Value → Option α} {t : Table} {key : String} {default x : α}
    (hd : (t.map (·.1)).Nodup) :
    argument conv t key default = .ok x ↔ Given t key (fun v => conv v = some x) (x = default) := by
  unfold argument Given
  split
  · next h =>
    have hn := lookup_none.1 h
    simp only [Except.ok.injEq]
    constructor
    · rintro rfl; exact .inr ⟨hn, rfl⟩
    · rintro (⟨v, hv, -⟩ | ⟨-, rfl⟩)
      · exact absurd (List.mem_map_of_mem (f := (·.1)) hv) hn
      · rfl
  · next v h =>
    have hv := (lookup_some hd).1 h
    have hu : ∀ w, (key, w) ∈ t → w = v := fun w hw => by
      have := (lookup_some hd).2 hw
      rw [h] at this
      exact (Option.some.inj this).symm
    have hin : key ∈ t.map (·.1) := List.mem_map_of_mem (f := (·.1)) hv
    constructor
    · intro hx
      refine .inl ⟨v, hv, ?_⟩
      split at hx
      · cases hx
      · next y hy => cases hx; exact hy
    · rintro (⟨w, hw, hx⟩ | ⟨hn, -⟩)
      · rw [hu w hw] at hx
        rw [hx]
      · exact absurd hin hn

theorem expect_ok {keys : List String} {t : Table} {u : Unit} :
    expect keys t = .ok u ↔ OnlyKeys t keys := by
  unfold expect checked throwIf OnlyKeys
  by_cases h : t.any (fun p => !keys.contains p.1) = true
  · rw [if_pos h]
    simp only [reduceCtorEq, false_iff]
    intro h'
    obtain ⟨e, he, hk⟩ := List.any_eq_true.1 h
    have := h' e he
    simp [this] at hk
  · rw [if_neg h]
    simp only [true_iff]
    intro e he
    apply Decidable.byContradiction
    intro hn
    exact h (List.any_eq_true.2 ⟨e, he, by simpa using hn⟩)

theorem asInt_some (v : Value) (n : Int) : v.asInt = some n ↔ v = .int n := by
  cases v <;> simp [Value.asInt]

theorem asBool_some (v : Value) (b : Bool) : v.asBool = some b ↔ v = .bool b := by
  cases v <;> simp [Value.asBool]

theorem asFloat_some (v : Value) (x : Rat) : v.asFloat = some x ↔ IsNumber x v := by
  cases v <;> simp [Value.asFloat, IsNumber, eq_comm]

theorem asSize_some (v : Value) (n : Nat) : v.asSize = some n ↔ v = .int n ∧ n ≤ SIZE_MAX := by
  cases v with
  | int k =>
    unfold Value.asSize
    simp only [Value.int.injEq]
    split
    · next h => simp only [Option.some.injEq]; omega
    · next h => simp only [reduceCtorEq, false_iff]; omega
  | float x => simp [Value.asSize]
  | bool b => simp [Value.asSize]

theorem checked_ok {α : Type} {e : Option Error} {a b : α} : checked e a = .ok b ↔ e = none ∧ a = b := by
  unfold checked
  cases e <;> simp

theorem given_size {t : Table} {key : String} {n d : Nat} (hd : d ≤ SIZE_MAX) :
    Given t key (fun v => v = .int n ∧ n ≤ SIZE_MAX) (n = d)
      ↔ Given t key (· = .int n) (n = d) ∧ n ≤ SIZE_MAX := by
  unfold Given
  constructor
  · rintro (⟨v, hv, h, hn⟩ | ⟨hk, rfl⟩)
    · exact ⟨.inl ⟨v, hv, h⟩, hn⟩
    · exact ⟨.inr ⟨hk, rfl⟩, hd⟩
  · rintro ⟨⟨v, hv, h⟩ | ⟨hk, rfl⟩, hn⟩
    · exact .inl ⟨v, hv, h, hn⟩
    · exact .inr ⟨hk, rfl⟩

end Config
open Config

/-- **C65.** The section about the algorithm. -/
theorem C65_ils (t : Table) (hd : (t.map (·.1)).Nodup) (p : IlsParams) :
    ilsParams t = .ok p ↔ SaysIls t p := by
  unfold ilsParams
  simp only [bind_ok, expect_ok, argument_ok hd, asInt_some, asBool_some, checked_ok, C29_params]
  constructor
  · rintro ⟨_, hk, a, ha, b, hb, c, hc, hv, rfl⟩
    exact ⟨hk, ha, hb, hc, hv⟩
  · rintro ⟨hk, ha, hb, hc, hv⟩
    exact ⟨(), hk, _, ha, _, hb, _, hc, hv, rfl⟩

/-- **C65.** The section about penalties. -/
theorem C65_penalty (t : Table) (hd : (t.map (·.1)).Nodup) (p : PenaltyParams) :
    penaltyParams t = .ok p ↔ SaysPenalty t p := by
  unfold penaltyParams
  simp only [bind_ok, expect_ok, argument_ok hd, asInt_some, asFloat_some, checked_ok, C31_params]
  constructor
  · rintro ⟨_, hk, a, ha, b, hb, c, hc, d, hd', e, he, f, hf, g, hg, hv, rfl⟩
    exact ⟨hk, ha, hb, hc, hd', he, hf, hg, hv⟩
  · rintro ⟨hk, ha, hb, hc, hd', he, hf, hg, hv⟩
    exact ⟨(), hk, _, ha, _, hb, _, hc, _, hd', _, he, _, hf, _, hg, hv, rfl⟩

/-- **C65.** The section about the neighbourhood. -/
theorem C65_neighbourhood (t : Table) (hd : (t.map (·.1)).Nodup) (p : NeighbourhoodParams) :
    neighbourhoodParams t = .ok p ↔ SaysNeighbourhood t p := by
  have hm : ∀ q p : NeighbourhoodParams, q.make = .ok p ↔ 0 < q.numNeighbours ∧ q = p := by
    intro q p
    unfold NeighbourhoodParams.make
    rw [checked_ok]
    unfold throwIf
    split
    · next h => simp only [reduceCtorEq, false_and, false_iff]; omega
    · next h => simp only [true_and]; exact ⟨fun h' => ⟨by omega, h'⟩, fun h' => h'.2⟩
  unfold neighbourhoodParams
  simp only [bind_ok, expect_ok, argument_ok hd, asFloat_some, asBool_some, asSize_some, hm,
    given_size (d := 50) (by decide)]
  constructor
  · rintro ⟨_, hk, a, ha, b, ⟨hb, hs⟩, c, hc, hv, rfl⟩
    exact ⟨hk, ha, hb, hc, hv, hs⟩
  · rintro ⟨hk, ha, hb, hc, hv, hs⟩
    exact ⟨(), hk, _, ha, _, ⟨hb, hs⟩, _, hc, hv, rfl⟩

/-- **C65.** The section about perturbation. -/
theorem C65_perturbation (t : Table) (hd : (t.map (·.1)).Nodup) (p : PerturbationParams) :
    perturbationParams t = .ok p ↔ SaysPerturbation t p := by
  have hm : ∀ q p : PerturbationParams,
      q.make = .ok p ↔ q.minPerturbations ≤ q.maxPerturbations ∧ q = p := by
    intro q p
    unfold PerturbationParams.make
    split
    · next h => simp only [reduceCtorEq, false_iff]; omega
    · next h => simp only [Except.ok.injEq]; exact ⟨fun h' => ⟨by omega, h'⟩, fun h' => h'.2⟩
  unfold perturbationParams
  simp only [bind_ok, expect_ok, argument_ok hd, asSize_some, hm, given_size (d := 25) (by decide),
    given_size (d := 1) (by decide)]
  constructor
  · rintro ⟨_, hk, a, ⟨ha, _⟩, b, ⟨hb, hs⟩, hv, rfl⟩
    exact ⟨hk, ha, hb, hv, hs⟩
  · rintro ⟨hk, ha, hb, hv, hs⟩
    exact ⟨(), hk, _, ⟨ha, by omega⟩, _, ⟨hb, hs⟩, hv, rfl⟩

namespace Config

theorem operatorNames_spec : ∀ e ∈ operatorNames, nameOf e.2 = e.1 := by
  decide +kernel

theorem operatorNames_nodup : (operatorNames.map (·.1)).Nodup := by
  decide +kernel

theorem operatorNames_provided : ∀ e ∈ operatorNames, Provided e.2 := by
  intro e he
  simp only [operatorNames, List.mem_cons, List.not_mem_nil, or_false] at he
  rcases he with he | he | he | he | he | he | he | he | he | he | he | he | he | he | he | he | he | he
    | he | he | he | he | he <;> subst he <;> simp [Provided]

theorem operatorNames_complete (op : Operator) (h : Provided op) : (nameOf op, op) ∈ operatorNames := by
  cases op with
  | unary op => cases op <;> decide +kernel
  | binary op =>
    cases op with
    | relocate n =>
      have : n = 1 ∨ n = 2 ∨ n = 3 := by simp only [Provided] at h; omega
      rcases this with rfl | rfl | rfl <;> decide +kernel
    | swap n m =>
      have : (n = 1 ∧ m = 1) ∨ (n = 2 ∧ m = 1) ∨ (n = 2 ∧ m = 2) ∨ (n = 3 ∧ m = 1) ∨ (n = 3 ∧ m = 2)
          ∨ (n = 3 ∧ m = 3) := by simp only [Provided] at h; omega
      rcases this with ⟨rfl, rfl⟩ | ⟨rfl, rfl⟩ | ⟨rfl, rfl⟩ | ⟨rfl, rfl⟩ | ⟨rfl, rfl⟩ | ⟨rfl, rfl⟩ <;>
        decide +kernel
    | _ => decide +kernel

theorem operatorNamed_ok (name : String) (op : Operator) :
    operatorNamed name = .ok op ↔ nameOf op = name ∧ Provided op := by
  have : operatorNamed name = .ok op ↔ operatorNames.lookup name = some op := by
    unfold operatorNamed
    split
    · next h => simp [h]
    · next h => simp [h]
  rw [this, lookup_some operatorNames_nodup]
  constructor
  · exact fun h => ⟨operatorNames_spec _ h, operatorNames_provided _ h⟩
  · rintro ⟨rfl, h⟩
    exact operatorNames_complete op h

theorem operatorsNamed_ok (names : List String) (ops : List Operator) :
    operatorsNamed names = .ok ops ↔ names = ops.map nameOf ∧ ∀ op ∈ ops, Provided op := by
  induction names generalizing ops with
  | nil =>
    unfold operatorsNamed
    cases ops <;> simp
  | cons name names ih =>
    unfold operatorsNamed
    simp only [bind_ok, ih, operatorNamed_ok, Except.ok.injEq]
    constructor
    · rintro ⟨op, ⟨h, hp⟩, ops', ⟨rfl, hps⟩, rfl⟩
      refine ⟨by simp [h], fun o ho => ?_⟩
      rcases List.mem_cons.1 ho with rfl | ho
      · exact hp
      · exact hps o ho
    · rintro ⟨h, hp⟩
      cases ops with
      | nil => simp at h
      | cons op ops =>
        simp only [List.map_cons, List.cons.injEq] at h
        exact ⟨op, ⟨h.1.symm, hp op (by simp)⟩, ops, ⟨h.2, fun o ho => hp o (by simp [ho])⟩, rfl⟩

theorem given_entry {file : File} {key : String} (hd : (file.map (·.1)).Nodup) {P : Entry → Prop} {D : Prop} :
    Given file key P D ↔ (match file.lookup key with | none => D | some e => P e) := by
  unfold Given
  split
  · next h =>
    have hn := lookup_none.1 h
    constructor
    · rintro (⟨v, hv, -⟩ | ⟨-, h⟩)
      · exact absurd (List.mem_map_of_mem (f := (·.1)) hv) hn
      · exact h
    · exact fun h => .inr ⟨hn, h⟩
  · next e h =>
    constructor
    · rintro (⟨v, hv, hP⟩ | ⟨hn, -⟩)
      · have := (lookup_some hd).2 hv
        rw [h] at this
        cases this
        exact hP
      · rw [lookup_none.2 hn] at h
        cases h
    · exact fun hP => .inl ⟨e, (lookup_some hd).1 h, hP⟩

theorem section_ok {file : File} {name : String} {t : Table} (hd : (file.map (·.1)).Nodup) :
    section_ file name = .ok t ↔ IsSection file name t := by
  unfold IsSection section_
  rw [given_entry hd]
  rcases file.lookup name with _ | (t' | l | v)
  · simp only [Except.ok.injEq, eq_comm]
  · simp only [Except.ok.injEq, Entry.table.injEq]
  · simp only [reduceCtorEq]
  · simp only [reduceCtorEq]

theorem section_nodup {file : File} {name : String} {t : Table} (hw : UniqueKeys file)
    (h : IsSection file name t) : (t.map (·.1)).Nodup := by
  rcases h with ⟨_, hv, rfl⟩ | ⟨_, rfl⟩
  · exact hw.sections _ _ hv
  · simp

theorem displayInterval_ok {file : File} {x : Rat} (hd : (file.map (·.1)).Nodup) :
    displayInterval file = .ok x
      ↔ Given file "display_interval" (fun e => ∃ v, e = .value v ∧ IsNumber x v) (x = 5) := by
  unfold displayInterval
  rw [given_entry hd]
  rcases file.lookup "display_interval" with _ | (t | l | v)
  · simp only [Except.ok.injEq, eq_comm]
  · simp only [reduceCtorEq, false_and, exists_false]
  · simp only [reduceCtorEq, false_and, exists_false]
  · simp only [Entry.value.injEq, exists_eq_left', ← asFloat_some]
    rcases v.asFloat with _ | y
    · simp
    · simp

theorem defaultOperators_provided : ∀ op ∈ defaultOperators, Provided op := by
  intro op h
  simp only [defaultOperators, List.mem_cons, List.not_mem_nil, or_false] at h
  rcases h with h | h | h | h | h | h | h | h | h | h | h | h | h | h | h | h | h | h | h <;> subst h <;>
    simp [Provided]

theorem defaultOperators_names : defaultOperators.map nameOf = defaultNames := by
  decide +kernel

theorem operators_ok {file : File} {ops : List Operator} (hd : (file.map (·.1)).Nodup) :
    operators file = .ok ops
      ↔ Given file "operators" (· = .strings (ops.map nameOf)) (ops.map nameOf = defaultNames)
        ∧ ∀ op ∈ ops, Provided op := by
  unfold operators
  rw [given_entry hd]
  rcases file.lookup "operators" with _ | (t | l | v)
  · simp only [Except.ok.injEq]
    constructor
    · rintro rfl; exact ⟨defaultOperators_names, defaultOperators_provided⟩
    · rintro ⟨h, hp⟩
      have h1 := (operatorsNamed_ok _ ops).2 ⟨h.symm, hp⟩
      rw [(operatorsNamed_ok _ _).2 ⟨defaultOperators_names.symm, defaultOperators_provided⟩] at h1
      exact Except.ok.inj h1
  · simp only [reduceCtorEq, false_and]
  · simp only [operatorsNamed_ok, Entry.strings.injEq]
  · simp only [reduceCtorEq, false_and]

end Config
open Config

/-- **C65.** Reading a file returns exactly what the file says, and raises otherwise. -/
theorem C65_read (file : File) (hw : UniqueKeys file) (p : SolveParams) (interval : Rat) :
    fromFile file = .ok (p, interval) ↔ SaysParams file p interval := by
  unfold fromFile
  simp only [bind_ok, operators_ok hw.keys, section_ok hw.keys, displayInterval_ok hw.keys, Except.ok.injEq]
  constructor
  · rintro ⟨ops, ⟨ho, hp⟩, t1, h1, ils, e1, t2, h2, pen, e2, t3, h3, nb, e3, i, hi, t4, h4, per, e4, h⟩
    cases h
    exact ⟨⟨t1, h1, (C65_ils _ (section_nodup hw h1) _).1 e1⟩,
      ⟨t2, h2, (C65_penalty _ (section_nodup hw h2) _).1 e2⟩,
      ⟨t3, h3, (C65_neighbourhood _ (section_nodup hw h3) _).1 e3⟩,
      ⟨t4, h4, (C65_perturbation _ (section_nodup hw h4) _).1 e4⟩, ho, hp, hi⟩
  · rintro ⟨⟨t1, h1, e1⟩, ⟨t2, h2, e2⟩, ⟨t3, h3, e3⟩, ⟨t4, h4, e4⟩, ho, hp, hi⟩
    exact ⟨_, ⟨ho, hp⟩, t1, h1, _, (C65_ils _ (section_nodup hw h1) _).2 e1,
      t2, h2, _, (C65_penalty _ (section_nodup hw h2) _).2 e2,
      t3, h3, _, (C65_neighbourhood _ (section_nodup hw h3) _).2 e3, _, hi,
      t4, h4, _, (C65_perturbation _ (section_nodup hw h4) _).2 e4, rfl⟩

namespace Config

theorem lookup_filter {α : Type} (l : List (String × α)) (f : String → Bool) (key : String) (h : f key = true) :
    (l.filter (fun e => f e.1)).lookup key = l.lookup key := by
  induction l with
  | nil => rfl
  | cons e l ih =>
    obtain ⟨k, v⟩ := e
    rw [List.filter_cons]
    by_cases hk : key = k
    · subst hk
      simp [h]
    · have hb : (key == k) = false := by simpa using hk
      split
      · rw [List.lookup_cons, List.lookup_cons, hb]; exact ih
      · rw [List.lookup_cons, hb]; exact ih

end Config
open Config

/-- **C65.** Other entries at the top level of a file are ignored: in particular, so is a section whose name is
misspelt. -/
theorem C65_ignored (file : File) :
    fromFile (file.filter fun e =>
        ["operators", "ils", "penalty", "neighbourhood", "display_interval", "perturbation"].contains e.1)
      = fromFile file := by
  have h := fun key hk => lookup_filter file
    (fun k => ["operators", "ils", "penalty", "neighbourhood", "display_interval", "perturbation"].contains k)
    key hk
  unfold fromFile operators section_ displayInterval
  rw [h "operators" (by decide), h "ils" (by decide), h "penalty" (by decide), h "neighbourhood" (by decide),
    h "display_interval" (by decide), h "perturbation" (by decide)]

/-- **C65.** The order of the entries does not matter. -/
theorem C65_order (file file' : File) (hw : UniqueKeys file) (hp : file.Perm file') :
    fromFile file' = fromFile file := by
  have hd : (file'.map (·.1)).Nodup := (hp.map _).nodup_iff.1 hw.keys
  have h : ∀ key, file'.lookup key = file.lookup key := by
    intro key
    apply Option.ext
    intro e
    rw [lookup_some hd, lookup_some hw.keys, hp.mem_iff]
  unfold fromFile operators section_ displayInterval
  simp only [h]

/-- **C65.** Every set of parameters that can be constructed, with operators there are, can be given in a file. -/
theorem C65_expressible (p : SolveParams) (interval : Rat)
    (hils : p.ils.check = none) (hpen : p.penalty.check = none)
    (hnb : p.neighbourhood.make = .ok p.neighbourhood) (hsize : p.neighbourhood.numNeighbours ≤ SIZE_MAX)
    (hper : p.perturbation.make = .ok p.perturbation) (hmax : p.perturbation.maxPerturbations ≤ SIZE_MAX)
    (hops : ∀ op ∈ p.operators, Provided op) :
    ∃ file, UniqueKeys file ∧ fromFile file = .ok (p, interval) := by
  refine ⟨[("ils", .table [("num_iters_no_improvement", .int p.ils.numItersNoImprovement),
      ("history_length", .int p.ils.historyLength), ("exhaustive_on_best", .bool p.ils.exhaustiveOnBest)]),
    ("penalty", .table [("solutions_between_updates", .int p.penalty.solutionsBetweenUpdates),
      ("penalty_increase", .float p.penalty.penaltyIncrease),
      ("penalty_decrease", .float p.penalty.penaltyDecrease),
      ("target_feasible", .float p.penalty.targetFeasible), ("feas_tolerance", .float p.penalty.feasTolerance),
      ("min_penalty", .float p.penalty.minPenalty), ("max_penalty", .float p.penalty.maxPenalty)]),
    ("neighbourhood", .table [("weight_wait_time", .float p.neighbourhood.weightWaitTime),
      ("num_neighbours", .int p.neighbourhood.numNeighbours),
      ("symmetric_proximity", .bool p.neighbourhood.symmetricProximity)]),
    ("perturbation", .table [("min_perturbations", .int p.perturbation.minPerturbations),
      ("max_perturbations", .int p.perturbation.maxPerturbations)]),
    ("operators", .strings (p.operators.map nameOf)), ("display_interval", .value (.float interval))], ?_, ?_⟩
  · refine ⟨by simp, fun name t h => ?_⟩
    simp only [List.mem_cons, Prod.mk.injEq, Entry.table.injEq, List.not_mem_nil, reduceCtorEq, and_false,
      or_false] at h
    rcases h with ⟨-, rfl⟩ | ⟨-, rfl⟩ | ⟨-, rfl⟩ | ⟨-, rfl⟩ <;> simp
  · have h1 : p.neighbourhood.numNeighbours ≤ SIZE_MAX := hsize
    have h2 : p.perturbation.minPerturbations ≤ SIZE_MAX := by
      unfold PerturbationParams.make at hper
      split at hper
      · cases hper
      · omega
    have ho := (operatorsNamed_ok (p.operators.map nameOf) p.operators).2 ⟨rfl, hops⟩
    have h1' : ((p.neighbourhood.numNeighbours : Nat) : Int) ≤ SIZE_MAX := by omega
    have h2' : ((p.perturbation.minPerturbations : Nat) : Int) ≤ SIZE_MAX := by omega
    have h3' : ((p.perturbation.maxPerturbations : Nat) : Int) ≤ SIZE_MAX := by omega
    simp only [fromFile, operators, section_, displayInterval, List.lookup_cons, bind, Except.bind,
      ilsParams, penaltyParams, neighbourhoodParams, perturbationParams, expect, argument, checked, throwIf,
      Value.asInt, Value.asBool, Value.asFloat, Value.asSize, ho, hils, hpen, hnb, hper, h1', h2', h3',
      Int.natCast_nonneg, and_self, if_true, Int.toNat_natCast, List.any_cons, List.any_nil, String.reduceBEq,
      List.contains_cons, Bool.or_true, Bool.true_or, Bool.not_true, Bool.or_false, Bool.false_or]
    simp

/-- **C65.** What is read from a file is fit for a run: `solve` does not raise because of it (C47). -/
theorem C65_usable (file : File) (hw : UniqueKeys file) (p : SolveParams) (interval : Rat)
    (h : fromFile file = .ok (p, interval)) (R : Rounding)
    (hmin : R.rnd p.penalty.minPenalty = p.penalty.minPenalty)
    (hmax : R.rnd p.penalty.maxPenalty = p.penalty.maxPenalty)
    (htarget : R.rnd p.penalty.targetFeasible = p.penalty.targetFeasible)
    (hrange : p.perturbation.maxPerturbations - p.perturbation.minPerturbations < SIZE_MAX) :
    GoodParams R p := by
  obtain ⟨⟨_, _, h1⟩, ⟨_, _, h2⟩, ⟨_, _, h3⟩, ⟨_, _, h4⟩, _, ho, _⟩ := (C65_read file hw p interval).1 h
  refine ⟨(C29_params _).2 h1.valid, (C31_params _).2 h2.valid, hmin, hmax, htarget, ?_, ?_, hrange, ?_⟩
  · unfold NeighbourhoodParams.make checked throwIf
    have := h3.valid.1
    rw [if_neg (by omega)]
  · unfold PerturbationParams.make
    have := h4.valid.1
    rw [if_neg (by omega)]
  · intro op hop
    have := ho _ hop
    cases op <;> simp_all [Provided, BinaryOp.Valid]

/-! ## Non-vacuity -/
namespace Demo

/-- The file `tests/data/test_config.toml`. -/
def configFile : File :=
  [("display_interval", .value (.float 10)), ("operators", .strings ["Relocate1", "SwapTails"]),
   ("ils", .table [("num_iters_no_improvement", .int 10), ("history_length", .int 1)]),
   ("neighbourhood", .table [("weight_wait_time", .int 0), ("num_neighbours", .int 20),
     ("symmetric_proximity", .bool true)]),
   ("perturbation", .table [("min_perturbations", .int 1), ("max_perturbations", .int 10)]),
   ("penalty", .table [("solutions_between_updates", .int 100), ("penalty_increase", .float (125 / 100)),
     ("penalty_decrease", .float (85 / 100)), ("target_feasible", .float (43 / 100))])]

/-- What this file says. -/
def configParams : SolveParams :=
  { ils := { numItersNoImprovement := 10, historyLength := 1 },
    penalty := { solutionsBetweenUpdates := 100, penaltyIncrease := 125 / 100, penaltyDecrease := 85 / 100,
                 targetFeasible := 43 / 100 },
    neighbourhood := { weightWaitTime := 0, numNeighbours := 20 },
    operators := [.binary (.relocate 1), .binary .swapTails],
    perturbation := { maxPerturbations := 10 } }

theorem configFile_unique : UniqueKeys configFile := by
  refine ⟨by decide, fun name t h => ?_⟩
  simp only [configFile, List.mem_cons, Prod.mk.injEq, Entry.table.injEq, List.not_mem_nil, reduceCtorEq,
    and_false, or_false, false_or] at h
  rcases h with ⟨-, rfl⟩ | ⟨-, rfl⟩ | ⟨-, rfl⟩ | ⟨-, rfl⟩ <;> decide

theorem configFile_says : SaysParams configFile configParams 10 where
  ils := ⟨_, .inl ⟨_, by simp [configFile]; rfl, rfl⟩, by
    refine ⟨by simp [OnlyKeys], .inl ⟨.int 10, by simp, rfl⟩, .inl ⟨.int 1, by simp, rfl⟩,
      .inr ⟨by simp, rfl⟩, by decide⟩⟩
  penalty := ⟨_, .inl ⟨_, by simp [configFile]; rfl, rfl⟩, by
    refine ⟨by simp [OnlyKeys], .inl ⟨.int 100, by simp, rfl⟩, .inl ⟨.float (125 / 100), by simp, .inl rfl⟩,
      .inl ⟨.float (85 / 100), by simp, .inl rfl⟩, .inl ⟨.float (43 / 100), by simp, .inl rfl⟩,
      .inr ⟨by simp, rfl⟩, .inr ⟨by simp, rfl⟩, .inr ⟨by simp, rfl⟩, (C31_params _).1 (by decide +kernel)⟩⟩
  neighbourhood := ⟨_, .inl ⟨_, by simp [configFile]; rfl, rfl⟩, by
    refine ⟨by simp [OnlyKeys], .inl ⟨.int 0, by simp, .inr ⟨0, rfl, rfl⟩⟩, .inl ⟨.int 20, by simp, rfl⟩,
      .inl ⟨.bool true, by simp, rfl⟩, by decide⟩⟩
  perturbation := ⟨_, .inl ⟨_, by simp [configFile]; rfl, rfl⟩, by
    refine ⟨by simp [OnlyKeys], .inl ⟨.int 1, by simp, rfl⟩, .inl ⟨.int 10, by simp, rfl⟩, by decide⟩⟩
  operators := .inl ⟨_, by simp [configFile],
    congrArg Entry.strings (show ["Relocate1", "SwapTails"] = configParams.operators.map nameOf by decide +kernel)⟩
  exist := by simp [configParams, Provided]
  interval := .inl ⟨.value (.float 10), by simp [configFile], _, rfl, .inl rfl⟩

/-- It is read, and what is read is fit for a run. -/
example : fromFile configFile = .ok (configParams, 10) ∧ GoodParams .exact configParams :=
  have h := (C65_read _ configFile_unique _ _).2 configFile_says
  ⟨h, C65_usable _ configFile_unique _ _ h _ rfl rfl rfl (by decide)⟩

/-- An empty file gives the defaults. -/
example : fromFile [] = .ok ({}, 5) := by
  refine (C65_read [] ⟨by simp, by simp⟩ {} 5).2 ?_
  have hs : ∀ name, IsSection [] name [] := fun name => .inr ⟨by simp, rfl⟩
  exact ⟨⟨[], hs _, by refine ⟨by simp [OnlyKeys], ?_, ?_, ?_, by decide⟩ <;> exact .inr ⟨by simp, rfl⟩⟩,
    ⟨[], hs _, by
      refine ⟨by simp [OnlyKeys], ?_, ?_, ?_, ?_, ?_, ?_, ?_, (C31_params _).1 (by decide +kernel)⟩ <;>
        exact .inr ⟨by simp, rfl⟩⟩,
    ⟨[], hs _, by refine ⟨by simp [OnlyKeys], ?_, ?_, ?_, by decide⟩ <;> exact .inr ⟨by simp, rfl⟩⟩,
    ⟨[], hs _, by refine ⟨by simp [OnlyKeys], ?_, ?_, by decide⟩ <;> exact .inr ⟨by simp, rfl⟩⟩,
    .inr ⟨by simp, defaultOperators_names⟩, defaultOperators_provided, .inr ⟨by simp, rfl⟩⟩

/-- A key that is not understood, a value out of range and a name that is not an operator's raise. -/
example : (ilsParams [("history", .int 5)]).toOption = none ∧ (ilsParams [("history_length", .int 0)]).toOption = none
    ∧ (operatorsNamed ["Swap11", "Swap12"]).toOption = none := by decide +kernel

/-- A section whose name is misspelt is ignored. -/
example : fromFile [("penalties", .table [("min_penalty", .int 5)])] = fromFile [] :=
  (C65_ignored [("penalties", .table [("min_penalty", .int 5)])]).symm

end Demo
end PyVRP
