import Verif.Model.LocalSearch
/-!
# Statistics of the local search

The functions of `Model/LocalSearch.lean` once more, counting what the code counts: the evaluations and
applications of each operator, from which `LocalSearch::statistics` computes its numbers. In the code
`evaluate` counts itself first of all, and so does `apply`, in each operator (for example `Swap.h` 94,
156). The search applies an operator at once when its evaluation says so, so both are counted here where
the operator is found. Each operator in the lists of the local search is an object of its own here. In
the code the same object can be added twice; its counts are then added twice.
-/
namespace PyVRP

/-- `OperatorStatistics` (`LocalSearchOperator.h` 26-30). -/
structure OpStats where
  evaluations : Nat := 0
  applications : Nat := 0
deriving DecidableEq, Repr

/-- The statistics of all operators, in the order of `unaryOps_` and `binaryOps_`. -/
structure Counts where
  unary : List OpStats
  binary : List OpStats
deriving DecidableEq, Repr

/-- `LocalSearch::Statistics` (`LocalSearch.h` 82-87). -/
structure SearchStats where
  moves : Nat
  improving : Nat
  updates : Nat
deriving DecidableEq, Repr

/-- The statistics after `init` (`LocalSearchOperator.h` 65-68, `LocalSearch.cpp` 30-34). -/
def Counts.init (unaryOps : List UnaryOp) (binaryOps : List BinaryOp) : Counts :=
  ⟨unaryOps.map (fun _ => {}), binaryOps.map (fun _ => {})⟩

/-- `LocalSearch::statistics` (`LocalSearch.cpp` 395-411), without the assertion. -/
def Counts.statistics (c : Counts) (numUpdates : Nat) : SearchStats where
  moves := (c.unary.map (·.evaluations)).sum + (c.binary.map (·.evaluations)).sum
  improving := (c.unary.map (·.applications)).sum + (c.binary.map (·.applications)).sum
  updates := numUpdates

namespace Counted

variable (data : ProblemData) (ce : CostEvaluator)

/-- `LState.findUnary`, counting (`LocalSearch.cpp` 122-125, 141). -/
def findUnary (sol : SSol) (u : Activity) :
    List UnaryOp → List OpStats → List OpStats × Option (UnaryOp × Verdict)
  | [], stats => (stats, none)
  | op :: rest, stats =>
    let s := stats.headD {}
    let verdict := op.evaluate data ce sol u
    if verdict.apply then
      (⟨s.evaluations + 1, s.applications + 1⟩ :: stats.tail, some (op, verdict))
    else
      let (restStats, found) := findUnary sol u rest stats.tail
      (⟨s.evaluations + 1, s.applications⟩ :: restStats, found)

/-- `applyUnaryOps`, counting (`LocalSearch.cpp` 119-163). -/
def applyUnaryOps (ops : List UnaryOp) (c : Counts) (st : LState) (u : Activity) :
    Except Error (Counts × LState × Bool) :=
  let (stats, found) := findUnary data ce st.sol u ops c.unary
  let c := { c with unary := stats }
  match found with
  | none => .ok (c, st, false)
  | some (op, verdict) =>
    let node := st.sol.place u
    let st := LState.markIf st node
    match op.apply data st.sol u verdict.move with
    | .error e => .error e
    | .ok sol =>
      let st := { st with sol := sol }
      match node with
      | some (idx, _) => .ok (c, LState.update data st (some idx) idx, true)
      | none =>
        match st.sol.place u with
        | none => .error (.runtimeError "")
        | some node => .ok (c, LState.update data (LState.mark st node) (some node.1) node.1, true)

/-- `LState.findBinary`, counting (`LocalSearch.cpp` 169-172, 191). -/
def findBinary (sol : SSol) (u : Activity) (v : NodeRef) :
    List (BinaryOp × Cache) → List OpStats →
      List OpStats × List (BinaryOp × Cache) × Option (BinaryOp × Verdict)
  | [], stats => (stats, [], none)
  | (op, cache) :: rest, stats =>
    let s := stats.headD {}
    let (verdict, cache) := op.evaluate data ce sol cache u v
    if verdict.apply then
      (⟨s.evaluations + 1, s.applications + 1⟩ :: stats.tail, (op, cache) :: rest, some (op, verdict))
    else
      let (restStats, rest, found) := findBinary sol u v rest stats.tail
      (⟨s.evaluations + 1, s.applications⟩ :: restStats, (op, cache) :: rest, found)

/-- `applyBinaryOps`, counting (`LocalSearch.cpp` 165-209). -/
def applyBinaryOps (c : Counts) (st : LState) (u : Activity) (v : NodeRef) :
    Except Error (Counts × LState × Bool) :=
  let (stats, binary, found) := findBinary data ce st.sol u v st.binary c.binary
  let c := { c with binary := stats }
  let st := { st with binary := binary }
  match found with
  | none => .ok (c, st, false)
  | some (op, verdict) =>
    let rU := st.sol.place u
    match st.sol.find v with
    | none => .error (.runtimeError "")
    | some rV =>
      let st := LState.mark (LState.markIf st rU) rV
      match op.apply data st.sol u v verdict.move with
      | .error e => .error e
      | .ok sol => .ok (c, LState.update data { st with sol := sol } (rU.map (·.1)) rV.1, true)

/-- The body of the loop over neighbours, counting (`LocalSearch.cpp` 81-103). -/
def testNeighbour (lastTest : Int) (c : Counts) (st : LState) (u v : Activity) :
    Except Error (Counts × LState) :=
  match st.sol.place v with
  | none => .ok (c, st)
  | some (idx, pos) =>
    if LState.updateOf st (st.sol.place u) > lastTest
        || decide (LState.updateOf st (some (idx, pos)) > lastTest) then
      match applyBinaryOps data ce c st u (.task v) with
      | .error e => .error e
      | .ok (c, st, true) => .ok (c, st)
      | .ok (c, st, false) =>
        if ((st.sol.route idx).node (pos - 1)).isStartDepot then
          match applyBinaryOps data ce c st u (.start idx) with
          | .error e => .error e
          | .ok (c, st, _) => .ok (c, st)
        else .ok (c, st)
    else .ok (c, st)

/-- The loop over neighbours, counting (`LocalSearch.cpp` 81-103). -/
def testNeighbours (lastTest : Int) (u : Activity) (c : Counts) (st : LState) :
    List Activity → Except Error (Counts × LState)
  | [] => .ok (c, st)
  | v :: rest =>
    match testNeighbour data ce lastTest c st u v with
    | .error e => .error e
    | .ok (c, st) => testNeighbours lastTest u c st rest

/-- `applyEmptyRouteMoves`, counting (`LocalSearch.cpp` 211-228). -/
def applyEmptyRouteMoves (u : Activity) (c : Counts) (st : LState) :
    List (Nat × Nat) → Except Error (Counts × LState)
  | [] => .ok (c, st)
  | (vehType, offset) :: rest =>
    match st.sol.firstEmpty data vehType offset with
    | none => applyEmptyRouteMoves u c st rest
    | some idx =>
      match applyBinaryOps data ce c st u (.start idx) with
      | .error e => .error e
      | .ok (c, st, true) => .ok (c, st)
      | .ok (c, st, false) => applyEmptyRouteMoves u c st rest

/-- The body of the loop over activities, counting (`LocalSearch.cpp` 66-106). -/
def testActivity (ops : List UnaryOp) (c : Counts) (st : LState) (u : Activity) :
    Except Error (Counts × LState) :=
  if !st.space.isPromising u then .ok (c, st)
  else
    let idx := LState.testIdx data u
    let lastTest := st.lastTest.getD idx 0
    let st := { st with lastTest := st.lastTest.set idx st.numUpdates }
    match applyUnaryOps data ce ops c st u with
    | .error e => .error e
    | .ok (c, st, _) =>
      match st.space.neighboursOf u with
      | .error e => .error e
      | .ok neighbours =>
        match testNeighbours data ce lastTest u c st neighbours with
        | .error e => .error e
        | .ok (c, st) => applyEmptyRouteMoves data ce u c st st.space.vehTypeOrder

/-- The loop over activities, counting (`LocalSearch.cpp` 64-107). -/
def testAll (ops : List UnaryOp) (c : Counts) (st : LState) :
    List Activity → Except Error (Counts × LState)
  | [] => .ok (c, st)
  | u :: rest =>
    match testActivity data ce ops c st u with
    | .error e => .error e
    | .ok (c, st) => testAll ops c st rest

/-- The outer loop of `search`, counting (`LocalSearch.cpp` 58-107). -/
def searchLoop (ops : List UnaryOp) : Nat → Counts → LState → Except Error (Option (Counts × LState))
  | 0, c, st => .ok (if st.completed then some (c, st) else none)
  | fuel + 1, c, st =>
    if st.completed then .ok (some (c, st))
    else
      match testAll data ce ops c { st with completed := true } st.space.activityOrder with
      | .error e => .error e
      | .ok (c, st) => searchLoop ops fuel c st

/-- `search`, counting (`LocalSearch.cpp` 54-108). -/
def search (ops : List UnaryOp) (fuel : Nat) (c : Counts) (st : LState) :
    Except Error (Option (Counts × LState)) :=
  if ops.isEmpty && st.binary.isEmpty then .ok (some (c, st))
  else searchLoop data ce ops fuel c { st with completed := false }

/-- `operator()`, counting (`LocalSearch.cpp` 17-52): the solution, the local search afterwards, the
statistics of its operators, and its own. -/
def run (ls : LocalSearch) (solution : Solution) (exhaustive : Bool) (fuel : Nat) :
    Except Error (Option (Solution × LocalSearch × Counts × SearchStats)) :=
  match ls.prepare data ce solution exhaustive with
  | .error e => .error e
  | .ok st =>
    match search data ce ls.unaryOps fuel (Counts.init ls.unaryOps ls.binaryOps) st with
    | .error e => .error e
    | .ok none => .ok none
    | .ok (some (c, st)) =>
      match st.sol.unload data with
      | .error e => .error e
      | .ok solution =>
        .ok (some (solution, { ls with space := st.space, sol := st.sol }, c, c.statistics st.numUpdates))

end Counted
end PyVRP
