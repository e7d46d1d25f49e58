import Verif.Model.SearchInsert
/-!
# `pyvrp/cpp/search/PerturbationManager.cpp`
-/
namespace PyVRP

/-- `PerturbationParams` (`PerturbationManager.h` 13-36). -/
structure PerturbationParams where
  minPerturbations : Nat := 1
  maxPerturbations : Nat := 25
deriving DecidableEq, Repr

/-- The constructor of `PerturbationParams` (`PerturbationManager.cpp` 14-21). -/
def PerturbationParams.make (a : PerturbationParams) : Except Error PerturbationParams :=
  if a.minPerturbations > a.maxPerturbations then
    .error (.invalidArgument "min_perturbations must be <= max_perturbations.")
  else .ok a

/-- `PerturbationManager` (`PerturbationManager.h` 50-58). -/
structure PerturbationManager where
  params : PerturbationParams
  numPerturbations : Nat
deriving DecidableEq, Repr

namespace PerturbationManager

/-- The constructor (`PerturbationManager.cpp` 23-26). -/
def new (params : PerturbationParams) : PerturbationManager :=
  { params := params, numPerturbations := params.minPerturbations }

/-- `shuffle(rng)` (`PerturbationManager.cpp` 33-37). The numbers are of type `size_t`, so `range + 1`
is 0 when `range` is the largest number. A remainder modulo 0 is undefined behaviour then; in the model
it is the number itself. -/
def shuffle {σ : Type} (next : σ → Nat × σ) (rng : σ) (m : PerturbationManager) :
    PerturbationManager × σ :=
  let range := m.params.maxPerturbations - m.params.minPerturbations
  let (x, rng) := next rng
  ({ m with numPerturbations := m.params.minPerturbations + randint x ((range + 1) % 18446744073709551616) }, rng)

/-- The solution and the search space that `perturb` changes. -/
structure State where
  sol : SSol
  space : SearchSpace

/-- The lambda `insert` of `perturb` (`PerturbationManager.cpp` 50-74). -/
def insert (data : ProblemData) (ce : CostEvaluator) (st : State) (a : Activity) :
    Except Error State :=
  if a.isClient then
    match st.sol.insertClient data ce st.space a.idx true with
    | .error e => .error e
    | .ok (sol, _) =>
      match sol.place a with
      | none => .error (.runtimeError "")  -- null pointer: the client is not in a route
      | some (idx, pos) =>
        let sol := sol.updateRoute data idx
        .ok ⟨sol, st.space.markPromisingNode (sol.route idx) pos⟩
  else
    match st.sol.insertShipment data ce st.space a.idx true with
    | .error e => .error e
    | .ok (sol, _) =>
      match sol.place ⟨.pickup, a.idx⟩, sol.place ⟨.delivery, a.idx⟩ with
      | some (idx, pos), some (idx', pos') =>
        let sol := sol.updateRoute data idx
        let space := st.space.markPromisingNode (sol.route idx) pos
        .ok ⟨sol, space.markPromisingNode (sol.route idx') pos'⟩
      | _, _ => .error (.runtimeError "")  -- null pointer

/-- The lambda `remove` of `perturb` (`PerturbationManager.cpp` 76-96). -/
def remove (data : ProblemData) (st : State) (a : Activity) : Except Error State :=
  match st.sol.place a with
  | none => .error (.runtimeError "")  -- null pointer
  | some (idx, pos) =>
    let space := st.space.markPromisingNode (st.sol.route idx) pos
    let sol := st.sol.removeAt idx pos
    if a.isPickup then
      match sol.place ⟨.delivery, a.idx⟩ with
      | none => .error (.runtimeError "")  -- null pointer
      | some (idx', pos') =>
        let space := space.markPromisingNode (sol.route idx') pos'
        let sol := sol.removeAt idx pos'
        .ok ⟨sol.updateRoute data idx, space⟩
    else .ok ⟨sol.updateRoute data idx, space⟩

/-- Groups of nodes by route, see the lambda `group` (`PerturbationManager.cpp` 101): `none` for
clients and shipments that are in no route. -/
abbrev Groups := List (Option Nat × List Activity)

/-- The second half of the lambda `group` (`PerturbationManager.cpp` 116-123). -/
def addToGroup (route : Option Nat) (a : Activity) : Groups → Groups
  | [] => [(route, [a])]
  | (r, nodes) :: rest =>
    if r = route then (r, nodes ++ [a]) :: rest else (r, nodes) :: addToGroup route a rest

/-- The lambda `group` (`PerturbationManager.cpp` 102-124). -/
def group (s : SSol) (perturbed : Bitset) (groups : Groups) (a : Activity) : Bitset × Groups :=
  let idx := if a.isClient then a.idx else s.clients.length + a.idx
  if perturbed.get idx then (perturbed, groups)
  else (perturbed.put idx true, addToGroup (s.owner a) a groups)

/-- The loop over neighbours (`PerturbationManager.cpp` 137-141). -/
def groupAll (s : SSol) (perturbed : Bitset) (groups : Groups) : List Activity → Bitset × Groups
  | [] => (perturbed, groups)
  | v :: rest =>
    let (perturbed, groups) :=
      group s perturbed groups (if v.isDelivery then ⟨.pickup, v.idx⟩ else v)
    groupAll s perturbed groups rest

/-- The loop over the nodes of one group (`PerturbationManager.cpp` 144-154): the new state, and
`movesLeft`. It returns from `perturb` when no moves are left. -/
def applyNodes (data : ProblemData) (ce : CostEvaluator) (route : Option Nat) (st : State) :
    Nat → List Activity → Except Error (State × Nat)
  | 0, _ => .ok (st, 0)
  | movesLeft, [] => .ok (st, movesLeft)
  | movesLeft + 1, a :: rest =>
    match if route.isSome then remove data st a else insert data ce st a with
    | .error e => .error e
    | .ok st => applyNodes data ce route st movesLeft rest

/-- The loop over groups (`PerturbationManager.cpp` 143-154). -/
def applyGroups (data : ProblemData) (ce : CostEvaluator) (st : State) (movesLeft : Nat) :
    Groups → Except Error (State × Nat)
  | [] => .ok (st, movesLeft)
  | (route, nodes) :: rest =>
    match applyNodes data ce route st movesLeft nodes with
    | .error e => .error e
    | .ok (st, movesLeft) => applyGroups data ce st movesLeft rest

/-- The outer loop of `perturb` (`PerturbationManager.cpp` 129-155). -/
def perturbLoop (data : ProblemData) (ce : CostEvaluator) (st : State) (perturbed : Bitset) :
    Nat → List Activity → Except Error State
  | 0, _ => .ok st
  | _, [] => .ok st
  | movesLeft, u :: rest =>
    let (perturbed, groups) := group st.sol perturbed [] u
    match st.space.neighboursOf u with
    | .error e => .error e
    | .ok neighbours =>
      let (perturbed, groups) := groupAll st.sol perturbed groups neighbours
      match applyGroups data ce st movesLeft groups with
      | .error e => .error e
      | .ok (st, movesLeft) => perturbLoop data ce st perturbed movesLeft rest

/-- `perturb(solution, searchSpace, costEvaluator)` (`PerturbationManager.cpp` 39-156). -/
def perturb (data : ProblemData) (ce : CostEvaluator) (m : PerturbationManager) (sol : SSol)
    (space : SearchSpace) : Except Error State :=
  if m.numPerturbations = 0 then .ok ⟨sol, space⟩
  else
    let space := space.unmarkAllPromising
    perturbLoop data ce ⟨sol, space⟩ (Bitset.new (sol.clients.length + sol.shipments.length))
      m.numPerturbations space.activityOrder

end PerturbationManager
end PyVRP
