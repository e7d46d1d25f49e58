import Verif.Props.C25
import Verif.Props.C48
import Verif.Lemmas.Prepared
/-!
# C49: what the local search returns is locally optimal
-/
namespace PyVRP
open Spec
open SSol (ofActs_empty)

/-! ## Specification -/

namespace Spec

/-- Vehicle `j` is the first one of type `t` that visits no clients and does no shipments. -/
structure FirstUnused (data : ProblemData) (plan : List (List Activity)) (t j : Nat) : Prop where
  lower : vehiclesBefore data t ≤ j
  upper : j < vehiclesBefore data t + (data.vehicleType t).numAvailable
  unused : ∀ a ∈ plan.getD j [], a.type = .depot
  first : ∀ k, vehiclesBefore data t ≤ k → k < j → ∃ a ∈ plan.getD k [], a.type ≠ .depot

/-- Nodes that a task `u` with neighbours `ns` may be moved after. -/
inductive Candidate (ns : List Activity) (plan : List (List Activity)) : NodeRef → Prop
  /-- A neighbour that is visited. -/
  | neighbour {j : Nat} {v : Activity} (hv : v ∈ ns) (h : v ∈ plan.getD j []) : Candidate ns plan (.task v)
  /-- The start of a route whose first visit is a neighbour. -/
  | start {j : Nat} {v : Activity} {rest : List Activity} (hv : v ∈ ns) (h : plan.getD j [] = v :: rest) :
      Candidate ns plan (.start j)

/-- No state that a move may lead to is cheaper. -/
def NoneCheaper (data : ProblemData) (ce : CostEvaluator) (s : SSol) (move : List (List Activity) → Prop) :
    Prop :=
  ∀ plan' s', move plan' → SearchState data plan' s' →
    ce.penalisedCostSSol data s ≤ ce.penalisedCostSSol data s'

/-- No move of task `u` improves: with no operator on one node, and with no operator on two nodes where
the other node is the start of an unused vehicle, or one of those in `after`. -/
structure Unimprovable (data : ProblemData) (ce : CostEvaluator) (unaryOps : List UnaryOp)
    (binaryOps : List BinaryOp) (plan : List (List Activity)) (s : SSol) (u : Activity)
    (after : NodeRef → Prop) : Prop where
  unary : ∀ op ∈ unaryOps, NoneCheaper data ce s (UnaryMove data plan op u)
  /-- Reload depots that are of no use are gone. -/
  depots : UnaryOp.removeAdjacentDepot ∈ unaryOps →
    ∀ plan' s', UnaryMove data plan .removeAdjacentDepot u plan' → SearchState data plan' s' →
    ce.penalisedCostSSol data s < ce.penalisedCostSSol data s'
  empty : ∀ op ∈ binaryOps, ∀ t < data.numVehicleTypes, ∀ j, FirstUnused data plan t j →
    NoneCheaper data ce s (BinaryMove data plan op u (.start j))
  binary : ∀ op ∈ binaryOps, ∀ v, after v → NoneCheaper data ce s (BinaryMove data plan op u v)

end Spec

/-! ## Lemmas -/

section
variable {data : ProblemData} {ce : CostEvaluator}

theorem Spec.Exact.fitsAll {I : List (List Activity) → Prop} (he : Exact data ce I)
    {plan plan' : List (List Activity)} (hI : I plan) (hn : reloads plan' ≤ reloads plan + 1) {s : SSol}
    (h : SearchOk data plan' s) : FitsAll data plan' := by
  intro k hk _ hu
  refine he.fits plan hI k hk _ (h.routes k hk) ?_ hu (Nat.le_trans (depotVisits_le_reloads plan' k) hn)
  intro a ha
  exact h.clean.1.once a ha k

theorem SearchOk.empty_iff {plan : List (List Activity)} {s : SSol} (h : SearchOk data plan s) {k : Nat}
    (hk : k < data.numVehicles) : (s.route k).empty = true ↔ ∀ a ∈ plan.getD k [], a.type = .depot := by
  rw [h.route hk, ofActs_empty (h.routes k hk).wellFormed]
  simp [SSol.used]

theorem SearchOk.firstEmpty {plan : List (List Activity)} {s : SSol} (h : SearchOk data plan s) {t j : Nat}
    (ht : t < data.numVehicleTypes) (hj : FirstUnused data plan t j) :
    s.firstEmpty data t (vehiclesBefore data t) = some j := by
  have hlt : ∀ k, vehiclesBefore data t ≤ k →
      k < vehiclesBefore data t + (data.vehicleType t).numAvailable → k < data.numVehicles := by
    intro k h1 h2
    have := vehTypeAt_block data (t := t) (k := k - vehiclesBefore data t) ht (by omega)
    rw [show vehiclesBefore data t + (k - vehiclesBefore data t) = k by omega] at this
    exact this.2
  unfold SSol.firstEmpty
  rw [List.find?_range'_eq_some]
  refine ⟨(h.empty_iff (hlt j hj.lower hj.upper)).2 hj.unused, ?_, ?_⟩
  · rw [List.mem_range'_1]; exact ⟨hj.lower, hj.upper⟩
  · intro k h1 h2
    obtain ⟨a, ha, hty⟩ := hj.first k h1 h2
    cases he : (s.route k).empty with
    | false => rfl
    | true =>
      have := hj.upper
      exact absurd ((h.empty_iff (hlt k h1 (by omega))).1 he a ha) hty

theorem Spec.WithDepot.depotVisits_le {u : Activity} {depot : Nat} {ws block : List Activity}
    (h : WithDepot u depot ws block) : depotVisits block ≤ depotVisits [u] + 1 := by
  rcases h with rfl | ⟨rfl, -⟩ <;> count_depots

/-- A move adds at most one visit to a reload depot. -/
theorem Spec.BinaryMove.near {plan plan' : List (List Activity)} (hl : plan.length = data.numVehicles)
    {op : BinaryOp} {u : Activity} {v : NodeRef} (h : BinaryMove data plan op u v plan') :
    reloads plan' ≤ reloads plan + 1 := by
  cases h with
  | relocate hi hj hij hU hV => exact near_set2 hij (hl ▸ hi) (hl ▸ hj) (by rw [hU, hV]; count_depots)
  | relocateLater hi hU => exact near_set (hl ▸ hi) (by rw [hU]; count_depots)
  | relocateEarlier hi hU => exact near_set (hl ▸ hi) (by rw [hU]; count_depots)
  | swap hi hj hij hU hV => exact near_set2 hij (hl ▸ hi) (hl ▸ hj) (by rw [hU, hV]; count_depots)
  | swapLater hi hU => exact near_set (hl ▸ hi) (by rw [hU]; count_depots)
  | swapEarlier hi hU => exact near_set (hl ▸ hi) (by rw [hU]; count_depots)
  | swapTails hi hj hij hU hV =>
    exact near_set2 (by omega) (hl ▸ hi) (hl ▸ hj) (by rw [hU, hV]; count_depots)
  | relocateWithDepot hi hj hij hU hV hu hv hw hused hdepot hblock =>
    have := hblock.depotVisits_le
    exact near_set2 hij (hl ▸ hi) (hl ▸ hj) (by
      rw [hU, hV]; simp only [depotVisits_append] at *; omega)
  | relocateWithDepotLater hi hU hu hv hw hne hms hdepot hblock =>
    have := hblock.depotVisits_le
    exact near_set (hl ▸ hi) (by rw [hU]; simp only [depotVisits_append] at *; omega)
  | relocateWithDepotEarlier hi hU hu hv hw hne hms hdepot hblock =>
    have := hblock.depotVisits_le
    exact near_set (hl ▸ hi) (by rw [hU]; simp only [depotVisits_append] at *; omega)
  | relocateAlternative hi hj hij hU hV =>
    exact near_set2 hij (hl ▸ hi) (hl ▸ hj) (by rw [hU, hV]; count_depots)
  | relocateAlternativeLater hi hU => exact near_set (hl ▸ hi) (by rw [hU]; count_depots)
  | relocateAlternativeEarlier hi hU => exact near_set (hl ▸ hi) (by rw [hU]; count_depots)
  | insertOptionalClient hj hV hu =>
    exact near_set (hl ▸ hj) (by rw [hV]; simp [depotVisits_append, depotVisits_cons, hu])
  | replaceOptionalClient hj hV hu =>
    exact near_set (hl ▸ hj) (by rw [hV]; simp [depotVisits_append, depotVisits_cons, hu] <;> omega)
  | insertOptionalShipment hj hV hu =>
    exact near_set (hl ▸ hj) (by rw [hV]; simp [depotVisits_append, depotVisits_cons, hu])
  | replaceOptionalShipment hj hV hu =>
    exact near_set (hl ▸ hj) (by rw [hV]; simp [depotVisits_append, depotVisits_cons, hu])
  | relocateShipment hi hj hij hu hU hV =>
    exact near_set2 hij (hl ▸ hi) (hl ▸ hj) (by rw [hU, hV]; count_depots)

theorem Spec.UnaryMove.near {plan plan' : List (List Activity)} (hl : plan.length = data.numVehicles)
    {op : UnaryOp} {u : Activity} (h : UnaryMove data plan op u plan') :
    reloads plan' ≤ reloads plan + 1 := by
  cases h with
  | removePreviousDepot hi hU => exact near_set (hl ▸ hi) (by rw [hU]; count_depots)
  | removeNextDepot hi hU => exact near_set (hl ▸ hi) (by rw [hU]; count_depots)
  | removeOptionalClient hi hU => exact near_set (hl ▸ hi) (by rw [hU]; count_depots)
  | replaceGroup hj hV hu =>
    exact near_set (hl ▸ hj) (by rw [hV]; simp [depotVisits_append, depotVisits_cons, hu])
  | removeOptionalShipment hi hu hU => exact near_set (hl ▸ hi) (by rw [hU]; count_depots)
  | relocatePickup hi hu hU hnew =>
    have := congrArg depotVisits hnew
    exact near_set (hl ▸ hi) (by rw [hU]; simp only [depotVisits_append] at *; omega)
  | relocateDelivery hi hu hU hnew =>
    have := congrArg depotVisits hnew
    exact near_set (hl ▸ hi) (by rw [hU]; simp only [depotVisits_append] at *; omega)

theorem LState.Silent.noneCheaper {I : List (List Activity) → Prop} (he : Exact data ce I)
    {plan : List (List Activity)} {s : SSol} (hI : I plan)
    (h : SearchOk data plan s) (hex : Exclusive data plan) {ops : List BinaryOp} {u : Activity}
    (hu : u ∈ allTasks data) {v : NodeRef} (hs : LState.Silent data ce ops s u v) {op : BinaryOp}
    (hop : op ∈ ops) : NoneCheaper data ce s (BinaryMove data plan op u v) := by
  intro plan' s' hm h'
  rw [planCost_eq h.clean, planCost_eq h'.clean]
  refine Int.not_lt.1 fun hlt => ?_
  have := BinaryOp.found ((C37_accepts_exactly_consistent data data).1 he.cost.good.made).2 hex h h'.ok
    he.cost (he.fitsAll hI (hm.near h.clean.1.length) h'.ok) hu (BinaryOp.init_ok op data ce s) hlt hm
  rw [hs op hop] at this
  cases this

theorem optimal_of_quiet {I : List (List Activity) → Prop} (he : Exact data ce I)
    {plan : List (List Activity)} {s : SSol} (hI : I plan) (h : SearchOk data plan s) (hex : Exclusive data plan) {unary : List UnaryOp} {binary : List BinaryOp}
    {order : List (Nat × Nat)}
    (ho : order.Perm ((List.range data.vehicleTypes.length).map (fun vt => (vt, vehiclesBefore data vt))))
    {u : Activity} (hu : u ∈ allTasks data)
    (h1 : ∀ op ∈ unary, (op.evaluate data ce s u).apply = false)
    (h2 : LState.NoEmpty data ce binary s u order) {after : NodeRef → Prop}
    (h3 : ∀ v, after v → LState.Silent data ce binary s u v) :
    Unimprovable data ce unary binary plan s u after := by
  have hd : Consistent data := ((C37_accepts_exactly_consistent data data).1 he.cost.good.made).2
  refine ⟨fun op hop plan' s' hm h' => ?_, fun hop plan' s' hm h' => ?_, fun op hop t ht j hj => ?_,
    fun op hop v hv => (h3 v hv).noneCheaper he hI h hex hu hop⟩
  · rw [planCost_eq h.clean, planCost_eq h'.clean]
    refine Int.not_lt.1 fun hlt => ?_
    have := UnaryOp.found hd hex h h'.ok he.cost (he.fitsAll hI (hm.near h.clean.1.length) h'.ok) (.inl hlt) hm
    rw [h1 op hop] at this
    cases this
  · rw [planCost_eq h.clean, planCost_eq h'.clean]
    refine Int.not_le.1 fun hle => ?_
    have := UnaryOp.found hd hex h h'.ok he.cost (he.fitsAll hI (hm.near h.clean.1.length) h'.ok) (.inr ⟨rfl, hle⟩) hm
    rw [h1 _ hop] at this
    cases this
  · refine (h2 (t, vehiclesBefore data t) ?_ j (h.firstEmpty ht hj)).noneCheaper he hI h hex hu hop
    rw [ho.mem_iff, List.mem_map]
    exact ⟨t, List.mem_range.2 ht, rfl⟩

theorem candidate_of_quiet {plan : List (List Activity)} {s : SSol} (h : SearchOk data plan s)
    {u : Activity} {ns : List Activity} {ops : List BinaryOp} (hns : ∀ v ∈ ns, v.type ≠ .depot)
    (hq : LState.QuietAll data ce ops s u ns) {v : NodeRef} (hv : Candidate ns plan v) :
    LState.Silent data ce ops s u v := by
  cases hv with
  | @neighbour j v hv hm =>
    obtain ⟨xs, ys, e⟩ := List.append_of_mem hm
    exact (hq v hv j _ (h.clean.1.place (h.clean.1.lt_of_mem hm) (hns v hv) e)).1
  | @start j v rest hv e =>
    have hp := h.clean.1.place (h.clean.1.lt_of_mem (i := j) (a := v) (by rw [e]; simp)) (hns v hv) (xs := []) e
    refine (hq v hv j _ hp).2 ?_
    have hj := (h.clean.1.place_some hp).1
    rw [h.route hj]
    rfl

theorem Spec.Improving.improves {s s' : SSol} : ∀ {n : Nat}, Improving data ce s n s' → 0 < n →
    Improves data ce s s'
  | n + 1, .move h better, _ => by
    cases n with
    | zero => cases h; exact better
    | succ n =>
      have := h.improves (Nat.succ_pos n)
      unfold Improves at *
      omega

end

/-- What an exhaustive search leads to. -/
theorem run_optimal {data : ProblemData} {ce : CostEvaluator} {I : List (List Activity) → Prop}
    (he : Exact data ce I) (hmem : ∀ plan s, I plan → SearchOk data plan s → InMemory s)
    (hrel : ∀ v ∈ data.vehicleTypes, v.maxReloads ≤ SIZE_MAX)
    (hn : ∀ g ∈ data.groups, g.clients.Nodup) {ls : LocalSearch}
    (hls : SearchHistory data ls) {sol sol' : Solution} (hsol : Accepted data sol) {fuel : Nat}
    {ls' : LocalSearch} (hr : ls.run data ce sol true fuel = .ok (some (sol', ls')))
    (hI : ∀ plan st, ls.prepare data ce sol true = .ok st → SearchOk data plan st.sol → I plan) :
    ∃ st, ls.prepare data ce sol true = .ok st
      ∧ (sol.isComplete = true → ce.penalisedCost sol = ce.penalisedCostSSol data st.sol)
      ∧ (∃ n, Improving data ce st.sol n ls'.sol) ∧ ∃ plan, SearchState data plan ls'.sol
      ∧ SSol.unload data ls'.sol = .ok sol'
      ∧ ce.penalisedCost sol' = ce.penalisedCostSSol data ls'.sol
      ∧ ∀ u ∈ allTasks data, ∀ ns, ls.space.neighboursOf u = .ok ns →
        Unimprovable data ce ls.unaryOps ls.binaryOps plan ls'.sol u
          (fun v => ((∃ acts ∈ plan, u ∈ acts) ∨ ¬ Improves data ce st.sol ls'.sol) ∧ Candidate ns plan v) := by
  have hc := he.cost
  have hready := hls.ready hc.good hc.good.hasVehicle hn
  unfold LocalSearch.run at hr
  split at hr
  · cases hr
  · rename_i st e
    split at hr
    · cases hr
    · cases hr
    · rename_i st' e2
      split at hr
      · cases hr
      · rename_i sol'' e3
        injection hr with hr; injection hr with hr; injection hr with h3 h4
        subst h3; subst h4
        obtain ⟨plan0, plan, ok, run, hN, hT, hsame, hq⟩ :=
          LocalSearch.search_optimal hc.good hc.good.hasVehicle hn hready hsol e e2
        have hI := hI plan0 st e ok.sol
        have hI' : I plan := by
          obtain ⟨n, steps, -⟩ := run.steps
          exact (steps.keeps he ok.sol hI).1
        obtain ⟨sol3, hu3, -, -, hcost⟩ := unload_result hc.good hrel hn run.ok.sol run.ok.exclusive
          (hmem plan _ hI' run.ok.sol)
        rw [e3] at hu3
        injection hu3 with hu3
        subst hu3
        refine ⟨st, e, fun hcomp => by rw [hsame rfl hcomp, planCost_eq ok.sol.clean], ?_, plan, run.ok.sol.state hrel, e3, ?_, fun u hu ns hns => ?_⟩
        · obtain ⟨n, steps, -⟩ := run.steps
          exact ⟨n, (steps.improving ok.sol he hI).2⟩
        · rw [hcost, planCost_eq run.ok.sol.clean]
        · obtain ⟨q1, q2, q3⟩ := hq rfl u hu
          refine optimal_of_quiet he hI' run.ok.sol run.ok.exclusive
            (hls.types hc.good hc.good.hasVehicle hn) hu q1 q2 fun v hv => ?_
          refine candidate_of_quiet run.ok.sol ?_ (q3 ?_ ns hns) hv.2
          · intro w hw
            obtain ⟨ns', h1, h2⟩ := hready.space.neighbours u hu
            rw [hns] at h1
            injection h1 with h1
            subst h1
            exact (h2 w hw).1
          · rcases hv.1 with ⟨acts, hacts, hm⟩ | hno
            · left
              obtain ⟨j, hj, rfl⟩ := List.mem_iff_getElem.1 hacts
              obtain ⟨xs, ys, e⟩ := List.append_of_mem hm
              refine ⟨_, run.ok.sol.clean.1.place (a := u) (i := j) (xs := xs) (ys := ys) ?_
                (allTasks_task hu).1 ?_⟩
              · rw [← run.ok.sol.clean.1.length]; exact hj
              · rw [List.getD_eq_getElem?_getD, List.getElem?_eq_getElem hj]; exact e
            · right
              obtain ⟨n, steps, hnum⟩ := run.steps
              have := (steps.improving ok.sol he hI).2
              by_cases h0 : n = 0
              · omega
              · exact absurd (this.improves (by omega)) hno

/-! ## Theorems -/

/-- **C49, partial.** What an exhaustive search returns is locally optimal. No move of an operator that was
added lowers its penalised cost, with

- any client or pickup, and a route of which it is the first one of its type that is not used; and
- any client or pickup that is visited, and after one of its neighbours that are visited, or at the start
  of a route that begins with one.

Partial: for clients and shipments that are not visited, the second part is only so if the search found
nothing to improve, see `C49_again_partial`. In general it is false, see `C49_negation`. The moves of an
operator are those of `BinaryMove` and `UnaryMove`, see C48, and routes must be evaluated exactly, see
`Moderate`. -/
theorem C49_optimal_partial (data : ProblemData) (ce : CostEvaluator) (hc : CostOk data ce) (B : Nat)
    (hB : Moderate data B) (hrel : ∀ v ∈ data.vehicleTypes, v.maxReloads ≤ SIZE_MAX)
    (hn : ∀ g ∈ data.groups, g.clients.Nodup) (ls : LocalSearch)
    (hls : SearchHistory data ls) (sol : Solution) (hsol : Accepted data sol) (fuel : Nat)
    (sol' : Solution) (ls' : LocalSearch)
    (hr : ls.run data ce sol true fuel = .ok (some (sol', ls'))) :
    ∃ plan, SearchState data plan ls'.sol ∧ SSol.unload data ls'.sol = .ok sol'
      ∧ ce.penalisedCost sol' = ce.penalisedCostSSol data ls'.sol
      ∧ ∀ u ∈ allTasks data, ∀ ns, ls.space.neighboursOf u = .ok ns →
        Unimprovable data ce ls.unaryOps ls.binaryOps plan ls'.sol u
          (fun v => (∃ acts ∈ plan, u ∈ acts) ∧ Candidate ns plan v) := by
  obtain ⟨st, -, -, -, plan, h1, h2, h3, h4⟩ := run_optimal (hB.exact hc)
    (fun _ _ _ hs => hB.fits.inMemory hs) hrel hn hls hsol hr (fun _ _ _ _ => trivial)
  refine ⟨plan, h1, h2, h3, fun u hu ns hns => ?_⟩
  obtain ⟨a1, a2, a3, a4⟩ := h4 u hu ns hns
  exact ⟨a1, a2, a3, fun op hop v hv => a4 op hop v ⟨.inl hv.1, hv.2⟩⟩

/-- **C49, partial.** If an exhaustive search finds nothing to improve then there is nothing to improve:
no move of an operator that was added lowers the penalised cost, with any client or pickup and after
one of its neighbours that are visited, and as above. What it returns then costs as much as the given
solution if that is complete. Partial: the moves are those of C48, see above. -/
theorem C49_again_partial (data : ProblemData) (ce : CostEvaluator) (hc : CostOk data ce) (B : Nat)
    (hB : Moderate data B) (hrel : ∀ v ∈ data.vehicleTypes, v.maxReloads ≤ SIZE_MAX)
    (hn : ∀ g ∈ data.groups, g.clients.Nodup) (ls : LocalSearch)
    (hls : SearchHistory data ls) (sol : Solution) (hsol : Accepted data sol) (fuel : Nat)
    (sol' : Solution) (ls' : LocalSearch)
    (hr : ls.run data ce sol true fuel = .ok (some (sol', ls'))) (st : LState)
    (hst : ls.prepare data ce sol true = .ok st) (hno : ¬ Improves data ce st.sol ls'.sol) :
    (sol.isComplete = true → ce.penalisedCost sol = ce.penalisedCost sol')
    ∧ ∃ plan, SearchState data plan ls'.sol ∧ SSol.unload data ls'.sol = .ok sol'
      ∧ ce.penalisedCost sol' = ce.penalisedCostSSol data ls'.sol
      ∧ ∀ u ∈ allTasks data, ∀ ns, ls.space.neighboursOf u = .ok ns →
        Unimprovable data ce ls.unaryOps ls.binaryOps plan ls'.sol u (Candidate ns plan) := by
  obtain ⟨st1, e, h0, ⟨n, hi⟩, plan, h1, h2, h3, h4⟩ := run_optimal (hB.exact hc)
    (fun _ _ _ hs => hB.fits.inMemory hs) hrel hn hls hsol hr (fun _ _ _ _ => trivial)
  rw [hst] at e
  injection e with e
  subst e
  refine ⟨fun hcomp => ?_, plan, h1, h2, h3, fun u hu ns hns => ?_⟩
  · rw [h0 hcomp, h3]
    by_cases hz : n = 0
    · subst hz
      generalize ls'.sol = s' at hi ⊢
      cases hi
      rfl
    · exact absurd (hi.improves (by omega)) hno
  obtain ⟨a1, a2, a3, a4⟩ := h4 u hu ns hns
  exact ⟨a1, a2, a3, fun op hop v hv => a4 op hop v ⟨.inr hno, hv⟩⟩

/-- **C49, partial.** Both also hold if vehicles may reload without limit, see `StaysModerate` in C25. -/
theorem C49_unlimited_partial (data : ProblemData) (ce : CostEvaluator) (hc : CostOk data ce) (B N : Nat)
    (hrel : ∀ v ∈ data.vehicleTypes, v.maxReloads ≤ SIZE_MAX)
    (hn : ∀ g ∈ data.groups, g.clients.Nodup) (ls : LocalSearch)
    (hls : SearchHistory data ls) (sol : Solution) (hsol : Accepted data sol)
    (st : LState) (hst : ls.prepare data ce sol true = .ok st) (hB : StaysModerate data ce B N st.sol)
    (fuel : Nat) (sol' : Solution) (ls' : LocalSearch)
    (hr : ls.run data ce sol true fuel = .ok (some (sol', ls'))) :
    ∃ plan, SearchState data plan ls'.sol ∧ SSol.unload data ls'.sol = .ok sol'
      ∧ ce.penalisedCost sol' = ce.penalisedCostSSol data ls'.sol
      ∧ ∀ u ∈ allTasks data, ∀ ns, ls.space.neighboursOf u = .ok ns →
        Unimprovable data ce ls.unaryOps ls.binaryOps plan ls'.sol u
          (fun v => ((∃ acts ∈ plan, u ∈ acts) ∨ ¬ Improves data ce st.sol ls'.sol) ∧ Candidate ns plan v) := by
  obtain ⟨st1, e, -, -, plan, h⟩ := run_optimal (hB.moderate.exact hc hB.nonneg)
    (fun _ _ hI hs => hB.moderate.inMemory hc hB.nonneg hI hs) hrel hn hls hsol hr (by
      intro plan st2 e2 hs
      rw [hst] at e2
      injection e2 with e2
      subst e2
      exact hB.atMost hs)
  rw [hst] at e
  injection e with e
  subst e
  exact ⟨plan, h⟩

/-! ## Counterexample -/

namespace Demo

/-- Vehicle type 0 and clients 0 and 2 are at location 0, vehicle type 1 and client 1 at the other one. -/
def againData : ProblemData :=
  { locations := [⟨0, 0, ""⟩, ⟨10, 0, ""⟩]
    clients := [
      -- location, delivery, pickup, service, early, late, release, prize, required, group, name
      ⟨0, [1], [0], 0, 0, 100, 0, 30, false, none, ""⟩,
      ⟨1, [1], [0], 0, 0, 100, 0, 100, false, none, ""⟩,
      ⟨0, [2], [0], 0, 0, 100, 0, 100, false, none, ""⟩]
    depots := [⟨0, 0, 100, 0, ""⟩, ⟨1, 0, 100, 0, ""⟩]
    vehicleTypes := [
      { numAvailable := 1, startDepot := 0, endDepot := 0, capacity := [2], twEarly := 0
        twLate := 100, shiftDuration := MAX, maxDistance := MAX, fixedCost := 0
        unitDistanceCost := 1, unitDurationCost := 0, profile := 0, startLate := 100
        initialLoad := [0], reloadDepots := [], maxReloads := 0, maxOvertime := 0
        unitOvertimeCost := 0, maxDuration := MAX, name := "" },
      { numAvailable := 1, startDepot := 1, endDepot := 1, capacity := [2], twEarly := 0
        twLate := 100, shiftDuration := MAX, maxDistance := MAX, fixedCost := 0
        unitDistanceCost := 1, unitDurationCost := 0, profile := 0, startLate := 100
        initialLoad := [0], reloadDepots := [], maxReloads := 0, maxOvertime := 0
        unitOvertimeCost := 0, maxDuration := MAX, name := "" }]
    dists := [⟨2, 2, [0, 10, 10, 0]⟩]
    durs := [⟨2, 2, [0, 10, 10, 0]⟩]
    groups := []
    shipments := [] }

def againEvaluator : CostEvaluator := ⟨[ratPenalty 1000 1], ratPenalty 6 1, ratPenalty 6 1⟩

/-- The default operators of PyVRP that support this instance. -/
def againSearch : LocalSearch :=
  searchWith againData [.removeOptionalClient]
    [.relocate 1, .relocate 2, .swap 1 1, .swap 2 1, .swap 2 2, .swapTails, .insertOptionalClient,
      .replaceOptionalClient]

/-- Each vehicle visits one client. Client 2 is not visited. -/
def againRoutes : List Route := [Route.build againData [client 0] 0, Route.build againData [client 1] 1]

theorem againGood : GoodData againData where
  made := by decide
  vehicles := by
    intro v hv
    have h : ∀ v ∈ againData.vehicleTypes, VehicleType.replace v {} = .ok v := by decide
    exact ⟨_, h v hv⟩
  times := by constructor <;> decide

theorem againCost : CostOk againData againEvaluator :=
  ⟨againGood, ⟨by
      intro f hf
      simp only [againEvaluator, List.mem_cons, List.not_mem_nil, or_false] at hf
      subst hf
      exact ratPenalty_isPenalty 1000 1 (by decide) (by decide),
    ratPenalty_isPenalty 6 1 (by decide) (by decide),
    ratPenalty_isPenalty 6 1 (by decide) (by decide)⟩, rfl⟩

theorem againModerate : Moderate againData 100 where
  pos := by decide
  times := by
    intro a ha
    have h : ∀ a ∈ allActivities againData, earliest againData a ≤ (100 : Nat)
      ∧ released againData a ≤ (100 : Nat) ∧ serviceTime againData a ≤ (100 : Nat) := by decide
    exact h a (mem_allActivities ha)
  vehicles := by decide
  durations := by decide
  distances := by decide
  total := by decide
  releases := .inl (by decide)

theorem againHistory : SearchHistory againData againSearch :=
  (searchWith_history ⟨_, rfl⟩ (by simp [BinaryOp.Valid])).1

theorem againAccepted : Accepted againData (solutionOf againData againRoutes) :=
  accepted_of (plan := [(0, [client 0]), (1, [client 1])])
    (by refine ⟨?_, ?_, ?_, ?_⟩ <;> decide) ⟨_, rfl⟩

set_option maxRecDepth 100000 in
theorem again : (match againSearch.run againData againEvaluator (solutionOf againData againRoutes) true 20 with
    | .ok (some (sol1, ls1)) =>
      match ls1.run againData againEvaluator sol1 true 20 with
      | .ok (some (sol2, _)) => decide (againEvaluator.penalisedCost (solutionOf againData againRoutes) = 100
        ∧ againEvaluator.penalisedCost sol1 = 30 ∧ againEvaluator.penalisedCost sol2 = 20)
      | _ => false
    | _ => false) = true := by decide +kernel

end Demo

/-- **C49, negation.** What an exhaustive search returns need not be locally optimal, as searching it again
may improve it. Here client 2 takes the place of client 0 in the first route. Client 0 could then be
inserted into the second route. But it was tested with that route before, and the search does not
look at it again, as a client that is not visited counts as one whose route has not changed. -/
theorem C49_negation :
    CostOk Demo.againData Demo.againEvaluator ∧ Moderate Demo.againData 100
    ∧ (∀ c ∈ Demo.againData.clients, Client.make c = .ok c)
    ∧ SearchHistory Demo.againData Demo.againSearch
    ∧ Accepted Demo.againData (Demo.solutionOf Demo.againData Demo.againRoutes)
    ∧ (Demo.solutionOf Demo.againData Demo.againRoutes).isComplete = true
    ∧ ∃ sol1 ls1 sol2 ls2, Demo.againSearch.run Demo.againData Demo.againEvaluator
        (Demo.solutionOf Demo.againData Demo.againRoutes) true 20 = .ok (some (sol1, ls1))
      ∧ Demo.againEvaluator.penalisedCost sol1 = 30
      ∧ ls1.run Demo.againData Demo.againEvaluator sol1 true 20 = .ok (some (sol2, ls2))
      ∧ Demo.againEvaluator.penalisedCost sol2 = 20 := by
  have h := Demo.again
  refine ⟨Demo.againCost, Demo.againModerate, by decide, Demo.againHistory, Demo.againAccepted,
    by decide +kernel, ?_⟩
  split at h
  · rename_i sol1 ls1 e1
    split at h
    · rename_i sol2 ls2 e2
      obtain ⟨-, h1, h2⟩ := of_decide_eq_true h
      exact ⟨sol1, ls1, sol2, ls2, e1, h1, e2, h2⟩
    · cases h
  · cases h

/-! ## Non-vacuity -/

namespace Demo

/-- All hypotheses of `C49_optimal_partial` hold for this search, which returns something. -/
example : ∃ sol' ls' plan, againSearch.run againData againEvaluator (solutionOf againData againRoutes) true 20
      = .ok (some (sol', ls'))
    ∧ SearchState againData plan ls'.sol
    ∧ ∀ u ∈ allTasks againData, ∀ ns, againSearch.space.neighboursOf u = .ok ns →
        Unimprovable againData againEvaluator againSearch.unaryOps againSearch.binaryOps plan ls'.sol u
          (fun v => (∃ acts ∈ plan, u ∈ acts) ∧ Candidate ns plan v) := by
  obtain ⟨-, -, -, -, -, -, sol1, ls1, sol2, ls2, e1, h1, e2, h2⟩ := C49_negation
  obtain ⟨plan, g1, -, -, g4⟩ := C49_optimal_partial againData againEvaluator againCost 100 againModerate
    (by decide) (by decide) againSearch againHistory _ againAccepted 20 sol1 ls1 e1
  exact ⟨sol1, ls1, plan, e1, g1, g4⟩

/-- A solution which the search does not improve: clients 0 and 1 are visited together. -/
def againBest : List Route := [Route.build againData [client 2] 0, Route.build againData [client 1, client 0] 1]

theorem againBestAccepted : Accepted againData (solutionOf againData againBest) :=
  accepted_of (plan := [(0, [client 2]), (1, [client 1, client 0])])
    (by refine ⟨?_, ?_, ?_, ?_⟩ <;> decide) ⟨_, rfl⟩

instance (data : ProblemData) (ce : CostEvaluator) (s s' : SSol) : Decidable (Improves data ce s s') := by
  unfold Improves; infer_instance

set_option maxRecDepth 100000 in
theorem againNothing : (match againSearch.prepare againData againEvaluator (solutionOf againData againBest) true,
      againSearch.run againData againEvaluator (solutionOf againData againBest) true 20 with
    | .ok st, .ok (some (_, ls1)) => decide (¬ Improves againData againEvaluator st.sol ls1.sol)
    | _, _ => false) = true := by decide +kernel

/-- All hypotheses of `C49_again_partial` hold for it. -/
example : ∃ sol' ls' plan, againSearch.run againData againEvaluator (solutionOf againData againBest) true 20
      = .ok (some (sol', ls'))
    ∧ SearchState againData plan ls'.sol
    ∧ ∀ u ∈ allTasks againData, ∀ ns, againSearch.space.neighboursOf u = .ok ns →
        Unimprovable againData againEvaluator againSearch.unaryOps againSearch.binaryOps plan ls'.sol u
          (Candidate ns plan) := by
  have h := againNothing
  split at h
  · rename_i st sol1 ls1 e e1
    obtain ⟨-, plan, g1, -, -, g4⟩ := C49_again_partial againData againEvaluator againCost 100 againModerate
      (by decide) (by decide) againSearch againHistory _ againBestAccepted 20 sol1 ls1 e1 st e
      (of_decide_eq_true h)
    exact ⟨sol1, ls1, plan, e1, g1, g4⟩
  · cases h

/-- There are moves with other plans to which this applies, and there are candidates. -/
example : BinaryMove againData [[client 2], [client 1, client 0]] (.relocate 1) (client 0) (.task (client 2))
    [[client 2, client 0], [client 1]] ∧
    Candidate [client 1, client 2] [[client 2], [client 1, client 0]] (.task (client 2)) ∧
    Candidate [client 1, client 2] [[client 2], [client 1, client 0]] (.start 0) :=
  ⟨.relocate (i := 1) (j := 0) (xs := [client 1]) (rest := []) (ys := []) (vs := [client 2]) (ws := [])
      (by decide) (by decide) (by decide) rfl rfl (.inr ⟨_, [], by decide, rfl, rfl⟩)
      ⟨by unfold OneTrip; decide, fun k => by simp, fun k => by simp⟩,
    .neighbour (j := 0) (by decide) (by decide), .start (rest := []) (v := client 2) (by decide) rfl⟩

/-- The hypotheses of `C49_unlimited_partial` hold for a search that may add reload depots without limit. -/
example : ∃ fuel sol' ls' plan, unlimitedSearch.run unlimitedData costEvaluator
      (solutionOf unlimitedData unlimitedRoutes) true fuel = .ok (some (sol', ls'))
    ∧ SearchState unlimitedData plan ls'.sol
    ∧ ∀ u ∈ allTasks unlimitedData, ∀ ns, unlimitedSearch.space.neighboursOf u = .ok ns →
        Unimprovable unlimitedData costEvaluator unlimitedSearch.unaryOps unlimitedSearch.binaryOps plan ls'.sol u
          (fun v => (∃ acts ∈ plan, u ∈ acts) ∧ Candidate ns plan v) := by
  obtain ⟨-, fuel, st, sol', ls', h1, h2, -⟩ := C25_unlimited_partial unlimitedData costEvaluator
    unlimitedCost 100 200 (by decide) (by decide) unlimitedSearch unlimitedHistory _ unlimitedAccepted true
    unlimitedStays
  have hr := h1 fuel (Nat.le_refl _)
  obtain ⟨plan, g1, -, -, g4⟩ := C49_unlimited_partial unlimitedData costEvaluator unlimitedCost 100 200
    (by decide) (by decide) unlimitedSearch unlimitedHistory _ unlimitedAccepted st h2 (unlimitedStays st h2)
    fuel sol' ls' hr
  refine ⟨fuel, sol', ls', plan, hr, g1, fun u hu ns hns => ?_⟩
  obtain ⟨a1, a2, a3, a4⟩ := g4 u hu ns hns
  exact ⟨a1, a2, a3, fun op hop v hv => a4 op hop v ⟨.inl hv.1, hv.2⟩⟩

end Demo
end PyVRP
