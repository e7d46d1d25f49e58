import Verif.Model.Operators
import Verif.Lemmas.Closed
import Verif.Props.C22
import Verif.Props.C26
/-!
# What the nodes of a route know, and the costs of proposals
-/
namespace PyVRP
open Spec
open SSol (used ofActs_empty)

/-! ## Nodes -/

namespace SRoute

theorem ofActs_size (data : ProblemData) (vt : Nat) (acts : List Activity) :
    (ofActs data vt acts).size = acts.length + 2 := canon_length _ _

theorem ofActs_vehicleType (data : ProblemData) (vt : Nat) (acts : List Activity) :
    (ofActs data vt acts).vehicleType = vt := rfl

/-- The start node. -/
theorem ofActs_start (data : ProblemData) (vt : Nat) (acts : List Activity) :
    (ofActs data vt acts).node 0 = startNode (data.vehicleType vt) := rfl

/-- An inner node. -/
theorem ofActs_inner (data : ProblemData) (vt : Nat) (xs : List Activity) (a : Activity)
    (ys : List Activity) :
    (ofActs data vt (xs ++ a :: ys)).node (xs.length + 1)
      = { activity := a, pos := xs.length + 1, trip := depotVisits (xs ++ [a]) } := by
  show (canon _ _).getD _ _ = _
  rw [canon_split, getD_append_ge _ _ _ _ (by simp [innerNodes_length])]
  simp only [List.length_cons, innerNodes_length, Nat.sub_self]
  rw [depotVisits_append]
  have h1 : depotVisits [a] = if a.type = .depot then 1 else 0 := by
    rw [Route.depotVisits_cons]; simp [depotVisits]
  rw [h1]
  simp only [innerNodes, List.cons_append]
  rw [List.getD_cons_zero]
  split <;> simp

/-- The end node. -/
theorem ofActs_end (data : ProblemData) (vt : Nat) (acts : List Activity) :
    (ofActs data vt acts).node (acts.length + 1)
      = endNode (data.vehicleType vt) (acts.length + 1) (depotVisits acts + 1) := by
  show (canon _ _).getD _ _ = _
  simp only [canon]
  rw [List.getD_cons_succ, getD_append_ge _ _ _ _ (by simp [innerNodes_length])]
  simp [innerNodes_length]

/-- The trip of the node after the activities `xs`. -/
theorem ofActs_trip (data : ProblemData) (vt : Nat) (xs ys : List Activity) :
    ((ofActs data vt (xs ++ ys)).node xs.length).trip = depotVisits xs := canon_getD_trip _ _ _

theorem count_prefix (v : VehicleType) (xs ys : List Activity) (q : Activity → Bool)
    (p : SNode → Bool) (hpq : ∀ n, p n = q n.activity) :
    (counts p (canon v (xs ++ ys))).getD xs.length 0 = xs.countP q := by
  simp only [canon, counts]
  rw [scanNodes_getD _ _ _ _ _ (by simp [innerNodes_length]; omega), foldNodes_count, Nat.zero_add,
    innerNodes_append, List.append_assoc, List.take_left' (by simp [innerNodes_length])]
  conv => rhs; rw [← innerNodes_activity 1 0 xs, List.countP_map]
  apply List.countP_congr
  intro n _
  simp [hpq]

theorem ofActs_numPickupsAt (data : ProblemData) (vt : Nat) (xs ys : List Activity) :
    (ofActs data vt (xs ++ ys)).numPickupsAt xs.length = xs.countP (fun a => a.type = .pickup) :=
  count_prefix _ _ _ (fun a => a.type = .pickup) _
    (fun n => by cases h : n.activity.type <;> simp [SNode.isPickup, Activity.isPickup, h])

theorem ofActs_numDeliveriesAt (data : ProblemData) (vt : Nat) (xs ys : List Activity) :
    (ofActs data vt (xs ++ ys)).numDeliveriesAt xs.length
      = xs.countP (fun a => a.type = .delivery) :=
  count_prefix _ _ _ (fun a => a.type = .delivery) _
    (fun n => by cases h : n.activity.type <;> simp [SNode.isDelivery, Activity.isDelivery, h])

end SRoute

theorem noDepot_iff (l : List Activity) : Phase.NoDepot l ↔ depotVisits l = 0 := by
  unfold Phase.NoDepot depotVisits
  rw [List.countP_eq_zero]
  simp

/-! ## Costs -/

/-- The penalised cost of a route that visits `acts`. -/
def routeCost (data : ProblemData) (ce : CostEvaluator) (vt : Nat) (acts : List Activity) : Int :=
  ce.penalisedCostSearch data (SRoute.ofActs data vt acts)

theorem routeCost_unused {data : ProblemData} {v : VehicleType} (ce : CostEvaluator) (vt : Nat)
    {acts : List Activity} (hw : WellFormed data v acts) (hu : used acts = false) :
    routeCost data ce vt acts = 0 := by
  unfold routeCost CostEvaluator.penalisedCostSearch
  rw [ofActs_empty hw, hu]
  rfl

theorem routeCost_nil (data : ProblemData) (ce : CostEvaluator) (vt : Nat) :
    routeCost data ce vt [] = 0 := by
  unfold routeCost CostEvaluator.penalisedCostSearch
  have : (SRoute.ofActs data vt []).empty = true := by
    unfold SRoute.empty
    rw [(SRoute.ofActs_counts data vt []).1, (SRoute.ofActs_counts data vt []).2.1]
    rfl
  rw [this]
  rfl

namespace Spec

/-- A route whose cost is evaluated exactly, see C21 and C22: times and distances stay within the range
of the number types, no reload depot on the route closes before a client's release time, and there are
no release times, or no reload depots, or the route's duration is allowed. -/
structure Fits (data : ProblemData) (vt : Nat) (acts : List Activity) : Prop where
  times : TimesFit data (data.vehicleType vt) acts
  distance : (Route.build data acts vt).distance ≤ MAX
  released : ReleasedInTime data acts
  warp : NoReleases data acts ∨ Phase.NoDepot acts
    ∨ (Route.build data acts vt).duration ≤ (data.vehicleType vt).maxDuration

end Spec

section
variable {data : ProblemData} {vt : Nat}

theorem hist_ofActs {acts : List Activity}
    (ht : depotVisits acts + 1 ≤ (data.vehicleType vt).maxTrips) :
    ∃ r, History data vt acts r ∧ r.update data = SRoute.ofActs data vt acts := by
  obtain ⟨r, hr⟩ := history_of_inserts data vt acts ht
  exact ⟨r, hr, SRoute.update_of_history hr⟩

theorem piece_between {xs m ys : List Activity}
    (ht : depotVisits (xs ++ m ++ ys) + 1 ≤ (data.vehicleType vt).maxTrips)
    (hm : m ≠ []) (hd : Phase.NoDepot m) :
    Piece data ((SRoute.ofActs data vt (xs ++ m ++ ys)).between data (xs.length + 1)
      (xs.length + m.length)) m := by
  obtain ⟨r, hr, he⟩ := hist_ofActs ht
  have hpos : 1 ≤ m.length := List.length_pos_of_ne_nil hm
  have h1 : (xs ++ m ++ ys).take (xs.length + m.length) = xs ++ m :=
    List.take_left' (by simp)
  have := Piece.between hr (xs.length + 1) (xs.length + m.length) (by omega) (by omega)
    (by simp) (by
      rw [h1]
      have h2 : depotVisits xs ≤ depotVisits ((xs ++ m ++ ys).take (xs.length + 1)) := by
        have : (xs ++ m ++ ys).take (xs.length + 1) = xs ++ (m ++ ys).take 1 := by
          rw [List.append_assoc, List.take_append]
          simp [List.take_of_length_le]
        rw [this, depotVisits_append]
        omega
      rw [depotVisits_append, (noDepot_iff m).1 hd]
      omega)
  rw [h1, he, Nat.add_sub_cancel, List.drop_left' rfl] at this
  exact this

theorem piece_at {xs : List Activity} {a : Activity} {ys : List Activity}
    (ht : depotVisits (xs ++ a :: ys) + 1 ≤ (data.vehicleType vt).maxTrips)
    (hd : a.type ≠ .depot) :
    Piece data ((SRoute.ofActs data vt (xs ++ a :: ys)).at data (xs.length + 1)) [a] := by
  have := piece_between (data := data) (vt := vt) (xs := xs) (m := [a]) (ys := ys)
    (by simpa using ht) (by simp) (by intro b hb; simp at hb; subst hb; exact hd)
  rw [List.append_assoc] at this
  exact this

theorem last_after {xs ys : List Activity}
    (ht : depotVisits (xs ++ ys) + 1 ≤ (data.vehicleType vt).maxTrips) :
    LastPiece data vt ((SRoute.ofActs data vt (xs ++ ys)).after (xs.length + 1)) ys := by
  obtain ⟨r, hr, he⟩ := hist_ofActs ht
  have := LastPiece.after hr (xs.length + 1) (by omega) (by simp)
  rw [he, Nat.add_sub_cancel, List.drop_left' rfl] at this
  exact this

theorem last_finish {acts : List Activity}
    (ht : depotVisits acts + 1 ≤ (data.vehicleType vt).maxTrips) :
    LastPiece data vt ((SRoute.ofActs data vt acts).at data
      ((SRoute.ofActs data vt acts).size - 1)) [] := by
  obtain ⟨r, hr, he⟩ := hist_ofActs ht
  have := LastPiece.finish hr
  rw [he] at this
  exact this

theorem used_false_iff (acts : List Activity) : used acts = false ↔ ∀ a ∈ acts, a.type = .depot := by
  unfold used
  rw [List.any_eq_false]
  simp

theorem used_of_mem {acts : List Activity} {a : Activity} (ha : a ∈ acts) (ht : a.type ≠ .depot) :
    used acts = true := by
  unfold used
  rw [List.any_eq_true]
  exact ⟨a, ha, by simpa using ht⟩

/-- A proposal for a route that fits is evaluated exactly. -/
theorem evaluates_fits (hd : GoodData data) (hvt : vt < data.numVehicleTypes) {old tail new : List Activity}
    {k : Nat} {ms : List Seg} {as : List (List Activity)} {last : Seg}
    (ht : depotVisits old + 1 ≤ (data.vehicleType vt).maxTrips) (hk : k ≤ old.length)
    (mids : All2 (Piece data) ms as) (hlast : LastPiece data vt last tail)
    (hnew : new = old.take k ++ as.flatten ++ tail)
    (hin : ∀ a ∈ new, InRange data a) (hf : Fits data vt new) :
    EvaluatesTo data ⟨SRoute.ofActs data vt old, (SRoute.ofActs data vt old).before k, ms ++ [last]⟩
      (SRoute.ofActs data vt new) := by
  obtain ⟨r, hr, he⟩ := hist_ofActs ht
  have hp := Proposes.mk hr hk mids hlast
  rw [he, ← hnew] at hp
  refine (GoodProposal.evaluates hd hvt
    ⟨hp, hin, hf.times, hf.distance, hf.released, ?_⟩).2
  rcases hf.warp with h | h | h
  · exact .inl h
  · refine .inr (.inl ?_)
    intro a ha
    refine h a ?_
    rw [hnew]
    exact List.mem_append_left _ (List.mem_append_left _ (List.dropLast_subset _ ha))
  · exact .inr (.inr h)

/-- The cost of a proposal for one route: exact if asked to be, or if it is negative. -/
theorem delta_exact (exact : Bool) {ce : CostEvaluator} (hd : GoodData data) (hce : ce.Valid)
    (hlen : ce.loadPenalties.length = data.numLoadDimensions)
    (hvt : vt < data.numVehicleTypes) {v : VehicleType} {old tail new : List Activity}
    {k : Nat} {ms : List Seg} {as : List (List Activity)} {last : Seg}
    (ht : depotVisits old + 1 ≤ (data.vehicleType vt).maxTrips) (hk : k ≤ old.length)
    (mids : All2 (Piece data) ms as) (hlast : LastPiece data vt last tail)
    (hnew : new = old.take k ++ as.flatten ++ tail)
    (hw : WellFormed data v new) (hf : Fits data vt new) (hu : used new = true) (out : Int)
    (hneg : exact = true ∨ (ce.deltaCost exact data out ⟨SRoute.ofActs data vt old,
      (SRoute.ofActs data vt old).before k, ms ++ [last]⟩).1 < 0) :
    (ce.deltaCost exact data out ⟨SRoute.ofActs data vt old,
      (SRoute.ofActs data vt old).before k, ms ++ [last]⟩).1
      = out + routeCost data ce vt new - routeCost data ce vt old := by
  have hev := evaluates_fits hd hvt ht hk mids hlast hnew hw.inRange hf
  have hv := hd.vehicle hvt
  have hne : (SRoute.ofActs data vt new).empty = false := by rw [ofActs_empty hw, hu]; rfl
  rcases deltaCost_spec exact hev ce hce hv.dims hlen hne out with h | ⟨h1, x, h2, h3, -⟩
  · rw [h]; rfl
  · rw [h2] at hneg
    rcases hneg with h | h
    · rw [h1] at h; cases h
    · exact absurd h (by show ¬ x < 0; omega)

/-- The same for two routes. -/
theorem delta2_exact {ce : CostEvaluator} (hd : GoodData data) (hce : ce.Valid)
    (hlen : ce.loadPenalties.length = data.numLoadDimensions)
    {vt' : Nat} (hvt : vt < data.numVehicleTypes) (hvt' : vt' < data.numVehicleTypes)
    {v v' : VehicleType} {old tail new old' tail' new' : List Activity}
    {k k' : Nat} {ms ms' : List Seg} {as as' : List (List Activity)} {last last' : Seg}
    (ht : depotVisits old + 1 ≤ (data.vehicleType vt).maxTrips) (hk : k ≤ old.length)
    (mids : All2 (Piece data) ms as) (hlast : LastPiece data vt last tail)
    (hnew : new = old.take k ++ as.flatten ++ tail)
    (hw : WellFormed data v new) (hf : Fits data vt new) (hu : used new = true)
    (ht' : depotVisits old' + 1 ≤ (data.vehicleType vt').maxTrips) (hk' : k' ≤ old'.length)
    (mids' : All2 (Piece data) ms' as') (hlast' : LastPiece data vt' last' tail')
    (hnew' : new' = old'.take k' ++ as'.flatten ++ tail')
    (hw' : WellFormed data v' new') (hf' : Fits data vt' new') (hu' : used new' = true)
    (out : Int)
    (hneg : (ce.deltaCost2 false data out
      ⟨SRoute.ofActs data vt old, (SRoute.ofActs data vt old).before k, ms ++ [last]⟩
      ⟨SRoute.ofActs data vt' old', (SRoute.ofActs data vt' old').before k', ms' ++ [last']⟩).1 < 0) :
    (ce.deltaCost2 false data out
      ⟨SRoute.ofActs data vt old, (SRoute.ofActs data vt old).before k, ms ++ [last]⟩
      ⟨SRoute.ofActs data vt' old', (SRoute.ofActs data vt' old').before k', ms' ++ [last']⟩).1
      = out + routeCost data ce vt new + routeCost data ce vt' new' - routeCost data ce vt old
        - routeCost data ce vt' old' := by
  have hev := evaluates_fits hd hvt ht hk mids hlast hnew hw.inRange hf
  have hev' := evaluates_fits hd hvt' ht' hk' mids' hlast' hnew' hw'.inRange hf'
  have hv := hd.vehicle hvt
  have hv' := hd.vehicle hvt'
  have hne : (SRoute.ofActs data vt new).empty = false := by rw [ofActs_empty hw, hu]; rfl
  have hne' : (SRoute.ofActs data vt' new').empty = false := by rw [ofActs_empty hw', hu']; rfl
  rcases deltaCost2_spec false hev hev' ce hce hv.dims hv'.dims hlen hne hne' out with
    h | ⟨h1, x, h2, h3, -⟩
  · rw [h]; rfl
  · rw [h2] at hneg
    exact absurd hneg (by show ¬ x < 0; omega)

end

end PyVRP
