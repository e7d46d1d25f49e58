import Verif.Spec.Instance
import Verif.Lemmas.RouteNonneg
import Verif.Props.C16
import Verif.Props.C20
import Verif.Props.C21
import Verif.Props.C23
import Verif.Props.C36
import Verif.Props.C37
/-!
# C22: delta costs are exact when they matter
-/
namespace PyVRP
open Spec

/-! ## What the constructors guarantee -/

/-- What is used of a vehicle type. -/
structure Spec.VehicleOk (data : ProblemData) (vt : Nat) : Prop where
  inRange : vt < data.numVehicleTypes
  capacity : ∀ dim, 0 ≤ (data.vehicleType vt).capacity.getD dim 0
  initial : ∀ dim, 0 ≤ (data.vehicleType vt).initialLoad.getD dim 0
  dims : (data.vehicleType vt).capacity.length = data.numLoadDimensions
  maxDuration : (data.vehicleType vt).maxDuration
    = min ((data.vehicleType vt).shiftDuration + (data.vehicleType vt).maxOvertime) MAX
  unitDuration : 0 ≤ (data.vehicleType vt).unitDurationCost
  unitOvertime : 0 ≤ (data.vehicleType vt).unitOvertimeCost
  start : (data.vehicleType vt).startDepot < data.numDepots
  finish : (data.vehicleType vt).endDepot < data.numDepots

theorem nonneg_getD {l : List Int} (h : Nonneg l) (i : Nat) : 0 ≤ l.getD i 0 := by
  by_cases hi : i < l.length
  · exact h _ (getD_mem l i 0 hi)
  · rw [List.getD_eq_getElem?_getD, List.getElem?_eq_none (by omega)]
    exact Int.le_refl 0

theorem paddedTo_nonneg {l l' : List Int} {n : Nat} (h : PaddedTo l l' n) (hl : Nonneg l) (i : Nat) :
    0 ≤ l'.getD i 0 := by
  by_cases hi : i < n
  · rw [h.2 i hi]
    split
    · exact nonneg_getD hl i
    · exact Int.le_refl 0
  · rw [List.getD_eq_getElem?_getD, List.getElem?_eq_none (by rw [h.1]; omega)]
    exact Int.le_refl 0

theorem Spec.GoodData.vehicle {data : ProblemData} (h : GoodData data) {vt : Nat}
    (hvt : vt < data.numVehicleTypes) : VehicleOk data vt := by
  have hmem : data.vehicleType vt ∈ data.vehicleTypes := getD_mem _ _ _ hvt
  obtain ⟨args, hargs⟩ := h.vehicles _ hmem
  have hok := (C36_vehicle_accepts args).1.1 ⟨_, hargs⟩
  obtain ⟨_, _, _, _, _, f6, _, _, _, f10, _, _, _, f14, f15, _, _, f18, f19, f20⟩ :=
    C36_vehicle_fields args _ hargs
  have hc := ((C37_accepts_exactly_consistent data data).1 h.made).2
  obtain ⟨d1, hd1, _⟩ := hc.startDepot _ hmem
  obtain ⟨d2, hd2, _⟩ := hc.endDepot _ hmem
  exact {
    inRange := hvt
    capacity := paddedTo_nonneg f18 hok.capacity
    initial := paddedTo_nonneg f19 hok.initial
    dims := (C37_derived data hc).2.2 _ hmem
    maxDuration := by rw [f20, f6, f14]
    unitDuration := by rw [f10]; exact hok.unitDuration
    unitOvertime := by rw [f15]; exact hok.unitOvertime
    start := (List.getElem?_eq_some_iff.1 hd1).1
    finish := (List.getElem?_eq_some_iff.1 hd2).1 }

/-! ## Sums of load penalties -/

theorem foldl_zip_penalties (ps : List (Int → Int)) (xs : List Int) (acc : Int)
    (hlen : ps.length = xs.length) :
    (ps.zip xs).foldl (fun cost p => cost + p.1 p.2) acc
      = (List.range ps.length).foldl (fun c i => c + (ps.getD i (fun _ => 0)) (xs.getD i 0)) acc := by
  induction ps generalizing xs acc with
  | nil => simp
  | cons p ps ih =>
    cases xs with
    | nil => simp at hlen
    | cons x xs =>
      rw [List.zip_cons_cons, List.foldl_cons, ih xs _ (by simpa using hlen), List.length_cons,
        List.range_succ_eq_map, List.foldl_cons, List.foldl_map]
      rfl

/-- The loop over the load dimensions: it either adds all penalties, or stops at a non-negative value
that is not more than the result of adding all penalties. -/
theorem deltaLoad_spec (exact : Bool) (ce : CostEvaluator) (hce : ce.Valid) (data : ProblemData)
    (p : Proposal) (l : List Nat) (out : Int) :
    let full := l.foldl (fun c i => c + ce.loadPenalty (p.excessLoad data i) 0 i) out
    out ≤ full
    ∧ (CostEvaluator.deltaLoad exact ce data p l out = (full, true)
      ∨ exact = false ∧ ∃ v, CostEvaluator.deltaLoad exact ce data p l out = (v, false)
        ∧ 0 ≤ v ∧ v ≤ full) := by
  induction l generalizing out with
  | nil => exact ⟨Int.le_refl _, Or.inl rfl⟩
  | cons d rest ih =>
    have hpos : 0 ≤ ce.loadPenalty (p.excessLoad data d) 0 d := by
      unfold CostEvaluator.loadPenalty
      by_cases hd : d < ce.loadPenalties.length
      · exact (hce.load _ (getD_mem ce.loadPenalties d _ hd)).nonneg _ (by omega)
      · rw [List.getD_eq_getElem?_getD, List.getElem?_eq_none (by omega)]
        exact Int.le_refl 0
    obtain ⟨h1, h2⟩ := ih (out + ce.loadPenalty (p.excessLoad data d) 0 d)
    intro full
    have hle : out ≤ full := by
      have : out + ce.loadPenalty (p.excessLoad data d) 0 d ≤ full := h1
      omega
    refine ⟨hle, ?_⟩
    rw [CostEvaluator.deltaLoad]
    split
    · next h =>
      simp only [Bool.and_eq_true, Bool.not_eq_true', decide_eq_true_eq] at h
      exact Or.inr ⟨h.1, out, rfl, h.2, hle⟩
    · exact h2

/-! ## Evaluation -/

/-- The proposal is evaluated as the search route `s`, and what is skipped is zero. -/
structure EvaluatesTo (data : ProblemData) (p : Proposal) (s : SRoute) : Prop where
  vehicle : p.route.vehicleType = s.vehicleType
  distance : p.distance data = (s.distanceCost_, s.excessDistance_)
  duration : p.duration data = (s.durationCost_, s.timeWarp_)
  load : ∀ dim, dim < data.numLoadDimensions → p.excessLoad data dim = s.excessLoad_.getD dim 0
  loads : s.excessLoad_.length = data.numLoadDimensions ∧ ∀ x ∈ s.excessLoad_, 0 ≤ x
  skipDistance : p.route.hasDistanceCost data = false → s.distanceCost_ = 0 ∧ s.excessDistance_ = 0
  skipDuration : p.route.hasDurationCost data = false → s.durationCost_ = 0 ∧ s.timeWarp_ = 0
  durationCost : 0 ≤ s.durationCost_
  timeWarp : 0 ≤ s.timeWarp_

theorem EvaluatesTo.penalties {data : ProblemData} {p : Proposal} {s : SRoute}
    (h : EvaluatesTo data p s) (ce : CostEvaluator)
    (hdims : (data.vehicleType p.route.vehicleType).capacity.length = data.numLoadDimensions)
    (hlen : ce.loadPenalties.length = data.numLoadDimensions) (out : Int) :
    (CostEvaluator.dims data p).foldl (fun c i => c + ce.loadPenalty (p.excessLoad data i) 0 i) out
      = out + ce.excessLoadPenalties s.excessLoad_ := by
  have hadd : ∀ (l : List Nat) (f : Nat → Int) (out : Int),
      l.foldl (fun c i => c + f i) out = out + l.foldl (fun c i => c + f i) 0 := by
    intro l f
    induction l with
    | nil => intro out; simp
    | cons a rest ih =>
      intro out
      rw [List.foldl_cons, List.foldl_cons, ih, ih (0 + f a)]
      omega
  rw [hadd, CostEvaluator.excessLoadPenalties,
    foldl_zip_penalties _ _ _ (by rw [hlen, h.loads.1]), CostEvaluator.dims, hdims, hlen]
  congr 1
  have : ∀ (l : List Nat), (∀ i ∈ l, i < data.numLoadDimensions) → ∀ acc : Int,
      l.foldl (fun c i => c + ce.loadPenalty (p.excessLoad data i) 0 i) acc
        = l.foldl (fun c i => c + (ce.loadPenalties.getD i (fun _ => 0)) (s.excessLoad_.getD i 0)) acc := by
    intro l hl
    induction l with
    | nil => intro acc; rfl
    | cons i rest ih =>
      intro acc
      have hi := hl i (List.mem_cons_self ..)
      have hx := h.loads.2 _ (getD_mem s.excessLoad_ i 0 (by rw [h.loads.1]; exact hi))
      rw [List.foldl_cons, List.foldl_cons, ih (fun j hj => hl j (List.mem_cons_of_mem _ hj))]
      congr 1
      rw [CostEvaluator.loadPenalty, h.load i hi, Int.sub_zero, show max (s.excessLoad_.getD i 0) 0
        = s.excessLoad_.getD i 0 by omega]
  exact this _ (fun i hi => List.mem_range.1 hi) 0

theorem EvaluatesTo.deltaDistance {data : ProblemData} {p : Proposal} {s : SRoute}
    (h : EvaluatesTo data p s) (ce : CostEvaluator) (hce : ce.Valid) (out : Int) :
    CostEvaluator.deltaDistance ce data p out
      = out + s.distanceCost_ + ce.distPenalty s.excessDistance_ 0 := by
  have hx : 0 ≤ s.excessDistance_ := by
    have := congrArg Prod.snd h.distance
    dsimp only at this
    rw [← this]; simp only [Proposal.distance]; omega
  have e : ce.distPenalty s.excessDistance_ 0 = ce.excessDistPenalty s.excessDistance_ := by
    rw [CostEvaluator.distPenalty, Int.sub_zero, show max s.excessDistance_ 0 = s.excessDistance_ by omega]
  unfold CostEvaluator.deltaDistance
  split
  · rw [h.distance, e]
  · next hs =>
    obtain ⟨h1, h2⟩ := h.skipDistance (by simpa using hs)
    rw [e, h1, h2, CostEvaluator.excessDistPenalty, hce.dist.zero]
    omega

theorem EvaluatesTo.deltaDuration {data : ProblemData} {p : Proposal} {s : SRoute}
    (h : EvaluatesTo data p s) (ce : CostEvaluator) (hce : ce.Valid) (out : Int) :
    CostEvaluator.deltaDuration ce data p out
      = out + s.durationCost_ + ce.twPenalty s.timeWarp_ := by
  unfold CostEvaluator.deltaDuration
  split
  · rw [h.duration]
  · next hs =>
    obtain ⟨h1, h2⟩ := h.skipDuration (by simpa using hs)
    rw [h1, h2, CostEvaluator.twPenalty, hce.tw.zero]
    omega

/-- One route: the exact evaluation gives the exact difference, and otherwise the evaluation gives the
exact difference or stops at a non-negative number that is not more than the exact difference. -/
theorem deltaCost_spec {data : ProblemData} {p : Proposal} {s : SRoute} (exact : Bool)
    (h : EvaluatesTo data p s) (ce : CostEvaluator) (hce : ce.Valid)
    (hdims : (data.vehicleType p.route.vehicleType).capacity.length = data.numLoadDimensions)
    (hlen : ce.loadPenalties.length = data.numLoadDimensions) (hne : s.empty = false) (out : Int) :
    let total := out + ce.penalisedCostSearch data s - ce.penalisedCostSearch data p.route
    ce.deltaCost exact data out p = (total, true)
    ∨ exact = false ∧ ∃ v, ce.deltaCost exact data out p = (v, false) ∧ 0 ≤ v ∧ v ≤ total := by
  intro total
  have hs : ce.penalisedCostSearch data s
      = s.distanceCost_ + s.durationCost_ + (data.vehicleType s.vehicleType).fixedCost
        + ce.excessLoadPenalties s.excessLoad_ + ce.twPenalty s.timeWarp_
        + ce.distPenalty s.excessDistance_ 0 := by
    rw [CostEvaluator.penalisedCostSearch, hne]; rfl
  have htot : total = out + ce.penalisedCostSearch data s - ce.penalisedCostSearch data p.route := rfl
  have htw : 0 ≤ ce.twPenalty s.timeWarp_ := hce.tw.nonneg _ h.timeWarp
  have hdc := h.durationCost
  have hfix : p.fixedVehicleCost data = (data.vehicleType s.vehicleType).fixedCost := by
    rw [Proposal.fixedVehicleCost, h.vehicle]
  have hspec := deltaLoad_spec exact ce hce data p (CostEvaluator.dims data p)
    (CostEvaluator.deltaDistance ce data p
      (out - ce.penalisedCostSearch data p.route + p.fixedVehicleCost data))
  dsimp only at hspec
  rw [h.penalties ce hdims hlen] at hspec
  obtain ⟨_, hspec⟩ := hspec
  unfold CostEvaluator.deltaCost
  dsimp only
  rcases hspec with hl | ⟨hex, v, hl, hv0, hv⟩
  · left
    rw [hl]
    dsimp only
    rw [h.deltaDuration ce hce, h.deltaDistance ce hce, htot, hs, hfix]
    congr 1
    omega
  · right
    refine ⟨hex, v, by rw [hl], hv0, ?_⟩
    rw [h.deltaDistance ce hce, hfix] at hv
    omega

/-- Two routes. -/
theorem deltaCost2_spec {data : ProblemData} {pu pv : Proposal} {su sv : SRoute} (exact : Bool)
    (hu : EvaluatesTo data pu su) (hv : EvaluatesTo data pv sv) (ce : CostEvaluator) (hce : ce.Valid)
    (hdu : (data.vehicleType pu.route.vehicleType).capacity.length = data.numLoadDimensions)
    (hdv : (data.vehicleType pv.route.vehicleType).capacity.length = data.numLoadDimensions)
    (hlen : ce.loadPenalties.length = data.numLoadDimensions)
    (hneu : su.empty = false) (hnev : sv.empty = false) (out : Int) :
    let total := out + ce.penalisedCostSearch data su + ce.penalisedCostSearch data sv
      - ce.penalisedCostSearch data pu.route - ce.penalisedCostSearch data pv.route
    ce.deltaCost2 exact data out pu pv = (total, true)
    ∨ exact = false ∧ ∃ v, ce.deltaCost2 exact data out pu pv = (v, false) ∧ 0 ≤ v ∧ v ≤ total := by
  intro total
  have hsu : ce.penalisedCostSearch data su
      = su.distanceCost_ + su.durationCost_ + (data.vehicleType su.vehicleType).fixedCost
        + ce.excessLoadPenalties su.excessLoad_ + ce.twPenalty su.timeWarp_
        + ce.distPenalty su.excessDistance_ 0 := by
    rw [CostEvaluator.penalisedCostSearch, hneu]; rfl
  have hsv : ce.penalisedCostSearch data sv
      = sv.distanceCost_ + sv.durationCost_ + (data.vehicleType sv.vehicleType).fixedCost
        + ce.excessLoadPenalties sv.excessLoad_ + ce.twPenalty sv.timeWarp_
        + ce.distPenalty sv.excessDistance_ 0 := by
    rw [CostEvaluator.penalisedCostSearch, hnev]; rfl
  have htot : total = out + ce.penalisedCostSearch data su + ce.penalisedCostSearch data sv
      - ce.penalisedCostSearch data pu.route - ce.penalisedCostSearch data pv.route := rfl
  have htwu : 0 ≤ ce.twPenalty su.timeWarp_ := hce.tw.nonneg _ hu.timeWarp
  have htwv : 0 ≤ ce.twPenalty sv.timeWarp_ := hce.tw.nonneg _ hv.timeWarp
  have hdcu := hu.durationCost
  have hdcv := hv.durationCost
  have hfu : pu.fixedVehicleCost data = (data.vehicleType su.vehicleType).fixedCost := by
    rw [Proposal.fixedVehicleCost, hu.vehicle]
  have hfv : pv.fixedVehicleCost data = (data.vehicleType sv.vehicleType).fixedCost := by
    rw [Proposal.fixedVehicleCost, hv.vehicle]
  unfold CostEvaluator.deltaCost2
  dsimp only
  rw [hv.deltaDistance ce hce, hu.deltaDistance ce hce, hfu, hfv]
  generalize hX : out - ce.penalisedCostSearch data pu.route - ce.penalisedCostSearch data pv.route
    + (data.vehicleType su.vehicleType).fixedCost + (data.vehicleType sv.vehicleType).fixedCost
    + su.distanceCost_ + ce.distPenalty su.excessDistance_ 0 + sv.distanceCost_
    + ce.distPenalty sv.excessDistance_ 0 = X
  have su1 := deltaLoad_spec exact ce hce data pu (CostEvaluator.dims data pu) X
  dsimp only at su1
  rw [hu.penalties ce hdu hlen] at su1
  have sv1 := deltaLoad_spec exact ce hce data pv (CostEvaluator.dims data pv)
    (X + ce.excessLoadPenalties su.excessLoad_)
  dsimp only at sv1
  rw [hv.penalties ce hdv hlen] at sv1
  obtain ⟨_, su1⟩ := su1
  obtain ⟨hle, sv1⟩ := sv1
  rcases su1 with hl | ⟨hex, v, hl, hv0, hvx⟩
  · rw [hl]
    dsimp only
    rcases sv1 with hl | ⟨hex, v, hl, hv0, hvx⟩
    · rw [hl]
      dsimp only
      split
      · next h =>
        simp only [Bool.and_eq_true, Bool.not_eq_true', decide_eq_true_eq] at h
        exact Or.inr ⟨h.1, _, rfl, h.2, by omega⟩
      · left
        rw [hv.deltaDuration ce hce, hu.deltaDuration ce hce]
        congr 1
        omega
    · rw [hl]
      exact Or.inr ⟨hex, v, rfl, hv0, by omega⟩
  · rw [hl]
    exact Or.inr ⟨hex, v, rfl, hv0, by omega⟩

/-! ## C22 -/

namespace Spec

/-- The cases in which the time warp of a proposal is exact (C21). -/
def WarpExact (data : ProblemData) (vt k : Nat) (old new : List Activity) : Prop :=
  NoReleases data new ∨ (∀ a ∈ (old.take k).dropLast, a.type ≠ .depot)
    ∨ (Route.build data new vt).duration ≤ (data.vehicleType vt).maxDuration

/-- `p` proposes, within the range of the number types, a change that is evaluated exactly (C21). -/
structure GoodProposal (data : ProblemData) (vt k : Nat) (p : Proposal) (old new : List Activity) :
    Prop where
  proposes : Proposes data vt k p old new
  inRange : ∀ a ∈ new, InRange data a
  timesFit : TimesFit data (data.vehicleType vt) new
  distanceFits : (Route.build data new vt).distance ≤ MAX
  released : ReleasedInTime data new
  exactWarp : WarpExact data vt k old new

end Spec

theorem GoodProposal.evaluates {data : ProblemData} (hd : GoodData data) {vt k : Nat}
    (hvt : vt < data.numVehicleTypes) {p : Proposal} {old new : List Activity}
    (h : GoodProposal data vt k p old new) :
    p.route = SRoute.ofActs data vt old ∧ EvaluatesTo data p (SRoute.ofActs data vt new) := by
  have hv := hd.vehicle hvt
  have ht := hd.times
  have hroute : p.route = SRoute.ofActs data vt old := by
    cases h.proposes with
    | mk hist _ _ _ => rw [SRoute.update_of_history hist]
  obtain ⟨c1, c2, c3, c4, _⟩ := C21_proposal_exact_unchecked_partial data ht vt k hv.capacity hv.initial
    p old new h.proposes h.timesFit h.released
  have c4 := c4 h.exactWarp
  obtain ⟨s1, s2⟩ := C23_skipped_terms_of_proposal data ht vt k hv.inRange hv.maxDuration hv.start
    hv.finish hv.capacity hv.initial p old new h.proposes h.inRange h.timesFit h.distanceFits
  obtain ⟨d1, d2, d3⟩ := SRoute.ofActs_duration ht vt new
  have hdist := SRoute.ofActs_distance data vt new
  have hload := SRoute.ofActs_excessLoad data vt new hv.capacity hv.initial
  have e1 : (SRoute.ofActs data vt new).distanceCost_ = (Route.build data new vt).distanceCost := by
    show (data.vehicleType vt).unitDistanceCost * (SRoute.ofActs data vt new).distance_ = _
    rw [hdist]; rfl
  have e2 : (SRoute.ofActs data vt new).excessDistance_ = (Route.build data new vt).excessDistance := by
    show max ((SRoute.ofActs data vt new).distance_ - (data.vehicleType vt).maxDistance) 0 = _
    rw [hdist]; rfl
  have hdur : p.duration data = ((SRoute.ofActs data vt new).durationCost_,
      (SRoute.ofActs data vt new).timeWarp_) := Prod.ext (by rw [c2, d2]) (by rw [c4, d3])
  have hdis : p.distance data = ((SRoute.ofActs data vt new).distanceCost_,
      (SRoute.ofActs data vt new).excessDistance_) := by rw [c1, e1, e2]
  refine ⟨hroute, by rw [hroute]; rfl, hdis, hdur, ?_, ⟨?_, ?_⟩, ?_, ?_, ?_, ?_⟩
  · intro dim hdim
    rw [hload]; exact c3 dim hdim
  · rw [hload]; simp [Route.build]
  · rw [hload]
    intro x hx
    simp only [Route.build, List.map_map, List.mem_map] at hx
    obtain ⟨dim, _, rfl⟩ := hx
    exact Route.loadDim_nonneg _ _ _ _
  · intro hs
    have := s1 hs
    rw [hdis] at this
    exact ⟨congrArg Prod.fst this, congrArg Prod.snd this⟩
  · intro hs
    have := s2 hs
    rw [hdur] at this
    exact ⟨congrArg Prod.fst this, congrArg Prod.snd this⟩
  · rw [d2]
    have hinv := Route.total_inv ht vt new
    have h0 : 0 ≤ (Route.build data new vt).duration := by
      show 0 ≤ (Route.backward data (data.vehicleType vt) new).ds.duration
      rw [DurSeg.duration_eq, hinv.cumD]
      have := hinv.ok.d0
      simp only [DurSeg.D]
      omega
    show 0 ≤ (data.vehicleType vt).unitDurationCost * (Route.build data new vt).duration
      + (data.vehicleType vt).unitOvertimeCost
        * max ((Route.build data new vt).duration - (data.vehicleType vt).shiftDuration) 0
    have g1 := Int.mul_nonneg hv.unitDuration h0
    have g2 := Int.mul_nonneg hv.unitOvertime (show 0 ≤ max ((Route.build data new vt).duration
      - (data.vehicleType vt).shiftDuration) 0 by omega)
    omega
  · rw [d3]
    exact (Route.backward_warpOk data _ new).timeWarp _

/-- The search route of a valid sequence of activities costs what the `Route` costs. -/
theorem ofActs_cost {data : ProblemData} (hd : GoodData data) {vt : Nat}
    (hvt : vt < data.numVehicleTypes) {acts : List Activity} (hsize : acts.length < SIZE_MAX)
    (hreloads : (data.vehicleType vt).maxReloads ≤ SIZE_MAX) {route : Route}
    (h : Route.make data acts vt = .ok route) :
    (SRoute.ofActs data vt acts).empty = route.empty
    ∧ ∀ ce : CostEvaluator, ce.penalisedCostSearch data (SRoute.ofActs data vt acts)
      = ce.penalisedCostRoute route := by
  have hv := hd.vehicle hvt
  have hw := (C05_route_accepts_exactly_wellformed data acts vt hsize hreloads).1.1 ⟨route, h⟩
  have hdep : depotVisits acts ≤ acts.length := List.countP_le_length
  have htrips : depotVisits acts + 1 ≤ (data.vehicleType vt).maxTrips := by
    have := hw.reloads
    unfold reloadLimit at this
    unfold VehicleType.maxTrips
    unfold SIZE_MAX at *
    split at this <;> simp_all <;> omega
  obtain ⟨r, hr⟩ := history_of_inserts data vt acts htrips
  obtain ⟨_, _, _, _, _, _, _, _, _, _, _, _, he, _, hc⟩ := C20_search_route_agrees data hd.times vt
    hv.capacity hv.initial acts hsize hreloads r hr route h
  rw [SRoute.update_of_history hr] at he hc
  exact ⟨he, hc⟩

namespace Spec

/-- What an evaluation that gave `result` may say about the true difference `diff`: it is exact, or it
stopped early and `diff` is not negative. -/
structure Sound (result : Int × Bool) (diff : Int) : Prop where
  complete : result.2 = true → result.1 = diff
  stopped : result.2 = false → 0 ≤ result.1 ∧ result.1 ≤ diff

/-- So its sign is right, and negative values are exact. -/
theorem Sound.sign {result : Int × Bool} {diff : Int} (h : Sound result diff) :
    (result.1 < 0 ↔ diff < 0) ∧ (result.1 < 0 → result.1 = diff) := by
  cases hr : result.2 with
  | true => have := h.complete hr; omega
  | false => have := h.stopped hr; omega

end Spec

/-- **C22.** The early exit never changes the sign of an evaluation, whatever the proposal: with the
early exit the evaluation gives what it gives without, or stops at a non-negative number in a case
where the full evaluation is not negative either. -/
theorem C22_early_exit_is_safe (data : ProblemData) (ce : CostEvaluator) (hce : ce.Valid) (out : Int)
    (u v : Proposal) (hu : 0 ≤ (u.duration data).1 ∧ 0 ≤ (u.duration data).2)
    (hv : 0 ≤ (v.duration data).1 ∧ 0 ≤ (v.duration data).2) :
    (ce.deltaCost true data out u).2 = true
    ∧ Sound (ce.deltaCost false data out u) (ce.deltaCost true data out u).1
    ∧ (ce.deltaCost2 true data out u v).2 = true
    ∧ Sound (ce.deltaCost2 false data out u v) (ce.deltaCost2 true data out u v).1 := by
  have hdur : ∀ (p : Proposal) (x : Int), 0 ≤ (p.duration data).1 → 0 ≤ (p.duration data).2 →
      x ≤ CostEvaluator.deltaDuration ce data p x := by
    intro p x h1 h2
    have : 0 ≤ ce.twPenalty (p.duration data).2 := hce.tw.nonneg _ h2
    unfold CostEvaluator.deltaDuration
    split <;> omega
  have hmono : ∀ (p : Proposal) (x y : Int), x ≤ y →
      CostEvaluator.deltaDuration ce data p x ≤ CostEvaluator.deltaDuration ce data p y := by
    intro p x y h
    unfold CostEvaluator.deltaDuration
    split <;> omega
  refine ⟨?_, ?_, ?_, ?_⟩
  · obtain ⟨_, h⟩ := deltaLoad_spec true ce hce data u (CostEvaluator.dims data u)
      (CostEvaluator.deltaDistance ce data u
        (out - ce.penalisedCostSearch data u.route + u.fixedVehicleCost data))
    unfold CostEvaluator.deltaCost
    rcases h with h | ⟨h, _⟩
    · dsimp only; rw [h]
    · exact absurd h (by decide)
  · unfold CostEvaluator.deltaCost
    dsimp only
    obtain ⟨_, h⟩ := deltaLoad_spec true ce hce data u (CostEvaluator.dims data u)
      (CostEvaluator.deltaDistance ce data u
        (out - ce.penalisedCostSearch data u.route + u.fixedVehicleCost data))
    obtain ⟨_, h'⟩ := deltaLoad_spec false ce hce data u (CostEvaluator.dims data u)
      (CostEvaluator.deltaDistance ce data u
        (out - ce.penalisedCostSearch data u.route + u.fixedVehicleCost data))
    rcases h with h | ⟨h, _⟩
    · rw [h]
      rcases h' with h' | ⟨_, w, h', h0, h1⟩
      · rw [h']
        exact ⟨fun _ => rfl, fun h => absurd h (by simp)⟩
      · rw [h']
        exact ⟨fun h => absurd h (by simp), fun _ => ⟨h0, Int.le_trans h1 (hdur u _ hu.1 hu.2)⟩⟩
    · exact absurd h (by decide)
  · unfold CostEvaluator.deltaCost2
    dsimp only
    generalize CostEvaluator.deltaDistance ce data v (CostEvaluator.deltaDistance ce data u
      (out - ce.penalisedCostSearch data u.route - ce.penalisedCostSearch data v.route
        + u.fixedVehicleCost data + v.fixedVehicleCost data)) = X
    obtain ⟨_, h⟩ := deltaLoad_spec true ce hce data u (CostEvaluator.dims data u) X
    rcases h with h | ⟨h, _⟩
    · rw [h]
      dsimp only
      obtain ⟨_, h⟩ := deltaLoad_spec true ce hce data v (CostEvaluator.dims data v)
        ((CostEvaluator.dims data u).foldl
          (fun c i => c + ce.loadPenalty (u.excessLoad data i) 0 i) X)
      rcases h with h | ⟨h, _⟩
      · rw [h]
        rfl
      · exact absurd h (by decide)
    · exact absurd h (by decide)
  · unfold CostEvaluator.deltaCost2
    dsimp only
    generalize CostEvaluator.deltaDistance ce data v (CostEvaluator.deltaDistance ce data u
      (out - ce.penalisedCostSearch data u.route - ce.penalisedCostSearch data v.route
        + u.fixedVehicleCost data + v.fixedVehicleCost data)) = X
    obtain ⟨_, h⟩ := deltaLoad_spec true ce hce data u (CostEvaluator.dims data u) X
    obtain ⟨_, h'⟩ := deltaLoad_spec false ce hce data u (CostEvaluator.dims data u) X
    rcases h with h | ⟨h, _⟩
    · rw [h]
      dsimp only
      generalize (CostEvaluator.dims data u).foldl
          (fun c i => c + ce.loadPenalty (u.excessLoad data i) 0 i) X = Y at *
      obtain ⟨g0, g⟩ := deltaLoad_spec true ce hce data v (CostEvaluator.dims data v) Y
      obtain ⟨_, g'⟩ := deltaLoad_spec false ce hce data v (CostEvaluator.dims data v) Y
      rcases g with g | ⟨g, _⟩
      · rw [g]
        dsimp only
        generalize (CostEvaluator.dims data v).foldl
            (fun c i => c + ce.loadPenalty (v.excessLoad data i) 0 i) Y = Z at *
        have hZ : Z ≤ CostEvaluator.deltaDuration ce data v (CostEvaluator.deltaDuration ce data u Z) :=
          Int.le_trans (hdur u Z hu.1 hu.2) (hdur v _ hv.1 hv.2)
        rw [show (!true && decide (Z ≥ 0)) = false from rfl, if_neg (by simp)]
        rcases h' with h' | ⟨_, w, h', w0, w1⟩
        · rw [h']
          dsimp only
          rcases g' with g' | ⟨_, w, g', w0, w1⟩
          · rw [g']
            dsimp only
            split
            · next hz =>
              simp only [Bool.not_false, Bool.true_and, decide_eq_true_eq] at hz
              exact ⟨fun h => absurd h (by simp), fun _ => ⟨hz, hZ⟩⟩
            · exact ⟨fun _ => rfl, fun h => absurd h (by simp)⟩
          · rw [g']
            exact ⟨fun h => absurd h (by simp), fun _ => ⟨w0, by simp only; omega⟩⟩
        · rw [h']
          exact ⟨fun h => absurd h (by simp), fun _ => ⟨w0, by simp only; omega⟩⟩
      · exact absurd g (by decide)
    · exact absurd h (by decide)

/-- **C22**, one route. For a proposal in the cases in which proposals are evaluated exactly (C21),
the exact delta evaluation adds the difference in penalised cost between the new and the old route,
and the other evaluation gives that difference too, or a non-negative number that is not more. -/
theorem C22_one_route_partial (data : ProblemData) (hd : GoodData data) (ce : CostEvaluator)
    (hce : ce.Valid) (hlen : ce.loadPenalties.length = data.numLoadDimensions)
    (vt k : Nat) (hvt : vt < data.numVehicleTypes)
    (hreloads : (data.vehicleType vt).maxReloads ≤ SIZE_MAX)
    (p : Proposal) (old new : List Activity) (h : GoodProposal data vt k p old new)
    (hold : old.length < SIZE_MAX) (hnew : new.length < SIZE_MAX)
    (oldRoute newRoute : Route) (ho : Route.make data old vt = .ok oldRoute)
    (hn : Route.make data new vt = .ok newRoute) (hne : newRoute.empty = false) (out : Int) :
    let diff := ce.penalisedCostRoute newRoute - ce.penalisedCostRoute oldRoute
    ce.deltaCost true data out p = (out + diff, true)
    ∧ Sound (ce.deltaCost false data out p) (out + diff) := by
  intro diff
  obtain ⟨hr, he⟩ := GoodProposal.evaluates hd hvt h
  obtain ⟨e1, e2⟩ := ofActs_cost hd hvt hnew hreloads hn
  obtain ⟨_, e3⟩ := ofActs_cost hd hvt hold hreloads ho
  have hv := hd.vehicle hvt
  have hvt' : p.route.vehicleType = vt := by rw [hr]; rfl
  have htot : out + ce.penalisedCostSearch data (SRoute.ofActs data vt new)
      - ce.penalisedCostSearch data p.route = out + diff := by
    rw [hr, e2, e3]; simp only [diff]; omega
  have spec := fun exact => deltaCost_spec exact he ce hce (by rw [hvt']; exact hv.dims) hlen
    (by rw [e1]; exact hne) out
  dsimp only at spec
  rw [htot] at spec
  constructor
  · rcases spec true with h | ⟨h, _⟩
    · exact h
    · exact absurd h (by decide)
  · rcases spec false with h | ⟨_, w, h, h0, h1⟩
    · rw [h]; exact ⟨fun _ => rfl, fun h => absurd h (by simp)⟩
    · rw [h]; exact ⟨fun h => absurd h (by simp), fun _ => ⟨h0, h1⟩⟩

/-- **C22**, two routes. -/
theorem C22_two_routes_partial (data : ProblemData) (hd : GoodData data) (ce : CostEvaluator)
    (hce : ce.Valid) (hlen : ce.loadPenalties.length = data.numLoadDimensions)
    (vt vt' k k' : Nat) (hvt : vt < data.numVehicleTypes) (hvt' : vt' < data.numVehicleTypes)
    (hreloads : (data.vehicleType vt).maxReloads ≤ SIZE_MAX)
    (hreloads' : (data.vehicleType vt').maxReloads ≤ SIZE_MAX)
    (p p' : Proposal) (old new old' new' : List Activity)
    (h : GoodProposal data vt k p old new) (h' : GoodProposal data vt' k' p' old' new')
    (hold : old.length < SIZE_MAX) (hnew : new.length < SIZE_MAX)
    (hold' : old'.length < SIZE_MAX) (hnew' : new'.length < SIZE_MAX)
    (oldRoute newRoute oldRoute' newRoute' : Route)
    (ho : Route.make data old vt = .ok oldRoute) (hn : Route.make data new vt = .ok newRoute)
    (ho' : Route.make data old' vt' = .ok oldRoute') (hn' : Route.make data new' vt' = .ok newRoute')
    (hne : newRoute.empty = false) (hne' : newRoute'.empty = false) (out : Int) :
    let diff := ce.penalisedCostRoute newRoute + ce.penalisedCostRoute newRoute'
      - (ce.penalisedCostRoute oldRoute + ce.penalisedCostRoute oldRoute')
    ce.deltaCost2 true data out p p' = (out + diff, true)
    ∧ Sound (ce.deltaCost2 false data out p p') (out + diff) := by
  intro diff
  obtain ⟨hr, he⟩ := GoodProposal.evaluates hd hvt h
  obtain ⟨hr', he'⟩ := GoodProposal.evaluates hd hvt' h'
  obtain ⟨e1, e2⟩ := ofActs_cost hd hvt hnew hreloads hn
  obtain ⟨_, e3⟩ := ofActs_cost hd hvt hold hreloads ho
  obtain ⟨f1, f2⟩ := ofActs_cost hd hvt' hnew' hreloads' hn'
  obtain ⟨_, f3⟩ := ofActs_cost hd hvt' hold' hreloads' ho'
  have hv := hd.vehicle hvt
  have hv' := hd.vehicle hvt'
  have ev : p.route.vehicleType = vt := by rw [hr]; rfl
  have ev' : p'.route.vehicleType = vt' := by rw [hr']; rfl
  have htot : out + ce.penalisedCostSearch data (SRoute.ofActs data vt new)
      + ce.penalisedCostSearch data (SRoute.ofActs data vt' new')
      - ce.penalisedCostSearch data p.route - ce.penalisedCostSearch data p'.route = out + diff := by
    rw [hr, hr', e2, e3, f2, f3]; simp only [diff]; omega
  have spec := fun exact => deltaCost2_spec exact he he' ce hce (by rw [ev]; exact hv.dims)
    (by rw [ev']; exact hv'.dims) hlen (by rw [e1]; exact hne) (by rw [f1]; exact hne') out
  dsimp only at spec
  rw [htot] at spec
  constructor
  · rcases spec true with h | ⟨h, _⟩
    · exact h
    · exact absurd h (by decide)
  · rcases spec false with h | ⟨_, w, h, h0, h1⟩
    · rw [h]; exact ⟨fun _ => rfl, fun h => absurd h (by simp)⟩
    · rw [h]; exact ⟨fun h => absurd h (by simp), fun _ => ⟨h0, h1⟩⟩

/-- **C22, negation.** In the case of `C21_negation_time_warp` the exact delta evaluation is wrong:
it gives 350, while the cost changes by 300. -/
theorem C22_negation :
    let data := Demo.releaseData 20 100 15
    ProblemData.make data = .ok data ∧ (∀ c ∈ data.clients, Client.make c = .ok c)
    ∧ ∃ (ce : CostEvaluator) (p : Proposal) (oldRoute newRoute : Route), ce.Valid
      ∧ Proposes data 0 3 p Demo.oldActs Demo.newActs
      ∧ Route.make data Demo.oldActs 0 = .ok oldRoute ∧ Route.make data Demo.newActs 0 = .ok newRoute
      ∧ (ce.deltaCost true data 0 p).1 = 350
      ∧ ce.penalisedCostRoute newRoute - ce.penalisedCostRoute oldRoute = 300 := by
  intro data
  refine ⟨by decide +kernel, by decide +kernel, ?_⟩
  obtain ⟨r, hr⟩ := history_of_inserts data 0 Demo.oldActs (by decide)
  refine ⟨⟨[], ratPenalty 10 1, ratPenalty 1 1⟩, _, Route.build data Demo.oldActs 0,
    Route.build data Demo.newActs 0,
    ⟨by simp, ratPenalty_isPenalty 10 1 (by decide) (by decide),
      ratPenalty_isPenalty 1 1 (by decide) (by decide)⟩,
    Proposes.mk (k := 3) hr (by decide) (.cons (.client 2) .nil)
    (.after hr 4 (by decide) (by decide)), by decide +kernel, by decide +kernel, ?_⟩
  rw [SRoute.update_of_history hr]
  decide +kernel

/-! ## Non-vacuity -/

namespace Demo

theorem goodData : GoodData data where
  made := by decide
  vehicles := by
    intro v hv
    have h : ∀ v ∈ data.vehicleTypes, VehicleType.replace v {} = .ok v := by decide
    exact ⟨_, h v hv⟩
  times := timesOk

/-- The change of `C21` meets all conditions; its evaluation is 30, and can stop early. -/
example : ∃ p, GoodProposal data 0 1 p acts newActs'
    ∧ (∃ r, Route.make data acts 0 = .ok r) ∧ (∃ r, Route.make data newActs' 0 = .ok r ∧ r.empty = false)
    ∧ costEvaluator.deltaCost true data 0 p = (30, true)
    ∧ costEvaluator.deltaCost false data 0 p = (30, true)
    ∧ (costEvaluator.deltaCost false data 1000 p).2 = false := by
  obtain ⟨r, hr⟩ := history_of_inserts data 0 acts (by decide)
  refine ⟨_, ⟨Proposes.mk hr (by decide)
    (.cons (.client 3) (.cons (.between hr 2 4 (by decide) (by decide) (by decide) (by decide))
      (.cons (.client 4) .nil)))
    (.after hr 5 (by decide) (by decide)), by
      intro a ha; simp [newActs'] at ha; rcases ha with h | h | h | h | h | h | h | h <;> subst h <;> simp [InRange, data],
    ⟨100, by decide, by decide, by decide, by decide, by decide⟩, by decide +kernel,
    by unfold ReleasedInTime; decide, Or.inr (Or.inl (by decide))⟩,
    ⟨Route.build data acts 0, by decide +kernel⟩, ⟨Route.build data newActs' 0, by decide +kernel⟩, ?_⟩
  rw [SRoute.update_of_history hr]
  decide +kernel

end Demo
end PyVRP
