import Verif.Lemmas.Moderate
import Verif.Lemmas.LocalResult
import Verif.Lemmas.RouteNonneg
import Verif.Lemmas.Checked
import Verif.Props.C36
/-!
# The local search without a limit on reloads

A move adds at most one visit to a reload depot, and lowers the cost or removes a visit. So the number of
visits plus the cost does not grow.
-/
namespace PyVRP
open Spec
open SSol (used)

variable {data : ProblemData} {ce : CostEvaluator}

theorem excessLoadPenalties_nonneg (hv : ce.Valid) {l : List Int} (hl : ∀ x ∈ l, 0 ≤ x) :
    0 ≤ ce.excessLoadPenalties l := by
  unfold CostEvaluator.excessLoadPenalties
  have key : ∀ (ps : List ((Int → Int) × Int)) (c : Int), (∀ p ∈ ps, 0 ≤ p.1 p.2) → 0 ≤ c →
      0 ≤ ps.foldl (fun cost p => cost + p.1 p.2) c := by
    intro ps
    induction ps with
    | nil => intro c _ hc; exact hc
    | cons p ps ih =>
      intro c h hc
      have := h p (by simp)
      exact ih (c + p.1 p.2) (fun q hq => h q (by simp [hq])) (by omega)
  refine key _ 0 ?_ (Int.le_refl 0)
  rintro ⟨f, x⟩ hp
  obtain ⟨h1, h2⟩ := List.of_mem_zip hp
  exact (hv.load f h1).nonneg x (hl x h2)

theorem legSum_nonneg {f : Nat → Nat → Int} (hf : ∀ i j, 0 ≤ f i j) : ∀ l : List Nat, 0 ≤ legSum f l
  | [] => by simp [legSum]
  | [_] => by simp [legSum]
  | x :: y :: rest => by
    have h1 := hf x y
    have h2 := legSum_nonneg hf (y :: rest)
    rw [legSum]
    omega

theorem build_duration_nonneg (ht : TimesOk data) (vt : Nat) (acts : List Activity) :
    0 ≤ (Route.build data acts vt).duration := by
  obtain ⟨ok, rep, hrel, hcd, hcw, hp, -, -⟩ := Route.total_inv ht vt acts
  simp only [Route.build] at *
  generalize (Route.backward data (data.vehicleType vt) acts).ds = ds at *
  have := ok.d0
  simp only [DurSeg.duration, hcd]
  omega

/-- What the constructor of a vehicle type guarantees about its costs. -/
theorem vehicle_costs (hg : GoodData data) {v : VehicleType} (hv : v ∈ data.vehicleTypes) :
    0 ≤ v.unitDistanceCost ∧ 0 ≤ v.unitDurationCost ∧ 0 ≤ v.unitOvertimeCost := by
  obtain ⟨args, h⟩ := hg.vehicles v hv
  have hok := (C36_vehicle_accepts args).1.1 ⟨v, h⟩
  unfold VehicleType.make at h
  obtain ⟨_, rfl⟩ := checked_eq_ok.1 h
  exact ⟨hok.unitDistance, hok.unitDuration, hok.unitOvertime⟩

theorem vehicle_loads {v : VehicleType} {args : VehicleTypeArgs} (h : VehicleType.make args = .ok v)
    (dim : Nat) : 0 ≤ v.capacity.getD dim 0 ∧ 0 ≤ v.initialLoad.getD dim 0 := by
  have hok := (C36_vehicle_accepts args).1.1 ⟨v, h⟩
  unfold VehicleType.make at h
  obtain ⟨_, rfl⟩ := checked_eq_ok.1 h
  have hget : ∀ l : List Int, Nonneg l → 0 ≤ l.getD dim 0 := by
    intro l hl
    rw [List.getD_eq_getElem?_getD]
    cases hx : l[dim]? with
    | none => simp
    | some x => exact hl x (List.mem_of_getElem? hx)
  constructor
  · apply hget; dsimp only; rw [nonneg_pad]; exact hok.capacity
  · apply hget; dsimp only; rw [nonneg_pad]; exact hok.initial

theorem routeCost_nonneg (hc : CostOk data ce) (hn : NonnegCosts data) {vt : Nat}
    (hvt : vt < data.numVehicleTypes) (acts : List Activity) : 0 ≤ routeCost data ce vt acts := by
  have hv := SSol.vehicleType_mem data hvt
  obtain ⟨c1, c2, c3⟩ := vehicle_costs hc.good hv
  obtain ⟨args, hargs⟩ := hc.good.vehicles _ hv
  have hnn := fun dim => vehicle_loads hargs dim
  unfold routeCost CostEvaluator.penalisedCostSearch
  split
  · exact Int.le_refl 0
  have hd : 0 ≤ (SRoute.ofActs data vt acts).distance_ := by
    rw [SRoute.ofActs_distance, Spec.ModerateUpTo.build_distance]
    exact legSum_nonneg (dist_nonneg hn.distances _) _
  have ht : 0 ≤ (SRoute.ofActs data vt acts).duration_ := by
    rw [(SRoute.ofActs_duration hc.good.times vt acts).1]
    exact build_duration_nonneg hc.good.times vt acts
  have hw : 0 ≤ (SRoute.ofActs data vt acts).timeWarp_ := by
    rw [(SRoute.ofActs_duration hc.good.times vt acts).2.2]
    exact (Route.backward_warpOk data _ acts).timeWarp _
  have hl : ∀ x ∈ (SRoute.ofActs data vt acts).excessLoad_, 0 ≤ x := by
    rw [SRoute.ofActs_excessLoad data vt acts (fun dim => (hnn dim).1) (fun dim => (hnn dim).2)]
    intro x hx
    simp only [Route.build, List.map_map, List.mem_map] at hx
    obtain ⟨dim, _, rfl⟩ := hx
    exact Route.loadDim_nonneg data _ _ dim
  have e1 : (SRoute.ofActs data vt acts).distanceCost_
      = (data.vehicleType vt).unitDistanceCost * (SRoute.ofActs data vt acts).distance_ := rfl
  have e2 : (SRoute.ofActs data vt acts).durationCost_
      = (data.vehicleType vt).unitDurationCost * (SRoute.ofActs data vt acts).duration_
        + (data.vehicleType vt).unitOvertimeCost
          * max ((SRoute.ofActs data vt acts).duration_ - (data.vehicleType vt).shiftDuration) 0 := rfl
  have e3 : (SRoute.ofActs data vt acts).vehicleType = vt := rfl
  have p1 := Int.mul_nonneg c1 hd
  have p2 := Int.mul_nonneg c2 ht
  have p3 := Int.mul_nonneg c3 (Int.le_max_right
    ((SRoute.ofActs data vt acts).duration_ - (data.vehicleType vt).shiftDuration) 0)
  have p4 := excessLoadPenalties_nonneg hc.valid hl
  have p5 := hc.valid.tw.nonneg _ hw
  have p6 := hc.valid.dist.nonneg _ (Int.le_max_right ((SRoute.ofActs data vt acts).excessDistance_ - 0) 0)
  have p7 := hn.fixed _ hv
  rw [e1, e2, e3]
  unfold CostEvaluator.twPenalty CostEvaluator.distPenalty CostEvaluator.excessDistPenalty
  omega

theorem sum_map_nonneg {α : Type} {f : α → Int} : ∀ {l : List α}, (∀ a ∈ l, 0 ≤ f a) → 0 ≤ (l.map f).sum
  | [], _ => by simp
  | a :: l, h => by
    have h1 := h a (by simp)
    have h2 := sum_map_nonneg (l := l) (fun b hb => h b (by simp [hb]))
    rw [List.map_cons, List.sum_cons]
    omega

theorem planCost_nonneg (hc : CostOk data ce) (hn : NonnegCosts data) (plan : List (List Activity)) :
    0 ≤ planCost data ce plan := by
  unfold planCost missedPrizes routesCost
  have h1 : 0 ≤ ((List.range data.numClients).map (fun i =>
      if visits plan ⟨.client, i⟩ then 0 else (data.client i).prize)).sum := by
    refine sum_map_nonneg fun i hi => ?_
    have hi : i < data.clients.length := List.mem_range.1 hi
    split
    · exact Int.le_refl 0
    · have := hn.prizes _ (List.getElem_mem hi)
      simpa [ProblemData.client, List.getD_eq_getElem?_getD, List.getElem?_eq_getElem hi] using this
  have h2 : 0 ≤ ((List.range data.numShipments).map (fun i =>
      if visits plan ⟨.pickup, i⟩ then 0 else (data.shipment i).prize)).sum := by
    refine sum_map_nonneg fun i hi => ?_
    have hi : i < data.shipments.length := List.mem_range.1 hi
    split
    · exact Int.le_refl 0
    · have := hn.shipments _ (List.getElem_mem hi)
      simpa [ProblemData.shipment, List.getD_eq_getElem?_getD, List.getElem?_eq_getElem hi] using this
  have h3 : 0 ≤ ((List.range data.numVehicles).map (fun k =>
      routeCost data ce (vehTypeAt data k) (plan.getD k []))).sum :=
    sum_map_nonneg fun k hk => routeCost_nonneg hc hn (vehTypeAt_lt data (List.mem_range.1 hk)) _
  omega

/-- The number of visits to reload depots plus the cost is at most `N`. -/
def Spec.AtMost (data : ProblemData) (ce : CostEvaluator) (N : Nat) (plan : List (List Activity)) : Prop :=
  (reloads plan : Int) + planCost data ce plan ≤ N

theorem Spec.ModerateUpTo.exact {B N : Nat} (h : ModerateUpTo data B (fun _ => N + 2))
    (hc : CostOk data ce) (hn : NonnegCosts data) : Exact data ce (AtMost data ce N) := by
  refine ⟨hc, fun plan hI k hk acts hr hon _ hle => h.fitsRoute hc.good hk hr hon ?_,
    fun plan plan' _ _ hI _ _ hle hb => ?_⟩
  · have := planCost_nonneg hc hn plan
    unfold AtMost at hI
    omega
  · unfold AtMost Better at *
    omega

theorem Spec.ModerateUpTo.inMemory {B N : Nat} (h : ModerateUpTo data B (fun _ => N + 2))
    (hc : CostOk data ce) (hn : NonnegCosts data) {plan : List (List Activity)} {s : SSol}
    (hI : AtMost data ce N plan) (hs : SearchOk data plan s) : InMemory s := by
  intro r hr
  obtain ⟨k, hk, rfl⟩ := List.mem_iff_getElem.1 hr
  rw [hs.clean.1.sized.routes] at hk
  have he := hs.route hk
  unfold SSol.route at he
  rw [List.getD_eq_getElem?_getD, List.getElem?_eq_getElem (by rw [hs.clean.1.sized.routes]; exact hk),
    Option.getD_some] at he
  rw [he]
  have hv : data.vehicleType (vehTypeAt data k) ∈ data.vehicleTypes :=
    SSol.vehicleType_mem data (vehTypeAt_lt data hk)
  have hn' : (SRoute.ofActs data (vehTypeAt data k) (plan.getD k [])).nodes.map (·.activity)
      = fullActs (data.vehicleType (vehTypeAt data k)) (plan.getD k []) := SRoute.canon_activities _ _
  have hl := congrArg List.length hn'
  rw [List.length_map, fullActs, List.length_append, List.length_cons] at hl
  simp only [List.length_cons, List.length_nil] at hl
  have h1 := (hs.routes k hk).length_le (hs.once k)
  have h2 := depotVisits_le_reloads plan k
  have h3 := h.total _ hv
  have h4 := h.pos
  have h5 : 3 * (data.numClients + 2 * data.numShipments + (N + 2) + 4)
      ≤ 3 * B * (data.numClients + 2 * data.numShipments + (N + 2) + 4) :=
    Nat.mul_le_mul_right _ (by omega)
  have h6 := planCost_nonneg hc hn plan
  unfold AtMost at hI
  have := HALF_eq
  unfold SIZE_MAX
  rw [hl]
  omega

/-- What the state of a search says about its plan. -/
theorem reloadVisits_eq {plan : List (List Activity)} {s : SSol} (hs : SearchOk data plan s) :
    reloadVisits s = reloads plan := by
  unfold reloadVisits reloads
  congr 1
  refine List.ext_getElem (by rw [List.length_map, List.length_map, hs.clean.1.sized.routes,
    hs.clean.1.length]) fun k h1 h2 => ?_
  rw [List.length_map] at h1 h2
  have hk : k < data.numVehicles := by rw [← hs.clean.1.length]; exact h2
  have he := hs.route hk
  unfold SSol.route at he
  rw [List.getD_eq_getElem?_getD, List.getElem?_eq_getElem h1, Option.getD_some] at he
  rw [List.getElem_map, List.getElem_map, he, List.getD_eq_getElem?_getD, List.getElem?_eq_getElem h2,
    Option.getD_some]
  have := (SRoute.ofActs_counts data (vehTypeAt data k) plan[k]).2.2.2.1
  omega

end PyVRP
