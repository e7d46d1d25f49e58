import Verif.Lemmas.SearchTime
import Verif.Lemmas.RouteLoad
/-!
# Lemmas on the load segments of search routes
-/
namespace PyVRP
open Spec

namespace LoadSeg

/-- Invariant of load segments. -/
structure Ok (s : LoadSeg) : Prop where
  i0 : 0 ≤ s.increase_
  di : s.delta_ ≤ s.increase_

theorem Ok.nil : Ok {} := ⟨Int.le_refl 0, Int.le_refl 0⟩

theorem Ok.merge {a b : LoadSeg} (ha : a.Ok) (hb : b.Ok) : (merge a b).Ok := by
  have := ha.i0; have := ha.di; have := hb.i0; have := hb.di
  constructor <;> simp only [LoadSeg.merge] <;> omega

theorem Ok.finalise {a : LoadSeg} (c : Int) : (a.finalise c).Ok := ⟨Int.le_refl 0, Int.le_refl 0⟩

theorem Ok.ofClient (c : Client) (dim : Nat) : (ofClient c dim).Ok := by
  constructor <;> simp only [LoadSeg.ofClient] <;> omega

theorem Ok.ofShipment (s : Shipment) (ty : ActivityType) (dim : Nat) : (ofShipment s ty dim).Ok := by
  constructor <;> simp only [LoadSeg.ofShipment] <;> omega

theorem Ok.ofVehicle (v : VehicleType) (dim : Nat) : (ofVehicle v dim).Ok :=
  ⟨Int.le_refl 0, Int.le_refl 0⟩

theorem merge_assoc (a b c : LoadSeg) : merge (merge a b) c = merge a (merge b c) := by
  simp only [merge, LoadSeg.mk.injEq]
  refine ⟨?_, ?_, ?_, ?_⟩ <;> omega

theorem merge_nil {a : LoadSeg} (ha : a.Ok) : merge a {} = a := by
  have := ha.di
  cases a
  simp only [merge, LoadSeg.mk.injEq] at *
  refine ⟨?_, ?_, ?_, ?_⟩ <;> omega

theorem nil_merge {a : LoadSeg} (ha : a.Ok) : merge {} a = a := by
  have := ha.i0
  cases a
  simp only [merge, LoadSeg.mk.injEq] at *
  refine ⟨?_, ?_, ?_, ?_⟩ <;> omega

/-- A depot between two segments: finalising either side gives the same excess. -/
theorem excess_merge_finalise {q a : LoadSeg} (hq : q.Ok) (ha : a.Ok) (c : Int) :
    (merge q (a.finalise c)).excessLoad c = (merge (q.finalise c) a).excessLoad c := by
  have := hq.di; have := ha.i0
  simp only [excessLoad, merge, finalise, load]
  omega

theorem excess_finalise {q : LoadSeg} {c : Int} (hc : 0 ≤ c) :
    (q.finalise c).excessLoad c = q.excessLoad c := by
  simp only [excessLoad, finalise, load]; omega

end LoadSeg

/-- The load segment of an activity that is not the start or end of the route. -/
def innerLoad (data : ProblemData) (dim : Nat) (a : Activity) : LoadSeg :=
  match a.type with
  | .depot => {}
  | .client => LoadSeg.ofClient (data.client a.idx) dim
  | .pickup => LoadSeg.ofShipment (data.shipment a.idx) .pickup dim
  | .delivery => LoadSeg.ofShipment (data.shipment a.idx) .delivery dim

theorem innerLoad_ok (data : ProblemData) (dim : Nat) (a : Activity) : (innerLoad data dim a).Ok := by
  obtain ⟨ty, i⟩ := a
  cases ty
  · exact .nil
  · exact .ofClient _ _
  · exact .ofShipment _ _ _
  · exact .ofShipment _ _ _

/-- One step of the loop over the activities in `Route::setLoad`. -/
def stepLoad (data : ProblemData) (cap : Int) (dim : Nat) (ls : LoadSeg) (a : Activity) : LoadSeg :=
  if a.type = .depot then ls.finalise cap else LoadSeg.merge ls (innerLoad data dim a)

theorem stepLoad_ok {data : ProblemData} {cap : Int} {dim : Nat} {ls : LoadSeg} (h : ls.Ok)
    (a : Activity) : (stepLoad data cap dim ls a).Ok := by
  unfold stepLoad; split
  · exact .finalise _
  · exact h.merge (innerLoad_ok ..)

theorem foldl_stepLoad_ok {data : ProblemData} {cap : Int} {dim : Nat} (acts : List Activity)
    {ls : LoadSeg} (h : ls.Ok) : (acts.foldl (stepLoad data cap dim) ls).Ok := by
  induction acts generalizing ls with
  | nil => exact h
  | cons a rest ih => exact ih (stepLoad_ok h a)

theorem loadStepA_ls (data : ProblemData) (v : VehicleType) (dim : Nat) (st : Route.LState)
    (a : Activity) : (Route.loadStepA data v dim st a).ls
      = stepLoad data (v.capacity.getD dim 0) dim st.ls a := by
  obtain ⟨ty, i⟩ := a
  cases ty <;> simp [Route.loadStepA, Route.loadStep, stepLoad, innerLoad]

theorem foldl_loadStepA_ls (data : ProblemData) (v : VehicleType) (dim : Nat) (acts : List Activity)
    (st : Route.LState) : (acts.foldl (Route.loadStepA data v dim) st).ls
      = acts.foldl (stepLoad data (v.capacity.getD dim 0) dim) st.ls := by
  induction acts generalizing st with
  | nil => rfl
  | cons a rest ih => rw [List.foldl_cons, List.foldl_cons, ih, loadStepA_ls]

/-- The excess load of `pyvrp::Route`. -/
theorem build_excessLoad {data : ProblemData} (vt : Nat) (acts : List Activity) (dim : Nat)
    (hcap : 0 ≤ (data.vehicleType vt).capacity.getD dim 0)
    (hinit : 0 ≤ (data.vehicleType vt).initialLoad.getD dim 0) :
    (Route.loadDim data (data.vehicleType vt) (Route.build data acts vt).schedule dim).2.2
      = (acts.foldl (stepLoad data ((data.vehicleType vt).capacity.getD dim 0) dim)
          (LoadSeg.ofVehicle (data.vehicleType vt) dim)).excessLoad
            ((data.vehicleType vt).capacity.getD dim 0) := by
  have hmap : ((Route.build data acts vt).schedule.drop 1).map (·.activity)
      = acts ++ [⟨.depot, (data.vehicleType vt).endDepot⟩] := by
    rw [List.map_drop]
    show ((Route.mkSchedule ..).map _).drop 1 = _
    rw [Route.mkSchedule_activities]
    rfl
  have hls : (Route.loadInit (data.vehicleType vt) dim).ls
      = LoadSeg.ofVehicle (data.vehicleType vt) dim := by
    unfold Route.loadInit
    split
    · rfl
    · simp only [LoadSeg.ofVehicle, LoadSeg.mk.injEq, and_true]; omega
  simp only [Route.loadDim]
  rw [Route.foldl_loadStep, hmap, foldl_loadStepA_ls, hls, List.foldl_append, List.foldl_cons,
    List.foldl_nil]
  rw [stepLoad, if_pos rfl]
  exact LoadSeg.excess_finalise hcap

/-! ## Search routes -/

theorem Inner.loadAtOf {data : ProblemData} {v : VehicleType} {dim : Nat} {n : SNode}
    (h : Inner n) : SRoute.loadAtOf data v dim n = innerLoad data dim n.activity := by
  unfold Inner at h
  unfold SRoute.loadAtOf innerLoad
  simp only [h]
  rfl

/-- Finalise at a reload depot. -/
def finIf (cap : Int) (b : Bool) (s : LoadSeg) : LoadSeg := if b then s.finalise cap else s

theorem loadBefore_prefix (data : ProblemData) (v : VehicleType) (dim : Nat) (s0 : SNode)
    (hs0 : IsStart v s0) (ns : List SNode) (hns : ∀ n ∈ ns, Inner n) :
    finIf (v.capacity.getD dim 0) (ns.getLastD s0).isReloadDepot
      (foldNodes (SRoute.loadBeforeStep data v dim) s0 (SRoute.loadAtOf data v dim s0) ns)
    = (ns.map SNode.activity).foldl (stepLoad data (v.capacity.getD dim 0) dim)
        (LoadSeg.ofVehicle v dim) := by
  induction ns using snoc_induction with
  | h0 =>
    simp only [List.getLastD_nil, hs0.reload, finIf, foldNodes, List.map_nil, List.foldl_nil]
    simp [SRoute.loadAtOf, hs0.role]
  | hs ns n ih =>
    have hn : Inner n := hns n (by simp)
    have ih := ih (fun m hm => hns m (by simp [hm]))
    rw [List.getLastD_concat, foldNodes_concat, List.map_append, List.foldl_append, ← ih,
      List.map_singleton, List.foldl_cons, List.foldl_nil]
    have hok : (finIf (v.capacity.getD dim 0) (ns.getLastD s0).isReloadDepot
      (foldNodes (SRoute.loadBeforeStep data v dim) s0 (SRoute.loadAtOf data v dim s0) ns)).Ok := by
      rw [ih]; exact foldl_stepLoad_ok _ (.ofVehicle ..)
    have hstep : SRoute.loadBeforeStep data v dim (ns.getLastD s0)
        (foldNodes (SRoute.loadBeforeStep data v dim) s0 (SRoute.loadAtOf data v dim s0) ns) n
        = LoadSeg.merge (finIf (v.capacity.getD dim 0) (ns.getLastD s0).isReloadDepot
          (foldNodes (SRoute.loadBeforeStep data v dim) s0 (SRoute.loadAtOf data v dim s0) ns))
          (innerLoad data dim n.activity) := by
      unfold SRoute.loadBeforeStep finIf
      rw [hn.loadAtOf]
      split <;> rfl
    rw [hstep, hn.reload]
    generalize finIf (v.capacity.getD dim 0) (ns.getLastD s0).isReloadDepot
      (foldNodes (SRoute.loadBeforeStep data v dim) s0 (SRoute.loadAtOf data v dim s0) ns) = p at hok
    unfold finIf stepLoad
    by_cases hty : n.activity.type = .depot
    · rw [if_pos ((isDepot_iff n).2 hty), if_pos hty]
      rw [show innerLoad data dim n.activity = {} by simp [innerLoad, hty], LoadSeg.merge_nil hok]
    · rw [if_neg (fun h => hty ((isDepot_iff n).1 h)), if_neg hty]

theorem loadAfter_ok (data : ProblemData) (v : VehicleType) (dim : Nat) (ns : List SNode)
    (hns : ∀ n ∈ ns, Inner n) (fin : SNode) (hf : fin.role = .finish) :
    (backNodes (SRoute.loadAfterStep data v dim) (SRoute.loadAtOf data v dim) (ns ++ [fin])).Ok := by
  induction ns with
  | nil =>
    simp only [List.nil_append, backNodes, SRoute.loadAtOf, hf]
    exact .nil
  | cons n rest ih =>
    have ih := ih (fun m hm => hns m (List.mem_cons_of_mem _ hm))
    have hn := hns n (List.mem_cons_self ..)
    rw [List.cons_append, backNodes_cons _ _ n (rest ++ [fin]) (by simp) default]
    unfold SRoute.loadAfterStep
    rw [hn.loadAtOf]
    split
    · exact (innerLoad_ok ..).merge (.finalise _)
    · exact (innerLoad_ok ..).merge ih

theorem loadAfter_suffix (data : ProblemData) (v : VehicleType) (dim : Nat) (ns : List SNode)
    (hns : ∀ n ∈ ns, Inner n) (fin : SNode) (hf : fin.role = .finish)
    (p : LoadSeg) (hp : p.Ok) :
    (LoadSeg.merge
      (finIf (v.capacity.getD dim 0) ((ns ++ [fin]).headD default).isReloadDepot p)
      (backNodes (SRoute.loadAfterStep data v dim) (SRoute.loadAtOf data v dim)
        (ns ++ [fin]))).excessLoad (v.capacity.getD dim 0)
    = ((ns.map SNode.activity).foldl (stepLoad data (v.capacity.getD dim 0) dim) p).excessLoad
        (v.capacity.getD dim 0) := by
  induction ns generalizing p with
  | nil =>
    have h1 : fin.isReloadDepot = false := by
      simp [SNode.isReloadDepot, SNode.isEndDepot, hf]
    simp only [List.nil_append, List.headD_cons, backNodes, SRoute.loadAtOf, hf, h1, finIf,
      List.map_nil, List.foldl_nil]
    rw [if_neg (by simp), LoadSeg.merge_nil hp]
  | cons n rest ih =>
    have hok := loadAfter_ok data v dim rest (fun m hm => hns m (List.mem_cons_of_mem _ hm)) fin hf
    have ih := ih (fun m hm => hns m (List.mem_cons_of_mem _ hm))
    have hn := hns n (List.mem_cons_self ..)
    rw [List.map_cons, List.foldl_cons, ← ih _ (stepLoad_ok hp _)]
    rw [List.cons_append, backNodes_cons _ _ n (rest ++ [fin]) (by simp) default, List.headD_cons]
    rw [hn.reload]
    -- the state after the node
    have hq : LoadSeg.merge (finIf (v.capacity.getD dim 0) n.isDepot p)
        (innerLoad data dim n.activity) = stepLoad data (v.capacity.getD dim 0) dim p n.activity := by
      unfold finIf stepLoad
      by_cases hty : n.activity.type = .depot
      · rw [if_pos ((isDepot_iff n).2 hty), if_pos hty]
        rw [show innerLoad data dim n.activity = {} by simp [innerLoad, hty],
          LoadSeg.merge_nil (.finalise _)]
      · rw [if_neg (fun h => hty ((isDepot_iff n).1 h)), if_neg hty]
    have hqok := stepLoad_ok (data := data) (cap := v.capacity.getD dim 0) (dim := dim) hp n.activity
    generalize backNodes (SRoute.loadAfterStep data v dim) (SRoute.loadAtOf data v dim)
      (rest ++ [fin]) = after at hok
    unfold SRoute.loadAfterStep
    rw [hn.loadAtOf]
    split
    · next hr =>
      rw [← LoadSeg.merge_assoc, hq, LoadSeg.excess_merge_finalise hqok hok]
      simp only [finIf, hr, if_true]
    · next hr =>
      rw [← LoadSeg.merge_assoc, hq]
      simp only [finIf, hr]
      rfl

end PyVRP
