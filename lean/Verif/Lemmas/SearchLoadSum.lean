import Verif.Lemmas.SearchRoute
/-!
# The loads of a search route
-/
namespace PyVRP
open Spec

namespace Spec

/-- The sum of the peaks of trips, when the events `es` of the first trip have already happened. -/
def peaksFrom (data : ProblemData) (dim : Nat) (es : List LoadEvent) : List (List Activity) → Int
  | [] => 0
  | t :: ts => peak (loadedAtStart (es ++ t.map (loadEvent data dim))) (es ++ t.map (loadEvent data dim))
      + (ts.map fun t => peak (loadedAtStart (t.map (loadEvent data dim))) (t.map (loadEvent data dim))).sum

end Spec

namespace SRoute

theorem foldl_load (l : List (SNode × LoadSeg)) (acc : Int) :
    l.foldl (fun acc p => acc + p.2.load) acc = acc + l.foldl (fun acc p => acc + p.2.load) 0 := by
  induction l generalizing acc with
  | nil => simp
  | cons p l ih =>
    rw [List.foldl_cons, List.foldl_cons, ih (acc + p.2.load), ih (0 + p.2.load)]
    omega

theorem loadSum_cons (n : SNode) (ns : List SNode) (b : LoadSeg) (bs : List LoadSeg) :
    loadSum (n :: ns) (b :: bs)
      = (if n.isDepot && !n.isStartDepot then b.load else 0) + loadSum ns bs := by
  unfold loadSum
  rw [List.zip_cons_cons, List.filter_cons]
  dsimp only
  split
  · rw [List.foldl_cons, foldl_load, Int.zero_add]
  · rw [Int.zero_add]

theorem scanNodes_tail {β : Type} (f : SNode → β → SNode → β) (n : SNode) (b : β) (m : SNode)
    (rest : List SNode) : (scanNodes f n b (m :: rest)).tail = scanNodes f m (f n b m) rest := rfl

theorem loadSum_scan (f : SNode → LoadSeg → SNode → LoadSeg) (n : SNode) (b : LoadSeg) (ns : List SNode) :
    loadSum (n :: ns) (scanNodes f n b ns)
      = (if n.isDepot && !n.isStartDepot then b.load else 0) + loadSum ns (scanNodes f n b ns).tail := by
  have : scanNodes f n b ns = b :: (scanNodes f n b ns).tail := by cases ns <;> rfl
  rw [this, loadSum_cons]
  rfl

theorem innerLoad_rep (data : ProblemData) (dim : Nat) {a : Activity} (ha : a.type ≠ .depot) :
    (innerLoad data dim a).Rep [loadEvent data dim a] := by
  obtain ⟨ty, i⟩ := a
  cases ty with
  | depot => exact absurd rfl ha
  | client => exact LoadSeg.ofClient_rep _ _
  | pickup => exact LoadSeg.ofPickup_rep _ _
  | delivery => exact LoadSeg.ofDelivery_rep _ _

theorem loadBeforeStep_eq (data : ProblemData) (v : VehicleType) (dim : Nat) (n m : SNode) (b : LoadSeg) :
    loadBeforeStep data v dim n b m
      = LoadSeg.merge (finIf (v.capacity.getD dim 0) n.isReloadDepot b) (loadAtOf data v dim m) := by
  unfold loadBeforeStep finIf
  split <;> rfl

theorem loadSum_inner (data : ProblemData) (v : VehicleType) (dim : Nat) (fin : SNode)
    (hf : fin.role = .finish) (hd : fin.isDepot = true) : ∀ (acts : List Activity) (pos trip : Nat) (n : SNode)
    (b : LoadSeg) (es : List LoadEvent), (finIf (v.capacity.getD dim 0) n.isReloadDepot b).Rep es →
    loadSum (innerNodes pos trip acts ++ [fin])
      (scanNodes (loadBeforeStep data v dim) n b (innerNodes pos trip acts ++ [fin])).tail
      = peaksFrom data dim es (trips acts)
  | [], pos, trip, n, b, es, h => by
    rw [innerNodes, List.nil_append, scanNodes_tail, loadSum_scan, loadBeforeStep_eq]
    have e1 : loadAtOf data v dim fin = {} := by simp [loadAtOf, hf]
    have e2 : fin.isStartDepot = false := by simp [SNode.isStartDepot, hf]
    rw [e1, hd, e2, Bool.not_false, Bool.and_true, if_pos rfl, (h.merge LoadSeg.Rep.nil).load]
    show _ + 0 = _
    simp [trips, peaksFrom]
  | a :: acts, pos, trip, n, b, es, h => by
    rw [innerNodes]
    rw [List.cons_append, scanNodes_tail, loadSum_scan, loadBeforeStep_eq]
    generalize hm : ({ activity := a, pos := pos, trip := if a.type = .depot then trip + 1 else trip } : SNode) = m
    have hi : Inner m := by rw [← hm]; rfl
    have ha : m.activity = a := by rw [← hm]
    have hs : m.isStartDepot = false := by rw [← hm]; rfl
    rw [hi.loadAtOf, ha, hs]
    by_cases hty : a.type = .depot
    · have hdep : m.isDepot = true := (isDepot_iff m).2 (by rw [ha]; exact hty)
      have e : innerLoad data dim a = {} := by simp [innerLoad, hty]
      have hrep := h.merge LoadSeg.Rep.nil
      rw [List.append_nil] at hrep
      rw [hdep, Bool.not_false, Bool.and_true, if_pos rfl, e, hrep.load,
        loadSum_inner data v dim fin hf hd acts _ _ m _ [] (by
          rw [hi.reload, hdep]; exact ⟨rfl, rfl, rfl⟩)]
      simp only [trips, hty, if_true, peaksFrom, List.map_nil, List.append_nil]
      cases ht : trips acts with
      | nil => exact absurd ht (trips_ne_nil _)
      | cons t ts => simp
    · have hdep : m.isDepot = false := by
        cases hc : m.isDepot with
        | false => rfl
        | true => exact absurd (ha ▸ (isDepot_iff m).1 hc) hty
      rw [hdep, Bool.false_and, if_neg (by simp), Int.zero_add,
        loadSum_inner data v dim fin hf hd acts _ _ m _ (es ++ [loadEvent data dim a]) (by
          rw [hi.reload, hdep]; exact h.merge (innerLoad_rep data dim hty))]
      simp only [trips, hty, if_false]
      cases ht : trips acts with
      | nil => exact absurd ht (trips_ne_nil _)
      | cons t ts => simp [peaksFrom]

/-- The load of a search route in one dimension is the sum of the peaks of its trips. -/
theorem ofActs_load (data : ProblemData) (vt : Nat) (acts : List Activity) :
    (ofActs data vt acts).load_ = (List.range data.numLoadDimensions).map fun dim =>
      peaksFrom data dim [⟨(data.vehicleType vt).initialLoad.getD dim 0, 0⟩] (trips acts) := by
  simp only [ofActs, update, List.map_map]
  apply List.map_congr_left
  intro dim _
  simp only [Function.comp, canon, loadBefores]
  rw [loadSum_scan]
  have e : (startNode (data.vehicleType vt)).isStartDepot = true := rfl
  rw [e, Bool.not_true, Bool.and_false, if_neg (by simp), Int.zero_add]
  apply loadSum_inner
  · rfl
  · rfl
  · have : (startNode (data.vehicleType vt)).isReloadDepot = false := by
      simp [startNode, SNode.isReloadDepot, SNode.isStartDepot]
    rw [this]
    show (loadAtOf data (data.vehicleType vt) dim (startNode (data.vehicleType vt))).Rep _
    constructor <;> simp [loadAtOf, startNode, LoadSeg.ofVehicle, loadedAtStart, peak]

end SRoute
end PyVRP
