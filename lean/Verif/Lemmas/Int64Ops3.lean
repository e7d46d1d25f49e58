import Verif.Lemmas.Int64Ops2
/-!
# The operators on 64-bit integers do not overflow: shipments
-/
namespace PyVRP.Checked64
open Checked

variable {data : ProblemData} {ce : CostEvaluator} {B M : Int} {N : Nat} {K : Int}

namespace InsertOptionalShipment

theorem later_ref (h : Env data ce B M N K) {r : SRoute} (hr : RBd data B M N r) (v : Nat) {out : Int}
    (ho : -(2 * K) ≤ out ∧ out ≤ 2 * K) {p d : Option CSeg} {p' d' : Option WSeg}
    (hp : Ref (SegR B N) p p') (hd : Ref (SegR B N) d d') :
    ∀ (l : List SNode) (next : Nat), Ref Eq (Checked.InsertOptionalShipment.later data ce r v out p d l next)
      (later data ce r v out p' d' l next)
  | [], _ => Ref.none
  | n :: l, next => by
    have hk := h.le
    rw [Checked.InsertOptionalShipment.later, later]
    refine Ref.ite (fun _ => Ref.ret rfl) (fun _ => ?_)
    walk_step h
    refine Ref.bind hp (fun _ _ _ => ?_)
    walk_step h
    refine Ref.bind hd (fun _ _ _ => ?_)
    walk h
    exact later_ref h hr v ho hp hd l (next + 1)

theorem search_ref (h : Env data ce B M N K) {r : SRoute} (hr : RBd data B M N r) (v : Nat) {out : Int}
    (ho : -(2 * K) ≤ out ∧ out ≤ 2 * K) {p d : Option CSeg} {p' d' : Option WSeg}
    (hp : Ref (SegR B N) p p') (hd : Ref (SegR B N) d d') :
    Ref Eq (Checked.InsertOptionalShipment.search data ce r v out p d) (search data ce r v out p' d') := by
  have hk := h.le
  unfold Checked.InsertOptionalShipment.search search
  walk_step h
  refine Ref.bind hp (fun _ _ _ => ?_)
  refine Ref.bind hd (fun _ _ _ => ?_)
  walk h
  exact later_ref h hr v ho hp hd _ _

theorem evaluate_ref (h : Env data ce B M N K) {s : SSol} (hs : SolBd data B M N s)
    (u : Activity) (v : NodeRef) :
    Ref Eq (Checked.InsertOptionalShipment.evaluate data ce s u v) (evaluate data ce s u v) := by
  have hk := h.le
  have hm := MAX_eq
  unfold Checked.InsertOptionalShipment.evaluate evaluate
  cases s.place u with
  | some p => exact Ref.some rfl
  | none =>
    cases s.find v with
    | none => exact Ref.some rfl
    | some q =>
      dsimp only
      refine Ref.same (fun r hr => Ref.same (fun _ _ => Ref.same (fun _ _ =>
        Ref.ite (fun _ => Ref.ret rfl) (fun _ => Ref.same (fun c hcl => ?_)))))
      have hp := h.shipmentPrize hcl
      have kr := hs _ _ hr
      refine Ref.skip (I64.neg_eq (by omega)) ?_
      exact search_ref h kr _ (by omega) (h.pickup _) (h.delivery _)

end InsertOptionalShipment

namespace RemoveOptionalShipment

theorem cost_ref (h : Env data ce B M N K) (exact : Bool) {r : SRoute} (hr : RBd data B M N r) (p d : Nat)
    {out : Int} (ho : 0 ≤ out ∧ out ≤ B) :
    Ref (Same fun x => -(2 * K) ≤ x ∧ x ≤ 2 * K) (Checked.RemoveOptionalShipment.cost exact data ce r p d out)
      (cost exact data ce r p d out) := by
  have hk := h.le
  have hm := MAX_eq
  unfold Checked.RemoveOptionalShipment.cost cost
  walk h
  · rw [I64.sub_eq (by omega)]
    exact Ref.some ⟨rfl, by omega⟩
  all_goals
    exact (h.delta (by assumption) _ (by omega) (by omega)).mono (fun _ _ e => ⟨e.1, by have := e.2; omega⟩)

theorem evaluate_ref (h : Env data ce B M N K) {s : SSol} (hs : SolBd data B M N s) (u : Activity) :
    Ref Eq (Checked.RemoveOptionalShipment.evaluate data ce s u) (evaluate data ce s u) := by
  unfold Checked.RemoveOptionalShipment.evaluate evaluate
  cases s.place u with
  | none => exact Ref.some rfl
  | some p =>
    dsimp only
    refine Ref.same (fun r hr => Ref.ite (fun _ => Ref.ret rfl) (fun _ => Ref.same (fun c hcl =>
      Ref.ite (fun _ => Ref.ret rfl) (fun _ => Ref.same (fun q _ => Ref.same (fun _ _ =>
        Ref.same (fun _ _ => ?_)))))))
    exact Ref.bindSame (cost_ref h false (hs.here hr) _ _ (h.shipmentPrize hcl)) (fun _ _ => Ref.ret rfl)

end RemoveOptionalShipment

namespace ReplaceOptionalShipment

theorem cost_ref (h : Env data ce B M N K) {r : SRoute} (hr : RBd data B M N r) (p d old new : Nat) :
    Ref Eq (Checked.ReplaceOptionalShipment.cost data ce r p d old new) (cost data ce r p d old new) := by
  have hk := h.le
  have hm := MAX_eq
  unfold Checked.ReplaceOptionalShipment.cost cost
  refine Ref.same (fun x hx => Ref.same (fun y hy => ?_))
  have hx := h.shipmentPrize hx
  have hy := h.shipmentPrize hy
  refine Ref.skip (I64.sub_eq (by omega)) ?_
  walk h

theorem evaluate_ref (h : Env data ce B M N K) {s : SSol} (hs : SolBd data B M N s)
    (u : Activity) (v : NodeRef) :
    Ref Eq (Checked.ReplaceOptionalShipment.evaluate data ce s u v) (evaluate data ce s u v) := by
  unfold Checked.ReplaceOptionalShipment.evaluate evaluate
  cases s.place u with
  | some p => exact Ref.some rfl
  | none =>
    cases s.find v with
    | none => exact Ref.some rfl
    | some q =>
      dsimp only
      refine Ref.same (fun r hr => Ref.same (fun _ _ => Ref.ite (fun _ => Ref.ret rfl) (fun _ =>
        Ref.same (fun _ _ => Ref.ite (fun _ => Ref.ret rfl) (fun _ => Ref.same (fun _ _ =>
          Ref.same (fun _ _ => Ref.same (fun _ _ => ?_))))))))
      exact Ref.bindEq (cost_ref h (hs _ _ hr) _ _ _ _) (fun _ => Ref.ret rfl)

end ReplaceOptionalShipment

namespace RelocateShipment

theorem evaluate_ref (h : Env data ce B M N K) {s : SSol} (hs : SolBd data B M N s) {cache : Cache}
    (hc : CacheBd K cache) (u : Activity) (v : NodeRef) :
    Ref (Same fun x => CacheBd K x.2) (Checked.RelocateShipment.evaluate data ce s cache u v)
      (evaluate data ce s cache u v) := by
  have hk := h.le
  unfold Checked.RelocateShipment.evaluate evaluate
  refine Ref.same (fun q _ => ?_)
  dsimp only
  refine Ref.ite (fun _ => Ref.ret ⟨rfl, hc⟩) (fun _ => ?_)
  cases s.place u with
  | none => exact Ref.ret ⟨rfl, hc⟩
  | some p =>
    dsimp only
    refine Ref.same (fun rU hU => Ref.same (fun rV hV => Ref.ite (fun _ => Ref.ret ⟨rfl, hc⟩) (fun _ =>
      Ref.same (fun _ _ => Ref.same (fun _ _ => ?_)))))
    have kU := hs.here hU
    have kV := hs _ _ hV
    refine Ref.bindSame (cached_ref hc _ (RemoveOptionalShipment.cost_ref h true kU _ _
      ⟨Int.le_refl 0, by omega⟩)) (fun c hc' => ?_)
    exact Ref.bindEq (InsertOptionalShipment.search_ref h kV _ hc' (h.at kU _) (h.at kU _))
      (fun _ => Ref.ret ⟨rfl, hc.store _ hc'⟩)

end RelocateShipment

namespace RelocatePickup

theorem search_ref (h : Env data ce B M N K) {r : SRoute} (hr : RBd data B M N r) (k u : Nat) :
    ∀ (l : List SNode) (pos : Nat), Ref Eq (Checked.RelocatePickup.search data ce r k u l pos)
      (search data ce r k u l pos)
  | [], _ => Ref.none
  | n :: l, pos => by
    have hk := h.le
    rw [Checked.RelocatePickup.search, search]
    walk h
    all_goals exact search_ref h hr k u l _

theorem evaluate_ref (h : Env data ce B M N K) {s : SSol} (hs : SolBd data B M N s) (u : Activity) :
    Ref Eq (Checked.RelocatePickup.evaluate data ce s u) (evaluate data ce s u) := by
  unfold Checked.RelocatePickup.evaluate evaluate
  refine Ref.ite (fun _ => Ref.ret rfl) (fun _ => ?_)
  cases s.place u with
  | none => exact Ref.ret rfl
  | some p =>
    exact Ref.same (fun r hr => Ref.same (fun _ _ => Ref.same (fun _ _ => Ref.same (fun _ _ =>
      search_ref h (hs.here hr) _ _ _ _))))

end RelocatePickup

namespace RelocateDelivery

theorem search_ref (h : Env data ce B M N K) {r : SRoute} (hr : RBd data B M N r) (k u : Nat) :
    ∀ (l : List SNode) (pos : Nat), Ref Eq (Checked.RelocateDelivery.search data ce r k u l pos)
      (search data ce r k u l pos)
  | [], _ => Ref.none
  | n :: l, pos => by
    have hk := h.le
    rw [Checked.RelocateDelivery.search, search]
    walk h
    all_goals exact search_ref h hr k u l _

theorem evaluate_ref (h : Env data ce B M N K) {s : SSol} (hs : SolBd data B M N s) (u : Activity) :
    Ref Eq (Checked.RelocateDelivery.evaluate data ce s u) (evaluate data ce s u) := by
  unfold Checked.RelocateDelivery.evaluate evaluate
  refine Ref.ite (fun _ => Ref.ret rfl) (fun _ => ?_)
  cases s.place u with
  | none => exact Ref.ret rfl
  | some p =>
    exact Ref.same (fun r hr => Ref.same (fun _ _ => Ref.same (fun _ _ => Ref.same (fun _ _ =>
      search_ref h (hs.here hr) _ _ _ _))))

end RelocateDelivery

/-! ## All operators -/

theorem evaluateUnary_ref (h : Env data ce B M N K) {s : SSol} (hs : SolBd data B M N s) (op : UnaryOp)
    (u : Activity) : Ref Eq (Checked.evaluateUnary op data ce s u) (evaluateUnary op data ce s u) := by
  cases op
  · exact RemoveAdjacentDepot.evaluate_ref h hs u
  · exact RemoveOptionalClient.evaluate_ref h hs u
  · exact ReplaceGroup.evaluate_ref h hs u
  · exact RemoveOptionalShipment.evaluate_ref h hs u
  · exact RelocatePickup.evaluate_ref h hs u
  · exact RelocateDelivery.evaluate_ref h hs u

theorem evaluateBinary_ref (h : Env data ce B M N K) {s : SSol} (hs : SolBd data B M N s) (op : BinaryOp)
    {cache : Cache} (hc : CacheBd K cache) (u : Activity) (v : NodeRef) :
    Ref (Same fun x => CacheBd K x.2) (Checked.evaluateBinary op data ce s cache u v)
      (evaluateBinary op data ce s cache u v) := by
  have wrap : ∀ {a b : Option Verdict}, Ref Eq a b →
      Ref (Same fun x : Verdict × Cache => CacheBd K x.2) (a.map (·, cache)) (b.map (·, cache)) :=
    fun hab => Ref.map hab (fun x y e => ⟨by rw [e], hc⟩)
  cases op
  · exact Relocate.evaluate_ref h _ hs hc u v
  · exact wrap (Swap.evaluate_ref h _ _ hs u v)
  · exact wrap (SwapTails.evaluate_ref h hs u v)
  · exact RelocateWithDepot.evaluate_ref h hs hc u v
  · exact RelocateAlternative.evaluate_ref h hs hc u v
  · exact wrap (InsertOptionalClient.evaluate_ref h hs u v)
  · exact wrap (ReplaceOptionalClient.evaluate_ref h hs u v)
  · exact wrap (InsertOptionalShipment.evaluate_ref h hs u v)
  · exact wrap (ReplaceOptionalShipment.evaluate_ref h hs u v)
  · exact RelocateShipment.evaluate_ref h hs hc u v

end PyVRP.Checked64
