import Verif.Lemmas.Int64Ops
/-!
# The operators on 64-bit integers do not overflow
-/
namespace PyVRP.Checked64
open Checked

theorem Same.eq {α : Type} {P : α → Prop} {x y : α} (h : Same P x y) : x = y := h.1

theorem Ref.retEq {α : Type} (x : α) : Ref Eq (pure x) (pure x) := Ref.ret rfl

/-- One step along two computations that differ in their numbers. -/
macro "walk_step" h:ident : tactic => `(tactic| first
  | with_reducible refine Ref.bind (Env.before $h (by assumption) _) (fun _ _ _ => ?_)
  | with_reducible refine Ref.bind (Env.after $h (by assumption) _) (fun _ _ _ => ?_)
  | with_reducible refine Ref.bind (Env.between $h (by assumption) _ _) (fun _ _ _ => ?_)
  | with_reducible refine Ref.bind (Env.at $h (by assumption) _) (fun _ _ _ => ?_)
  | with_reducible refine Ref.bind (Env.client $h _) (fun _ _ _ => ?_)
  | with_reducible refine Ref.bind (Env.depot $h _) (fun _ _ _ => ?_)
  | with_reducible refine Ref.bind (Env.pickup $h _) (fun _ _ _ => ?_)
  | with_reducible refine Ref.bind (Env.delivery $h _) (fun _ _ _ => ?_)
  | with_reducible refine Ref.bind (Env.propose $h (by assumption)
      (by repeat (first | exact SegsR.nil | refine SegsR.cons (by assumption) ?_))
      (by exact List.cons_ne_nil _ _) (by simp)) (fun _ _ _ => ?_)
  | with_reducible refine Ref.bindEq (Env.delta2 $h (by assumption) (by assumption) _) (fun _ => ?_)
  | with_reducible exact Env.delta2 $h (by assumption) (by assumption) _
  | with_reducible refine Ref.bindSame (Env.delta $h (by assumption) _ (by omega) (by omega)) (fun _ _ => ?_)
  | with_reducible exact (Env.delta $h (by assumption) _ (by omega) (by omega)).mono (fun _ _ e => Same.eq e)
  | with_reducible refine Ref.bindSame (Env.penalised $h (by assumption)) (fun _ _ => ?_)
  | with_reducible refine Ref.same (fun _ _ => ?_)
  | with_reducible refine Ref.ite (fun _ => ?_) (fun _ => ?_)
  | with_reducible exact Ref.retEq _)

macro "walk" h:ident : tactic => `(tactic| repeat' walk_step $h)

variable {data : ProblemData} {ce : CostEvaluator} {B M : Int} {N : Nat} {K : Int}

/-- The statistics of all routes are bounded. -/
def SolBd (data : ProblemData) (B M : Int) (N : Nat) (s : SSol) : Prop :=
  ∀ i r, Checked.route s i = some r → RBd data B M N r

/-- The costs in a cache are bounded. -/
def CacheBd (K : Int) (cache : Cache) : Prop := ∀ c, some c ∈ cache → -(2 * K) ≤ c ∧ c ≤ 2 * K

theorem SolBd.here {s : SSol} (hs : SolBd data B M N s) {i u : Nat} {a : Activity} {r : SRoute}
    (h : Checked.here s i u a = some r) : RBd data B M N r := by
  unfold Checked.here at h
  simp only [Option.bind_eq_bind, Option.bind_eq_some_iff] at h
  obtain ⟨r', hr, n, hn, _, he, h⟩ := h
  cases h
  exact hs i _ hr

theorem cached_ref {cache : Cache} (hc : CacheBd K cache) (idx : Nat) {x y : Option Int}
    (h : Ref (Same fun c => -(2 * K) ≤ c ∧ c ≤ 2 * K) x y) :
    Ref (Same fun c => -(2 * K) ≤ c ∧ c ≤ 2 * K) (Checked.cached cache idx x) (Checked.cached cache idx y) := by
  unfold Checked.cached
  cases hi : cache[idx]? with
  | none => exact Ref.none
  | some o =>
    cases o with
    | none => exact h
    | some c => exact Ref.some ⟨rfl, hc c (List.mem_of_getElem? hi)⟩

theorem CacheBd.store {cache : Cache} (hc : CacheBd K cache) (idx : Nat) {c : Int}
    (h : -(2 * K) ≤ c ∧ c ≤ 2 * K) : CacheBd K (cache.store idx c) := by
  intro x hx
  unfold Cache.store at hx
  rcases List.mem_or_eq_of_mem_set hx with hx | hx
  · exact hc x hx
  · cases hx; exact h

theorem Env.clientPrize (h : Env data ce B M N K) {i : Nat} {c : Client}
    (hc : Checked.client data i = some c) : 0 ≤ c.prize ∧ c.prize ≤ B := by
  have := h.small.clientPrize i
  unfold Checked.client at hc
  unfold ProblemData.client at this
  rw [List.getD_eq_getElem?_getD, hc] at this
  exact this

theorem Env.shipmentPrize (h : Env data ce B M N K) {i : Nat} {c : Shipment}
    (hc : Checked.shipment data i = some c) : 0 ≤ c.prize ∧ c.prize ≤ B := by
  have := h.small.shipmentPrize i
  unfold Checked.shipment at hc
  unfold ProblemData.shipment at this
  rw [List.getD_eq_getElem?_getD, hc] at this
  exact this

/-! ## `Relocate.h` -/

namespace Relocate

theorem removeCost_ref (h : Env data ce B M N K) (n : Nat) {r : SRoute} (hr : RBd data B M N r) (u : Nat) :
    Ref (Same fun x => -K ≤ x ∧ x ≤ K) (Checked.Relocate.removeCost n data ce r u)
      (removeCost n data ce r u) := by
  have hk := h.le
  have hm := MAX_eq
  unfold Checked.Relocate.removeCost removeCost
  walk h
  · rw [I64.sub_eq (by omega)]
    exact Ref.some ⟨rfl, by omega⟩
  · exact (h.delta (by assumption) _ (by omega) (by omega)).mono (fun _ _ e => ⟨e.1, by have := e.2; omega⟩)

theorem different_ref (h : Env data ce B M N K) (n : Nat) {rU rV : SRoute} (hU : RBd data B M N rU)
    (hV : RBd data B M N rV) (u v : Nat) {c : Int} (hc : -(2 * K) ≤ c ∧ c ≤ 2 * K) :
    Ref Eq (Checked.Relocate.different n data ce rU u rV v c) (different n data ce rU u rV v c) := by
  have hk := h.le
  unfold Checked.Relocate.different different
  walk h

theorem same_ref (h : Env data ce B M N K) (n : Nat) {r : SRoute} (hr : RBd data B M N r) (u v : Nat) :
    Ref Eq (Checked.Relocate.same n data ce r u v) (same n data ce r u v) := by
  have hk := h.le
  unfold Checked.Relocate.same same
  walk h

theorem evaluate_ref (h : Env data ce B M N K) (n : Nat) {s : SSol} (hs : SolBd data B M N s) {cache : Cache}
    (hc : CacheBd K cache) (u : Activity) (v : NodeRef) :
    Ref (Same fun x => CacheBd K x.2) (Checked.Relocate.evaluate n data ce s cache u v)
      (evaluate n data ce s cache u v) := by
  have hk := h.le
  unfold Checked.Relocate.evaluate evaluate
  cases s.place u with
  | none => exact Ref.some ⟨rfl, hc⟩
  | some p =>
    cases s.find v with
    | none => exact Ref.some ⟨rfl, hc⟩
    | some q =>
      dsimp only
      refine Ref.same (fun rU hU => Ref.same (fun rV hV => Ref.same (fun b _ => ?_)))
      have kU := hs.here hU
      have kV := hs _ _ hV
      refine Ref.ite (fun _ => Ref.ret ⟨rfl, hc⟩) (fun _ => ?_)
      have key : ∀ b : Bool, Ref (Same fun x => CacheBd K x.2)
          (if b = true then pure (Verdict.no, cache)
            else if p.1 ≠ q.1 then do
              Checked.ensure ((u.isClient || u.isPickup) = true)
              let cost ← Checked.cached cache (PyVRP.Relocate.cacheIdx data u)
                (Checked.Relocate.removeCost n data ce rU p.2)
              let d ← Checked.Relocate.different n data ce rU p.2 rV q.2 cost
              pure (d, cache.store (PyVRP.Relocate.cacheIdx data u) cost)
            else do
              let d ← Checked.Relocate.same n data ce rU p.2 q.2
              pure (d, cache))
          (if b = true then pure (Verdict.no, cache)
            else if p.1 ≠ q.1 then do
              Checked.ensure ((u.isClient || u.isPickup) = true)
              let cost ← Checked.cached cache (PyVRP.Relocate.cacheIdx data u)
                (removeCost n data ce rU p.2)
              let d ← different n data ce rU p.2 rV q.2 cost
              pure (d, cache.store (PyVRP.Relocate.cacheIdx data u) cost)
            else do
              let d ← same n data ce rU p.2 q.2
              pure (d, cache)) := by
        intro b
        refine Ref.ite (fun _ => Ref.ret ⟨rfl, hc⟩) (fun _ => Ref.ite (fun _ => ?_) (fun _ => ?_))
        · refine Ref.same (fun _ _ => Ref.bindSame (cached_ref hc _
            ((removeCost_ref h n kU p.2).mono (fun _ _ e => ⟨e.1, by have := e.2; omega⟩))) (fun c hc' => ?_))
          exact Ref.bindEq (different_ref h n kU kV _ _ hc') (fun _ => Ref.ret ⟨rfl, hc.store _ hc'⟩)
        · exact Ref.bindEq (same_ref h n kU _ _) (fun _ => Ref.ret ⟨rfl, hc⟩)
      refine Ref.ite (fun _ => ?_) (fun _ => Ref.pureBind (key _))
      exact Ref.same (fun _ _ => Ref.same (fun _ _ => Ref.same (fun _ _ => Ref.pureBind (key _))))

end Relocate

/-! ## `Swap.h` -/

namespace Swap

theorem different_ref (h : Env data ce B M N K) (n m : Nat) {rU rV : SRoute} (hU : RBd data B M N rU)
    (hV : RBd data B M N rV) (u v : Nat) :
    Ref Eq (Checked.Swap.different n m data ce rU u rV v) (different n m data ce rU u rV v) := by
  unfold Checked.Swap.different different
  walk h

theorem same_ref (h : Env data ce B M N K) (n m : Nat) {r : SRoute} (hr : RBd data B M N r) (u v : Nat) :
    Ref Eq (Checked.Swap.same n m data ce r u v) (same n m data ce r u v) := by
  have hk := h.le
  unfold Checked.Swap.same same
  walk h

theorem evaluate_ref (h : Env data ce B M N K) (n m : Nat) {s : SSol} (hs : SolBd data B M N s)
    (u : Activity) (v : NodeRef) :
    Ref Eq (Checked.Swap.evaluate n m data ce s u v) (evaluate n m data ce s u v) := by
  unfold Checked.Swap.evaluate evaluate
  cases s.place u with
  | none => exact Ref.some rfl
  | some p =>
    cases s.find v with
    | none => exact Ref.some rfl
    | some q =>
      dsimp only
      refine Ref.same (fun rU hU => Ref.same (fun rV hV => ?_))
      have kU := hs.here hU
      have kV := hs _ _ hV
      walk h
      · exact different_ref h n m kU kV _ _
      · exact same_ref h n m kU _ _

end Swap

/-! ## `SwapTails.cpp` -/

namespace SwapTails

theorem cost_ref (h : Env data ce B M N K) {rU rV : SRoute} (hU : RBd data B M N rU)
    (hV : RBd data B M N rV) (u v : Nat) :
    Ref Eq (Checked.SwapTails.cost data ce rU u rV v) (cost data ce rU u rV v) := by
  have hk := h.le
  have hm := MAX_eq
  unfold Checked.SwapTails.cost cost
  walk h
  refine Ref.skip (I64.sub_eq (by omega)) ?_
  walk h

theorem evaluate_ref (h : Env data ce B M N K) {s : SSol} (hs : SolBd data B M N s)
    (u : Activity) (v : NodeRef) :
    Ref Eq (Checked.SwapTails.evaluate data ce s u v) (evaluate data ce s u v) := by
  unfold Checked.SwapTails.evaluate evaluate
  refine Ref.same (fun _ _ => ?_)
  cases s.place u with
  | none => exact Ref.ret rfl
  | some p =>
    cases s.find v with
    | none => exact Ref.ret rfl
    | some q =>
      dsimp only
      refine Ref.same (fun rU hU => Ref.same (fun rV hV => ?_))
      have kU := hs.here hU
      have kV := hs _ _ hV
      walk h
      all_goals exact Ref.bindEq (cost_ref h kU kV _ _) (fun _ => Ref.ret rfl)

end SwapTails

/-! ## `RelocateWithDepot.cpp` -/

namespace RelocateWithDepot

theorem sameDepotU_ref (h : Env data ce B M N K) {r : SRoute} (hr : RBd data B M N r) (u v d : Nat) :
    Ref Eq (Checked.RelocateWithDepot.sameDepotU data ce r u v d) (sameDepotU data ce r u v d) := by
  have hk := h.le
  unfold Checked.RelocateWithDepot.sameDepotU sameDepotU
  walk h

theorem sameUDepot_ref (h : Env data ce B M N K) {r : SRoute} (hr : RBd data B M N r) (u v d : Nat) :
    Ref Eq (Checked.RelocateWithDepot.sameUDepot data ce r u v d) (sameUDepot data ce r u v d) := by
  have hk := h.le
  unfold Checked.RelocateWithDepot.sameUDepot sameUDepot
  walk h

theorem removeCost_ref (h : Env data ce B M N K) {r : SRoute} (hr : RBd data B M N r) (u : Nat) {out : Int}
    (ho : 0 ≤ out ∧ out ≤ B) :
    Ref (Same fun x => -(2 * K) ≤ x ∧ x ≤ 2 * K) (Checked.RelocateWithDepot.removeCost data ce r u out)
      (removeCost data ce r u out) := by
  have hk := h.le
  have hm := MAX_eq
  unfold Checked.RelocateWithDepot.removeCost removeCost
  walk h
  · rw [I64.sub_eq (by omega)]
    exact Ref.some ⟨rfl, by omega⟩
  · exact (h.delta (by assumption) _ (by omega) (by omega)).mono (fun _ _ e => ⟨e.1, by have := e.2; omega⟩)

theorem differentDepotU_ref (h : Env data ce B M N K) {rU rV : SRoute} (hU : RBd data B M N rU)
    (hV : RBd data B M N rV) (u v d : Nat) {c : Int} (hc : -(2 * K) ≤ c ∧ c ≤ 2 * K) :
    Ref Eq (Checked.RelocateWithDepot.differentDepotU data ce rU u rV v d c)
      (differentDepotU data ce rU u rV v d c) := by
  have hk := h.le
  unfold Checked.RelocateWithDepot.differentDepotU differentDepotU
  walk h

theorem differentUDepot_ref (h : Env data ce B M N K) {rU rV : SRoute} (hU : RBd data B M N rU)
    (hV : RBd data B M N rV) (u v d : Nat) {c : Int} (hc : -(2 * K) ≤ c ∧ c ≤ 2 * K) :
    Ref Eq (Checked.RelocateWithDepot.differentUDepot data ce rU u rV v d c)
      (differentUDepot data ce rU u rV v d c) := by
  have hk := h.le
  unfold Checked.RelocateWithDepot.differentUDepot differentUDepot
  walk h

theorem loop_ref {f g : Nat → Option Int} (hf : ∀ d, Ref Eq (f d) (g d)) (move : Nat → Move) :
    ∀ (l : List Nat) (best : Int × Move), Ref Eq (Checked.RelocateWithDepot.loop f move l best)
      (Checked.RelocateWithDepot.loop g move l best)
  | [], _ => Ref.some rfl
  | d :: l, _ => Ref.bindEq (hf d) (fun _ => loop_ref hf move l _)

theorem search_ref {f g f' g' : Nat → Option Int} (hf : ∀ d, Ref Eq (f d) (g d))
    (hf' : ∀ d, Ref Eq (f' d) (g' d)) (r : SRoute) (v : Nat) (l : List Nat) :
    Ref Eq (Checked.RelocateWithDepot.search r v l f f') (Checked.RelocateWithDepot.search r v l g g') := by
  unfold Checked.RelocateWithDepot.search
  have key : ∀ best : Int × Move, Ref Eq
      (Checked.node r (v + 1) >>= fun next => if (!next.isReloadDepot) = true then
        Checked.RelocateWithDepot.loop f' .uDepot l best else pure best)
      (Checked.node r (v + 1) >>= fun next => if (!next.isReloadDepot) = true then
        Checked.RelocateWithDepot.loop g' .uDepot l best else pure best) := fun best =>
    Ref.same (fun _ _ => Ref.ite (fun _ => loop_ref hf' _ _ _) (fun _ => Ref.ret rfl))
  refine Ref.same (fun _ _ => Ref.ite (fun _ => ?_) (fun _ => ?_))
  · exact Ref.bindEq (loop_ref hf _ _ _) (fun _ => key _)
  · exact Ref.pureBind (key _)

theorem evaluate_ref (h : Env data ce B M N K) {s : SSol} (hs : SolBd data B M N s) {cache : Cache}
    (hc : CacheBd K cache) (u : Activity) (v : NodeRef) :
    Ref (Same fun x => CacheBd K x.2) (Checked.RelocateWithDepot.evaluate data ce s cache u v)
      (evaluate data ce s cache u v) := by
  have hk := h.le
  unfold Checked.RelocateWithDepot.evaluate evaluate
  refine Ref.same (fun _ _ => ?_)
  cases s.place u with
  | none => exact Ref.ret ⟨rfl, hc⟩
  | some p =>
    cases s.find v with
    | none => exact Ref.ret ⟨rfl, hc⟩
    | some q =>
      dsimp only
      refine Ref.same (fun rU hU => Ref.same (fun rV hV => ?_))
      have kU := hs.here hU
      have kV := hs _ _ hV
      walk h
      all_goals first
        | exact Ref.ret ⟨rfl, hc⟩
        | exact Ref.bindEq (search_ref (fun d => sameDepotU_ref h kV _ _ d) (fun d => sameUDepot_ref h kV _ _ d)
            _ _ _) (fun _ => Ref.ret ⟨rfl, hc⟩)
        | skip
      refine Ref.bindSame (cached_ref hc _ (removeCost_ref h kU _ ⟨Int.le_refl 0, by omega⟩)) (fun c hc' => ?_)
      exact Ref.bindEq (search_ref (fun d => differentDepotU_ref h kU kV _ _ d hc')
        (fun d => differentUDepot_ref h kU kV _ _ d hc') _ _ _) (fun _ => Ref.ret ⟨rfl, hc.store _ hc'⟩)

end RelocateWithDepot

/-! ## `RemoveAdjacentDepot.cpp` -/

namespace RemoveAdjacentDepot

theorem evaluate_ref (h : Env data ce B M N K) {s : SSol} (hs : SolBd data B M N s) (u : Activity) :
    Ref Eq (Checked.RemoveAdjacentDepot.evaluate data ce s u) (evaluate data ce s u) := by
  have hk := h.le
  unfold Checked.RemoveAdjacentDepot.evaluate evaluate
  refine Ref.same (fun _ _ => ?_)
  cases s.place u with
  | none => exact Ref.ret rfl
  | some p =>
    dsimp only
    refine Ref.same (fun r hr => ?_)
    have kr := hs.here hr
    walk h

end RemoveAdjacentDepot

/-! ## `RelocateAlternative.cpp` -/

namespace RelocateAlternative

theorem same_ref (h : Env data ce B M N K) {r : SRoute} (hr : RBd data B M N r) (a u v c : Nat) :
    Ref Eq (Checked.RelocateAlternative.same data ce r a u v c) (same data ce r a u v c) := by
  have hk := h.le
  have hm := MAX_eq
  unfold Checked.RelocateAlternative.same same
  refine Ref.same (fun x hx => Ref.same (fun y hy => ?_))
  have hx := h.clientPrize hx
  have hy := h.clientPrize hy
  refine Ref.ite (fun _ => ?_) (fun _ => ?_)
  all_goals
    refine Ref.skip (I64.sub_eq (by omega)) ?_
    walk h

theorem different_ref (h : Env data ce B M N K) {rV : SRoute} (hV : RBd data B M N rV) (v d : Nat) {c : Int}
    (hc : -(2 * K) ≤ c ∧ c ≤ 2 * K) :
    Ref Eq (Checked.RelocateAlternative.different data ce rV v d c) (different data ce rV v d c) := by
  have hk := h.le
  have hm := MAX_eq
  unfold Checked.RelocateAlternative.different different
  refine Ref.same (fun x hx => ?_)
  have hx := h.clientPrize hx
  refine Ref.skip (I64.sub_eq (by omega)) ?_
  walk h

theorem search_ref {f g : Nat → Option Int} (hf : ∀ d, Ref Eq (f d) (g d)) (u : Nat) :
    ∀ (l : List Nat), Ref Eq (Checked.RelocateAlternative.search data u f l)
      (Checked.RelocateAlternative.search data u g l)
  | [] => Ref.some rfl
  | d :: l => Ref.same (fun _ _ => Ref.ite (fun _ => search_ref hf u l) (fun _ =>
      Ref.bindEq (hf d) (fun _ => Ref.ite (fun _ => Ref.ret rfl) (fun _ => search_ref hf u l))))

theorem evaluate_ref (h : Env data ce B M N K) {s : SSol} (hs : SolBd data B M N s) {cache : Cache}
    (hc : CacheBd K cache) (u : Activity) (v : NodeRef) :
    Ref (Same fun x => CacheBd K x.2) (Checked.RelocateAlternative.evaluate data ce s cache u v)
      (evaluate data ce s cache u v) := by
  have hk := h.le
  unfold Checked.RelocateAlternative.evaluate evaluate
  refine Ref.same (fun _ _ => ?_)
  cases s.place u with
  | none => exact Ref.ret ⟨rfl, hc⟩
  | some p =>
    cases s.find v with
    | none => exact Ref.ret ⟨rfl, hc⟩
    | some q =>
      dsimp only
      refine Ref.same (fun rU hU => Ref.same (fun rV hV => ?_))
      have kU := hs.here hU
      have kV := hs _ _ hV
      refine Ref.same (fun _ _ => Ref.same (fun _ _ => Ref.ite (fun _ => Ref.ret ⟨rfl, hc⟩) (fun _ =>
        Ref.same (fun _ _ => Ref.ite (fun _ => Ref.ret ⟨rfl, hc⟩) (fun _ => Ref.same (fun c hcl => ?_))))))
      have hp := h.clientPrize hcl
      cases c.group with
      | none => exact Ref.ret ⟨rfl, hc⟩
      | some g =>
        dsimp only
        refine Ref.same (fun _ _ => Ref.ite (fun _ => ?_) (fun _ => ?_))
        · refine Ref.same (fun _ _ => Ref.ite (fun _ => Ref.ret ⟨rfl, hc⟩) (fun _ => ?_))
          exact Ref.bindEq (search_ref (fun d => same_ref h kU _ _ _ d) _ _) (fun _ => Ref.ret ⟨rfl, hc⟩)
        · refine Ref.bindSame (cached_ref hc _ (RelocateWithDepot.removeCost_ref h kU _ hp)) (fun c hc' => ?_)
          exact Ref.bindEq (search_ref (fun d => different_ref h kV _ d hc') _ _)
            (fun _ => Ref.ret ⟨rfl, hc.store _ hc'⟩)

end RelocateAlternative

/-! ## Optional clients and groups -/

namespace InsertOptionalClient

theorem evaluate_ref (h : Env data ce B M N K) {s : SSol} (hs : SolBd data B M N s)
    (u : Activity) (v : NodeRef) :
    Ref Eq (Checked.InsertOptionalClient.evaluate data ce s u v) (evaluate data ce s u v) := by
  have hk := h.le
  have hm := MAX_eq
  unfold Checked.InsertOptionalClient.evaluate evaluate
  cases s.place u with
  | some p => exact Ref.some rfl
  | none =>
    cases s.find v with
    | none => exact Ref.some rfl
    | some q =>
      dsimp only
      refine Ref.ite (fun _ => Ref.ret rfl) (fun _ => Ref.same (fun c hcl => Ref.same (fun _ _ =>
        Ref.ite (fun _ => Ref.ret rfl) (fun _ => Ref.same (fun r hr => ?_)))))
      have hp := h.clientPrize hcl
      have kr := hs _ _ hr
      refine Ref.skip (I64.neg_eq (by omega)) ?_
      walk h

end InsertOptionalClient

namespace RemoveOptionalClient

theorem evaluate_ref (h : Env data ce B M N K) {s : SSol} (hs : SolBd data B M N s) (u : Activity) :
    Ref Eq (Checked.RemoveOptionalClient.evaluate data ce s u) (evaluate data ce s u) := by
  have hk := h.le
  have hm := MAX_eq
  unfold Checked.RemoveOptionalClient.evaluate evaluate
  cases s.place u with
  | none => exact Ref.some rfl
  | some p =>
    dsimp only
    refine Ref.same (fun r hr => ?_)
    have kr := hs.here hr
    refine Ref.ite (fun _ => Ref.ret rfl) (fun _ => Ref.same (fun c hcl => ?_))
    have hp := h.clientPrize hcl
    walk h
    exact Ref.skip (I64.sub_eq (by omega)) (Ref.ret rfl)

end RemoveOptionalClient

namespace ReplaceOptionalClient

theorem cost_ref (h : Env data ce B M N K) {r : SRoute} (hr : RBd data B M N r) (pos old new : Nat) :
    Ref Eq (Checked.ReplaceOptionalClient.cost data ce r pos old new) (cost data ce r pos old new) := by
  have hk := h.le
  have hm := MAX_eq
  unfold Checked.ReplaceOptionalClient.cost cost
  refine Ref.same (fun x hx => Ref.same (fun y hy => ?_))
  have hx := h.clientPrize hx
  have hy := h.clientPrize hy
  refine Ref.skip (I64.sub_eq (by omega)) ?_
  walk h

theorem evaluate_ref (h : Env data ce B M N K) {s : SSol} (hs : SolBd data B M N s)
    (u : Activity) (v : NodeRef) :
    Ref Eq (Checked.ReplaceOptionalClient.evaluate data ce s u v) (evaluate data ce s u v) := by
  unfold Checked.ReplaceOptionalClient.evaluate evaluate
  cases s.place u with
  | some p => exact Ref.some rfl
  | none =>
    cases s.find v with
    | none => exact Ref.some rfl
    | some q =>
      dsimp only
      refine Ref.same (fun r hr => ?_)
      have kr := hs _ _ hr
      walk h
      exact Ref.bindEq (cost_ref h kr _ _ _) (fun _ => Ref.ret rfl)

end ReplaceOptionalClient

namespace ReplaceGroup

theorem search_ref (h : Env data ce B M N K) {s : SSol} (hs : SolBd data B M N s) (u : Nat) :
    ∀ l : List Nat, Ref Eq (Checked.ReplaceGroup.search data ce s u l) (search data ce s u l)
  | [] => Ref.some rfl
  | c :: l => by
    rw [Checked.ReplaceGroup.search, search]
    refine Ref.same (fun _ _ => ?_)
    cases s.place ⟨.client, c⟩ with
    | none => exact search_ref h hs u l
    | some p =>
      dsimp only
      exact Ref.same (fun _ _ => Ref.same (fun r hr =>
        Ref.bindEq (ReplaceOptionalClient.cost_ref h (hs.here hr) _ _ _) (fun _ => Ref.ret rfl)))

theorem evaluate_ref (h : Env data ce B M N K) {s : SSol} (hs : SolBd data B M N s) (u : Activity) :
    Ref Eq (Checked.ReplaceGroup.evaluate data ce s u) (evaluate data ce s u) := by
  unfold Checked.ReplaceGroup.evaluate evaluate
  refine Ref.same (fun _ _ => Ref.ite (fun _ => Ref.ret rfl) (fun _ => Ref.same (fun c _ => ?_)))
  cases c.group with
  | none => exact Ref.ret rfl
  | some g => exact Ref.same (fun _ _ => search_ref h hs _ _)

end ReplaceGroup

end PyVRP.Checked64
