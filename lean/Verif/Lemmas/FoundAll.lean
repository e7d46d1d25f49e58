import Verif.Lemmas.FoundShipment
import Verif.Lemmas.FoundSwap
/-!
# Improving moves are found: all operators
-/
namespace PyVRP
open Spec

variable {data : ProblemData} {plan plan' : List (List Activity)} {s s' : SSol} {ce : CostEvaluator}

theorem BinaryOp.found {op : BinaryOp} {u : Activity} {v : NodeRef} (hd : Consistent data)
    (hex : Exclusive data plan) (h : SearchOk data plan s) (h' : SearchOk data plan' s')
    (hco : CostOk data ce) (hfit : FitsAll data plan') (hu : u ∈ allTasks data)
    {cache : Cache} (hc : op.CacheOk data ce s cache)
    (hlt : planCost data ce plan' < planCost data ce plan) (hm : BinaryMove data plan op u v plan') :
    (op.evaluate data ce s cache u v).1.apply = true := by
  have hut : u.type ≠ .depot := by
    rcases mem_allTasks hu with ⟨h1, -⟩ | ⟨h1, -⟩ <;> rw [h1] <;> simp
  have hrel : ∀ n, op = .relocate n → ∀ i p, s.place u = some (i, p) →
      cache.lookup (Relocate.cacheIdx data u) (Relocate.removeCost n data ce (s.route i) p)
        = Relocate.removeCost n data ce (s.route i) p := by
    rintro n rfl i p hp
    have := lookup_fresh hc hu hp (relocate_cacheIdx hu n)
    simpa only [fresh, hp] using this
  cases hm with
  | relocate hi hj hij hU hV hv hm =>
    exact Relocate.found_different h h' hco hfit hlt hi hj hij hU hV hv hm cache (hrel _ rfl)
  | relocateLater hi hU hv hm hne hms =>
    exact Relocate.found_later h h' hco hfit hlt hi hU hv hm hne hms cache
  | relocateEarlier hi hU hv hm hne hms =>
    exact Relocate.found_earlier h h' hco hfit hlt hi hU hv hm hne hms cache
  | swap hi hj hij hU hV hm hm' hidx =>
    exact Swap.found_different h h' hco hfit hlt hi hj hij hU hV hm hm' hidx
  | swapLater hi hU hm hm' hne hms hidx =>
    exact Swap.found_later h h' hco hfit hlt hi hU hm hm' hne hms hidx
  | swapEarlier hi hU hm hm' hne hms hidx =>
    exact Swap.found_earlier h h' hco hfit hlt hi hU hm hm' hne hms hidx
  | swapTails hi hj hij hU hV hv hd hd' hw hw' =>
    exact SwapTails.found h h' hco hfit hlt hut hi hj hij hU hV hv hd hd' hw hw'
  | relocateWithDepot hi hj hij hU hV hu' hv hw hused hdepot hblock =>
    refine RelocateWithDepot.found_different h h' hco hfit hlt hi hj hij hU hV hu' hv hw hused hdepot hblock
      cache (fun i p hp => ?_)
    have := lookup_fresh hc hu hp (idx := u.idx) (by simp [cacheIdx, hu'])
    simpa only [fresh, hp] using this
  | relocateWithDepotLater hi hU hu' hv hw hne hms hdepot hblock =>
    exact RelocateWithDepot.found_later h h' hco hfit hlt hi hU hu' hv hw hne hms hdepot hblock cache
  | relocateWithDepotEarlier hi hU hu' hv hw hne hms hdepot hblock =>
    exact RelocateWithDepot.found_earlier h h' hco hfit hlt hi hU hu' hv hw hne hms hdepot hblock cache
  | relocateAlternative hi hj hij hU hV hu' hv hc' =>
    refine RelocateAlternative.found_different hd hex h h' hco hfit hlt hi hj hij hU hV hu' hv hc'
      cache (fun i p hp => ?_)
    have := lookup_fresh hc hu hp (idx := u.idx) (by simp [cacheIdx, hu'])
    simpa only [fresh, hp] using this
  | relocateAlternativeLater hi hU hu' hv hne hms hc' =>
    exact RelocateAlternative.found_later hd hex h h' hco hfit hlt hi hU hu' hv hne hms hc' cache
  | relocateAlternativeEarlier hi hU hu' hv hne hms hc' =>
    exact RelocateAlternative.found_earlier hd hex h h' hco hfit hlt hi hU hu' hv hne hms hc' cache
  | insertOptionalClient hj hV hu' hun hv hg =>
    exact InsertOptionalClient.found h h' hco hfit hlt hj hV hu' hun hv hg
  | replaceOptionalClient hj hV hu' hun hb hr hg hg' =>
    exact ReplaceOptionalClient.found h h' hco hfit hlt hj hV hu' hun hb hr hg hg'
  | insertOptionalShipment hj hV hu' hun hv hms =>
    exact InsertOptionalShipment.found h h' hco hfit hlt hj hV hu' hun hv hms
  | replaceOptionalShipment hj hV hu' hun hb hr =>
    exact ReplaceOptionalShipment.found h h' hco hfit hlt hj hV hu' hun hb hr
  | relocateShipment hi hj hij hu' hU hV hv hns =>
    refine RelocateShipment.found h h' hco hfit hlt hi hj hij hu' hU hV hv hns cache
      (fun i p j d hp hpd => ?_)
    have := lookup_fresh hc hu hp (idx := u.idx) (by simp [cacheIdx, hu'])
    simpa only [fresh, hp, hpd] using this

theorem UnaryOp.found {op : UnaryOp} {u : Activity} (hd : Consistent data)
    (hex : Exclusive data plan) (h : SearchOk data plan s) (h' : SearchOk data plan' s')
    (hco : CostOk data ce) (hfit : FitsAll data plan')
    (hlt : planCost data ce plan' < planCost data ce plan
      ∨ (op = .removeAdjacentDepot ∧ planCost data ce plan' ≤ planCost data ce plan))
    (hm : UnaryMove data plan op u plan') :
    (op.evaluate data ce s u).apply = true := by
  have hle : planCost data ce plan' ≤ planCost data ce plan := by
    rcases hlt with h1 | h1
    · exact Int.le_of_lt h1
    · exact h1.2
  have hlt' : op ≠ .removeAdjacentDepot → planCost data ce plan' < planCost data ce plan := by
    intro hne
    rcases hlt with h1 | h1
    · exact h1
    · exact absurd h1.1 hne
  cases hm with
  | removePreviousDepot hi hU hu => exact RemoveAdjacentDepot.found_previous h h' hco hfit hle hi hU hu
  | removeNextDepot hi hU hu => exact RemoveAdjacentDepot.found_next h h' hco hfit hle hi hU hu
  | removeOptionalClient hi hU hu hr hg =>
    exact RemoveOptionalClient.found h h' hco hfit (hlt' (by simp)) hi hU hu hr hg
  | replaceGroup hj hV hu hun hc =>
    exact ReplaceGroup.found hd hex h h' hco hfit (hlt' (by simp)) hj hV hu hun hc
  | removeOptionalShipment hi hu hU hr =>
    exact RemoveOptionalShipment.found h h' hco hfit (hlt' (by simp)) hi hu hU hr
  | relocatePickup hi hu hU hnew hqs =>
    exact RelocatePickup.found h h' hco hfit (hlt' (by simp)) hi hu hU hnew hqs
  | relocateDelivery hi hu hU hnew hps =>
    exact RelocateDelivery.found h h' hco hfit (hlt' (by simp)) hi hu hU hnew hps

end PyVRP
