import Verif.Lemmas.Int64Insert
import Verif.Lemmas.CheckedLoad
import Verif.Props.C61
/-!
# Updating routes in the local search does not overflow
-/
namespace PyVRP.Checked64
open Spec Checked
open SSol (Holds CleanBut)

variable {data : ProblemData} {ce : CostEvaluator} {plan : List (List Activity)} {s : SSol}
  {B M : Int} {N : Nat} {K : Int}

/-- What is known about an instance, for routes of at most `N` nodes. -/
structure Ctx (data : ProblemData) (ce : CostEvaluator) (B M : Int) (N : Nat) (K : Int) : Prop where
  env : Env data ce B M N K
  cost : CostOk data ce
  dist : DistancesOk data
  two : 2 ≤ N
  long : ∀ vt, vt < data.numVehicleTypes →
    data.numClients + 2 * data.numShipments + (data.vehicleType vt).maxTrips + 1 ≤ N

theorem Ctx.length_le (hx : Ctx data ce B M N K) {vt : Nat} (ht : vt < data.numVehicleTypes)
    {acts : List Activity} (hr : RouteOk data (data.vehicleType vt) acts)
    (hon : ∀ a : Activity, a.type ≠ .depot → acts.count a ≤ 1) : acts.length + 2 ≤ N := by
  have h1 := hr.length_le hon
  have h2 := hr.trips
  have h3 := hx.long vt ht
  omega

theorem Ctx.solBd (hx : Ctx data ce B M N K) (h : SearchOk data plan s) : SolBd data B M N s :=
  hx.env.solBd h (fun i hi => hx.length_le (vehTypeAt_lt data hi) (h.routes i hi) (fun a ha => h.clean.1.once a ha i))

/-! ## Routes -/

theorem updated_eq (hx : Ctx data ce B M N K) (h : SSol.Sized data s) {i : Nat} (hi : i < data.numVehicles)
    {acts : List Activity} (hv : (s.route i).Visits data acts)
    (ht : (s.route i).vehicleType < data.numVehicleTypes) (hn : acts.length + 2 ≤ N) :
    updated data s i = some (s.updateRoute data i) := by
  unfold updated
  simp only [Option.bind_eq_bind]
  rw [sized_route h hi, Option.bind_some, (hx.env.update hv ht hn).1]
  rfl

theorem cleared_eq (hx : Ctx data ce B M N K) (h : SSol.Sized data s) {i : Nat} (hi : i < data.numVehicles)
    (ht : (s.route i).vehicleType < data.numVehicleTypes) :
    cleared data s i = some (s.clearRoute data i) := by
  unfold cleared SSol.clearRoute
  simp only [Option.bind_eq_bind]
  rw [sized_route h hi, Option.bind_some]
  split
  · rfl
  · rename_i h2
    have := (hx.env.update (r := { s.route i with nodes := SRoute.emptyNodes data (s.route i).vehicleType })
      (acts := []) rfl ht hx.two).1
    rw [this]
    unfold SRoute.clear
    rw [if_neg h2]
    rfl

/-! ## States -/

/-- The sizes of the arrays of a state, and the costs in them. -/
structure Sized (data : ProblemData) (K : Int) (st : LState) : Prop where
  base : Checked.Sized data st
  costs : ∀ p ∈ st.binary, CacheBd K p.2

theorem updateRoute_eq (hx : Ctx data ce B M N K) {D : Nat → Prop} {st : LState}
    (h : CleanBut data D plan st.sol)
    (hr : ∀ k, k < data.numVehicles →
      RouteOk data (data.vehicleType (vehTypeAt data k)) (plan.getD k [])) (hz : Sized data K st)
    {i : Nat} (hi : i < data.numVehicles) :
    updateRoute data st i = some (LState.updateRoute data st i) := by
  have hb := Checked.updateRoute_eq (consistent hx.cost) h hr hz.base hi
  have hlt := vehTypeAt_lt data hi
  have e1 := updated_eq hx h.1.sized hi (h.1.visits i hi) (by rw [h.1.types i hi]; exact hlt)
    (hx.length_le hlt (hr i hi) (fun a ha => h.1.once a ha i))
  have hcl := h.update hi
  have e2 := cleared_eq hx hcl.1.sized hi (by rw [hcl.1.types i hi]; exact hlt)
  rw [← hb]
  unfold updateRoute Checked.updateRoute
  simp only [Option.bind_eq_bind]
  rw [e1]
  simp only [Option.bind_some]
  by_cases hem : ((SSol.updateRoute data st.sol i).route i).empty = true
  · rw [if_pos hem, if_pos hem, e2]
    rfl
  · rw [if_neg hem, if_neg hem]
    rfl

theorem Sized.updateRoute {st : LState} (h : Sized data K st) (i : Nat) :
    Sized data K (LState.updateRoute data st i) := by
  refine ⟨h.base.updateRoute i, ?_⟩
  intro p hp
  obtain ⟨q, hq, rfl⟩ := List.mem_map.1 hp
  exact (C61_caches data (2 * K) q.1).2 q.2 _ (h.costs q hq)

theorem Sized.update {st : LState} (h : Sized data K st) (u : Option Nat) (v : Nat) :
    Sized data K (LState.update data st u v) := by
  rw [LState.update_eq]
  have h0 : Sized data K { st with numUpdates := st.numUpdates + 1, completed := false } :=
    ⟨⟨h.1.1, h.1.2, h.1.3⟩, h.2⟩
  generalize { st with numUpdates := st.numUpdates + 1, completed := false } = st0 at h0
  generalize LState.updated u v = ks
  induction ks generalizing st0 with
  | nil => exact h0
  | cons i ks ih => exact ih _ (h0.updateRoute i)

theorem Sized.mark {st : LState} (h : Sized data K st) (p : Nat × Nat) : Sized data K (LState.mark st p) :=
  ⟨h.1.mark p, h.2⟩

theorem Sized.markIf {st : LState} (h : Sized data K st) (p : Option (Nat × Nat)) :
    Sized data K (LState.markIf st p) := by
  cases p
  · exact h
  · exact h.mark _

theorem Sized.sol {st : LState} (h : Sized data K st) (s : SSol) : Sized data K { st with sol := s } :=
  ⟨h.1.sol s, h.2⟩

theorem update_eq (hx : Ctx data ce B M N K) {D : Nat → Prop} {st : LState} (h : CleanBut data D plan st.sol)
    (hr : ∀ k, k < data.numVehicles →
      RouteOk data (data.vehicleType (vehTypeAt data k)) (plan.getD k [])) (hz : Sized data K st)
    {u : Option Nat} {v : Nat} (hu : ∀ i, u = some i → i < data.numVehicles) (hv : v < data.numVehicles) :
    update data st u v = some (LState.update data st u v) := by
  have h0 : Sized data K { st with numUpdates := st.numUpdates + 1, completed := false } :=
    ⟨⟨hz.1.1, hz.1.2, hz.1.3⟩, hz.2⟩
  unfold update LState.update
  dsimp only
  cases u with
  | none =>
    simp only [Option.pure_def, Option.bind_eq_bind, Option.bind_some]
    rw [if_pos (by simp), if_pos (by simp)]
    exact updateRoute_eq hx (st := { st with numUpdates := st.numUpdates + 1, completed := false }) h hr h0 hv
  | some i =>
    have hi := hu i rfl
    dsimp only
    rw [updateRoute_eq hx (st := { st with numUpdates := st.numUpdates + 1, completed := false }) h hr h0 hi]
    simp only [Option.bind_eq_bind, Option.bind_some]
    obtain ⟨plan', hs, -, hc, -⟩ := LState.updateRoute_spec
      (st := { st with numUpdates := st.numUpdates + 1, completed := false }) h hr hi
    by_cases hiv : some i ≠ some v
    · rw [if_pos hiv, if_pos hiv]
      exact updateRoute_eq hx hc (fun k hk => hs.routeOk (hr k hk)) (h0.updateRoute i) hv
    · rw [if_neg hiv, if_neg hiv]; rfl

end PyVRP.Checked64
