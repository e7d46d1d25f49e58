import Verif.Lemmas.Int64Ops3
import Verif.Lemmas.CheckedLoop
import Verif.Props.C58
/-!
# Bounds for the states of the local search
-/
namespace PyVRP.Checked64
open Spec
open SSol (Holds)

variable {data : ProblemData} {ce : CostEvaluator} {plan : List (List Activity)} {s : SSol}

/-- What one evaluation may add. -/
def limit (data : ProblemData) (B M N : Nat) : Int :=
  2 * ((M : Int) * (B * (5 * N : Nat))) * data.numLoadDimensions + 100 * ((M : Int) * (B * (5 * N : Nat)))

theorem limit_eq (data : ProblemData) (B M N : Nat) :
    (((40 * data.numLoadDimensions + 2000) * M * B * N : Nat) : Int) = 4 * limit data B M N := by
  unfold limit
  rw [Int.natCast_mul, Int.natCast_mul, Int.natCast_mul, Int.natCast_add, Int.natCast_mul, Int.natCast_mul]
  grind

theorem env {B M N : Nat} (hg : GoodData data) (hM : 1 ≤ M) (hs : Small data B M)
    (hp : SmallPenalties data ce M) (hN : 1 ≤ N)
    (hr : (((40 * data.numLoadDimensions + 2000) * M * B * N : Nat) : Int) ≤ MAX) :
    Env data ce B M N (limit data B M N) where
  small := I64.dataBd hg.times hs
  veh := fun _ hvt => I64.vehBd hg hs (mem_vehicleTypes hvt)
  dims := fun _ hvt => (hg.vehicle hvt).dims
  unit := by omega
  pen := ⟨hp.dims, hp.loads, hp.tw, hp.dist⟩
  size := hN
  bound := rfl
  room := by rw [limit_eq] at hr; exact hr

theorem Env.fits {B M : Int} {N : Nat} {K : Int} (h : Env data ce B M N K) {n : Nat} (hn : n ≤ N) :
    150 * (M * (B * n)) ≤ MAX := by
  have hl := h.le
  have h1 : B * (n : Int) ≤ B * (5 * N : Nat) := Int.mul_le_mul_of_nonneg_left (by omega) hl.1
  have h2 := Int.mul_le_mul_of_nonneg_left h1 (show 0 ≤ M by have := h.unit; omega)
  have h3 : 0 ≤ M * (B * (5 * N : Nat)) := by omega
  omega

/-- Updating a route does not overflow, and its statistics are bounded. -/
theorem Env.update {B M : Int} {N : Nat} {K : Int} (h : Env data ce B M N K) {r : SRoute}
    {acts : List Activity} (hv : r.Visits data acts) (ht : r.vehicleType < data.numVehicleTypes)
    (hn : acts.length + 2 ≤ N) :
    I64.update data r = some (r.update data) ∧ RBd data B M N (r.update data) := by
  have hsz : r.nodes.length = acts.length + 2 := by
    unfold SRoute.Visits at hv
    rw [hv, canon_length]
  unfold SRoute.Visits at hv
  obtain ⟨k1, k2⟩ := I64.update_eq h.small (r := r) (M := M) (h.veh _ ht) h.unit
    (n := startNode (data.vehicleType r.vehicleType)) hv (by rw [hv]; exact canon_dropLast _ _)
    (h.fits (by omega))
  refine ⟨k1, k2, ?_, ht⟩
  show r.nodes.length ≤ N
  omega

/-- The routes of a solution of the local search are bounded. -/
theorem Env.solBd {B M : Int} {N : Nat} {K : Int} (h : Env data ce B M N K) (hs : SearchOk data plan s)
    (hn : ∀ i, i < data.numVehicles → (plan.getD i []).length + 2 ≤ N) : SolBd data B M N s := by
  intro i r hr
  have hi : i < data.numVehicles := by
    unfold Checked.route at hr
    rw [← hs.clean.1.sized.routes]
    exact (List.getElem?_eq_some_iff.1 hr).1
  rw [Checked.route_eq hs hi] at hr
  injection hr with hr
  subst hr
  rw [hs.clean.2 i hi]
  replace hn := hn i hi
  generalize hv : vehTypeAt data i = vt
  have hvt : vt < data.numVehicleTypes := hv ▸ vehTypeAt_lt data hi
  generalize plan.getD i [] = acts at hn ⊢
  exact (h.update (r := { vehicleType := vt, nodes := canon (data.vehicleType vt) acts }) rfl hvt hn).2

end PyVRP.Checked64
