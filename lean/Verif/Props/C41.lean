import Verif.Lemmas.MinimiseFleet
import Verif.Props.Demo
/-!
# C41: fleet minimisation
-/
namespace PyVRP
open Spec MinimiseFleet

namespace Spec

/-- What is used of rounding to double precision: it is monotone, and integers up to `2^53` are
exact. -/
structure Rounding (fl : Rat → Rat) : Prop where
  mono : ∀ x y, x ≤ y → fl x ≤ fl y
  exact : ∀ n : Int, 0 ≤ n → n ≤ 9007199254740992 → fl n = n

/-- The instance with `n` vehicles of its (only) vehicle type. -/
def withVehicleCount (data : ProblemData) (n : Nat) : ProblemData :=
  { data with vehicleTypes := [{ data.vehicleType 0 with numAvailable := n }] }

/-- What `minimise_fleet` asks of an instance: one vehicle type, and all clients required. -/
structure OneFleet (data : ProblemData) : Prop where
  consistent : ProblemData.make data = .ok data
  one : data.vehicleTypes.length = 1
  vehicle : ∃ args, VehicleType.make args = .ok (data.vehicleType 0)
  required : ∀ c ∈ data.clients, c.required = true
  reloads : (data.vehicleType 0).maxReloads ≤ SIZE_MAX

/-- `s` is a solution of the instance. -/
def IsSolution (data : ProblemData) (s : Solution) : Prop :=
  ∃ plan routes, Built data plan routes ∧ Solution.make data routes = .ok s

/-- The solver returns solutions of the instance it is given. -/
def SolverReturnsSolutions (data : ProblemData)
    (outcome : Nat → ProblemData → Solution × Bool) : Prop :=
  ∀ k n, 0 < n → IsSolution (withVehicleCount data n) (outcome k (withVehicleCount data n)).1

end Spec

namespace MinimiseFleet

theorem OneFleet.types {data : ProblemData} (h : OneFleet data) :
    data.vehicleTypes = [data.vehicleType 0] := by
  have := h.one
  unfold ProblemData.vehicleType
  match hv : data.vehicleTypes, this with
  | [v], _ => rfl

theorem OneFleet.groups {data : ProblemData} (h : OneFleet data) : data.groups = [] := by
  have hc := ((C37_accepts_exactly_consistent _ _).1 h.consistent).2
  cases hg : data.groups with
  | nil => rfl
  | cons g gs =>
    exfalso
    have hcg := hc.groupClients 0 g (by simp [hg])
    obtain ⟨i, hi⟩ := List.exists_mem_of_ne_nil _ hcg.1
    obtain ⟨c, hcl, hcgr⟩ := hcg.2 i hi
    obtain ⟨_, _, _, hreq⟩ := hc.clientGroup i c 0 hcl hcgr
    have := h.required c (List.mem_of_getElem? hcl)
    simp [hreq] at this

theorem OneFleet.resized {data : ProblemData} (h : OneFleet data) {n : Nat} (hn : 0 < n) :
    OneFleet (withVehicleCount data n) := by
  have hc := ((C37_accepts_exactly_consistent _ _).1 h.consistent).2
  obtain ⟨args, ha⟩ := h.vehicle
  refine ⟨?_, rfl, ⟨_, make_resized ha hn⟩, h.required, h.reloads⟩
  exact (C37_accepts_exactly_consistent _ _).2 ⟨rfl, consistent_resized hc (OneFleet.types h) n⟩

theorem lowerBound_resized {fl : Rat → Rat} {data : ProblemData} (h : OneFleet data) (n : Nat) :
    lowerBound fl (withVehicleCount data n) = lowerBound fl data := by
  unfold lowerBound
  have hd : (withVehicleCount data n).numLoadDimensions = data.numLoadDimensions := by
    unfold ProblemData.numLoadDimensions
    rw [OneFleet.types h]
    rfl
  rw [hd]
  rfl

theorem foldl_max_le (g : Nat → Int) (b c : Int) (l : List Nat) (hb : b ≤ c)
    (h : ∀ d ∈ l, g d ≤ c) : l.foldl (fun bound d => max (g d) bound) b ≤ c := by
  induction l generalizing b with
  | nil => exact hb
  | cons d l ih =>
    have := h d (by simp)
    exact ih (max (g d) b) (by omega) fun x hx => h x (by simp [hx])

theorem le_foldl_max (g : Nat → Int) (b : Int) (l : List Nat) :
    b ≤ l.foldl (fun bound d => max (g d) bound) b := by
  induction l generalizing b with
  | nil => exact Int.le_refl _
  | cons d l ih => exact Int.le_trans (by omega) (ih (max (g d) b))

theorem lowerBound_nonneg (fl : Rat → Rat) (data : ProblemData) : 0 ≤ lowerBound fl data :=
  le_foldl_max _ _ _

theorem vehicle_nonneg {v : VehicleType} {args : VehicleTypeArgs} (h : VehicleType.make args = .ok v)
    (dim : Nat) : 0 ≤ v.capacity.getD dim 0 ∧ 0 ≤ v.initialLoad.getD dim 0 := by
  have hok := (C36_vehicle_accepts args).1.1 ⟨v, h⟩
  unfold VehicleType.make at h
  obtain ⟨_, rfl⟩ := checked_eq_ok.1 h
  have hget : ∀ l : List Int, Nonneg l → 0 ≤ l.getD dim 0 := by
    intro l hl
    rw [List.getD_eq_getElem?_getD]
    cases hx : l[dim]? with
    | none => simp
    | some x => exact hl x (List.mem_of_getElem? hx)
  constructor
  · apply hget; dsimp only; rw [nonneg_pad]; exact hok.capacity
  · apply hget; dsimp only; rw [nonneg_pad]; exact hok.initial

end MinimiseFleet

/-- **C41, lower bound.** No feasible solution uses fewer vehicles than the load-based lower bound. -/
theorem C41_lower_bound (fl : Rat → Rat) (hfl : Rounding fl) (data : ProblemData)
    (hd : OneFleet data) (s : Solution) (hs : IsSolution data s) (hf : s.isFeasible = true)
    (hsize : s.numRoutes ≤ 9007199254740992) :
    lowerBound fl data ≤ s.numRoutes := by
  obtain ⟨plan, routes, hb, hm⟩ := hs
  have hn : ∀ g ∈ data.groups, g.clients.Nodup := by rw [OneFleet.groups hd]; simp
  have hfeas := (C14_feasible_iff data plan routes s hb hn hm).1 hf
  have hcomp := (C14_missing data plan routes s hb hn hm).2.2.2.1 hfeas.1
  have hvalid := (C13_solution_accepts_exactly_valid data plan routes hb hn).1.1 ⟨s, hm⟩
  have hroutes := (C15_totals data plan routes s hb hn hm).1
  have hlen : s.numRoutes = plan.length := by
    unfold Solution.numRoutes; rw [hroutes]; exact hb.length.symm
  have hcount : ∀ i, (visited plan).count ⟨.client, i⟩ = if i < data.clients.length then 1 else 0 := by
    intro i
    split
    · rename_i hi
      have h1 := hvalid.clientsOnce i
      have h2 := hcomp.1 i _ (List.getElem?_eq_getElem hi) (hd.required _ (List.getElem_mem hi))
      have h3 := List.count_pos_iff.2 h2
      unfold clientOf at h3
      omega
    · rename_i hi
      refine List.count_eq_zero.2 fun hmem => hi ?_
      unfold visited at hmem
      obtain ⟨p, hp, ha⟩ := List.mem_flatMap.1 hmem
      obtain ⟨r, hr, hmk⟩ : ∃ r, r ∈ routes ∧ Route.make data p.2 p.1 = .ok r := by
        have : Route.make data p.2 p.1 ∈ routes.map Except.ok := by
          rw [← hb.made]; exact List.mem_map_of_mem hp
        obtain ⟨r, hr, he⟩ := List.mem_map.1 this
        exact ⟨r, hr, he.symm⟩
      have hw := (C05_route_accepts_exactly_wellformed data p.2 p.1 (hb.sizes p hp)
        (hb.reloads _ (SSol.vehicleType_mem data (hb.types p hp)))).1.1 ⟨r, hmk⟩
      exact hw.inRange _ ha
  obtain ⟨args, hargs⟩ := hd.vehicle
  unfold lowerBound
  refine foldl_max_le _ _ _ _ (by omega) fun dim hdim => ?_
  rw [List.mem_range] at hdim
  have hnn := vehicle_nonneg hargs dim
  -- what one route takes
  have hroute : ∀ p ∈ plan,
      ((p.2.filter fun a => a.type = .client).map
        fun a => (data.client a.idx).delivery.getD dim 0).sum ≤ capacity (data.vehicleType 0) dim
      ∧ ((p.2.filter fun a => a.type = .client).map
        fun a => (data.client a.idx).pickup.getD dim 0).sum ≤ capacity (data.vehicleType 0) dim := by
    intro p hp
    have hp0 : p.1 = 0 := by have := hb.types p hp; have := hd.one; omega
    obtain ⟨r, hr, hmk⟩ : ∃ r, r ∈ routes ∧ Route.make data p.2 p.1 = .ok r := by
      have : Route.make data p.2 p.1 ∈ routes.map Except.ok := by
        rw [← hb.made]; exact List.mem_map_of_mem hp
      obtain ⟨r, hr, he⟩ := List.mem_map.1 this
      exact ⟨r, hr, he.symm⟩
    have hw := (C05_route_accepts_exactly_wellformed data p.2 p.1 (hb.sizes p hp)
      (hb.reloads _ (SSol.vehicleType_mem data (hb.types p hp)))).1.1 ⟨r, hmk⟩
    rw [hp0] at hmk hw
    have hx : r.hasExcessLoad = false := by
      have := hfeas.2 r hr
      unfold Route.isFeasible at this
      simp only [Bool.and_eq_true, Bool.not_eq_true'] at this
      exact this.1.1
    have hfit := route_fits hdim hnn.1 hnn.2 hmk hw hx
    have ht := trips_le hw (hb.sizes p hp) hd.reloads
    have : ((depotVisits p.2 + 1 : Nat) : Int) * (data.vehicleType 0).capacity.getD dim 0
        ≤ capacity (data.vehicleType 0) dim := by
      unfold capacity
      rw [Int.mul_comm]
      exact Int.mul_le_mul_of_nonneg_left (by omega) hnn.1
    exact ⟨Int.le_trans hfit.1 this, Int.le_trans hfit.2 this⟩
  have hdem : demand data dim ≤ plan.length * capacity (data.vehicleType 0) dim := by
    unfold demand
    rw [clients_sum (fun c => c.delivery.getD dim 0) hcount,
      clients_sum (fun c => c.pickup.getD dim 0) hcount]
    have h1 := sum_le_length_mul _ _ plan fun p hp => (hroute p hp).1
    have h2 := sum_le_length_mul _ _ plan fun p hp => (hroute p hp).2
    omega
  have hdem' : demand data dim ≤ plan.length * max (capacity (data.vehicleType 0) dim) 1 := by
    refine Int.le_trans hdem (Int.mul_le_mul_of_nonneg_left (by omega) (by omega))
  unfold bins
  rw [hlen]
  apply ceil_le_of_le
  have hq : (demand data dim : Rat) / ((max (capacity (data.vehicleType 0) dim) 1 : Int) : Rat)
      ≤ ((plan.length : Int) : Rat) := by
    have hpos : (0 : Rat) < ((max (capacity (data.vehicleType 0) dim) 1 : Int) : Rat) := by
      have : (0 : Int) < max (capacity (data.vehicleType 0) dim) 1 := by omega
      exact_mod_cast this
    refine Rat.not_lt.1 fun hlt => ?_
    rw [Rat.lt_div_iff hpos] at hlt
    have : (plan.length : Int) * max (capacity (data.vehicleType 0) dim) 1 < demand data dim := by
      exact_mod_cast hlt
    omega
  refine Rat.le_trans (hfl.mono _ _ hq) ?_
  rw [hfl.exact _ (by omega) (by omega)]
  exact Rat.le_refl

/-- What the loop gives, from `n` vehicles on. -/
theorem MinimiseFleet.loop_spec (fl : Rat → Rat) (hfl : Rounding fl) (data : ProblemData)
    (hd : OneFleet data) (outcome : Nat → ProblemData → Solution × Bool)
    (hsolve : SolverReturnsSolutions data outcome) (fuel : Nat) :
    ∀ (k n : Nat) (d : ProblemData), 0 < n → n < fuel → n ≤ 9007199254740992 →
    (d = data ∨ ∃ m, d = withVehicleCount data m) →
    (∃ n', loop outcome (lowerBound fl data) fuel k d (resized (data.vehicleType 0) n)
        = some (.ok (resized (data.vehicleType 0) n'))
      ∧ 0 < n' ∧ n' ≤ n ∧ min (lowerBound fl data) n ≤ n'
      ∧ (n' < n → ∃ k' m, n' ≤ m ∧ m < n
          ∧ (outcome k' (withVehicleCount data m)).1.isFeasible = true
          ∧ (outcome k' (withVehicleCount data m)).1.numRoutes = n')
      ∧ (lowerBound fl data < n' → ∃ k', 1 < n'
          ∧ ((outcome k' (withVehicleCount data (n' - 1))).2 = true
            ∨ (outcome k' (withVehicleCount data (n' - 1))).1.isFeasible = false)))
    ∨ (lowerBound fl data = 0 ∧ ∃ msg,
        loop outcome (lowerBound fl data) fuel k d (resized (data.vehicleType 0) n)
          = some (.error (.invalidArgument msg))) := by
  induction fuel with
  | zero => intro k n d _ h; omega
  | succ fuel ih =>
    intro k n d hn hfuel hsz hdd
    obtain ⟨args, hargs⟩ := hd.vehicle
    have hc := ((C37_accepts_exactly_consistent _ _).1 hd.consistent).2
    have hb0 := lowerBound_nonneg fl data
    unfold loop
    by_cases hgt : ((resized (data.vehicleType 0) n).numAvailable : Int) > lowerBound fl data
    · rw [if_pos hgt]
      have hna : (resized (data.vehicleType 0) n).numAvailable = n := rfl
      rw [hna] at hgt ⊢
      have hmk : ∀ m, 0 < m → ∀ m', 0 < m' →
          withVehicles (resized (data.vehicleType 0) m) m' = .ok (resized (data.vehicleType 0) m') :=
        fun m hm m' hm' => withVehicles_ok (make_resized hargs hm) hm'
      by_cases h1 : n = 1
      · -- no vehicle would be left
        subst h1
        right
        refine ⟨by omega, ?_⟩
        obtain ⟨msg, hz⟩ := withVehicles_zero (resized (data.vehicleType 0) 1)
        rw [Nat.sub_self, hz]
        exact ⟨msg, rfl⟩
      · have hn1 : 0 < n - 1 := by omega
        rw [hmk n hn (n - 1) hn1]
        dsimp only
        have hwf : withFleet d (resized (data.vehicleType 0) (n - 1))
            = .ok (withVehicleCount data (n - 1)) := by
          rcases hdd with rfl | ⟨m, rfl⟩
          · exact withFleet_ok hc (OneFleet.types hd) (n - 1)
          · exact withFleet_ok (consistent_resized hc (OneFleet.types hd) m) rfl (n - 1)
        rw [hwf]
        dsimp only
        have hnv : (withVehicleCount data (n - 1)).numVehicles = n - 1 := by
          simp [ProblemData.numVehicles, withVehicleCount]
        have hsol := hsolve k (n - 1) hn1
        by_cases hstop : ((outcome k (withVehicleCount data (n - 1))).2
            || !(outcome k (withVehicleCount data (n - 1))).1.isFeasible) = true
        · rw [if_pos hstop]
          exact .inl ⟨n, rfl, hn, Nat.le_refl _, by omega, fun h => absurd h (Nat.lt_irrefl _),
            fun _ => ⟨k, by omega, by simpa using hstop⟩⟩
        · rw [if_neg hstop]
          have hfeas : (outcome k (withVehicleCount data (n - 1))).1.isFeasible = true := by
            simp only [Bool.or_eq_true, Bool.not_eq_true', not_or] at hstop
            simpa using hstop.2
          have hnr : (outcome k (withVehicleCount data (n - 1))).1.numRoutes ≤ n - 1 := by
            obtain ⟨plan, routes, hb, hm⟩ := hsol
            have hng : ∀ g ∈ (withVehicleCount data (n - 1)).groups, g.clients.Nodup := by
              show ∀ g ∈ data.groups, _
              rw [OneFleet.groups hd]; simp
            have hvalid := (C13_solution_accepts_exactly_valid _ plan routes hb hng).1.1 ⟨_, hm⟩
            have hroutes := (C15_totals _ plan routes _ hb hng hm).1
            have := hvalid.fleet
            unfold Solution.numRoutes
            rw [hroutes, ← hb.length]
            simpa [withVehicleCount] using this
          have hlow := C41_lower_bound fl hfl _ (OneFleet.resized hd hn1) _ hsol hfeas (by omega)
          rw [lowerBound_resized hd] at hlow
          rw [hnv]
          split
          · rename_i hlt
            by_cases h0 : (outcome k (withVehicleCount data (n - 1))).1.numRoutes = 0
            · right
              rw [h0] at hlow ⊢
              refine ⟨by omega, ?_⟩
              obtain ⟨msg, hz⟩ := withVehicles_zero (resized (data.vehicleType 0) (n - 1))
              rw [hz]
              exact ⟨msg, rfl⟩
            · rw [hmk (n - 1) hn1 _ (by omega)]
              dsimp only
              rcases ih (k + 1) _ _ (Nat.pos_of_ne_zero h0) (by omega) (by omega)
                (.inr ⟨n - 1, rfl⟩) with ⟨n', h1, h2, h3, h4, h5, h10⟩ | h
              · refine .inl ⟨n', h1, h2, by clear h5 h10; omega, by clear h5 h10; omega, fun _ => ?_, h10⟩
                clear h10
                by_cases he : n' = (outcome k (withVehicleCount data (n - 1))).1.numRoutes
                · exact ⟨k, n - 1, by omega, by omega, hfeas, by omega⟩
                · obtain ⟨k', m, h6, h7, h8, h9⟩ := h5 (by omega)
                  exact ⟨k', m, h6, by omega, h8, h9⟩
              · exact .inr h
          · rename_i hlt
            rcases ih (k + 1) (n - 1) _ hn1 (by omega) (by omega) (.inr ⟨n - 1, rfl⟩) with
              ⟨n', h1, h2, h3, h4, h5, h10⟩ | h
            · refine .inl ⟨n', h1, h2, by clear h5 h10; omega, by clear h5 h10; omega, fun _ => ?_, h10⟩
              clear h10
              by_cases he : n' = n - 1
              · exact ⟨k, n - 1, by omega, by omega, hfeas, by omega⟩
              · obtain ⟨k', m, h6, h7, h8, h9⟩ := h5 (by omega)
                exact ⟨k', m, h6, by omega, h8, h9⟩
            · exact .inr h
    · rw [if_neg hgt]
      have hna : (resized (data.vehicleType 0) n).numAvailable = n := rfl
      rw [hna] at hgt
      exact .inl ⟨n, rfl, hn, Nat.le_refl _, by omega, fun h => absurd h (Nat.lt_irrefl _),
        fun h => absurd h (by omega)⟩

/-- **C41, result (partial).** For an instance with one vehicle type, only required clients, and a
positive lower bound, `minimise_fleet` ends without error, whatever the solver and the stopping
criterion do. It returns the vehicle type with between one and the original number of vehicles, and
not below the lower bound. If vehicles were saved, the solver found a feasible solution of the
instance that uses exactly the returned number of vehicles. If the result is above the lower bound,
the solver was tried with one vehicle less, and found no feasible solution or was stopped.
Missing: the case that the lower bound is zero, which may raise (`C41_negation`). -/
theorem C41_result_partial (fl : Rat → Rat) (hfl : Rounding fl) (data : ProblemData)
    (hd : OneFleet data) (outcome : Nat → ProblemData → Solution × Bool)
    (hsolve : SolverReturnsSolutions data outcome)
    (hbound : 0 < lowerBound fl data)
    (hsize : (data.vehicleType 0).numAvailable ≤ 9007199254740992)
    (fuel : Nat) (hfuel : (data.vehicleType 0).numAvailable < fuel) :
    ∃ n, minimiseFleet fl outcome fuel data
        = some (.ok { data.vehicleType 0 with numAvailable := n })
      ∧ 1 ≤ n ∧ n ≤ (data.vehicleType 0).numAvailable
      ∧ (lowerBound fl data ≤ (data.vehicleType 0).numAvailable → lowerBound fl data ≤ n)
      ∧ (n < (data.vehicleType 0).numAvailable →
          ∃ k m, n ≤ m ∧ m < (data.vehicleType 0).numAvailable
            ∧ (outcome k (withVehicleCount data m)).1.isFeasible = true
            ∧ (outcome k (withVehicleCount data m)).1.numRoutes = n)
      ∧ (lowerBound fl data < n → ∃ k, 1 < n
          ∧ ((outcome k (withVehicleCount data (n - 1))).2 = true
            ∨ (outcome k (withVehicleCount data (n - 1))).1.isFeasible = false)) := by
  obtain ⟨args, hargs⟩ := hd.vehicle
  have hpos : 0 < (data.vehicleType 0).numAvailable := by
    have := ((C36_vehicle_accepts args).1.1 ⟨_, hargs⟩).available
    rw [(C36_vehicle_fields args _ hargs).1]; exact this
  have hone : data.numVehicleTypes = 1 := hd.one
  have hreq : data.clients.any (fun c => !c.required) = false := by
    rw [List.any_eq_false]
    intro c hc
    simp [hd.required c hc]
  rcases MinimiseFleet.loop_spec fl hfl data hd outcome hsolve fuel 0 _ data hpos hfuel hsize
    (.inl rfl) with ⟨n, h1, h2, h3, h4, h5, h6⟩ | ⟨h, -⟩
  · refine ⟨n, ?_, h2, h3, by clear h5 h6; omega, h5, h6⟩
    unfold minimiseFleet
    rw [if_neg (by simp [hone]), if_neg (by simp [hreq])]
    exact h1
  · omega

/-- **C41, any bound.** Also when the bound is zero the loop ends. It either gives a result as above,
or raises a `ValueError`, and this only when the bound is zero. -/
theorem C41_result_or_error (fl : Rat → Rat) (hfl : Rounding fl) (data : ProblemData)
    (hd : OneFleet data) (outcome : Nat → ProblemData → Solution × Bool)
    (hsolve : SolverReturnsSolutions data outcome)
    (hsize : (data.vehicleType 0).numAvailable ≤ 9007199254740992)
    (fuel : Nat) (hfuel : (data.vehicleType 0).numAvailable < fuel) :
    (∃ n, minimiseFleet fl outcome fuel data
        = some (.ok { data.vehicleType 0 with numAvailable := n })
      ∧ 1 ≤ n ∧ n ≤ (data.vehicleType 0).numAvailable)
    ∨ (lowerBound fl data = 0 ∧ ∃ msg,
        minimiseFleet fl outcome fuel data = some (.error (.invalidArgument msg))) := by
  obtain ⟨args, hargs⟩ := hd.vehicle
  have hpos : 0 < (data.vehicleType 0).numAvailable := by
    have := ((C36_vehicle_accepts args).1.1 ⟨_, hargs⟩).available
    rw [(C36_vehicle_fields args _ hargs).1]; exact this
  have hone : data.numVehicleTypes = 1 := hd.one
  have hreq : data.clients.any (fun c => !c.required) = false := by
    rw [List.any_eq_false]
    intro c hc
    simp [hd.required c hc]
  have he : minimiseFleet fl outcome fuel data
      = loop outcome (lowerBound fl data) fuel 0 data (data.vehicleType 0) := by
    unfold minimiseFleet
    rw [if_neg (by simp [hone]), if_neg (by simp [hreq])]
  rw [he]
  rcases MinimiseFleet.loop_spec fl hfl data hd outcome hsolve fuel 0 _ data hpos hfuel hsize
    (.inl rfl) with ⟨n, h1, h2, h3, -, -, -⟩ | h
  · exact .inl ⟨n, h1, h2, h3⟩
  · exact .inr h

/-- **C41, wrong use.** Several vehicle types, or an optional client: `ValueError`. -/
theorem C41_rejects (fl : Rat → Rat) (outcome : Nat → ProblemData → Solution × Bool) (fuel : Nat)
    (data : ProblemData)
    (h : data.vehicleTypes.length ≠ 1 ∨ ∃ c ∈ data.clients, c.required = false) :
    ∃ msg, minimiseFleet fl outcome fuel data = some (.error (.invalidArgument msg)) := by
  unfold minimiseFleet
  by_cases h1 : data.numVehicleTypes ≠ 1
  · rw [if_pos h1]; exact ⟨_, rfl⟩
  · rw [if_neg h1]
    rcases h with h | ⟨c, hc, hr⟩
    · exact absurd h h1
    · rw [if_pos (by rw [List.any_eq_true]; exact ⟨c, hc, by simp [hr]⟩)]
      exact ⟨_, rfl⟩

/-! ## Non-vacuity and negation -/

namespace C41

/-- An instance with two clients of the given delivery amount (none for no load dimensions), and a
vehicle type that the constructor makes. -/
def demoData (amounts : List Int) (v : VehicleType) : ProblemData :=
  { locations := [⟨0, 0, ""⟩, ⟨3, 4, ""⟩]
    clients := [⟨1, amounts, amounts.map fun _ => 1, 0, 0, MAX, 0, 0, true, none, ""⟩,
      ⟨0, amounts, amounts.map fun _ => 0, 0, 0, MAX, 0, 0, true, none, ""⟩]
    depots := [⟨0, 0, MAX, 0, ""⟩]
    vehicleTypes := [v]
    dists := [⟨2, 2, [0, 1, 1, 0]⟩]
    durs := [⟨2, 2, [0, 1, 1, 0]⟩]
    groups := []
    shipments := [] }

/-- Vehicles with at most two trips of capacity 5. -/
def demoArgs : VehicleTypeArgs :=
  { numAvailable := 3, capacity := [5], reloadDepots := [0], maxReloads := 1 }

def made (args : VehicleTypeArgs) : VehicleType :=
  match VehicleType.make args with
  | .ok v => v
  | .error _ => default

theorem oneFleet_demo : OneFleet (demoData [4] (made demoArgs)) :=
  ⟨by decide, rfl, ⟨demoArgs, by decide⟩, by decide, by decide⟩

theorem oneFleet_plain : OneFleet (demoData [] (made {})) :=
  ⟨by decide, rfl, ⟨{}, by decide⟩, by decide, by decide⟩

/-- A solver that visits both clients with one vehicle, in two trips. -/
def demoActs : List Activity := [⟨.client, 0⟩, ⟨.depot, 0⟩, ⟨.client, 1⟩]

def demoSolver (_ : Nat) (d : ProblemData) : Solution × Bool :=
  (match Solution.make d [Route.build d demoActs 0] with
    | .ok s => s
    | .error _ => { routes := [] }, false)

theorem demoSolver_ok :
    SolverReturnsSolutions (demoData [4] (made demoArgs)) demoSolver := by
  intro k n hn
  have hr : (withVehicleCount (demoData [4] (made demoArgs)) n).vehicleType 0
      = { made demoArgs with numAvailable := n } := rfl
  have hw : WellFormed (withVehicleCount (demoData [4] (made demoArgs)) n)
      { made demoArgs with numAvailable := n } demoActs := by
    refine ⟨?_, fun s => .inl ?_, (by decide : depotVisits demoActs ≤ reloadLimit (made demoArgs))⟩
    · simp [demoActs, InRange, withVehicleCount, demoData]
    · simp [demoActs, Concerns, pickupOf, deliveryOf]
  obtain ⟨r, hmk⟩ := (C05_route_accepts_exactly_wellformed _ demoActs 0 (by decide)
    (by rw [hr]; exact (by decide : (made demoArgs).maxReloads ≤ SIZE_MAX))).1.2 (hr ▸ hw)
  have hrb := Route.make_eq_ok hmk
  subst hrb
  have hb : Built (withVehicleCount (demoData [4] (made demoArgs)) n) [(0, demoActs)]
      [Route.build (withVehicleCount (demoData [4] (made demoArgs)) n) demoActs 0] := by
    refine ⟨by simp [hmk], by simp [withVehicleCount], ?_, ?_⟩
    · simp only [List.mem_singleton, forall_eq]; decide
    · simp only [withVehicleCount, List.mem_singleton, forall_eq]
      exact (by decide : (made demoArgs).maxReloads ≤ SIZE_MAX)
  have hg : ∀ g ∈ (withVehicleCount (demoData [4] (made demoArgs)) n).groups, g.clients.Nodup := by
    simp [withVehicleCount, demoData]
  have hv : ValidPlan (withVehicleCount (demoData [4] (made demoArgs)) n) [(0, demoActs)] := by
    refine ⟨?_, ?_, ?_, ?_, ?_, ?_⟩
    · simp [withVehicleCount]; omega
    · simp [demoActs]
    · intro i
      simp only [visited, demoActs, List.flatMap_cons, List.flatMap_nil, List.append_nil,
        List.count_cons, List.count_nil, beq_iff_eq, Activity.mk.injEq]
      by_cases h0 : i = 0 <;> by_cases h1 : i = 1 <;> simp [h0, h1, eq_comm]
    · intro i; simp [visited, demoActs]
    · simp [withVehicleCount, demoData]
    · intro t v ht
      have : (0 : Nat) < v.numAvailable := by
        have := List.mem_of_getElem? ht
        simp only [withVehicleCount, List.mem_singleton] at this
        subst this; exact hn
      simp only [List.countP_cons, List.countP_nil]
      split <;> omega
  obtain ⟨s, hs⟩ := (C13_solution_accepts_exactly_valid _ _ _ hb hg).1.2 hv
  refine ⟨_, _, hb, ?_⟩
  simp only [demoSolver, hs]

/-- Rounding, here to multiples of 1/1024. -/
def demoRounding (x : Rat) : Rat := ((x * 1024).floor : Rat) / 1024

theorem rounding_demo : Rounding demoRounding where
  mono x y h := by
    unfold demoRounding
    have h1 : x * 1024 ≤ y * 1024 := Rat.mul_le_mul_of_nonneg_right h (by decide)
    have h2 : (x * 1024).floor ≤ (y * 1024).floor := Rat.floor_monotone h1
    have h3 : ((x * 1024).floor : Rat) ≤ ((y * 1024).floor : Rat) := by exact_mod_cast h2
    grind
  exact n _ _ := by
    unfold demoRounding
    have : (n : Rat) * 1024 = ((n * 1024 : Int) : Rat) := by push_cast; rfl
    rw [this, Rat.floor_intCast, ← this]
    grind

/-- The bound is one vehicle, and this is what is found. -/
example : lowerBound demoRounding (demoData [4] (made demoArgs)) = 1
    ∧ minimiseFleet demoRounding demoSolver 4 (demoData [4] (made demoArgs))
      = some (.ok { made demoArgs with numAvailable := 1 }) := by
  decide +kernel

end C41

/-- **C41, negation.** `minimise_fleet` raises a `ValueError` for a valid instance with one vehicle
type, one vehicle and no loads, before even calling the solver: it tries to make a vehicle type
without vehicles. -/
theorem C41_negation : ∃ data, OneFleet data ∧ (data.vehicleType 0).numAvailable = 1
    ∧ ∀ (fl : Rat → Rat) (outcome : Nat → ProblemData → Solution × Bool) (fuel : Nat), 0 < fuel →
      ∃ msg, minimiseFleet fl outcome fuel data = some (.error (.invalidArgument msg)) := by
  refine ⟨C41.demoData [] (C41.made {}), C41.oneFleet_plain, rfl, ?_⟩
  intro fl outcome fuel hf
  obtain ⟨fuel, rfl⟩ := Nat.exists_eq_succ_of_ne_zero (Nat.pos_iff_ne_zero.1 hf)
  exact ⟨_, rfl⟩

example : OneFleet (C41.demoData [4] (C41.made C41.demoArgs))
    ∧ SolverReturnsSolutions (C41.demoData [4] (C41.made C41.demoArgs)) C41.demoSolver
    ∧ 0 < lowerBound C41.demoRounding (C41.demoData [4] (C41.made C41.demoArgs))
    ∧ Rounding C41.demoRounding :=
  ⟨C41.oneFleet_demo, C41.demoSolver_ok, by decide +kernel, C41.rounding_demo⟩

end PyVRP
