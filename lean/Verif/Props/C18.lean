import Verif.Lemmas.RandomSolution
import Verif.Props.C16
import Batteries.Data.List.Perm
/-!
# C18: random solutions are valid and complete
-/
namespace PyVRP
open Spec

theorem Solution.zip_countP_le {α : Type} (a : List α) (b : List Nat) (t : Nat) :
    ((a.zip b).map (fun p => (p.2, p.1))).countP (fun p => p.1 = t) ≤ b.count t := by
  induction a generalizing b with
  | nil => simp
  | cons x xs ih =>
    cases b with
    | nil => simp
    | cons y ys =>
      have := ih ys
      simp only [List.zip_cons_cons, List.map_cons, List.countP_cons, List.count_cons,
        decide_eq_true_eq, beq_iff_eq]
      split <;> omega

theorem Solution.map_snd_swap_zip (a : List (List Activity)) (b : List Nat) (h : a.length ≤ b.length) :
    ((a.zip b).map (fun p => (p.2, p.1))).map (·.2) = a := by
  rw [List.map_map]
  have : ((fun p : Nat × List Activity => p.2) ∘ fun p : List Activity × Nat => (p.2, p.1))
      = Prod.fst := rfl
  rw [this, List.map_fst_zip h]

/-- **C18.** `Solution.make_random` never raises on problem data accepted by the constructors:
whatever the random numbers (`next` is an arbitrary generator in an arbitrary state), the solution
it makes is that of a plan which the ordinary constructors of routes and solutions accept, and
visits all that is required. -/
theorem C18_random_valid_complete {σ : Type} (next : σ → Nat × σ) (s : σ) (data : ProblemData)
    (hc : Consistent data) (hn : ∀ g ∈ data.groups, g.clients.Nodup)
    (hv : ∀ v ∈ data.vehicleTypes, 0 < v.numAvailable)
    (hr : ∀ v ∈ data.vehicleTypes, v.maxReloads ≤ SIZE_MAX)
    (hsize : 2 * (data.clients.length + data.shipments.length) < SIZE_MAX) :
    ∃ plan routes sol, Solution.makeRandom next data s = .ok sol
      ∧ Built data plan routes ∧ ValidPlan data plan
      ∧ Solution.make data routes = .ok sol ∧ sol.isComplete = true
      ∧ (∀ p ∈ plan, ∀ a ∈ p.2, a.type ≠ .depot) := by
  unfold Solution.makeRandom Solution.randomPlan
  simp only
  have hsel := Solution.randomActivities_selected next hc s
  generalize Solution.randomActivities next data s = A at hsel
  -- sizes
  have hV : data.numVehicles = (data.vehicleTypes.map (·.numAvailable)).sum :=
    rfl
  have hVpos : 0 < data.numVehicles := by
    rw [hV]
    have hne := hc.hasVehicle
    cases hvt : data.vehicleTypes with
    | nil => exact absurd hvt hne
    | cons v vs =>
      have := hv v (by rw [hvt]; simp)
      simp; omega
  have hlenA : A.1.length ≤ data.clients.length + data.shipments.length := by
    have hsub : A.1 ⊆ (List.range data.clients.length).map clientOf
        ++ (List.range data.shipments.length).map pickupOf := by
      intro a ha
      obtain ⟨ty, i⟩ := a
      rw [List.mem_append, List.mem_map, List.mem_map]
      rcases hsel.kind _ ha with ⟨h1, h2⟩ | ⟨h1, h2⟩
      · simp only at h1 h2; subst h1
        exact .inl ⟨i, by simpa using h2, rfl⟩
      · simp only at h1 h2; subst h1
        exact .inr ⟨i, by simpa using h2, rfl⟩
    have := (List.subperm_of_subset hsel.nodup hsub).length_le
    simpa using this
  have hper := Solution.perRoute_pos A.1.length data.numVehicles
  have henough := Solution.perRoute_enough A.1.length data.numVehicles hVpos
  generalize Solution.perRoute A.1.length data.numVehicles = per at hper henough
  obtain ⟨hnum1, hnum2, hnum3⟩ := Solution.randomNumRoutes_spec A.1.length per hper
  have hnumV := hnum1 _ henough
  generalize Solution.randomNumRoutes A.1.length per = num at *
  have hinit : Solution.DistInv data [] num (List.replicate num []) := by
    refine ⟨by simp, ?_, ?_, ?_⟩
    · intro r hr'
      rw [List.eq_of_mem_replicate hr']
      exact ⟨by simp, by simp, by simp⟩
    · intro b _
      have : (List.replicate num ([] : List Activity)).flatten = [] := by simp
      rw [this]
    · intro r hr'
      rw [List.eq_of_mem_replicate hr']
      simp
  have hdist := Solution.distribute_spec next per num A.1 A.2 [] (List.replicate num []) hinit
    (by simp) hsel.kind (by simpa using hsel.nodup) (by simpa using hnum2)
  simp only [List.nil_append, List.length_nil] at hdist
  generalize Solution.distribute next per A.2 (List.replicate num []) 0 A.1 = R at hdist ⊢
  obtain ⟨hD, hne⟩ := hdist
  -- vehicle types
  have hT : ∀ T : List Nat × σ, T = (if data.numVehicleTypes > 1
      then shuffle next R.2 (Solution.allVehTypes data)
      else (Solution.allVehTypes data, R.2)) → T.1.Perm (Solution.allVehTypes data) := by
    rintro T rfl
    split
    · exact shuffle_perm next _ _
    · exact List.Perm.refl _
  generalize hTe : (if data.numVehicleTypes > 1
      then shuffle next R.2 (Solution.allVehTypes data)
      else (Solution.allVehTypes data, R.2)) = T
  have hTp := hT T hTe.symm
  clear hT hTe
  have hTlen : T.1.length = data.numVehicles := by
    rw [hTp.length_eq, Solution.allVehTypes_length, hV]
  have hRlen : R.1.length ≤ T.1.length := by rw [hTlen, hD.length]; exact hnumV
  have htype : ∀ t ∈ T.1, t < data.vehicleTypes.length := by
    intro t ht
    have : 0 < T.1.count t := List.count_pos_iff.2 ht
    rw [hTp.count_eq, Solution.allVehTypes_count] at this
    by_cases h : t < data.vehicleTypes.length
    · exact h
    · simp [h] at this
  -- the routes
  have hmemz : ∀ p ∈ R.1.zip T.1, p.1 ∈ R.1 ∧ p.2 ∈ T.1 := by
    rintro ⟨a, b⟩ hp
    exact List.of_mem_zip hp
  obtain ⟨routes, hbuild, hB⟩ := Solution.buildRoutes_ok (data := data) (R.1.zip T.1) hr (by
    intro p hp
    obtain ⟨h1, h2⟩ := hmemz p hp
    refine ⟨hD.inv _ h1, htype _ h2, ?_⟩
    have := hD.size _ h1
    omega)
  have hsnd := Solution.map_snd_swap_zip R.1 T.1 hRlen
  have hcount := fun t => Solution.zip_countP_le R.1 T.1 t
  have hmemp : ∀ p ∈ (R.1.zip T.1).map (fun p => (p.2, p.1)), p.2 ∈ R.1 := by
    intro p hp
    rw [← hsnd]
    exact List.mem_map_of_mem hp
  have hplen : ((R.1.zip T.1).map (fun p => (p.2, p.1))).length ≤ T.1.length := by
    simp only [List.length_map, List.length_zip]; omega
  generalize (R.1.zip T.1).map (fun p => (p.2, p.1)) = plan at *
  have hvis : visited plan = R.1.flatten := by
    rw [visited, List.flatMap_def, hsnd]
  have hcnt : ∀ b : Activity, b.type ≠ .delivery → (visited plan).count b = A.1.count b := by
    intro b hb; rw [hvis]; exact hD.count b hb
  have hmem : ∀ b : Activity, b.type ≠ .delivery → (b ∈ visited plan ↔ b ∈ A.1) := by
    intro b hb
    rw [← List.count_pos_iff, hcnt b hb, List.count_pos_iff]
  have hone : ∀ b : Activity, b.type ≠ .delivery → (visited plan).count b ≤ 1 := by
    intro b hb
    rw [hcnt b hb]
    exact List.nodup_iff_count.1 hsel.nodup b
  have hvalid : ValidPlan data plan := by
    refine ⟨?_, ?_, ?_, ?_, ?_, ?_⟩
    · rw [← hV, ← hTlen]; exact hplen
    · intro p hp
      have hpr := hmemp p hp
      obtain ⟨k, hk, he⟩ := List.getElem_of_mem hpr
      have hk' : k < num := by rw [← hD.length]; exact hk
      obtain ⟨a, ha⟩ := hne (k * per) (hnum3 k hk')
      rw [Nat.mul_div_cancel _ hper, List.getD_eq_getElem?_getD, List.getElem?_eq_getElem hk] at ha
      simp only [Option.getD_some, he] at ha
      exact ⟨a, ha, (hD.inv _ hpr).noDepot a ha⟩
    · intro i; exact hone _ (by simp)
    · intro i; exact hone _ (by simp)
    · intro g hg i hi j hj h1 h2
      rw [hmem _ (by simp)] at h1 h2
      exact hsel.groupsOne g hg i hi j hj h1 h2
    · intro t v htv
      refine Nat.le_trans (hcount t) ?_
      rw [hTp.count_eq, Solution.allVehTypes_count]
      obtain ⟨hlt, -⟩ := List.getElem?_eq_some_iff.1 htv
      rw [if_pos hlt]
      simp [ProblemData.vehicleType, List.getD_eq_getElem?_getD, htv]
  obtain ⟨sol, hsol⟩ := (C13_solution_accepts_exactly_valid data plan routes hB hn).1.2 hvalid
  refine ⟨plan, routes, sol, by rw [hbuild]; exact hsol, hB, hvalid, hsol, ?_, ?_⟩
  · rw [(C14_missing data plan routes sol hB hn hsol).2.2.2]
    refine ⟨?_, ?_, ?_⟩
    · intro i c hi hq
      rw [hmem _ (by simp [clientOf])]
      exact hsel.clients i c hi hq
    · intro i c hi hq
      have h1 : pickupOf i ∈ visited plan := by
        rw [hmem _ (by simp [pickupOf])]
        exact hsel.shipments i c hi hq
      refine ⟨h1, ?_⟩
      rw [hvis, List.mem_flatten] at h1 ⊢
      obtain ⟨r, hr1, hr2⟩ := h1
      refine ⟨r, hr1, ?_⟩
      rcases (hD.inv r hr1).shipments i with ⟨h, -⟩ | ⟨-, h, -⟩
      · exact absurd hr2 (List.count_eq_zero.1 h)
      · exact List.count_pos_iff.1 (by omega)
    · intro g hg hq
      obtain ⟨i, hi, hm⟩ := hsel.groupsReq g hg hq
      exact ⟨i, hi, (hmem _ (by simp [clientOf])).2 hm⟩
  · intro p hp a ha
    exact (hD.inv _ (hmemp p hp)).noDepot a ha

/-- `Demo.data` meets the hypotheses, and with the code's generator random solutions differ by
seed. -/
example : ∃ plan routes sol, Solution.makeRandom Rng.next Demo.data (Rng.ofSeed 1) = .ok sol
      ∧ Built Demo.data plan routes ∧ ValidPlan Demo.data plan
      ∧ Solution.make Demo.data routes = .ok sol ∧ sol.isComplete = true
      ∧ (∀ p ∈ plan, ∀ a ∈ p.2, a.type ≠ .depot) :=
  C18_random_valid_complete _ _ _
    ((C37_accepts_exactly_consistent Demo.data Demo.data).1 (by decide)).2 Demo.groups_nodup (by decide) (by decide)
    (by decide)

example : (Solution.randomPlan Rng.next Demo.data (Rng.ofSeed 1)).1
    ≠ (Solution.randomPlan Rng.next Demo.data (Rng.ofSeed 2)).1 := by decide

end PyVRP
