import Verif.Lemmas.PenaltyWarn
import Verif.Props.C16
/-!
# C31: penalties stay within bounds and move in the right direction
-/
namespace PyVRP
open PenaltyManager

namespace Spec

/-- What the documentation of `PenaltyParams` asks for. -/
structure ValidParams (p : PenaltyParams) : Prop where
  updates : 1 ≤ p.solutionsBetweenUpdates
  increase : 1 ≤ p.penaltyIncrease
  decrease : 0 ≤ p.penaltyDecrease ∧ p.penaltyDecrease ≤ 1
  target : 0 ≤ p.targetFeasible ∧ p.targetFeasible ≤ 1
  tolerance : 0 ≤ p.feasTolerance ∧ p.feasTolerance ≤ 1
  min : 0 ≤ p.minPenalty
  max : p.minPenalty ≤ p.maxPenalty

/-- The numbers given by the user are floating point numbers. -/
structure Floats (R : Rounding) (params : PenaltyParams) (initial : List Rat × Rat × Rat) : Prop where
  min : R.rnd params.minPenalty = params.minPenalty
  max : R.rnd params.maxPenalty = params.maxPenalty
  target : R.rnd params.targetFeasible = params.targetFeasible
  loads : ∀ p ∈ initial.1, R.rnd p = p
  tw : R.rnd initial.2.1 = initial.2.1
  dist : R.rnd initial.2.2 = initial.2.2

/-- The number of solutions without violation of the given kind (a load dimension, then time warp,
then distance). -/
def feasibleCount (kind : Nat) (sols : List Solution) : Nat :=
  sols.countP (fun s => (s.excessLoad ++ [s.timeWarp, s.excessDistance])[kind]? = some 0)

/-- The average violation of the given kind. -/
def meanViolation (R : Rounding) (kind : Nat) (sols : List Solution) : Rat :=
  R.rnd (((sols.map fun s => (s.excessLoad ++ [s.timeWarp, s.excessDistance]).getD kind 0).sum : Int)
    / (sols.length : Int))

end Spec
open Spec

/-- **C31.** `PenaltyParams` raises exactly on invalid parameters. -/
theorem C31_params (p : PenaltyParams) : p.check = none ↔ ValidParams p := by
  unfold PenaltyParams.check
  constructor
  · intro h
    repeat' split at h
    all_goals first | (cases h; done) | constructor <;> grind
  · rintro ⟨h1, h2, h3, h4, h5, h6, h7⟩
    rw [if_neg (by grind), if_neg (by grind), if_neg (by grind), if_neg (by grind), if_neg (by grind),
      if_neg (by grind), if_neg (by grind)]

theorem floatPenalty_isPenalty (R : Rounding) (p : Rat) (hp : 0 ≤ p) : IsPenalty (floatPenalty R p) := by
  have hfl : ∀ {a b : Rat}, 0 ≤ a → a ≤ b → truncRat a ≤ truncRat b := by
    intro a b ha hab
    unfold truncRat
    rw [if_pos ha, if_pos (by grind)]
    exact Rat.floor_monotone hab
  have h0 : ∀ {x : Rat}, 0 ≤ x → 0 ≤ R.rnd x := by
    intro x hx
    have := R.mono hx
    rwa [R.zero] at this
  constructor
  · simp only [floatPenalty, Rat.intCast_zero, R.zero, Rat.zero_mul, truncRat]
    decide
  · intro x y hx hxy
    have hx' : (0 : Rat) ≤ (x : Rat) := by exact_mod_cast hx
    have hxy' : (x : Rat) ≤ (y : Rat) := by exact_mod_cast hxy
    refine hfl (h0 (Rat.mul_nonneg (h0 hx') hp)) (R.mono ?_)
    exact Rat.mul_le_mul_of_nonneg_right (R.mono hxy') hp

theorem evaluatorOf_ok (R : Rounding) (ps : List Rat) (hl : 2 ≤ ps.length) (h0 : ∀ p ∈ ps, 0 ≤ p) :
    ∃ ce, evaluatorOf R ps = .ok ce ∧ ce.Valid ∧ ce.loadPenalties.length + 2 = ps.length ∧
      ce.loadPenalties ++ [ce.twPenalty_, ce.distPenalty_] = ps.map (floatPenalty R) := by
  have hr : ps = ps.reverse.reverse := by simp
  unfold evaluatorOf
  cases h : ps.reverse with
  | nil => simp at h; simp [h] at hl
  | cons d rest =>
    cases rest with
    | nil => have := congrArg List.length h; simp at this; omega
    | cons t loads =>
      rw [h] at hr
      have hm : ∀ p, p ∈ d :: t :: loads → 0 ≤ p := by
        intro p hp; exact h0 p (by rw [hr]; exact List.mem_reverse.2 hp)
      simp only [CostEvaluator.make]
      rw [if_neg, if_neg, if_neg]
      · refine ⟨_, rfl, ⟨?_, ?_, ?_⟩, ?_, ?_⟩
        · intro f hf
          obtain ⟨p, hp, rfl⟩ := List.mem_map.1 hf
          exact floatPenalty_isPenalty R p (hm p (by simp at hp; simp [hp]))
        · exact floatPenalty_isPenalty R t (hm t (by simp))
        · exact floatPenalty_isPenalty R d (hm d (by simp))
        · rw [hr]; simp
        · rw [hr]; simp
      · have := hm d (by simp); grind
      · have := hm t (by simp); grind
      · simp only [List.any_eq_true, not_exists, not_and, decide_eq_true_iff]
        intro p hp
        have := hm p (by simp at hp; simp [hp]); grind

/-- The penalties are in range and are floating point numbers. -/
def InRange (R : Rounding) (params : PenaltyParams) (p : Rat) : Prop :=
  params.minPenalty ≤ p ∧ p ≤ params.maxPenalty ∧ R.rnd p = p

theorem clip_inRange {R : Rounding} {params : PenaltyParams} (hv : ValidParams params)
    (hmin : R.rnd params.minPenalty = params.minPenalty)
    (hmax : R.rnd params.maxPenalty = params.maxPenalty) {x : Rat} (hx : R.rnd x = x) :
    InRange R params (clip x params.minPenalty params.maxPenalty) := by
  have := hv.max
  refine ⟨(le_clip this).1, (le_clip this).2, ?_⟩
  unfold clip
  grind

theorem compute_inRange {R : Rounding} {params : PenaltyParams} (hv : ValidParams params)
    (hmin : R.rnd params.minPenalty = params.minPenalty)
    (hmax : R.rnd params.maxPenalty = params.maxPenalty) {p : Rat} (hp : InRange R params p) (f : Rat) :
    InRange R params (compute R params p f) := by
  unfold compute
  dsimp only
  split
  · exact hp
  · apply clip_inRange hv hmin hmax
    split <;> exact R.idem _

theorem foldl_inRange {R : Rounding} {params : PenaltyParams} (hv : ValidParams params)
    (hmin : R.rnd params.minPenalty = params.minPenalty)
    (hmax : R.rnd params.maxPenalty = params.maxPenalty) (vs : List Int) :
    ∀ s : Rat × List Int, InRange R params s.1 → InRange R params (vs.foldl (slot R params) s).1 := by
  induction vs with
  | nil => intro s h; exact h
  | cons v vs ih =>
    intro s h
    rw [List.foldl_cons]
    apply ih
    unfold slot
    split
    · exact h
    · exact compute_inRange hv hmin hmax h _

theorem make_wf (initial : List Rat × Rat × Rat) (params : PenaltyParams) :
    (PenaltyManager.make initial params).WF := by simp [PenaltyManager.make, WF]

theorem make_length (initial : List Rat × Rat × Rat) (params : PenaltyParams) :
    (PenaltyManager.make initial params).penalties.length = initial.1.length + 2 := by
  simp [PenaltyManager.make]

theorem make_slot {R : Rounding} {initial : List Rat × Rat × Rat} {params : PenaltyParams}
    (hv : ValidParams params) (hf : Floats R params initial) (i : Nat) (hi : i < initial.1.length + 2) :
    ∃ p, (PenaltyManager.make initial params).slotAt i = some (p, []) ∧ InRange R params p := by
  have hl : i < (initial.1 ++ [initial.2.1, initial.2.2]).length := by simpa using hi
  refine ⟨clip (initial.1 ++ [initial.2.1, initial.2.2])[i] params.minPenalty params.maxPenalty, ?_, ?_⟩
  · simp only [PenaltyManager.make, slotAt, List.getElem?_map, List.getElem?_eq_getElem hl,
      Option.map_some]
  · apply clip_inRange hv hf.min hf.max
    have := List.getElem_mem hl
    rcases List.mem_append.1 this with h | h
    · exact hf.loads _ h
    · simp only [List.mem_cons, List.not_mem_nil, or_false] at h
      rcases h with h | h <;> rw [h]
      · exact hf.tw
      · exact hf.dist

/-- The state of a manager after a history. -/
theorem history_slot {R : Rounding} {initial : List Rat × Rat × Rat} {params : PenaltyParams}
    (hv : ValidParams params) (hf : Floats R params initial) (sols : List Solution)
    (hd : ∀ s ∈ sols, s.excessLoad.length = initial.1.length) :
    ∃ pm, registerAll R (.make initial params) sols = .ok pm ∧ pm.params = params ∧ pm.WF ∧
      pm.penalties.length = initial.1.length + 2 ∧
      ∀ i < initial.1.length + 2, ∃ s, pm.slotAt i = some s ∧ InRange R params s.1 ∧
        s.2.length = sols.length % params.solutionsBetweenUpdates.toNat := by
  have hl := make_length initial params
  obtain ⟨pm, h, hp, hw, hlen, hs⟩ := registerAll_ok R sols (.make initial params) (make_wf _ _)
    (by intro s hm; rw [hl]; simp [violations, hd s hm])
  have hp' : pm.params = params := hp
  refine ⟨pm, h, hp', hw, by rw [hlen, hl], fun i hi => ?_⟩
  obtain ⟨p, hps, hr⟩ := make_slot hv hf i hi
  refine ⟨_, by rw [hs i (by omega), hps, Option.map_some], ?_, ?_⟩
  · exact foldl_inRange hv hf.min hf.max _ _ hr
  · have := hv.updates
    have h2 := slot_length R params params.solutionsBetweenUpdates.toNat (by omega) (by omega)
      (column i sols) (p, []) 0 (by simp)
    have h3 : (column i sols).length = sols.length := by simp [column]
    rw [h3, Nat.zero_add] at h2
    exact h2

theorem slotAt_penalty {pm : PenaltyManager} {i : Nat} {s : Rat × List Int} (h : pm.slotAt i = some s) :
    pm.penalties[i]? = some s.1 := by
  unfold slotAt at h
  split at h
  · rename_i p l h1 h2
    cases h; exact h1
  · cases h

/-- **C31.** Registering solutions never raises. After any history of registered solutions each penalty is
between the minimum and the maximum, there is one for each load dimension and two more, and
`cost_evaluator()` and `max_cost_evaluator()` return an evaluator with these penalties (and the
maximum, respectively). -/
theorem C31_in_bounds (R : Rounding) (params : PenaltyParams) (initial : List Rat × Rat × Rat)
    (hv : ValidParams params) (hf : Floats R params initial) (sols : List Solution)
    (hd : ∀ s ∈ sols, s.excessLoad.length = initial.1.length) :
    ∃ pm, registerAll R (.make initial params) sols = .ok pm ∧
      pm.penalties.length = initial.1.length + 2 ∧
      (∀ p ∈ pm.penalties, params.minPenalty ≤ p ∧ p ≤ params.maxPenalty) ∧
      (∃ ce, pm.costEvaluator R = .ok ce ∧ ce.Valid ∧
        ce.loadPenalties ++ [ce.twPenalty_, ce.distPenalty_] = pm.penalties.map (floatPenalty R)) ∧
      (∃ ce, pm.maxCostEvaluator R = .ok ce ∧ ce.Valid ∧ ce.loadPenalties.length = initial.1.length ∧
        ∀ f ∈ ce.loadPenalties ++ [ce.twPenalty_, ce.distPenalty_], f = floatPenalty R params.maxPenalty) := by
  obtain ⟨pm, h, hp, hw, hlen, hs⟩ := history_slot hv hf sols hd
  have hb : ∀ p ∈ pm.penalties, params.minPenalty ≤ p ∧ p ≤ params.maxPenalty := by
    intro p hp
    obtain ⟨i, hi, rfl⟩ := List.mem_iff_getElem.1 hp
    obtain ⟨s, hsl, hr, _⟩ := hs i (by omega)
    have := slotAt_penalty hsl
    rw [List.getElem?_eq_getElem hi, Option.some_inj] at this
    rw [this]
    exact ⟨hr.1, hr.2.1⟩
  have h0 := hv.min
  have h1 := hv.max
  refine ⟨pm, h, hlen, hb, ?_, ?_⟩
  · obtain ⟨ce, hc, hcv, _, he⟩ := evaluatorOf_ok R pm.penalties (by omega)
      (fun p hp => by have := (hb p hp).1; grind)
    exact ⟨ce, hc, hcv, he⟩
  · obtain ⟨ce, hc, hcv, hcl, he⟩ := evaluatorOf_ok R (pm.penalties.map (fun _ => pm.params.maxPenalty))
      (by rw [List.length_map]; omega) (fun p hp' => by
        obtain ⟨_, _, rfl⟩ := List.mem_map.1 hp'; rw [hp]; grind)
    refine ⟨ce, hc, hcv, by rw [List.length_map] at hcl; omega, ?_⟩
    intro f hfm
    rw [he, List.map_map] at hfm
    obtain ⟨_, _, rfl⟩ := List.mem_map.1 hfm
    simp [hp]

theorem mod_of_dvd {params : PenaltyParams} (hv : ValidParams params) {n : Nat}
    (h : params.solutionsBetweenUpdates ∣ (n : Int)) : n % params.solutionsBetweenUpdates.toNat = 0 := by
  have h1 := hv.updates
  have h2 := Int.emod_eq_zero_of_dvd h
  have h3 : ((n % params.solutionsBetweenUpdates.toNat : Nat) : Int) = 0 := by
    rw [Int.natCast_emod, Int.toNat_of_nonneg (by omega)]; exact h2
  omega

/-- **C31.** Penalties change only once every `solutions_between_updates` registrations. -/
theorem C31_only_at_updates (R : Rounding) (params : PenaltyParams) (initial : List Rat × Rat × Rat)
    (hv : ValidParams params) (hf : Floats R params initial) (earlier recent : List Solution)
    (hd : ∀ s ∈ earlier ++ recent, s.excessLoad.length = initial.1.length)
    (hupd : params.solutionsBetweenUpdates ∣ earlier.length)
    (hrec : recent.length < params.solutionsBetweenUpdates) :
    ∃ pm pm', registerAll R (.make initial params) earlier = .ok pm ∧
      registerAll R (.make initial params) (earlier ++ recent) = .ok pm' ∧
      pm'.penalties = pm.penalties := by
  obtain ⟨pm, h, hp, hw, hlen, hs⟩ := history_slot hv hf earlier
    (fun s hm => hd s (List.mem_append_left _ hm))
  obtain ⟨pm', h', hp', hw', hlen', hs'⟩ := registerAll_ok R recent pm hw
    (by intro s hm; rw [hlen]; simp [violations, hd s (List.mem_append_right _ hm)])
  refine ⟨pm, pm', h, by rw [registerAll_append R earlier recent _ _ h]; exact h', ?_⟩
  apply List.ext_getElem? 
  intro i
  by_cases hi : i < initial.1.length + 2
  · obtain ⟨s, hsl, _, hl0⟩ := hs i hi
    rw [mod_of_dvd hv hupd] at hl0
    have hl1 : s.2 = [] := List.length_eq_zero_iff.1 hl0
    have h1 := hs' i (by omega)
    rw [hsl, Option.map_some] at h1
    have h2 := slot_collect R params s.1 (column i recent) [] (by simp [column]; exact hrec)
    rw [slotAt_penalty h1, slotAt_penalty hsl, hp]
    have : s = (s.1, []) := by rw [← hl1]
    rw [this, h2]
  · rw [List.getElem?_eq_none (by omega), List.getElem?_eq_none (by omega)]

theorem column_feasible {kind : Nat} {sols : List Solution}
    (hk : ∀ s ∈ sols, kind < s.excessLoad.length + 2) :
    ((column kind sols).map (fun v => if v = 0 then (1 : Int) else 0)).sum = feasibleCount kind sols := by
  induction sols with
  | nil => rfl
  | cons s sols ih =>
    have h1 := ih (fun t ht => hk t (List.mem_cons_of_mem _ ht))
    have h2 := hk s (by simp)
    have h3 : kind < (s.excessLoad ++ [s.timeWarp, s.excessDistance]).length := by simpa using h2
    simp only [column, List.map_map, List.map_cons, List.sum_cons, feasibleCount, List.countP_cons] at h1 ⊢
    simp only [Function.comp_apply, violations, List.getD_eq_getElem?_getD,
      List.getElem?_eq_getElem h3, Option.getD_some, Option.some_inj, decide_eq_true_iff] at h1 ⊢
    rw [Int.natCast_add]
    split <;> simp_all <;> omega

/-- **C31.** At an update each penalty moves in the right direction. `share` is the share of the recently
registered solutions without violation of this kind, `dev` how much that is below the target. -/
theorem C31_direction (R : Rounding) (params : PenaltyParams) (initial : List Rat × Rat × Rat)
    (hv : ValidParams params) (hf : Floats R params initial) (earlier recent : List Solution)
    (hd : ∀ s ∈ earlier ++ recent, s.excessLoad.length = initial.1.length)
    (hupd : params.solutionsBetweenUpdates ∣ earlier.length)
    (hrec : recent.length = params.solutionsBetweenUpdates)
    (kind : Nat) (hk : kind < initial.1.length + 2) :
    ∃ pm pm' p p', registerAll R (.make initial params) earlier = .ok pm ∧
      registerAll R (.make initial params) (earlier ++ recent) = .ok pm' ∧
      pm.penalties[kind]? = some p ∧ pm'.penalties[kind]? = some p' ∧
      let share := R.rnd ((feasibleCount kind recent : Int) / (recent.length : Int))
      let dev := R.rnd (params.targetFeasible - share)
      (-params.feasTolerance < dev ∧ dev < params.feasTolerance → p' = p) ∧
      (params.feasTolerance ≤ dev ∧ 0 < dev →
        share < params.targetFeasible ∧ p ≤ p' ∧
          p' = min params.maxPenalty (R.rnd (params.penaltyIncrease * p))) ∧
      (dev ≤ -params.feasTolerance →
        p' ≤ p ∧ p' = max params.minPenalty (R.rnd (params.penaltyDecrease * p))) := by
  obtain ⟨pm, h, hp, hw, hlen, hs⟩ := history_slot hv hf earlier
    (fun s hm => hd s (List.mem_append_left _ hm))
  obtain ⟨pm', h', hp', hw', hlen', hs'⟩ := registerAll_ok R recent pm hw
    (by intro s hm; rw [hlen]; simp [violations, hd s (List.mem_append_right _ hm)])
  obtain ⟨s, hsl, hr, hl0⟩ := hs kind hk
  rw [mod_of_dvd hv hupd] at hl0
  have hl1 : s.2 = [] := List.length_eq_zero_iff.1 hl0
  have h1 := hs' kind (by omega)
  rw [hsl, Option.map_some] at h1
  have hse : s = (s.1, []) := by rw [← hl1]
  have h2 := slot_update R params s.1 (column kind recent) hv.updates (by simp [column]; exact hrec)
  rw [hse, hp, h2] at h1
  refine ⟨pm, pm', s.1, _, h, by rw [registerAll_append R earlier recent _ _ h]; exact h',
    slotAt_penalty hsl, slotAt_penalty h1, ?_⟩
  have hfm : fmean R ((column kind recent).map (fun v => if v = 0 then 1 else 0))
      = R.rnd ((feasibleCount kind recent : Int) / (recent.length : Int)) := by
    unfold fmean
    rw [column_feasible (fun t ht => by rw [hd t (List.mem_append_right _ ht)]; exact hk)]
    simp [column]
  rw [hfm]
  generalize R.rnd ((feasibleCount kind recent : Int) / (recent.length : Int)) = share
  generalize s.1 = p at hr
  obtain ⟨hr1, hr2, hr3⟩ := hr
  have hmin := hv.min
  have hp0 : 0 ≤ p := by grind
  have hup : p ≤ R.rnd (params.penaltyIncrease * p) := by
    have h4 := Rat.mul_le_mul_of_nonneg_right hv.increase hp0
    have h5 := R.mono h4
    rw [Rat.one_mul, hr3] at h5
    exact h5
  have hdown : R.rnd (params.penaltyDecrease * p) ≤ p := by
    have h4 := Rat.mul_le_mul_of_nonneg_right hv.decrease.2 hp0
    have h5 := R.mono h4
    rw [Rat.one_mul, hr3] at h5
    exact h5
  have hpos : 0 < R.rnd (params.targetFeasible - share) → share < params.targetFeasible := by
    intro hlt
    apply Classical.byContradiction
    intro hge
    have := R.mono (show params.targetFeasible - share ≤ 0 by grind)
    rw [R.zero] at this
    grind
  have htol := hv.tolerance.1
  simp only [compute, clip]
  have habs : ∀ x : Rat, absRat x = if x < 0 then -x else x := fun _ => rfl
  generalize R.rnd (params.targetFeasible - share) = dev at *
  refine ⟨?_, ?_, ?_⟩
  · rintro ⟨ha, hb⟩
    rw [if_pos (by rw [habs]; grind)]
  · rintro ⟨ha, hb⟩
    rw [if_neg (by rw [habs]; grind), if_pos hb]
    refine ⟨hpos hb, ?_, ?_⟩ <;> grind
  · intro ha
    rw [if_neg (by rw [habs]; grind), if_neg (by grind)]
    constructor <;> grind

/-- At an update nothing has been collected yet. -/
theorem history_full {R : Rounding} {initial : List Rat × Rat × Rat} {params : PenaltyParams}
    (hv : ValidParams params) (hf : Floats R params initial) (sols : List Solution)
    (hd : ∀ s ∈ sols, s.excessLoad.length = initial.1.length)
    (hupd : params.solutionsBetweenUpdates ∣ sols.length) :
    ∃ pm, registerAll R (.make initial params) sols = .ok pm ∧ pm.params = params
      ∧ pm.Lined (initial.1.length + 2)
      ∧ ∀ i s, pm.full i = some s → s.viols = [] ∧ s.penalty ≤ params.maxPenalty := by
  obtain ⟨pm, h, hp, hw, hlen, hs⟩ := history_slot hv hf sols hd
  obtain ⟨pm', h', -, hl⟩ := registerAll_lined R (initial.1.length + 2) sols (.make initial params)
    (make_lined _ _) (fun s hm => by simp [violations, hd s hm])
  rw [h] at h'
  cases h'
  refine ⟨pm, h, hp, hl, fun i s hfull => ?_⟩
  have hi : i < initial.1.length + 2 := by
    unfold full at hfull
    split at hfull
    · rename_i h1 _ _
      have := (List.getElem?_eq_some_iff.1 h1).1
      omega
    · cases hfull
  obtain ⟨t, ht, hr, hl0⟩ := hs i hi
  rw [full_slot hfull] at ht
  cases ht
  rw [mod_of_dvd hv hupd] at hl0
  exact ⟨List.length_eq_zero_iff.1 hl0, hr.2.1⟩

theorem full_penalty {pm : PenaltyManager} {i : Nat} {s : Full} (h : pm.full i = some s) :
    pm.penalties[i]? = some s.penalty := slotAt_penalty (full_slot h)

/-- **C31, warnings.** At an update that is not the first, there is one warning for each penalty that has
reached its maximum, with too few solutions without violation of that kind since the last update, and
where the average violation has not become smaller since then. -/
theorem C31_warnings (R : Rounding) (params : PenaltyParams) (initial : List Rat × Rat × Rat)
    (hv : ValidParams params) (hf : Floats R params initial) (earlier previous recent : List Solution)
    (hd : ∀ s ∈ earlier ++ previous ++ recent, s.excessLoad.length = initial.1.length)
    (hupd : params.solutionsBetweenUpdates ∣ earlier.length)
    (hprev : previous.length = params.solutionsBetweenUpdates)
    (hrec : recent.length = params.solutionsBetweenUpdates) :
    ∃ pm pm', registerAll R (.make initial params) (earlier ++ previous) = .ok pm ∧
      registerAll R (.make initial params) (earlier ++ previous ++ recent) = .ok pm' ∧
      pm'.warnings = pm.warnings + ((List.range (initial.1.length + 2)).filter fun kind => decide
        (pm.penalties[kind]? = some params.maxPenalty
          ∧ params.feasTolerance ≤ R.rnd (params.targetFeasible
              - R.rnd ((feasibleCount kind recent : Int) / (recent.length : Int)))
          ∧ meanViolation R kind previous ≤ meanViolation R kind recent)).length := by
  have hl : ∀ sols : List Solution, (∀ s ∈ sols, s ∈ earlier ++ previous ++ recent) →
      ∀ s ∈ sols, (violations s).length = initial.1.length + 2 :=
    fun sols h s hs => by simp [violations, hd s (h s hs)]
  obtain ⟨pm0, h0, hp0, hw0, hv0⟩ := history_full hv hf earlier (fun s hs => hd s (by simp [hs])) hupd
  obtain ⟨pm, h1, hp1, hw1, hs1, -⟩ := registerAll_update R _ previous pm0 hw0
    (hl _ fun s hs => by simp [hs]) (fun i s h => (hv0 i s h).1) (by rw [hp0]; exact hv.updates)
    (by rw [hp0]; exact hprev)
  obtain ⟨pmh, hh, -, -, hvh⟩ := history_full hv hf (earlier ++ previous)
    (fun s hs => hd s (List.mem_append_left _ hs)) (by
      rw [List.length_append, Int.natCast_add, hprev]
      exact Int.dvd_add hupd (Int.dvd_refl _))
  have he1 : registerAll R (.make initial params) (earlier ++ previous) = .ok pm := by
    rw [registerAll_append R _ _ _ _ h0]; exact h1
  rw [he1] at hh
  cases hh
  rw [hp0] at hp1
  obtain ⟨pm', h2, -, -, -, hn2⟩ := registerAll_update R _ recent pm hw1
    (hl _ fun s hs => by simp [hs]) (fun i s h => (hvh i s h).1) (by rw [hp1]; exact hv.updates)
    (by rw [hp1]; exact hrec)
  refine ⟨pm, pm', he1, by rw [registerAll_append R _ _ _ _ he1]; exact h2, ?_⟩
  rw [hn2]
  congr 2
  apply List.filter_congr
  intro i hi
  have hi' := List.mem_range.1 hi
  obtain ⟨s, p, -, hs⟩ := hs1 i hi'
  rw [decide_eq_decide]
  have hmax := (hvh i _ hs).2
  simp only [hs, Option.some.injEq, exists_eq_left', full_penalty hs, Full.warnsWith, hp1]
  have hfm : fmean R ((column i recent).map (fun v => if v = 0 then 1 else 0))
      = R.rnd ((feasibleCount i recent : Int) / (recent.length : Int)) := by
    unfold fmean
    rw [column_feasible (fun t ht => by rw [hd t (by simp [ht])]; exact hi')]
    simp [column]
  have hmean : ∀ sols, fmean R (column i sols) = meanViolation R i sols := by
    intro sols
    unfold fmean meanViolation
    simp [column, violations]
  rw [hfm, hmean, hmean]
  refine and_congr ?_ Iff.rfl
  dsimp only at hmax
  constructor
  · intro h; exact Rat.le_antisymm hmax h
  · intro h; rw [h]; exact Rat.le_refl

/-- **C31, no warnings.** There are none at the first update, nor between updates. -/
theorem C31_no_warnings (R : Rounding) (params : PenaltyParams) (initial : List Rat × Rat × Rat)
    (hv : ValidParams params) (hf : Floats R params initial) (earlier recent : List Solution)
    (hd : ∀ s ∈ earlier ++ recent, s.excessLoad.length = initial.1.length)
    (hupd : params.solutionsBetweenUpdates ∣ earlier.length)
    (hrec : recent.length < params.solutionsBetweenUpdates
      ∨ recent.length = params.solutionsBetweenUpdates ∧ earlier = []) :
    ∃ pm pm', registerAll R (.make initial params) earlier = .ok pm ∧
      registerAll R (.make initial params) (earlier ++ recent) = .ok pm' ∧
      pm'.warnings = pm.warnings := by
  have hl : ∀ s ∈ recent, (violations s).length = initial.1.length + 2 :=
    fun s hs => by simp [violations, hd s (by simp [hs])]
  obtain ⟨pm, h0, hp0, hw0, hv0⟩ := history_full hv hf earlier (fun s hs => hd s (by simp [hs])) hupd
  rcases hrec with hrec | ⟨hrec, rfl⟩
  · obtain ⟨pm', h1, -, -, -, hn⟩ := registerAll_collect R _ recent pm hw0 hl (by
      intro i s hs
      rw [(hv0 i s hs).1, hp0]
      simpa using hrec)
    exact ⟨pm, pm', h0, by rw [registerAll_append R _ _ _ _ h0]; exact h1, hn⟩
  · obtain ⟨pm', h1, -, -, -, hn⟩ := registerAll_update R _ recent pm hw0 hl
      (fun i s hs => (hv0 i s hs).1) (by rw [hp0]; exact hv.updates) (by rw [hp0]; exact hrec)
    refine ⟨pm, pm', h0, by rw [registerAll_append R _ _ _ _ h0]; exact h1, ?_⟩
    rw [hn]
    cases h0
    classical
    have : ((List.range (initial.1.length + 2)).filter fun i => decide
        (∃ s, (PenaltyManager.make initial params).full i = some s
          ∧ s.warnsWith R (PenaltyManager.make initial params).params (column i recent))) = [] := by
      rw [List.filter_eq_nil_iff]
      intro i _ h
      obtain ⟨s, hs, -, -, a, ha, -⟩ := of_decide_eq_true h
      rw [(full_prev_make _ _ _ _ hs).1] at ha
      cases ha
    rw [this]
    rfl

/-- **C31.** The initial penalties are one and the same number for each load dimension, for time warp
and for distance. -/
theorem C31_midpoint_same (R : Rounding) (params : PenaltyParams) (data : ProblemData) :
    ∃ m, params.midpointPenalties R data = (List.replicate data.numLoadDimensions m, m, m) ∧
      R.rnd m = m := ⟨_, rfl, R.idem _⟩

/-- **C31.** Without rounding, that number is half-way between the bounds. -/
theorem C31_midpoint_exact (params : PenaltyParams) (data : ProblemData) :
    (params.midpointPenalties .exact data).2.1 - params.minPenalty
      = params.maxPenalty - (params.midpointPenalties .exact data).2.1 := by
  simp only [PenaltyParams.midpointPenalties, Rounding.exact, id]
  grind

/-- **C31.** With rounding, it is at least the minimum, and at most the maximum if rounding up adds no
more than a quarter to a number. So the penalty manager does not clip it. -/
theorem C31_midpoint (R : Rounding) (params : PenaltyParams) (data : ProblemData)
    (hv : ValidParams params) (hmin : R.rnd params.minPenalty = params.minPenalty)
    (hmax : R.rnd params.maxPenalty = params.maxPenalty)
    (hR : ∀ x, 0 ≤ x → R.rnd x ≤ 5 / 4 * x) :
    ∀ p ∈ (PenaltyManager.make (params.midpointPenalties R data) params).penalties,
      p = (params.midpointPenalties R data).2.1 ∧ params.minPenalty ≤ p ∧ p ≤ params.maxPenalty := by
  have h0 : ∀ {x : Rat}, 0 ≤ x → 0 ≤ R.rnd x := by
    intro x hx
    have := R.mono hx
    rwa [R.zero] at this
  have hd : 0 ≤ params.maxPenalty - params.minPenalty := by have := hv.max; grind
  have h1 := h0 hd
  have h2 := hR _ hd
  have h3 : 0 ≤ R.rnd (params.maxPenalty - params.minPenalty) / 2 := by grind
  have h4 := h0 h3
  have h5 := hR _ h3
  have hlo : params.minPenalty ≤ (params.midpointPenalties R data).2.1 := by
    have := R.mono (x := params.minPenalty) (y := params.minPenalty
      + R.rnd (R.rnd (params.maxPenalty - params.minPenalty) / 2)) (by grind)
    rwa [hmin] at this
  have hhi : (params.midpointPenalties R data).2.1 ≤ params.maxPenalty := by
    have := R.mono (y := params.maxPenalty) (x := params.minPenalty
      + R.rnd (R.rnd (params.maxPenalty - params.minPenalty) / 2)) (by grind)
    rwa [hmax] at this
  have hc : clip (params.midpointPenalties R data).2.1 params.minPenalty params.maxPenalty
      = (params.midpointPenalties R data).2.1 := by
    unfold clip
    grind
  intro p hp
  obtain ⟨m, he, -⟩ := C31_midpoint_same R params data
  rw [he] at hp hc hlo hhi ⊢
  dsimp only at hc hlo hhi ⊢
  simp only [PenaltyManager.make, List.mem_map, List.mem_append, List.mem_replicate, List.mem_cons,
    List.not_mem_nil, or_false] at hp
  have : p = m := by
    rcases hp with ⟨q, ⟨-, rfl⟩ | rfl | rfl, rfl⟩ <;> exact hc
  subst this
  exact ⟨rfl, hlo, hhi⟩

/-- Default parameters, one load dimension, initial penalties 20, 6 and 6. -/
def Demo.params : PenaltyParams := { solutionsBetweenUpdates := 4 }

theorem Demo.params_valid : ValidParams Demo.params := (C31_params _).1 (by decide +kernel)

theorem Demo.params_floats : Floats .exact Demo.params ([20], 6, 6) :=
  ⟨rfl, rfl, rfl, fun _ _ => rfl, rfl, rfl⟩

/-- Four solutions, one of them with excess load, three with time warp: the time warp penalty goes up. -/
example : (match registerAll .exact (.make ([20], 6, 6) Demo.params)
    [{ routes := [], excessLoad := [0], timeWarp := 3 }, { routes := [], excessLoad := [2], timeWarp := 1 },
     { routes := [], excessLoad := [0], timeWarp := 8 }, { routes := [], excessLoad := [0] }] with
    | .ok pm => pm.penalties
    | .error _ => []) = [18, 9, 27 / 5] := by decide +kernel

/-- Solutions with the same time warp again and again, and a low maximum: one warning at the second
update. -/
example : (match registerAll .exact (.make ([20], 6, 6)
      { solutionsBetweenUpdates := 1, minPenalty := 1, maxPenalty := 8 })
    [{ routes := [], excessLoad := [0], timeWarp := 3 }, { routes := [], excessLoad := [0], timeWarp := 3 }] with
    | .ok pm => (pm.penalties, pm.warnings)
    | .error _ => ([], 0)) = ([162 / 25, 8, 243 / 50], 1) := by decide +kernel

/-- Bounds 4 and 9: the initial penalties are 6.5. -/
example (data : ProblemData) :
    (({ minPenalty := 4, maxPenalty := 9 } : PenaltyParams).midpointPenalties .exact data).2.2 = 13 / 2 := by
  simp only [PenaltyParams.midpointPenalties, Rounding.exact, id]
  decide +kernel

example : ∀ p ∈ (PenaltyManager.make (Demo.params.midpointPenalties .exact Demo.data) Demo.params).penalties,
    p = (Demo.params.midpointPenalties .exact Demo.data).2.1 ∧ Demo.params.minPenalty ≤ p
      ∧ p ≤ Demo.params.maxPenalty :=
  C31_midpoint .exact Demo.params Demo.data Demo.params_valid rfl rfl (fun x hx => by
    simp only [Rounding.exact, id]; grind)

end PyVRP
