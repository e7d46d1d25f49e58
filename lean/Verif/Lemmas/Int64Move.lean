import Verif.Lemmas.Int64Search
import Verif.Lemmas.Int64Solution
/-!
# Computations with 64-bit integers: segments and moves
-/
namespace PyVRP.I64
open Spec

variable {data : ProblemData} {v : VehicleType} {B M : Int}

/-! ## Segments -/

/-- A segment that is computed without overflow, of `c.plain.size` nodes, without earlier trips. -/
structure SegBd (B : Int) (c : Seg) : Prop where
  distance : ∀ profile, c.distance profile = some (c.plain.distance profile)
    ∧ 0 ≤ c.plain.distance profile ∧ c.plain.distance profile + B ≤ B * c.plain.size
  duration : ∀ profile, c.duration profile = some (c.plain.duration profile)
    ∧ Bd B (6 * (B * c.plain.size)) 0 (c.plain.duration profile)
  load : ∀ dim, c.load dim = some (c.plain.load dim) ∧ LBd (B * c.plain.size) (c.plain.load dim)

/-- The first segment of a proposal, that is computed without overflow. -/
structure FirstBd (B : Int) (c : Seg) : Prop where
  distance : ∀ profile, c.distance profile = some (c.plain.distance profile)
    ∧ 0 ≤ c.plain.distance profile ∧ c.plain.distance profile + B ≤ B * c.plain.size
  duration : ∀ profile, c.duration profile = some (c.plain.duration profile)
    ∧ Fwd B (10 * (B * c.plain.size)) (c.plain.duration profile)
  load : ∀ dim, c.load dim = some (c.plain.load dim) ∧ LBd (B * c.plain.size) (c.plain.load dim)

theorem one_size (B : Int) : B * ((1 : Nat) : Int) = B := Int.mul_one B

theorem client_bd (hd : DataBd data B) (hB : B ≤ HALF) (i : Nat) : SegBd B (client data i) := by
  have h0 := hd.nonneg
  refine ⟨fun _ => ⟨rfl, Int.le_refl 0, ?_⟩, fun _ => ⟨rfl, ?_⟩, fun dim => ?_⟩
  · change 0 + B ≤ B * ((1 : Nat) : Int)
    rw [one_size]; omega
  · refine (hd.client i).mono (by omega) ?_ (by omega)
    change B ≤ 6 * (B * ((1 : Nat) : Int))
    rw [one_size]; omega
  · have := loadOfClient_eq hB (hd.deliveries i dim) (hd.pickups i dim)
    refine ⟨this.1, this.2.mono ?_⟩
    change B ≤ B * ((1 : Nat) : Int)
    rw [one_size]; omega

theorem depot_bd (hd : DataBd data B) (i : Nat) : SegBd B (depot data i) := by
  have h0 := hd.nonneg
  refine ⟨fun _ => ⟨rfl, Int.le_refl 0, ?_⟩, fun _ => ⟨rfl, ?_⟩, fun dim => ⟨rfl, LBd.zero ?_⟩⟩
  · change 0 + B ≤ B * ((1 : Nat) : Int)
    rw [one_size]; omega
  · refine (hd.depotZero i).mono (by omega) ?_ (by omega)
    change 0 ≤ 6 * (B * ((1 : Nat) : Int))
    rw [one_size]; omega
  · change 0 ≤ B * ((1 : Nat) : Int)
    rw [one_size]; omega

theorem pickup_bd (hd : DataBd data B) (hB : B ≤ HALF) (i : Nat) : SegBd B (pickup data i) := by
  have h0 := hd.nonneg
  refine ⟨fun _ => ⟨rfl, Int.le_refl 0, ?_⟩, fun _ => ⟨rfl, ?_⟩, fun dim => ?_⟩
  · change 0 + B ≤ B * ((1 : Nat) : Int)
    rw [one_size]; omega
  · refine (hd.pickup i).mono (by omega) ?_ (by omega)
    change B ≤ 6 * (B * ((1 : Nat) : Int))
    rw [one_size]; omega
  · have := loadOfShipment_eq (t := .pickup) hB (hd.amounts i dim)
    refine ⟨this.1, this.2.mono ?_⟩
    change B ≤ B * ((1 : Nat) : Int)
    rw [one_size]; omega

theorem delivery_bd (hd : DataBd data B) (hB : B ≤ HALF) (i : Nat) : SegBd B (delivery data i) := by
  have h0 := hd.nonneg
  refine ⟨fun _ => ⟨rfl, Int.le_refl 0, ?_⟩, fun _ => ⟨rfl, ?_⟩, fun dim => ?_⟩
  · change 0 + B ≤ B * ((1 : Nat) : Int)
    rw [one_size]; omega
  · refine (hd.delivery i).mono (by omega) ?_ (by omega)
    change B ≤ 6 * (B * ((1 : Nat) : Int))
    rw [one_size]; omega
  · have := loadOfShipment_eq (t := .delivery) hB (hd.amounts i dim)
    refine ⟨this.1, this.2.mono ?_⟩
    change B ≤ B * ((1 : Nat) : Int)
    rw [one_size]; omega

theorem UpdBd.cum {r : SRoute} (h : UpdBd data B M r) {i j : Nat} (hij : i ≤ j) (hj : j < r.nodes.length) :
    r.cumDist.getD i 0 ≤ r.cumDist.getD j 0
    ∧ r.cumDist.getD j 0 ≤ r.cumDist.getD i 0 + B * (j - i : Nat) :=
  h.dist i j _ _ hij (getD_some (by rw [h.distLength]; omega) 0) (getD_some (by rw [h.distLength]; omega) 0)

theorem before_bd {r : SRoute} (h : UpdBd data B M r) {e : Nat} (he : e < r.nodes.length) :
    FirstBd B (before r e) := by
  have h1 := mul_succ' B e
  refine ⟨fun _ => ⟨rfl, ?_⟩, fun _ => ⟨rfl, ?_⟩, fun dim => ⟨rfl, h.loadBefore dim e⟩⟩
  · have := h.cum (Nat.zero_le e) he
    rw [h.distFirst, Nat.sub_zero] at this
    change 0 ≤ r.cumDist.getD e 0 ∧ r.cumDist.getD e 0 + B ≤ B * ((e + 1 : Nat) : Int)
    omega
  · refine (h.durBefore e he).mono ?_
    change 10 * (B * (e : Nat)) + 10 * B ≤ 10 * (B * ((e + 1 : Nat) : Int))
    omega

theorem after_bd (h0 : 0 ≤ B) {r : SRoute} (h : UpdBd data B M r) {s : Nat} (hs : s < r.nodes.length)
    (hB : B * r.nodes.length ≤ MAX) : SegBd B (after r s) := by
  have hl : r.cumDist.getLastD 0 = r.cumDist.getD (r.nodes.length - 1) 0 := by
    rw [getLastD_eq_getD, h.distLength]
  have hk := h.cum (i := s) (j := r.nodes.length - 1) (by omega) (by omega)
  have hk2 := h.cum (i := 0) (j := r.nodes.length - 1) (by omega) (by omega)
  have h1 := mul_succ' B (r.nodes.length - 1 - s)
  have hle : B * ((r.nodes.length - 1 - s + 1 : Nat) : Int) ≤ B * r.nodes.length :=
    Int.mul_le_mul_of_nonneg_left (by omega) h0
  have hle0 : 0 ≤ B * ((r.nodes.length - 1 - s : Nat) : Int) := Int.mul_nonneg h0 (Int.natCast_nonneg _)
  have hs' : r.nodes.length - 1 - s + 1 = r.nodes.length - s := by omega
  have hm := MAX_eq
  refine ⟨fun _ => ⟨?_, ?_⟩, fun _ => ⟨rfl, h.durAfter s hs⟩, fun dim => ⟨rfl, h.loadAfter dim s⟩⟩
  · change sub (r.cumDist.getLastD 0) (r.cumDist.getD s 0) = _
    rw [sub_eq (by omega)]
    rfl
  · change 0 ≤ r.cumDist.getLastD 0 - r.cumDist.getD s 0
      ∧ r.cumDist.getLastD 0 - r.cumDist.getD s 0 + B ≤ B * ((r.nodes.length - s : Nat) : Int)
    rw [← hs']
    omega

theorem betweenDistance_eq (hd : DataBd data B) (profile : Nat) (r : SRoute) :
    ∀ (n step : Nat) (acc : Int), 0 ≤ acc → acc + B * n ≤ MAX →
      betweenDistance data profile r step n acc = some (SRoute.betweenDistance data profile r step n acc)
      ∧ acc ≤ SRoute.betweenDistance data profile r step n acc
      ∧ SRoute.betweenDistance data profile r step n acc ≤ acc + B * n := by
  have hm := MAX_eq
  have h0 := hd.nonneg
  intro n
  induction n with
  | zero =>
    intro step acc _ _
    exact ⟨rfl, Int.le_refl _, by rw [show ((0 : Nat) : Int) = 0 from rfl, Int.mul_zero]; simp [SRoute.betweenDistance]⟩
  | succ n ih =>
    intro step acc ha hb
    have h1 := mul_succ' B n
    have h2 := hd.dist profile (r.locations.getD step 0) (r.locations.getD (step + 1) 0)
    have h3 : 0 ≤ B * (n : Int) := Int.mul_nonneg h0 (Int.natCast_nonneg _)
    obtain ⟨k1, k2, k3⟩ := ih (step + 1) (acc + data.dist profile (r.locations.getD step 0)
      (r.locations.getD (step + 1) 0)) (by omega) (by omega)
    unfold betweenDistance SRoute.betweenDistance
    rw [add_eq (by omega)]
    exact ⟨k1, by omega, by omega⟩

theorem betweenDuration_eq (hd : DataBd data B) (profile : Nat) {r : SRoute} (h : UpdBd data B M r) :
    ∀ (n step : Nat) (ds : DurSeg) (p : Int), Bd B p 0 ds → p + 4 * (B * n) + 6 * B ≤ HALF →
      betweenDuration data profile r step n ds = some (SRoute.betweenDuration data profile r step n ds)
      ∧ Bd B (p + 4 * (B * n)) 0 (SRoute.betweenDuration data profile r step n ds) := by
  have h0 := hd.nonneg
  intro n
  induction n with
  | zero =>
    intro step ds p hds _
    exact ⟨rfl, hds.mono (by omega) (by rw [show ((0 : Nat) : Int) = 0 from rfl, Int.mul_zero]; omega) (by omega)⟩
  | succ n ih =>
    intro step ds p hds hb
    have h1 := mul_succ' B n
    have h2 := hd.dur profile (r.locations.getD step 0) (r.locations.getD (step + 1) 0)
    have h3 : 0 ≤ B * (n : Int) := Int.mul_nonneg h0 (Int.natCast_nonneg _)
    have hp := hds.dur
    have k := Bd.merge (a := B) hds (h.durAt (step + 1)) h2.1 (by omega) (by omega) (by omega)
    obtain ⟨k1, k2⟩ := ih (step + 1) _ (p + 4 * B) (k.mono (by omega) (by omega) (by omega)) (by omega)
    unfold betweenDuration SRoute.betweenDuration
    rw [merge_eq hds (h.durAt (step + 1)) h2.1 (by omega)]
    exact ⟨k1, k2.mono (by omega) (by omega) (by omega)⟩

theorem betweenLoad_eq (h0 : 0 ≤ B) {loads : List LoadSeg} (h : ∀ i, LBd B (loads.getD i {})) :
    ∀ (n step : Nat) (ls : LoadSeg) (q : Int), 0 ≤ q → LBd q ls → q + B * n ≤ HALF →
      betweenLoad loads step n ls = some (SRoute.betweenLoad loads step n ls)
      ∧ LBd (q + B * n) (SRoute.betweenLoad loads step n ls) := by
  have hm := MAX_eq
  have hh := HALF_eq
  intro n
  induction n with
  | zero =>
    intro step ls q _ hl _
    exact ⟨rfl, hl.mono (by rw [show ((0 : Nat) : Int) = 0 from rfl, Int.mul_zero]; omega)⟩
  | succ n ih =>
    intro step ls q hq hl hb
    have h1 := mul_succ' B n
    have h3 : 0 ≤ B * (n : Int) := Int.mul_nonneg h0 (Int.natCast_nonneg _)
    obtain ⟨m1, m2⟩ := mergeLoad_eq hl (h (step + 1)) (by omega)
    obtain ⟨k1, k2⟩ := ih (step + 1) _ (q + B) (by omega) m2 (by omega)
    unfold betweenLoad SRoute.betweenLoad
    rw [m1]
    exact ⟨k1, k2.mono (by omega)⟩

theorem between_bd (hd : DataBd data B) {r : SRoute} (h : UpdBd data B M r) {s e : Nat} (hse : s ≤ e)
    (he : e < r.nodes.length) (hB : 10 * (B * r.nodes.length) ≤ HALF) : SegBd B (between data r s e) := by
  have hm := MAX_eq
  have hh := HALF_eq
  have h0 := hd.nonneg
  have h1 := mul_succ' B (e - s)
  have hle : B * ((e - s + 1 : Nat) : Int) ≤ B * r.nodes.length :=
    Int.mul_le_mul_of_nonneg_left (by omega) h0
  have hle0 : 0 ≤ B * ((e - s : Nat) : Int) := Int.mul_nonneg h0 (Int.natCast_nonneg _)
  refine ⟨fun profile => ?_, fun profile => ?_, fun dim => ?_⟩
  · have hk := h.cum hse he
    have hb := betweenDistance_eq hd profile r (e - s) s 0 (Int.le_refl 0) (by omega)
    change (if profile ≠ (data.vehicleType r.vehicleType).profile then
        betweenDistance data profile r s (e - s) 0
      else sub (r.cumDist.getD e 0) (r.cumDist.getD s 0))
      = some (if profile ≠ (data.vehicleType r.vehicleType).profile then
        SRoute.betweenDistance data profile r s (e - s) 0
      else r.cumDist.getD e 0 - r.cumDist.getD s 0)
      ∧ 0 ≤ (if profile ≠ (data.vehicleType r.vehicleType).profile then
        SRoute.betweenDistance data profile r s (e - s) 0
      else r.cumDist.getD e 0 - r.cumDist.getD s 0)
      ∧ (if profile ≠ (data.vehicleType r.vehicleType).profile then
        SRoute.betweenDistance data profile r s (e - s) 0
      else r.cumDist.getD e 0 - r.cumDist.getD s 0) + B ≤ B * ((e - s + 1 : Nat) : Int)
    by_cases hp : profile ≠ (data.vehicleType r.vehicleType).profile
    · rw [if_pos hp, if_pos hp]
      exact ⟨hb.1, hb.2.1, by omega⟩
    · rw [if_neg hp, if_neg hp]
      exact ⟨sub_eq (by omega), by omega, by omega⟩
  · have hs := hd.service (r.node s).activity.idx
    have ha := h.durAt s
    have hmg := Bd.merge (e := 0) (a := B) ha hs (by omega) (by omega) (by omega) (by omega)
    have hst : Bd B (4 * B) 0 (if e - s + 1 ≠ 1 ∧ (r.node s).isReloadDepot then
        DurSeg.merge 0 (r.durAt.getD s {})
          { duration_ := (data.depot (r.node s).activity.idx).serviceDuration }
        else r.durAt.getD s {}) := by
      split
      · exact hmg.mono (by omega) (by omega) (by omega)
      · exact ha.mono (by omega) (by omega) (by omega)
    obtain ⟨k1, k2⟩ := betweenDuration_eq hd profile h (e - s) s _ (4 * B) hst (by omega)
    constructor
    · change Option.bind (choose (e - s + 1 ≠ 1 ∧ (r.node s).isReloadDepot) _ (r.durAt.getD s {})) _ = _
      rw [choose_eq (fun _ => merge_eq ha hs (Int.le_refl 0) (by omega))]
      exact k1
    · refine k2.mono (by omega) ?_ (by omega)
      change 4 * B + 4 * (B * ((e - s : Nat) : Int)) ≤ 6 * (B * ((e - s + 1 : Nat) : Int))
      omega
  · obtain ⟨k1, k2⟩ := betweenLoad_eq h0 (h.loadAt dim) (e - s) s _ B h0 (h.loadAt dim s) (by omega)
    refine ⟨k1, k2.mono ?_⟩
    change B + B * ((e - s : Nat) : Int) ≤ B * ((e - s + 1 : Nat) : Int)
    omega

/-! ## Proposals -/

/-- The same proposal for unbounded integers. -/
def Proposal.plain (p : Proposal) : PyVRP.Proposal := ⟨p.route, p.first.plain, p.rest.map (·.plain)⟩

/-- The number of nodes in some segments. -/
def segSizes (l : List Seg) : Nat := (l.map (·.plain.size)).sum

theorem segSizes_cons (c : Seg) (l : List Seg) : segSizes (c :: l) = c.plain.size + segSizes l := by
  simp [segSizes]

theorem mul_add' (B : Int) (a b : Nat) : B * ((a + b : Nat) : Int) = B * a + B * b := by
  rw [Int.natCast_add, Int.mul_add]

theorem distanceLoop_eq' (hd : DataBd data B) (profile : Nat) :
    ∀ (l : List Seg) (acc : Int) (loc : Nat) (Y : Int), (∀ c ∈ l, SegBd B c) → 0 ≤ acc → acc + B ≤ Y →
      Y + B * segSizes l ≤ MAX →
      Proposal.distanceLoop data profile acc loc l
        = some (PyVRP.Proposal.distanceLoop data profile acc loc (l.map (·.plain)))
      ∧ 0 ≤ PyVRP.Proposal.distanceLoop data profile acc loc (l.map (·.plain))
      ∧ PyVRP.Proposal.distanceLoop data profile acc loc (l.map (·.plain)) ≤ Y + B * segSizes l := by
  have hm := MAX_eq
  have h0 := hd.nonneg
  intro l
  induction l with
  | nil =>
    intro acc loc Y _ ha hY _
    have hz : B * (segSizes [] : Int) = 0 := Int.mul_zero B
    rw [hz]
    exact ⟨rfl, ha, by simp only [List.map_nil, PyVRP.Proposal.distanceLoop]; omega⟩
  | cons c rest ih =>
    intro acc loc Y hl ha hY hM
    rw [segSizes_cons, mul_add'] at hM ⊢
    have h1 := hd.dist profile loc c.plain.frontLoc
    obtain ⟨k1, k2, k3⟩ := (hl c (List.mem_cons_self ..)).distance profile
    have h3 : 0 ≤ B * (segSizes rest : Int) := Int.mul_nonneg h0 (Int.natCast_nonneg _)
    obtain ⟨i1, i2, i3⟩ := ih (acc + data.dist profile loc c.plain.frontLoc + c.plain.distance profile)
      c.plain.backLoc (Y + B * c.plain.size) (fun x hx => hl x (List.mem_cons_of_mem _ hx)) (by omega)
      (by omega) (by omega)
    rw [List.map_cons, Proposal.distanceLoop, PyVRP.Proposal.distanceLoop, k1]
    simp (disch := omega) only [add_eq, Option.bind_eq_bind, Option.bind_some]
    exact ⟨i1, i2, by omega⟩

theorem propDistance_eq (hd : DataBd data B) {p : Proposal} {X : Int}
    (hv : VehBd (data.vehicleType p.route.vehicleType) B M) (hM : 1 ≤ M) (hf : FirstBd B p.first)
    (hl : ∀ c ∈ p.rest, SegBd B c) (hX : B * segSizes (p.first :: p.rest) ≤ X) (hr : M * X ≤ MAX) :
    p.distance data = some (p.plain.distance data)
    ∧ (0 ≤ (p.plain.distance data).1 ∧ (p.plain.distance data).1 ≤ M * X)
    ∧ (0 ≤ (p.plain.distance data).2 ∧ (p.plain.distance data).2 ≤ X) := by
  have hm := MAX_eq
  have h0 := hd.nonneg
  rw [segSizes_cons, mul_add'] at hX
  have n1 : 0 ≤ B * (segSizes p.rest : Int) := Int.mul_nonneg h0 (Int.natCast_nonneg _)
  have n2 : 0 ≤ B * (p.first.plain.size : Int) := Int.mul_nonneg h0 (Int.natCast_nonneg _)
  have hMX := Int.mul_le_mul_of_nonneg_right hM (show 0 ≤ X by omega)
  unfold Proposal.distance PyVRP.Proposal.distance Proposal.plain
  dsimp only
  generalize data.vehicleType p.route.vehicleType = v at *
  obtain ⟨k1, k2, k3⟩ := hf.distance v.profile
  obtain ⟨i1, i2, i3⟩ := distanceLoop_eq' hd v.profile p.rest _ p.first.plain.backLoc
    (B * p.first.plain.size) hl k2 k3 (by omega)
  have hmd := hv.maxDistance
  rw [k1]
  dsimp only [Option.bind_eq_bind, Option.bind_some]
  rw [i1]
  generalize PyVRP.Proposal.distanceLoop data v.profile (p.first.plain.distance v.profile)
    p.first.plain.backLoc (p.rest.map (·.plain)) = d at *
  have c1 := unit_cost hv.unitDistance (x := d) (y := X) (by omega)
  simp (disch := omega) only [mul_eq, sub_eq, Option.bind_some]
  exact ⟨trivial, c1, by omega⟩

/-- The same step with unbounded integers. -/
def plainStep (data : ProblemData) (profile : Nat) (edge : Int) (c : PyVRP.Seg) (ds : DurSeg) :
    DurSeg :=
  if c.endsAtReloadDepot then
    DurSeg.merge 0 (c.duration profile)
      (DurSeg.merge edge (DurSeg.ofDepot (data.depot c.backActivity.idx)
        (data.depot c.backActivity.idx).serviceDuration) ds).finaliseFront
  else DurSeg.merge edge (c.duration profile) ds

/-- Merging a segment in front of others, as `Proposal::duration` does. -/
theorem durationStep_eq (hd : DataBd data B) {c : Seg} {ds : DurSeg} {p edge : Int} {profile : Nat}
    (he : 0 ≤ edge ∧ edge ≤ B) (hs : SegBd B c) (hds : Bd B p 0 ds)
    (hb : p + 6 * (B * c.plain.size) + 10 * B ≤ HALF) :
    Proposal.durationStep data profile edge c ds
      = some (plainStep data profile edge c.plain ds)
    ∧ Bd B (p + 6 * (B * c.plain.size) + 4 * B) 0 (plainStep data profile edge c.plain ds) := by
  have h0 := hd.nonneg
  have hp := hds.dur
  obtain ⟨k1, k2⟩ := hs.duration profile
  have hq := k2.dur
  have hdep := hd.depot c.plain.backActivity.idx
  unfold Proposal.durationStep plainStep
  rw [k1]
  dsimp only [Option.bind_eq_bind, Option.bind_some]
  by_cases hc : c.plain.endsAtReloadDepot = true
  · rw [if_pos hc, if_pos hc]
    unfold choose
    rw [if_pos hc, merge_eq hdep hds he.1 (by omega)]
    have m1 := (Bd.merge (a := B) hdep hds he.1 (by omega) (by omega) (by omega)).mono (a' := B)
      (p' := p + 3 * B) (c' := 0) (by omega) (by omega) (by omega)
    dsimp only [Option.bind_some]
    rw [finaliseFront_eq m1 (by omega)]
    have m2 := m1.finaliseFront (by omega)
    dsimp only [Option.bind_some]
    exact ⟨merge_eq k2 m2 (by omega) (by omega),
      (Bd.merge (a := B) k2 m2 (Int.le_refl 0) (by omega) (by omega) (by omega)).mono (by omega)
        (by omega) (by omega)⟩
  · rw [if_neg hc, if_neg hc]
    unfold choose
    rw [if_neg hc]
    dsimp only [Option.bind_some]
    exact ⟨merge_eq k2 hds he.1 (by omega),
      (Bd.merge (a := B) k2 hds he.1 (by omega) (by omega) (by omega)).mono (by omega)
        (by omega) (by omega)⟩

/-- The same for the first segment. -/
theorem durationFirst_eq (hd : DataBd data B) {c : Seg} {ds : DurSeg} {p edge : Int} {profile : Nat}
    (he : 0 ≤ edge ∧ edge ≤ B) (hs : FirstBd B c) (hds : Bd B p 0 ds)
    (hb : p + 40 * (B * c.plain.size) + 10 * B ≤ HALF) :
    Proposal.durationStep data profile edge c ds
      = some (plainStep data profile edge c.plain ds)
    ∧ Fwd B (p + 10 * (B * c.plain.size) + 5 * B) (plainStep data profile edge c.plain ds) := by
  have h0 := hd.nonneg
  have hp := hds.dur
  obtain ⟨k1, k2⟩ := hs.duration profile
  have hq := k2.early
  have hq2 := k2.dur
  have hdep := hd.depot c.plain.backActivity.idx
  unfold Proposal.durationStep plainStep
  rw [k1]
  dsimp only [Option.bind_eq_bind, Option.bind_some]
  by_cases hc : c.plain.endsAtReloadDepot = true
  · rw [if_pos hc, if_pos hc]
    unfold choose
    rw [if_pos hc, merge_eq hdep hds he.1 (by omega)]
    have m1 := (Bd.merge (a := B) hdep hds he.1 (by omega) (by omega) (by omega)).mono (a' := B)
      (p' := p + 3 * B) (c' := 0) (by omega) (by omega) (by omega)
    dsimp only [Option.bind_some]
    rw [finaliseFront_eq m1 (by omega)]
    have m2 := m1.finaliseFront (by omega)
    dsimp only [Option.bind_some]
    exact ⟨k2.merge_eq m2 (by omega) (by omega),
      (k2.merge m2 (Int.le_refl 0) (by omega) (by omega)).mono (by omega)⟩
  · rw [if_neg hc, if_neg hc]
    unfold choose
    rw [if_neg hc]
    dsimp only [Option.bind_some]
    exact ⟨k2.merge_eq hds he.1 (by omega),
      (k2.merge hds he.1 (by omega) (by omega)).mono (by omega)⟩

theorem plainLoop_cons (data : ProblemData) (profile : Nat) (ds : DurSeg) (loc : Nat)
    (c : PyVRP.Seg) (args : List PyVRP.Seg) :
    PyVRP.Proposal.durationLoop data profile ds loc (c :: args)
      = PyVRP.Proposal.durationLoop data profile
          (if args ≠ [] ∧ c.startsAtReloadDepot ∧ c.size > 1 then
            (plainStep data profile (data.dur profile c.backLoc loc) c ds).finaliseFront
          else plainStep data profile (data.dur profile c.backLoc loc) c ds) c.frontLoc args := rfl

theorem durationLoop_eq (hd : DataBd data B) (profile : Nat) {first : Seg} (hf : FirstBd B first) :
    ∀ (l : List Seg) (ds : DurSeg) (loc : Nat) (p : Int), (∀ c ∈ l, SegBd B c ∧ 1 ≤ c.plain.size) →
      Bd B p 0 ds → p + 10 * (B * segSizes l) + 40 * (B * first.plain.size) + 10 * B ≤ HALF →
      Proposal.durationLoop data profile ds loc (l ++ [first])
        = some (PyVRP.Proposal.durationLoop data profile ds loc (l.map (·.plain) ++ [first.plain]))
      ∧ Fwd B (p + 10 * (B * segSizes l) + 10 * (B * first.plain.size) + 5 * B)
          (PyVRP.Proposal.durationLoop data profile ds loc (l.map (·.plain) ++ [first.plain])) := by
  have h0 := hd.nonneg
  have n2 : 0 ≤ B * (first.plain.size : Int) := Int.mul_nonneg h0 (Int.natCast_nonneg _)
  intro l
  induction l with
  | nil =>
    intro ds loc p _ hds hb
    have hz : B * (segSizes [] : Int) = 0 := Int.mul_zero B
    rw [hz] at hb ⊢
    have he := hd.dur profile first.plain.backLoc loc
    obtain ⟨k1, k2⟩ := durationFirst_eq hd (profile := profile) he hf hds (by omega)
    rw [List.nil_append, List.map_nil, List.nil_append, plainLoop_cons,
      if_neg (fun h => h.1 rfl)]
    unfold Proposal.durationLoop
    dsimp only [Option.bind_eq_bind]
    rw [k1]
    unfold choose
    dsimp only [Option.bind_some]
    rw [if_neg (fun h => h.1 rfl)]
    exact ⟨rfl, k2.mono (by omega)⟩
  | cons c rest ih =>
    intro ds loc p hl hds hb
    rw [segSizes_cons, mul_add'] at hb ⊢
    obtain ⟨hc, hc1⟩ := hl c (List.mem_cons_self ..)
    have hcB : B ≤ B * (c.plain.size : Int) := by
      have := Int.mul_le_mul_of_nonneg_left (show (1 : Int) ≤ c.plain.size by omega) h0
      omega
    have n1 : 0 ≤ B * (segSizes rest : Int) := Int.mul_nonneg h0 (Int.natCast_nonneg _)
    have he := hd.dur profile c.plain.backLoc loc
    have hp := hds.dur
    obtain ⟨k1, k2⟩ := durationStep_eq hd (profile := profile) he hc hds (by omega)
    rw [List.cons_append, List.map_cons, List.cons_append, plainLoop_cons]
    unfold Proposal.durationLoop
    dsimp only [Option.bind_eq_bind]
    rw [k1]
    dsimp only [Option.bind_some]
    have hA : rest ++ [first] ≠ [] := by simp
    have hA' : rest.map (·.plain) ++ [first.plain] ≠ [] := by simp
    have key : ∀ ds', Bd B (p + 6 * (B * c.plain.size) + 4 * B) 0 ds' → _ := fun ds' h' =>
      ih ds' c.plain.frontLoc (p + 10 * (B * c.plain.size))
        (fun x hx => hl x (List.mem_cons_of_mem _ hx))
        (h'.mono (Int.le_refl _) (by omega) (Int.le_refl _)) (by omega)
    unfold choose
    by_cases hs : c.plain.startsAtReloadDepot = true ∧ c.plain.size > 1
    · rw [if_pos ⟨hA, hs⟩, if_pos ⟨hA', hs⟩, finaliseFront_eq k2 (by omega)]
      obtain ⟨i1, i2⟩ := key _ (k2.finaliseFront (by omega))
      exact ⟨i1, i2.mono (by omega)⟩
    · rw [if_neg (fun h => hs h.2), if_neg (fun h => hs h.2)]
      obtain ⟨i1, i2⟩ := key _ k2
      exact ⟨i1, i2.mono (by omega)⟩

theorem segSizes_reverse (l : List Seg) : segSizes l.reverse = segSizes l := by
  simp [segSizes, List.sum_reverse]

/-- What is known of a proposal: its segments are computed without overflow, and `X` bounds its size. -/
structure PropBd (B X : Int) (p : Proposal) : Prop where
  first : FirstBd B p.first
  rest : ∀ c ∈ p.rest, SegBd B c ∧ 1 ≤ c.plain.size
  two : p.rest ≠ []
  size : B * segSizes (p.first :: p.rest) ≤ X
  one : B ≤ X

theorem durationSeg_eq (hd : DataBd data B) {p : Proposal} {X : Int} (h : PropBd B X p)
    (hr : 50 * X ≤ HALF) :
    p.durationSeg data = some (p.plain.durationSeg data) ∧ Fwd B (15 * X) (p.plain.durationSeg data) := by
  have h0 := hd.nonneg
  have hX := h.size
  have hX1 := h.one
  rw [segSizes_cons, mul_add'] at hX
  unfold Proposal.durationSeg PyVRP.Proposal.durationSeg Proposal.plain
  dsimp only
  rw [List.reverse_cons, List.reverse_cons, ← List.map_reverse]
  rw [← segSizes_reverse] at hX
  have hrest : ∀ c ∈ p.rest.reverse, SegBd B c ∧ 1 ≤ c.plain.size := fun c hc =>
    h.rest c (List.mem_reverse.mp hc)
  have hne : p.rest.reverse ≠ [] := by simpa using h.two
  revert hX hrest hne
  generalize p.rest.reverse = l
  intro hX hrest hne
  cases l with
  | nil => exact absurd rfl hne
  | cons c args =>
    rw [segSizes_cons, mul_add'] at hX
    have n1 : 0 ≤ B * (segSizes args : Int) := Int.mul_nonneg h0 (Int.natCast_nonneg _)
    have n2 : 0 ≤ B * (p.first.plain.size : Int) := Int.mul_nonneg h0 (Int.natCast_nonneg _)
    have n3 : 0 ≤ B * (c.plain.size : Int) := Int.mul_nonneg h0 (Int.natCast_nonneg _)
    rw [List.cons_append, List.map_cons, List.cons_append]
    dsimp only
    obtain ⟨hc, hc1⟩ := hrest c (List.mem_cons_self ..)
    generalize (data.vehicleType p.route.vehicleType).profile = profile
    obtain ⟨k1, k2⟩ := hc.duration profile
    have key : ∀ ds', Bd B (6 * (B * c.plain.size)) 0 ds' → _ := fun ds' h' =>
      durationLoop_eq hd profile h.first args ds' c.plain.frontLoc (6 * (B * c.plain.size))
        (fun x hx => hrest x (List.mem_cons_of_mem _ hx)) h' (by omega)
    rw [k1]
    dsimp only [Option.bind_eq_bind, Option.bind_some]
    unfold choose
    by_cases hs : c.plain.startsAtReloadDepot = true
    · rw [if_pos hs, if_pos hs, finaliseFront_eq k2 (by omega)]
      obtain ⟨i1, i2⟩ := key _ (k2.finaliseFront (by omega))
      exact ⟨i1, i2.mono (by omega)⟩
    · rw [if_neg hs, if_neg hs]
      obtain ⟨i1, i2⟩ := key _ k2
      exact ⟨i1, i2.mono (by omega)⟩

theorem propDuration_eq (hd : DataBd data B) {p : Proposal} {X : Int} (h : PropBd B X p)
    (hv : VehBd (data.vehicleType p.route.vehicleType) B M) (hM : 1 ≤ M) (hr : 150 * (M * X) ≤ MAX) :
    p.duration data = some (p.plain.duration data)
    ∧ (0 ≤ (p.plain.duration data).1 ∧ (p.plain.duration data).1 ≤ 32 * (M * X))
    ∧ (0 ≤ (p.plain.duration data).2 ∧ (p.plain.duration data).2 ≤ 61 * X) := by
  have hm := MAX_eq
  have hh := HALF_eq
  have h0 := hd.nonneg
  have hX1 := h.one
  have hMX : X ≤ M * X := by
    have := Int.mul_le_mul_of_nonneg_right hM (show 0 ≤ X by omega)
    omega
  obtain ⟨s1, s2⟩ := durationSeg_eq hd h (by omega)
  unfold Proposal.duration PyVRP.Proposal.duration
  change _ = some (_, _) ∧ _
  have e : p.plain.route = p.route := rfl
  rw [e, s1]
  dsimp only [Option.bind_eq_bind, Option.bind_some]
  generalize p.plain.durationSeg data = ds at *
  generalize data.vehicleType p.route.vehicleType = v at *
  obtain ⟨d1, d2, d3⟩ := s2.duration_eq h0 (by omega)
  obtain ⟨t1, t2, t3⟩ := s2.timeWarp_eq h0 hv.maxDuration (by omega)
  have hs := hv.shift
  have c1 := unit_cost hv.unitDuration (x := ds.duration) (y := 16 * X) (by omega)
  have c2 := unit_cost hv.unitOvertime (x := max (ds.duration - v.shiftDuration) 0) (y := 16 * X)
    (by omega)
  rw [Int.mul_left_comm] at c1 c2
  rw [d1, t1]
  simp (disch := omega) only [mul_eq, sub_eq, add_eq, Option.bind_some]
  exact ⟨trivial, by omega, by omega⟩

theorem choose_finalise {c : Prop} [Decidable c] {s : LoadSeg} {q cap : Int} (hs : LBd q s)
    (hc : 0 ≤ cap) (hb : 2 * q ≤ MAX) (hcm : cap ≤ MAX) :
    choose c (finalise s cap) s = some (if c then s.finalise cap else s)
    ∧ LBd q (if c then s.finalise cap else s) := by
  obtain ⟨k1, k2⟩ := finalise_eq hs hc hb hcm
  unfold choose
  split
  · exact ⟨k1, k2⟩
  · exact ⟨rfl, hs⟩

theorem propLoadLoop_eq (h0 : 0 ≤ B) {cap : Int} (hc : 0 ≤ cap ∧ cap ≤ MAX) (dim : Nat) :
    ∀ (l : List Seg) (ls : LoadSeg) (q : Int), (∀ c ∈ l, SegBd B c) → LBd q ls → 0 ≤ q →
      2 * (q + B * segSizes l) ≤ MAX →
      Proposal.loadLoop cap dim ls l
        = some (PyVRP.Proposal.loadLoop cap dim ls (l.map (·.plain)))
      ∧ LBd (q + B * segSizes l) (PyVRP.Proposal.loadLoop cap dim ls (l.map (·.plain))) := by
  intro l
  induction l with
  | nil =>
    intro ls q _ hls _ _
    have hz : B * (segSizes [] : Int) = 0 := Int.mul_zero B
    rw [hz]
    exact ⟨rfl, hls.mono (by omega)⟩
  | cons c rest ih =>
    intro ls q hl hls hq hb
    rw [segSizes_cons, mul_add'] at hb ⊢
    have n1 : 0 ≤ B * (segSizes rest : Int) := Int.mul_nonneg h0 (Int.natCast_nonneg _)
    have n3 : 0 ≤ B * (c.plain.size : Int) := Int.mul_nonneg h0 (Int.natCast_nonneg _)
    obtain ⟨f1, f2⟩ := choose_finalise (c := c.plain.startsAtReloadDepot = true) hls hc.1 (by omega) hc.2
    obtain ⟨k1, k2⟩ := (hl c (List.mem_cons_self ..)).load dim
    obtain ⟨m1, m2⟩ := mergeLoad_eq f2 k2 (by omega)
    obtain ⟨g1, g2⟩ := choose_finalise
      (c := rest ≠ [] ∧ c.plain.endsAtReloadDepot = true ∧ c.plain.size > 1) m2 hc.1 (by omega) hc.2
    obtain ⟨i1, i2⟩ := ih _ _ (fun x hx => hl x (List.mem_cons_of_mem _ hx)) g2 (by omega) (by omega)
    have e : (rest.map (·.plain) ≠ []) ↔ rest ≠ [] := by simp
    rw [List.map_cons, Proposal.loadLoop, PyVRP.Proposal.loadLoop]
    dsimp only [Option.bind_eq_bind]
    rw [f1, k1]
    dsimp only [Option.bind_some]
    rw [m1]
    dsimp only [Option.bind_some]
    rw [g1]
    dsimp only [Option.bind_some]
    simp only [e]
    exact ⟨i1, i2.mono (by omega)⟩

theorem propLoad_eq (hd : DataBd data B) {p : Proposal} {X : Int} (h : PropBd B X p)
    (hv : VehBd (data.vehicleType p.route.vehicleType) B M) (hr : 2 * X ≤ MAX) (dim : Nat) :
    p.excessLoad data dim = some (p.plain.excessLoad data dim)
    ∧ 0 ≤ p.plain.excessLoad data dim ∧ p.plain.excessLoad data dim ≤ 2 * X := by
  have h0 := hd.nonneg
  have hX := h.size
  have hX1 := h.one
  rw [segSizes_cons, mul_add'] at hX
  have n1 : 0 ≤ B * (segSizes p.rest : Int) := Int.mul_nonneg h0 (Int.natCast_nonneg _)
  have n3 : 0 ≤ B * (p.first.plain.size : Int) := Int.mul_nonneg h0 (Int.natCast_nonneg _)
  have hcap := hv.capacity dim
  unfold Proposal.excessLoad PyVRP.Proposal.excessLoad Proposal.plain
  dsimp only
  generalize (data.vehicleType p.route.vehicleType).capacity.getD dim 0 = cap at *
  obtain ⟨k1, k2⟩ := h.first.load dim
  obtain ⟨f1, f2⟩ := choose_finalise (c := p.first.plain.endsAtReloadDepot = true) k2 hcap.1 (by omega)
    hcap.2
  obtain ⟨l1, l2⟩ := propLoadLoop_eq h0 hcap dim p.rest _ _ (fun c hc => (h.rest c hc).1) f2 n3 (by omega)
  obtain ⟨e1, e2, e3⟩ := excessLoad_eq l2 hcap.1 (by omega) hcap.2
  rw [k1]
  dsimp only [Option.bind_eq_bind, Option.bind_some]
  rw [f1]
  dsimp only [Option.bind_some]
  rw [l1]
  dsimp only [Option.bind_some]
  exact ⟨e1, e2, by omega⟩

/-! ## Delta costs -/

section
variable {ce : CostEvaluator} {L : Nat}

theorem penalisedCostSearch_eq {X : Int} {r : SRoute} (hM : 1 ≤ M) (h0 : 0 ≤ B) (hB : B ≤ X)
    (hp : PenBd ce M data.numLoadDimensions) (hb : UpdBd data B M r) (hX : B * r.nodes.length ≤ X)
    (hv : VehBd (data.vehicleType r.vehicleType) B M)
    (hr : 2 * (M * X) * data.numLoadDimensions + 33 * (M * X) ≤ MAX) :
    penalisedCostSearch ce data r = some (ce.penalisedCostSearch data r)
    ∧ -(M * X) ≤ ce.penalisedCostSearch data r
    ∧ ce.penalisedCostSearch data r ≤ 2 * (M * X) * data.numLoadDimensions + 32 * (M * X) := by
  have hm := MAX_eq
  have hX0 : 0 ≤ X := by omega
  have hMX : X ≤ M * X := by
    have := Int.mul_le_mul_of_nonneg_right hM hX0
    omega
  have hMB := Int.mul_le_mul_of_nonneg_left hB (show 0 ≤ M by omega)
  have hML := Int.mul_le_mul_of_nonneg_left hX (show 0 ≤ M by omega)
  have hn : 0 ≤ 2 * (M * X) * (data.numLoadDimensions : Int) :=
    Int.mul_nonneg (by omega) (Int.natCast_nonneg _)
  obtain ⟨l1, l2, l3⟩ := excessLoadPenalties_eq (X := X) hM hX0 hp hb.excessLoads
    (fun x hx => by have := hb.excessLoad x hx; omega) (by omega) (by omega)
  have r3 := hb.excessDistance
  have r4 := hb.timeWarp
  have t1 := pen_le (x := r.timeWarp_) (k := 15) (X := X) (show 0 ≤ M by omega) hp.tw (by omega)
  have d1 := pen_le (x := max (r.excessDistance_ - 0) 0) (k := 1) (X := X) (show 0 ≤ M by omega) hp.dist
    (by omega)
  have r2 := hb.distanceCost
  have r6 := hb.durationCost
  have r12 := hv.fixedCost
  unfold penalisedCostSearch CostEvaluator.penalisedCostSearch
  have hne : penalisedCostSearchNonEmpty ce data r = some (r.distanceCost_ + r.durationCost_
      + (data.vehicleType r.vehicleType).fixedCost
      + ce.excessLoadPenalties r.excessLoad_ + ce.twPenalty r.timeWarp_
      + ce.distPenalty r.excessDistance_ 0) := by
    unfold penalisedCostSearchNonEmpty twPenalty distPenalty CostEvaluator.twPenalty
      CostEvaluator.distPenalty CostEvaluator.excessDistPenalty
    simp (disch := omega) only [Option.bind_eq_bind, Option.bind_some, add_eq, sub_eq, chk_eq, l1]
  by_cases he : r.empty = true
  · rw [if_pos he]
    unfold ternary
    rw [if_neg (by simp [he])]
    refine ⟨rfl, by omega, by omega⟩
  · rw [if_neg he]
    unfold ternary
    rw [if_pos he, hne]
    refine ⟨rfl, ?_⟩
    unfold CostEvaluator.twPenalty CostEvaluator.distPenalty CostEvaluator.excessDistPenalty
    omega

theorem deltaDistance_eq (hd : DataBd data B) {p : Proposal} {X out : Int} (h : PropBd B X p)
    (hv : VehBd (data.vehicleType p.route.vehicleType) B M) (hM : 1 ≤ M) (hp : PenBd ce M L)
    (h1 : -MAX ≤ out) (h2 : out + 2 * (M * X) ≤ MAX) (h3 : 2 * (M * X) ≤ MAX) :
    deltaDistance ce data p out = some (ce.deltaDistance data p.plain out)
    ∧ out ≤ ce.deltaDistance data p.plain out ∧ ce.deltaDistance data p.plain out ≤ out + 2 * (M * X) := by
  have hm := MAX_eq
  have h0 := hd.nonneg
  have hX1 := h.one
  have hMX := Int.mul_nonneg (show 0 ≤ M by omega) (show 0 ≤ X by omega)
  obtain ⟨d1, d2, d3⟩ := propDistance_eq hd hv hM h.first (fun c hc => (h.rest c hc).1) h.size (by omega)
  have t1 := pen_le (k := 1) (X := X) (show 0 ≤ M by omega) hp.dist (by rw [Int.one_mul]; exact d3)
  unfold deltaDistance CostEvaluator.deltaDistance ternary
  rw [d1]
  have e : p.plain.route = p.route := rfl
  rw [e]
  dsimp only [Option.bind_eq_bind, Option.bind_some]
  unfold excessDistPenalty CostEvaluator.excessDistPenalty
  split
  · simp (disch := omega) only [add_eq, chk_eq, Option.bind_some]
    exact ⟨trivial, by omega, by omega⟩
  · exact ⟨rfl, by omega, by omega⟩

theorem deltaDuration_eq (hd : DataBd data B) {p : Proposal} {X out : Int} (h : PropBd B X p)
    (hv : VehBd (data.vehicleType p.route.vehicleType) B M) (hM : 1 ≤ M) (hp : PenBd ce M L)
    (h1 : -MAX ≤ out) (h2 : out + 93 * (M * X) ≤ MAX) (h3 : 150 * (M * X) ≤ MAX) :
    deltaDuration ce data p out = some (ce.deltaDuration data p.plain out)
    ∧ out ≤ ce.deltaDuration data p.plain out
    ∧ ce.deltaDuration data p.plain out ≤ out + 93 * (M * X) := by
  have hm := MAX_eq
  have h0 := hd.nonneg
  have hX1 := h.one
  have hMX := Int.mul_nonneg (show 0 ≤ M by omega) (show 0 ≤ X by omega)
  obtain ⟨d1, d2, d3⟩ := propDuration_eq hd h hv hM h3
  have t1 := pen_le (show 0 ≤ M by omega) hp.tw d3
  unfold deltaDuration CostEvaluator.deltaDuration ternary
  rw [d1]
  have e : p.plain.route = p.route := rfl
  rw [e]
  dsimp only [Option.bind_eq_bind, Option.bind_some]
  unfold twPenalty CostEvaluator.twPenalty
  split
  · simp (disch := omega) only [add_eq, chk_eq, Option.bind_some]
    exact ⟨trivial, by omega, by omega⟩
  · exact ⟨rfl, by omega, by omega⟩

theorem deltaLoad_eq (hd : DataBd data B) {p : Proposal} {X : Int} (h : PropBd B X p)
    (hv : VehBd (data.vehicleType p.route.vehicleType) B M) (hM : 1 ≤ M) (hp : PenBd ce M L)
    (h3 : 2 * (M * X) ≤ MAX) (exact : Bool) :
    ∀ (l : List Nat) (out : Int), -MAX ≤ out → out + 2 * (M * X) * l.length ≤ MAX →
    deltaLoad exact ce data p l out = some (ce.deltaLoad exact data p.plain l out)
    ∧ out ≤ (ce.deltaLoad exact data p.plain l out).1
    ∧ (ce.deltaLoad exact data p.plain l out).1 ≤ out + 2 * (M * X) * l.length := by
  have hm := MAX_eq
  have h0 := hd.nonneg
  have hX1 := h.one
  have hMX := Int.mul_nonneg (show 0 ≤ M by omega) (show 0 ≤ X by omega)
  have hMX2 : X ≤ M * X := by
    have := Int.mul_le_mul_of_nonneg_right hM (show 0 ≤ X by omega)
    omega
  intro l
  induction l with
  | nil => intro out h1 h2; refine ⟨rfl, Int.le_refl _, ?_⟩; simp [CostEvaluator.deltaLoad]
  | cons dim rest ih =>
    intro out h1 h2
    have hbn : 2 * (M * X) * ((dim :: rest).length : Int) = 2 * (M * X) * rest.length + 2 * (M * X) := by
      rw [List.length_cons, Int.natCast_succ, Int.mul_add, Int.mul_one]
    have hbr : 0 ≤ 2 * (M * X) * (rest.length : Int) := Int.mul_nonneg (by omega) (Int.natCast_nonneg _)
    rw [hbn] at h2 ⊢
    rw [deltaLoad, CostEvaluator.deltaLoad]
    split
    · exact ⟨rfl, Int.le_refl _, by dsimp only; omega⟩
    · obtain ⟨e1, e2, e3⟩ := propLoad_eq hd h hv (by omega) dim
      have t1 := getD_of_forall (P := fun f : Int → Int => ∀ x, 0 ≤ x → 0 ≤ f x ∧ f x ≤ M * x)
        hp.loads (d := fun _ => 0) (fun x hx => ⟨Int.le_refl 0, Int.mul_nonneg (by omega) hx⟩) dim
      have t2 := pen_le (x := max (p.plain.excessLoad data dim - 0) 0) (k := 2) (X := X)
        (show 0 ≤ M by omega) t1 (by omega)
      rw [e1]
      dsimp only [Option.bind_eq_bind, Option.bind_some]
      unfold loadPenalty CostEvaluator.loadPenalty
      simp (disch := omega) only [add_eq, sub_eq, chk_eq, Option.bind_eq_bind, Option.bind_some]
      obtain ⟨i1, i2, i3⟩ := ih _ (by omega) (by omega : (out + (ce.loadPenalties.getD dim fun _ => 0)
        (max (p.plain.excessLoad data dim - 0) 0)) + _ ≤ MAX)
      exact ⟨i1, by omega, by omega⟩

theorem deltaCost_eq (hd : DataBd data B) {p : Proposal} {X out : Int} (h : PropBd B X p)
    (hv : VehBd (data.vehicleType p.route.vehicleType) B M) (hM : 1 ≤ M)
    (hp : PenBd ce M data.numLoadDimensions)
    (hc : (data.vehicleType p.route.vehicleType).capacity.length = data.numLoadDimensions)
    (hu : UpdBd data B M p.route) (hX : B * p.route.nodes.length ≤ X)
    (h1 : 2 * (M * X) * data.numLoadDimensions + 100 * (M * X) - MAX ≤ out)
    (h2 : out + (2 * (M * X) * data.numLoadDimensions + 100 * (M * X)) ≤ MAX)
    (h3 : 2 * (M * X) * data.numLoadDimensions + 150 * (M * X) ≤ MAX) (exact : Bool) :
    deltaCost exact ce data out p = some (ce.deltaCost exact data out p.plain)
    ∧ out - (2 * (M * X) * data.numLoadDimensions + 100 * (M * X)) ≤ (ce.deltaCost exact data out p.plain).1
    ∧ (ce.deltaCost exact data out p.plain).1
      ≤ out + (2 * (M * X) * data.numLoadDimensions + 100 * (M * X)) := by
  have hm := MAX_eq
  have h0 := hd.nonneg
  have hX1 := h.one
  have hMX := Int.mul_nonneg (show 0 ≤ M by omega) (show 0 ≤ X by omega)
  have hMB := Int.mul_le_mul_of_nonneg_left hX1 (show 0 ≤ M by omega)
  have hn : 0 ≤ 2 * (M * X) * (data.numLoadDimensions : Int) :=
    Int.mul_nonneg (by omega) (Int.natCast_nonneg _)
  have hdim : (dims data p).length = data.numLoadDimensions := by
    unfold dims
    rw [List.length_range, hc]
  have r12 := hv.fixedCost
  obtain ⟨p1, p2, p3⟩ := penalisedCostSearch_eq hM h0 hX1 hp hu hX hv (by omega)
  have e : p.plain.route = p.route := rfl
  have ed : CostEvaluator.dims data p.plain = dims data p := rfl
  unfold deltaCost CostEvaluator.deltaCost PyVRP.Proposal.fixedVehicleCost
  rw [e, ed, p1]
  dsimp only [Option.bind_eq_bind, Option.bind_some]
  rw [sub_eq (by omega), Option.bind_some, add_eq (by omega), Option.bind_some]
  generalize hgo : out - ce.penalisedCostSearch data p.route
    + (data.vehicleType p.route.vehicleType).fixedCost = o1
  obtain ⟨d1, d2, d3⟩ := deltaDistance_eq (out := o1) hd h hv hM hp (by omega) (by omega) (by omega)
  rw [d1, Option.bind_some]
  generalize ce.deltaDistance data p.plain o1 = o2 at *
  obtain ⟨l1, l2, l3⟩ := deltaLoad_eq hd h hv hM hp (by omega) exact (dims data p) o2 (by omega)
    (by rw [hdim]; omega)
  rw [l1, Option.bind_some]
  rw [hdim] at l3
  rcases hl : ce.deltaLoad exact data p.plain (dims data p) o2 with ⟨o3, b⟩
  rw [hl] at l2 l3
  dsimp only at l2 l3
  cases b with
  | false => exact ⟨rfl, by dsimp only; omega, by dsimp only; omega⟩
  | true =>
    obtain ⟨t1, t2, t3⟩ := deltaDuration_eq (out := o3) hd h hv hM hp (by omega) (by omega) (by omega)
    dsimp only
    rw [t1]
    exact ⟨rfl, by omega, by omega⟩

theorem deltaCost2_eq (hd : DataBd data B) {p q : Proposal} {X out : Int} (h : PropBd B X p)
    (g : PropBd B X q)
    (hv : VehBd (data.vehicleType p.route.vehicleType) B M)
    (gv : VehBd (data.vehicleType q.route.vehicleType) B M) (hM : 1 ≤ M)
    (hp : PenBd ce M data.numLoadDimensions)
    (hc : (data.vehicleType p.route.vehicleType).capacity.length = data.numLoadDimensions)
    (gc : (data.vehicleType q.route.vehicleType).capacity.length = data.numLoadDimensions)
    (hu : UpdBd data B M p.route) (hX : B * p.route.nodes.length ≤ X)
    (gu : UpdBd data B M q.route) (gX : B * q.route.nodes.length ≤ X)
    (h1 : 2 * (2 * (M * X) * data.numLoadDimensions + 100 * (M * X)) - MAX ≤ out)
    (h2 : out + 2 * (2 * (M * X) * data.numLoadDimensions + 100 * (M * X)) ≤ MAX)
    (h3 : 2 * (M * X) * data.numLoadDimensions + 150 * (M * X) ≤ MAX) (exact : Bool) :
    deltaCost2 exact ce data out p q = some (ce.deltaCost2 exact data out p.plain q.plain) := by
  have hm := MAX_eq
  have h0 := hd.nonneg
  have hX1 := h.one
  have hMX := Int.mul_nonneg (show 0 ≤ M by omega) (show 0 ≤ X by omega)
  have hMB := Int.mul_le_mul_of_nonneg_left hX1 (show 0 ≤ M by omega)
  have hn : 0 ≤ 2 * (M * X) * (data.numLoadDimensions : Int) :=
    Int.mul_nonneg (by omega) (Int.natCast_nonneg _)
  have hdim : (dims data p).length = data.numLoadDimensions := by
    unfold dims
    rw [List.length_range, hc]
  have gdim : (dims data q).length = data.numLoadDimensions := by
    unfold dims
    rw [List.length_range, gc]
  have r12 := hv.fixedCost
  have g12 := gv.fixedCost
  obtain ⟨p1, p2, p3⟩ := penalisedCostSearch_eq hM h0 hX1 hp hu hX hv (by omega)
  obtain ⟨q1, q2, q3⟩ := penalisedCostSearch_eq hM h0 hX1 hp gu gX gv (by omega)
  have e : p.plain.route = p.route := rfl
  have e' : q.plain.route = q.route := rfl
  have ed : CostEvaluator.dims data p.plain = dims data p := rfl
  have ed' : CostEvaluator.dims data q.plain = dims data q := rfl
  unfold deltaCost2 CostEvaluator.deltaCost2 PyVRP.Proposal.fixedVehicleCost
  rw [e, ed, e', ed', p1, q1]
  dsimp only [Option.bind_eq_bind, Option.bind_some]
  rw [sub_eq (by omega), Option.bind_some, sub_eq (by omega), Option.bind_some, add_eq (by omega),
    Option.bind_some, add_eq (by omega), Option.bind_some]
  generalize hgo : out - ce.penalisedCostSearch data p.route - ce.penalisedCostSearch data q.route
    + (data.vehicleType p.route.vehicleType).fixedCost
    + (data.vehicleType q.route.vehicleType).fixedCost = o1
  obtain ⟨d1, d2, d3⟩ := deltaDistance_eq (out := o1) hd h hv hM hp (by omega) (by omega) (by omega)
  rw [d1, Option.bind_some]
  generalize ce.deltaDistance data p.plain o1 = o2 at *
  obtain ⟨d4, d5, d6⟩ := deltaDistance_eq (out := o2) hd g gv hM hp (by omega) (by omega) (by omega)
  rw [d4, Option.bind_some]
  generalize ce.deltaDistance data q.plain o2 = o3 at *
  obtain ⟨l1, l2, l3⟩ := deltaLoad_eq hd h hv hM hp (by omega) exact (dims data p) o3 (by omega)
    (by rw [hdim]; omega)
  rw [l1, Option.bind_some]
  rw [hdim] at l3
  rcases hl : ce.deltaLoad exact data p.plain (dims data p) o3 with ⟨o4, b⟩
  rw [hl] at l2 l3
  dsimp only at l2 l3
  cases b with
  | false => rfl
  | true =>
    dsimp only
    obtain ⟨k1, k2, k3⟩ := deltaLoad_eq hd g gv hM hp (by omega) exact (dims data q) o4 (by omega)
      (by rw [gdim]; omega)
    rw [k1, Option.bind_some]
    rw [gdim] at k3
    rcases hk : ce.deltaLoad exact data q.plain (dims data q) o4 with ⟨o5, b⟩
    rw [hk] at k2 k3
    dsimp only at k2 k3
    cases b with
    | false => rfl
    | true =>
      dsimp only
      by_cases hs : (!exact && decide (o5 ≥ 0)) = true
      · rw [if_pos hs, if_pos hs]
      · rw [if_neg hs, if_neg hs]
        obtain ⟨t1, t2, t3⟩ := deltaDuration_eq (out := o5) hd h hv hM hp (by omega) (by omega) (by omega)
        rw [t1, Option.bind_some]
        obtain ⟨u1, _, _⟩ := deltaDuration_eq (out := ce.deltaDuration data p.plain o5) hd g gv hM hp
          (by omega) (by omega) (by omega)
        rw [u1]
        rfl

end

end PyVRP.I64
