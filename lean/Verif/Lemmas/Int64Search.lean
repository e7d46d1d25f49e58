import Verif.Model.Int64Search
import Verif.Lemmas.Int64Fwd
import Verif.Lemmas.Int64Route
import Verif.Lemmas.SearchRoute
/-!
# Computations with 64-bit integers: the routes of the local search
-/
namespace PyVRP.I64
open Spec

theorem choose_eq {α : Type} {c : Prop} [Decidable c] {m : Option α} {x y : α} (h : c → m = some x) :
    choose c m y = some (if c then x else y) := by
  unfold choose
  by_cases hc : c
  · rw [if_pos hc, if_pos hc, h hc]
  · rw [if_neg hc, if_neg hc]

/-! ## Loops over the nodes -/

theorem scan_eq {β : Type} {f : SNode → β → SNode → Option β} {g : SNode → β → SNode → β}
    {P : Nat → β → Prop} {K : Nat}
    (step : ∀ i n b m, i + 1 ≤ K → P i b → f n b m = some (g n b m) ∧ P (i + 1) (g n b m)) :
    ∀ (l : List SNode) (n : SNode) (b : β) (i : Nat), i + l.length ≤ K → P i b →
      scan f n b l = some (scanNodes g n b l)
      ∧ ∀ (j : Nat) (x : β), (scanNodes g n b l)[j]? = some x → P (i + j) x := by
  intro l
  induction l with
  | nil =>
    intro n b i _ hb
    refine ⟨rfl, fun j x hx => ?_⟩
    cases j with
    | zero => injection hx with hx; exact hx ▸ hb
    | succ j => cases hx
  | cons m rest ih =>
    intro n b i hi hb
    rw [List.length_cons] at hi
    obtain ⟨h1, h2⟩ := step i n b m (by omega) hb
    obtain ⟨h3, h4⟩ := ih m (g n b m) (i + 1) (by omega) h2
    refine ⟨by rw [scan, h1, Option.bind_eq_bind, Option.bind_some, h3]; rfl, fun j x hx => ?_⟩
    cases j with
    | zero => injection hx with hx; exact hx ▸ hb
    | succ j =>
      have := h4 j x hx
      rw [show i + (j + 1) = i + 1 + j by omega]
      exact this

theorem scanBack_eq {β : Type} [Inhabited β] {f : SNode → SNode → β → Option β}
    {g : SNode → SNode → β → β} {last : SNode → Option β} {last' : SNode → β}
    {P : Nat → β → Prop} {K : Nat}
    (base : ∀ n, last n = some (last' n) ∧ P 1 (last' n))
    (step : ∀ i n m b, i + 1 ≤ K → P i b → f n m b = some (g n m b) ∧ P (i + 1) (g n m b)) :
    ∀ (l : List SNode), l.length ≤ K →
      scanBack f last l = some (scanNodesBack g last' l)
      ∧ ∀ (j : Nat) (x : β), (scanNodesBack g last' l)[j]? = some x → P (l.length - j) x := by
  intro l
  induction l with
  | nil => exact fun _ => ⟨rfl, fun j x hx => by cases hx⟩
  | cons n rest ih =>
    intro hl
    cases rest with
    | nil =>
      obtain ⟨h1, h2⟩ := base n
      refine ⟨by rw [scanBack, h1]; rfl, fun j x hx => ?_⟩
      cases j with
      | zero => injection hx with hx; exact hx ▸ h2
      | succ j => cases hx
    | cons m rest =>
      obtain ⟨h3, h4⟩ := ih (by rw [List.length_cons] at hl; omega)
      have hne : scanNodesBack g last' (m :: rest) ≠ [] := by
        cases rest <;> exact List.cons_ne_nil _ _
      have hhd : P (m :: rest).length ((scanNodesBack g last' (m :: rest)).headD default) := by
        cases hs : scanNodesBack g last' (m :: rest) with
        | nil => exact absurd hs hne
        | cons x xs =>
          rw [hs] at h4
          exact h4 0 x rfl
      rw [List.length_cons] at hl
      obtain ⟨h1, h2⟩ := step (m :: rest).length n m _ (by omega) hhd
      refine ⟨by rw [scanBack, h3, Option.bind_eq_bind, Option.bind_some, h1]; rfl, fun j x hx => ?_⟩
      cases j with
      | zero => injection hx with hx; exact hx ▸ h2
      | succ j =>
        have := h4 j x hx
        rw [List.length_cons, show (m :: rest).length + 1 - (j + 1) = (m :: rest).length - j by omega]
        exact this

theorem scanNodes_getLastD {β : Type} (g : SNode → β → SNode → β) (d : β) :
    ∀ (l : List SNode) (n : SNode) (b : β), ∃ x, (scanNodes g n b l)[l.length]? = some x
      ∧ (scanNodes g n b l).getLastD d = x
  | [], _, b => ⟨b, rfl, rfl⟩
  | m :: rest, n, b => by
    obtain ⟨x, h1, h2⟩ := scanNodes_getLastD g d rest m (g n b m)
    refine ⟨x, h1, ?_⟩
    rw [scanNodes]
    cases hs : scanNodes g m (g n b m) rest with
    | nil => rw [hs] at h1; cases h1
    | cons y ys => rw [hs] at h2; exact h2

/-! ## The parts of `update` -/

variable {data : ProblemData} {v : VehicleType} {B M : Int}

theorem mul_succ' (B : Int) (i : Nat) : B * ((i + 1 : Nat) : Int) = B * i + B := by
  rw [Int.natCast_succ, Int.mul_add, Int.mul_one]

theorem DataBd.service (hd : DataBd data B) (i : Nat) :
    Bd B B 0 ({ duration_ := (data.depot i).serviceDuration } : DurSeg) := by
  have hm := MAX_eq
  have h := hd.depot i
  have h0 := hd.nonneg
  have h1 : 0 ≤ (data.depot i).serviceDuration ∧ (data.depot i).serviceDuration ≤ B := h.dur
  constructor <;> dsimp only <;> omega

theorem durAtOf_eq (hd : DataBd data B) (hv : VehBd v B M) (hB : 5 * B ≤ HALF) (n : SNode) :
    durAtOf data v n = some (SRoute.durAtOf data v n) ∧ Bd B (2 * B) 0 (SRoute.durAtOf data v n)
    ∧ (SRoute.durAtOf data v n).prevEndLate_ = MAX := by
  have h0 := hd.nonneg
  have hl := hv.late
  unfold durAtOf SRoute.durAtOf
  cases n.role with
  | start =>
    have h1 := hv.atom (l := v.startLate) (by omega) (by omega)
    have h2 := hd.depot v.startDepot
    have hb := Bd.merge (e := 0) (a := B) h1 h2 (by omega) (by omega) (by omega) (by omega)
    exact ⟨merge_eq h1 h2 (by omega) (by omega), hb.mono (by omega) (by omega) (by omega), rfl⟩
  | finish =>
    have h1 := hd.depotZero v.endDepot
    have h2 := hv.atom (l := v.twLate) (by omega) (by omega)
    have hb := Bd.merge (e := 0) (a := B) h1 h2 (by omega) (by omega) (by omega) (by omega)
    exact ⟨merge_eq h1 h2 (by omega) (by omega), hb.mono (by omega) (by omega) (by omega), rfl⟩
  | inner =>
    dsimp only
    cases n.activity.type
    · exact ⟨rfl, (hd.depotZero _).mono (by omega) (by omega) (by omega), rfl⟩
    · exact ⟨rfl, (hd.client _).mono (by omega) (by omega) (by omega), rfl⟩
    · exact ⟨rfl, (hd.pickup _).mono (by omega) (by omega) (by omega), rfl⟩
    · exact ⟨rfl, (hd.delivery _).mono (by omega) (by omega) (by omega), rfl⟩

theorem durBeforeStep_eq (hd : DataBd data B) (hv : VehBd v B M) {N : Int} {prev n : SNode}
    {s : DurSeg} (hs : Fwd B N s) (hN : 4 * N + 30 * B ≤ HALF) :
    durBeforeStep data v prev s n = some (SRoute.durBeforeStep data v prev s n)
    ∧ Fwd B (N + 10 * B) (SRoute.durBeforeStep data v prev s n) := by
  have h0 := hd.nonneg
  have hN0 : 0 ≤ N := by have := hs.early; have := hs.dur; omega
  obtain ⟨a1, a2, -⟩ := durAtOf_eq hd hv (by omega) n
  have he := hd.dur v.profile (data.locationOf prev.activity) (data.locationOf n.activity)
  unfold durBeforeStep SRoute.durBeforeStep
  dsimp only
  rw [a1]
  by_cases hr : prev.isReloadDepot = true
  · have f1 := hs.finaliseBack_eq h0 (by omega)
    have f2 := hs.finaliseBack h0 (by omega)
    have f3 := f2.merge_eq (e := 0) (hd.service prev.activity.idx) (by omega) (by omega)
    have f4 := f2.merge (e := 0) (hd.service prev.activity.idx) (by omega) h0 (by omega)
    unfold choose
    rw [if_pos hr, if_pos hr, f1, Option.bind_eq_bind, Option.bind_some, if_pos hr, if_pos hr, f3]
    simp only [Option.bind_some]
    exact ⟨f4.merge_eq a2 he.1 (by omega), (f4.merge a2 he.1 h0 (by omega)).mono (by omega)⟩
  · unfold choose
    rw [if_neg hr, if_neg hr, Option.bind_eq_bind, Option.bind_some, if_neg hr, if_neg hr]
    simp only [Option.bind_some]
    exact ⟨hs.merge_eq a2 he.1 (by omega), (hs.merge a2 he.1 h0 (by omega)).mono (by omega)⟩

theorem durAfterStep_eq (hd : DataBd data B) (hv : VehBd v B M) {p : Int} {n next : SNode}
    {s : DurSeg} (hs : Bd B p 0 s) (hN : p + 10 * B ≤ HALF) :
    durAfterStep data v n next s = some (SRoute.durAfterStep data v n next s)
    ∧ Bd B (p + 6 * B) 0 (SRoute.durAfterStep data v n next s) := by
  have h0 := hd.nonneg
  have hp0 : 0 ≤ p := by have := hs.dur; omega
  obtain ⟨a1, a2, -⟩ := durAtOf_eq hd hv (by omega) n
  have he := hd.dur v.profile (data.locationOf n.activity) (data.locationOf next.activity)
  unfold durAfterStep SRoute.durAfterStep
  dsimp only
  rw [a1, choose_eq (fun _ => finaliseFront_eq hs (by omega)), Option.bind_eq_bind, Option.bind_some]
  have h1 : Bd B p 0 (if next.isReloadDepot = true then s.finaliseFront else s) := by
    split
    · exact hs.finaliseFront (by omega)
    · exact hs
  generalize (if next.isReloadDepot = true then s.finaliseFront else s) = t at *
  have h2 := hd.service n.activity.idx
  rw [choose_eq (fun _ => merge_eq h2 h1 (Int.le_refl 0) (by omega))]
  simp only [Option.bind_some]
  have h3 : Bd B (p + 2 * B) 0 (if n.isReloadDepot = true then
      DurSeg.merge 0 { duration_ := (data.depot n.activity.idx).serviceDuration } t else t) := by
    split
    · exact (Bd.merge (a := B) h2 h1 (Int.le_refl 0) (by omega) (by omega) (by omega)).mono
        (by omega) (by omega) (by omega)
    · exact h1.mono (by omega) (by omega) (by omega)
  generalize (if n.isReloadDepot = true then
      DurSeg.merge 0 { duration_ := (data.depot n.activity.idx).serviceDuration } t else t) = u at *
  exact ⟨merge_eq a2 h3 he.1 (by omega),
    (Bd.merge (a := B) a2 h3 he.1 (by omega) (by omega) (by omega)).mono
      (by omega) (by omega) (by omega)⟩

theorem LBd.zero {q : Int} (hq : 0 ≤ q) : LBd q {} := by
  constructor <;> dsimp only <;> omega

theorem loadAtOf_eq (hd : DataBd data B) (hv : VehBd v B M) (hB : B ≤ HALF) (dim : Nat) (n : SNode) :
    loadAtOf data v dim n = some (SRoute.loadAtOf data v dim n)
    ∧ LBd B (SRoute.loadAtOf data v dim n) := by
  have h0 := hd.nonneg
  unfold loadAtOf SRoute.loadAtOf
  cases n.role with
  | start =>
    refine ⟨rfl, ?_⟩
    have := hv.initial dim
    constructor <;> dsimp only [LoadSeg.ofVehicle] <;> omega
  | finish => exact ⟨rfl, LBd.zero h0⟩
  | inner =>
    dsimp only
    cases n.activity.type
    · exact ⟨rfl, LBd.zero h0⟩
    · exact loadOfClient_eq hB (hd.deliveries _ _) (hd.pickups _ _)
    · exact loadOfShipment_eq hB (hd.amounts _ _)
    · exact loadOfShipment_eq hB (hd.amounts _ _)

theorem loadBeforeStep_eq (hd : DataBd data B) (hv : VehBd v B M) {q : Int} {dim : Nat}
    {prev n : SNode} {s : LoadSeg} (hs : LBd q s) (hq : 0 ≤ q) (hN : q + B ≤ HALF) :
    loadBeforeStep data v dim prev s n = some (SRoute.loadBeforeStep data v dim prev s n)
    ∧ LBd (q + B) (SRoute.loadBeforeStep data v dim prev s n) := by
  have hm := MAX_eq
  have hh := HALF_eq
  have h0 := hd.nonneg
  obtain ⟨a1, a2⟩ := loadAtOf_eq hd hv (by omega) dim n
  have hc := hv.capacity dim
  obtain ⟨f1, f2⟩ := finalise_eq hs hc.1 (by omega) hc.2
  unfold loadBeforeStep SRoute.loadBeforeStep
  rw [a1, choose_eq (fun _ => f1)]
  by_cases hr : prev.isReloadDepot = true
  · rw [if_pos hr, if_pos hr]
    exact mergeLoad_eq f2 a2 (by omega)
  · rw [if_neg hr, if_neg hr]
    exact mergeLoad_eq hs a2 (by omega)

theorem loadAfterStep_eq (hd : DataBd data B) (hv : VehBd v B M) {q : Int} {dim : Nat}
    {n next : SNode} {s : LoadSeg} (hs : LBd q s) (hq : 0 ≤ q) (hN : q + B ≤ HALF) :
    loadAfterStep data v dim n next s = some (SRoute.loadAfterStep data v dim n next s)
    ∧ LBd (q + B) (SRoute.loadAfterStep data v dim n next s) := by
  have hm := MAX_eq
  have hh := HALF_eq
  have h0 := hd.nonneg
  obtain ⟨a1, a2⟩ := loadAtOf_eq hd hv (by omega) dim n
  have hc := hv.capacity dim
  obtain ⟨f1, f2⟩ := finalise_eq hs hc.1 (by omega) hc.2
  unfold loadAfterStep SRoute.loadAfterStep
  rw [a1, choose_eq (fun _ => f1), Int.add_comm q B]
  by_cases hr : next.isReloadDepot = true
  · rw [if_pos hr, if_pos hr]
    exact mergeLoad_eq a2 f2 (by omega)
  · rw [if_neg hr, if_neg hr]
    exact mergeLoad_eq a2 hs (by omega)

theorem loadSum_eq (hd : DataBd data B) (hv : VehBd v B M) (dim : Nat) :
    ∀ (rest : List SNode) (n : SNode) (b : LoadSeg) (acc q X : Int),
      (∀ m ∈ (n :: rest).dropLast, m.isEndDepot = false) → 0 ≤ acc → 0 ≤ q → LBd q b →
      acc + (b.initial_ + b.increase_) ≤ X → X + 2 * (B * rest.length) ≤ MAX →
      q + B * rest.length ≤ HALF →
      loadSumLoop acc (((n :: rest).zip (scanNodes (SRoute.loadBeforeStep data v dim) n b rest)).filter
        (fun p => p.1.isDepot && !p.1.isStartDepot))
      = some ((((n :: rest).zip (scanNodes (SRoute.loadBeforeStep data v dim) n b rest)).filter
        (fun p => p.1.isDepot && !p.1.isStartDepot)).foldl (fun acc p => acc + p.2.load) acc) := by
  have hm := MAX_eq
  have hh := HALF_eq
  have h0 := hd.nonneg
  intro rest
  induction rest with
  | nil =>
    intro n b acc q X _ ha hq hb hX hM _
    have h1 := hb.initial
    have h2 := hb.increase
    have hz : B * (([] : List SNode).length : Int) = 0 := Int.mul_zero B
    rw [hz] at hM
    simp only [scanNodes, List.zip_cons_cons, List.zip_nil_right, List.filter_cons, List.filter_nil]
    split
    · simp (disch := omega) only [loadSumLoop, load, add_eq, Option.bind_eq_bind, Option.bind_some,
        List.foldl_cons, List.foldl_nil, LoadSeg.load]
    · rfl
  | cons m rest ih =>
    intro n b acc q X hf ha hq hb hX hM hH
    have h1 := hb.initial
    have h2 := hb.increase
    have hl : B * ((m :: rest).length : Int) = B * rest.length + B := mul_succ' B rest.length
    have hl0 : 0 ≤ B * (rest.length : Int) := Int.mul_nonneg h0 (Int.natCast_nonneg _)
    rw [hl] at hM hH
    obtain ⟨a1, a2⟩ := loadAtOf_eq hd hv (by omega) dim m
    have hstep := (loadBeforeStep_eq hd hv (dim := dim) (prev := n) (n := m) hb hq (by omega)).2
    have hfn : n.isEndDepot = false := hf n (by simp)
    have hfr : ∀ k ∈ (m :: rest).dropLast, k.isEndDepot = false := fun k hk => hf k (by
      rw [List.dropLast_cons_of_ne_nil (List.cons_ne_nil _ _)]
      exact List.mem_cons_of_mem _ hk)
    rw [scanNodes, List.zip_cons_cons, List.filter_cons]
    have hbd : (SRoute.loadBeforeStep data v dim n b m).initial_
        + (SRoute.loadBeforeStep data v dim n b m).increase_
        ≤ (if n.isReloadDepot = true then 0 else b.initial_ + b.increase_) + 2 * B := by
      unfold SRoute.loadBeforeStep
      obtain ⟨k1, k2, k3, k4, k5⟩ := a2
      have h3 := hb.delta
      split
      · simp only [LoadSeg.merge, LoadSeg.finalise]
        omega
      · simp only [LoadSeg.merge]
        omega
    by_cases hc : (n.isDepot && !n.isStartDepot) = true
    · have hr : n.isReloadDepot = true := by
        unfold SNode.isReloadDepot
        rw [hc, hfn]
        rfl
      rw [if_pos hr] at hbd
      rw [if_pos hc, loadSumLoop, List.foldl_cons]
      simp (disch := omega) only [load, add_eq, Option.bind_eq_bind, Option.bind_some, LoadSeg.load]
      exact ih m _ _ (q + B) (X + 2 * B) hfr (by omega) (by omega) hstep (by omega) (by omega) (by omega)
    · have hr : ¬ n.isReloadDepot = true := by
        unfold SNode.isReloadDepot
        intro h
        rw [Bool.and_eq_true] at h
        exact hc h.1
      rw [if_neg hr] at hbd
      rw [if_neg hc]
      exact ih m _ _ (q + B) (X + 2 * B) hfr (by omega) (by omega) hstep (by omega) (by omega) (by omega)

/-- The distances along a route. -/
theorem scanNodes_steps {g : SNode → Int → SNode → Int} (hg : ∀ n d m, d ≤ g n d m ∧ g n d m ≤ d + B)
    (hB : 0 ≤ B) : ∀ (l : List SNode) (n : SNode) (b : Int) (i j : Nat) (x y : Int), i ≤ j →
      (scanNodes g n b l)[i]? = some x → (scanNodes g n b l)[j]? = some y →
      x ≤ y ∧ y ≤ x + B * (j - i : Nat)
  | l, n, b, 0, j, x, y, _, hx, hy => by
    have hbx : b = x := by cases l <;> injection hx
    have h := (scan_eq (f := fun n d m => some (g n d m)) (g := g) (K := l.length)
      (P := fun k d => x ≤ d ∧ d ≤ x + B * (k : Nat)) (fun k n d m _ hd => ⟨rfl, by
        have := hg n d m
        have := mul_succ' B k
        omega⟩) l n b 0 (by omega) (by subst hbx; constructor <;> simp)).2 j y hy
    rw [Nat.zero_add] at h
    rw [Nat.sub_zero]
    exact h
  | [], n, b, i + 1, j, x, y, _, hx, _ => by cases hx
  | m :: rest, n, b, i + 1, 0, x, y, h, _, _ => by omega
  | m :: rest, n, b, i + 1, j + 1, x, y, h, hx, hy => by
    have := scanNodes_steps hg hB rest m (g n b m) i j x y (by omega) hx hy
    rw [Nat.add_sub_add_right]
    exact this

/-! ## `update` -/

/-- Bounds on the statistics of a route of the search. -/
structure UpdBd (data : ProblemData) (B M : Int) (r : SRoute) : Prop where
  distLength : r.cumDist.length = r.nodes.length
  distFirst : r.cumDist.getD 0 0 = 0
  dist : ∀ (i j : Nat) (x y : Int), i ≤ j → r.cumDist[i]? = some x → r.cumDist[j]? = some y →
    x ≤ y ∧ y ≤ x + B * (j - i : Nat)
  durAt : ∀ i, Bd B (2 * B) 0 (r.durAt.getD i {})
  durBefore : ∀ i, i < r.nodes.length → Fwd B (10 * (B * i) + 10 * B) (r.durBefore.getD i {})
  durAfter : ∀ i, i < r.nodes.length → Bd B (6 * (B * (r.nodes.length - i : Nat))) 0 (r.durAfter.getD i {})
  loadAt : ∀ dim i, LBd B ((r.loadAt.getD dim []).getD i {})
  loadBefore : ∀ dim i, LBd (B * (i + 1 : Nat)) ((r.loadBefore.getD dim []).getD i {})
  loadAfter : ∀ dim i, LBd (B * (r.nodes.length - i : Nat)) ((r.loadAfter.getD dim []).getD i {})
  distanceCost : 0 ≤ r.distanceCost_ ∧ r.distanceCost_ ≤ M * (B * r.nodes.length)
  excessDistance : 0 ≤ r.excessDistance_ ∧ r.excessDistance_ ≤ B * r.nodes.length
  durationCost : 0 ≤ r.durationCost_ ∧ r.durationCost_ ≤ 14 * (M * (B * r.nodes.length))
  timeWarp : 0 ≤ r.timeWarp_ ∧ r.timeWarp_ ≤ 15 * (B * r.nodes.length)
  excessLoads : r.excessLoad_.length = data.numLoadDimensions
  excessLoad : ∀ x ∈ r.excessLoad_, 0 ≤ x ∧ x ≤ 2 * (B * r.nodes.length)

theorem scanNodes_length {β : Type} (g : SNode → β → SNode → β) :
    ∀ (l : List SNode) (n : SNode) (b : β), (scanNodes g n b l).length = l.length + 1
  | [], _, _ => rfl
  | m :: rest, n, b => by rw [scanNodes, List.length_cons, scanNodes_length g rest, List.length_cons]

theorem scanNodesBack_length {β : Type} [Inhabited β] (g : SNode → SNode → β → β) (last : SNode → β) :
    ∀ (l : List SNode), (scanNodesBack g last l).length = l.length
  | [] => rfl
  | [_] => rfl
  | n :: m :: rest => by
    rw [scanNodesBack, List.length_cons, scanNodesBack_length g last (m :: rest)]
    rfl

theorem getD_some {β : Type} {l : List β} {i : Nat} (h : i < l.length) (d : β) :
    l[i]? = some (l.getD i d) := by
  rw [List.getD_eq_getElem?_getD, List.getElem?_eq_getElem h]
  rfl

theorem update_eq (hd : DataBd data B) {r : SRoute} (hv : VehBd (data.vehicleType r.vehicleType) B M)
    (hM : 1 ≤ M) {n : SNode} {rest : List SNode} (hn : r.nodes = n :: rest)
    (hf : ∀ m ∈ r.nodes.dropLast, m.isEndDepot = false)
    (hr : 150 * (M * (B * r.nodes.length)) ≤ MAX) :
    update data r = some (r.update data) ∧ UpdBd data B M (r.update data) := by
  have hm := MAX_eq
  have hh := HALF_eq
  have h0 := hd.nonneg
  have hlen : r.nodes.length = rest.length + 1 := by rw [hn]; rfl
  have hT : B * (r.nodes.length : Int) = B * rest.length + B := by rw [hlen]; exact mul_succ' B _
  have hl0 : 0 ≤ B * (rest.length : Int) := Int.mul_nonneg h0 (Int.natCast_nonneg _)
  have hMX := Int.mul_le_mul_of_nonneg_right hM (show 0 ≤ B * (r.nodes.length : Int) by omega)
  generalize hXd : B * (r.nodes.length : Int) = X at *
  rw [Int.one_mul] at hMX
  have hle : ∀ i : Nat, i ≤ r.nodes.length → 0 ≤ B * (i : Int) ∧ B * (i : Int) ≤ X := fun i hi =>
    ⟨Int.mul_nonneg h0 (Int.natCast_nonneg _), by
      rw [← hXd]; exact Int.mul_le_mul_of_nonneg_left (Int.ofNat_le.2 hi) h0⟩
  generalize hvd : data.vehicleType r.vehicleType = v at *
  -- distances
  have hg : ∀ (p : SNode) (d : Int) (m : SNode), d ≤ d + data.dist v.profile (data.locationOf p.activity)
      (data.locationOf m.activity) ∧ d + data.dist v.profile (data.locationOf p.activity)
      (data.locationOf m.activity) ≤ d + B := fun p d m => by
    have := hd.dist v.profile (data.locationOf p.activity) (data.locationOf m.activity)
    omega
  have d1 := scan_eq (f := fun prev d m => add d (data.dist v.profile (data.locationOf prev.activity)
      (data.locationOf m.activity))) (g := fun prev d m => d + data.dist v.profile
      (data.locationOf prev.activity) (data.locationOf m.activity)) (K := rest.length)
    (P := fun i d => 0 ≤ d ∧ d ≤ B * (i : Nat)) (fun i p d m hi hp => by
      have h1 := hg p d m
      have h2 := mul_succ' B i
      have h3 := hle (i + 1) (by omega)
      exact ⟨add_eq (by omega), by omega, by omega⟩) rest n 0 0 (by omega) (by omega)
  have e1 : cumDists data v r.nodes = some (SRoute.cumDists data v r.nodes) := by
    rw [hn]; exact d1.1
  have hcl : (SRoute.cumDists data v r.nodes).length = r.nodes.length := by
    rw [hn]; exact scanNodes_length _ _ _ _
  obtain ⟨dl, dl1, dl2⟩ := scanNodes_getLastD (fun prev d m => d + data.dist v.profile
      (data.locationOf prev.activity) (data.locationOf m.activity)) (0 : Int) rest n 0
  have dl3 := d1.2 _ _ dl1
  rw [Nat.zero_add] at dl3
  have dlast : (SRoute.cumDists data v r.nodes).getLastD 0 = dl := by rw [hn]; exact dl2
  -- durations at the nodes
  have hat := durAtOf_eq hd hv (by omega)
  have e2 := each_eq (f := durAtOf data v) (g := SRoute.durAtOf data v) (l := r.nodes)
    (fun a _ => (hat a).1)
  -- durations before
  have b1 := scan_eq (f := durBeforeStep data v) (g := SRoute.durBeforeStep data v) (K := rest.length)
    (P := fun i s => Fwd B (10 * (B * (i : Nat)) + 10 * B) s) (fun i p s m hi hs => by
      have h2 := mul_succ' B i
      have h3 := hle (i + 1) (by omega)
      obtain ⟨k1, k2⟩ := durBeforeStep_eq hd hv (prev := p) (n := m) hs (by omega)
      exact ⟨k1, k2.mono (by omega)⟩) rest n (SRoute.durAtOf data v n) 0 (by omega)
    (((hat n).2.1.fwd h0 (hat n).2.2).mono (by omega))
  have e3 : durBefores data v r.nodes = some (SRoute.durBefores data v r.nodes) := by
    rw [hn]
    unfold durBefores SRoute.durBefores
    dsimp only
    rw [(hat n).1]
    exact b1.1
  -- durations after
  have a1 := scanBack_eq (f := durAfterStep data v) (g := SRoute.durAfterStep data v)
    (last := durAtOf data v) (last' := SRoute.durAtOf data v) (K := r.nodes.length)
    (P := fun i s => Bd B (6 * (B * (i : Nat))) 0 s)
    (fun k => ⟨(hat k).1, (hat k).2.1.mono (by omega) (by
      rw [show ((1 : Nat) : Int) = 1 from rfl, Int.mul_one]; omega) (by omega)⟩)
    (fun i k m s hi hs => by
      have h2 := mul_succ' B i
      have h3 := hle (i + 1) (by omega)
      obtain ⟨k1, k2⟩ := durAfterStep_eq hd hv (n := k) (next := m) hs (by omega)
      exact ⟨k1, k2.mono (by omega) (by omega) (by omega)⟩) r.nodes (Nat.le_refl _)
  have e4 : durAfters data v r.nodes = some (SRoute.durAfters data v r.nodes) := a1.1
  have hal : (SRoute.durAfters data v r.nodes).length = r.nodes.length := scanNodesBack_length _ _ _
  have hfirst : Bd B (6 * X) 0 ((SRoute.durAfters data v r.nodes).headD {}) := by
    cases hs : SRoute.durAfters data v r.nodes with
    | nil => rw [hs] at hal; simp [hlen] at hal
    | cons x xs =>
      have := a1.2 0 x (by rw [show scanNodesBack (SRoute.durAfterStep data v) (SRoute.durAtOf data v)
        r.nodes = SRoute.durAfters data v r.nodes from rfl, hs]; rfl)
      rw [Nat.sub_zero, hXd] at this
      exact this
  -- loads at the nodes
  have hlat := fun dim => loadAtOf_eq hd hv (by omega) dim
  have e5 := each_eq (f := fun dim => each (loadAtOf data v dim) r.nodes)
    (g := fun dim => r.nodes.map (SRoute.loadAtOf data v dim)) (l := List.range data.numLoadDimensions)
    (fun dim _ => each_eq (fun a _ => (hlat dim a).1))
  -- loads before
  have lb := fun dim => scan_eq (f := loadBeforeStep data v dim) (g := SRoute.loadBeforeStep data v dim)
    (K := rest.length) (P := fun i s => LBd (B * ((i + 1 : Nat) : Int)) s) (fun i p s m hi hs => by
      have h2 := mul_succ' B i
      have h3 := mul_succ' B (i + 1)
      have h4 := hle (i + 1 + 1) (by omega)
      obtain ⟨k1, k2⟩ := loadBeforeStep_eq hd hv (dim := dim) (prev := p) (n := m) hs
        (hle (i + 1) (by omega)).1 (by omega)
      exact ⟨k1, k2.mono (by omega)⟩) rest n (SRoute.loadAtOf data v dim n) 0 (by omega)
    ((hlat dim n).2.mono (by rw [show ((0 + 1 : Nat) : Int) = 1 from rfl, Int.mul_one]; omega))
  have e6 := each_eq (f := fun dim => loadBefores data v dim r.nodes)
    (g := fun dim => SRoute.loadBefores data v dim r.nodes) (l := List.range data.numLoadDimensions)
    (fun dim _ => by
      rw [hn]
      unfold loadBefores SRoute.loadBefores
      dsimp only
      rw [(hlat dim n).1]
      exact (lb dim).1)
  -- loads after
  have la := fun dim => scanBack_eq (f := loadAfterStep data v dim) (g := SRoute.loadAfterStep data v dim)
    (last := loadAtOf data v dim) (last' := SRoute.loadAtOf data v dim) (K := r.nodes.length)
    (P := fun i s => LBd (B * ((i : Nat) : Int)) s)
    (fun k => ⟨(hlat dim k).1, (hlat dim k).2.mono (by
      rw [show ((1 : Nat) : Int) = 1 from rfl, Int.mul_one]; omega)⟩)
    (fun i k m s hi hs => by
      have h2 := mul_succ' B i
      have h4 := hle (i + 1) (by omega)
      obtain ⟨k1, k2⟩ := loadAfterStep_eq hd hv (dim := dim) (n := k) (next := m) hs
        (hle i (by omega)).1 (by omega)
      exact ⟨k1, k2.mono (by omega)⟩) r.nodes (Nat.le_refl _)
  have e7 := each_eq (f := fun dim => loadAfters data v dim r.nodes)
    (g := fun dim => SRoute.loadAfters data v dim r.nodes) (l := List.range data.numLoadDimensions)
    (fun dim _ => (la dim).1)
  -- loads
  have e8 := each_eq (f := loadSum r.nodes) (g := SRoute.loadSum r.nodes)
    (l := (List.range data.numLoadDimensions).map (fun dim => SRoute.loadBefores data v dim r.nodes))
    (fun l hl => by
      obtain ⟨dim, -, rfl⟩ := List.mem_map.1 hl
      unfold loadSum SRoute.loadSum
      have hk := (hlat dim n).2
      have := hk.total
      have := hk.excess
      rw [hn] at hf ⊢
      exact loadSum_eq hd hv dim rest n _ 0 B (2 * B) hf (Int.le_refl 0) h0 hk (by omega) (by omega)
        (by omega))
  have hcap := fun dim => hv.capacity dim
  have hlast : ∀ dim, LBd X ((((List.range data.numLoadDimensions).map
      (fun dim => SRoute.loadBefores data v dim r.nodes)).getD dim []).getLastD {}) := by
    intro dim
    rw [List.getD_eq_getElem?_getD, List.getElem?_map]
    by_cases hdim : dim < data.numLoadDimensions
    · rw [List.getElem?_range hdim]
      obtain ⟨x, k1, k2⟩ := scanNodes_getLastD (SRoute.loadBeforeStep data v dim) ({} : LoadSeg) rest n
        (SRoute.loadAtOf data v dim n)
      have k3 := (lb dim).2 _ _ k1
      rw [Nat.zero_add, ← hlen, hXd] at k3
      change LBd X ((SRoute.loadBefores data v dim r.nodes).getLastD {})
      rw [hn]
      unfold SRoute.loadBefores
      dsimp only
      rw [k2]
      exact k3
    · rw [List.getElem?_eq_none (by rw [List.length_range]; omega)]
      exact LBd.zero (by omega)
  have hex := fun dim => excessLoad_eq (hlast dim) (hcap dim).1 (by omega) (hcap dim).2
  have e9 := each_eq (f := fun dim => excessLoad ((((List.range data.numLoadDimensions).map
      (fun dim => SRoute.loadBefores data v dim r.nodes)).getD dim []).getLastD {}) (v.capacity.getD dim 0))
    (g := fun dim => ((((List.range data.numLoadDimensions).map
      (fun dim => SRoute.loadBefores data v dim r.nodes)).getD dim []).getLastD {}).excessLoad
        (v.capacity.getD dim 0)) (l := List.range data.numLoadDimensions) (fun dim _ => (hex dim).1)
  -- costs
  obtain ⟨u1, u2, u3⟩ := duration_eq hfirst (by omega)
  obtain ⟨w1, w2, w3⟩ := timeWarp_eq hfirst hv.maxDuration (by omega)
  have hmd := hv.maxDistance
  have hsd := hv.shift
  have c1 := unit_cost hv.unitDistance (x := dl) (y := X) (by omega)
  have c2 := unit_cost hv.unitDuration (x := ((SRoute.durAfters data v r.nodes).headD {}).duration)
    (y := 7 * X) (by omega)
  have c3 := unit_cost hv.unitOvertime
    (x := max (((SRoute.durAfters data v r.nodes).headD {}).duration - v.shiftDuration) 0)
    (y := 7 * X) (by omega)
  have hM7 : M * (7 * X) = 7 * (M * X) := Int.mul_left_comm M 7 X
  rw [hM7] at c2 c3
  constructor
  · unfold update SRoute.update
    dsimp only
    rw [hvd]
    simp only [e1, e2, e3, e4, e5, e6, e7, e8, e9, Option.bind_eq_bind, Option.bind_some, dlast, u1, w1]
    simp (disch := omega) only [add_eq, sub_eq, mul_eq, Option.bind_some]
  · unfold SRoute.update
    dsimp only
    rw [hvd]
    constructor <;> dsimp only
    · exact hcl
    · rw [hn]
      unfold SRoute.cumDists
      cases rest <;> rfl
    · intro i j x y hij hx hy
      rw [hn] at hx hy
      exact scanNodes_steps hg h0 rest n 0 i j x y hij hx hy
    · intro i
      exact getD_of_forall (P := fun s => Bd B (2 * B) 0 s) (fun s hs => by
        obtain ⟨k, -, rfl⟩ := List.mem_map.1 hs
        exact (hat k).2.1) (by constructor <;> dsimp only <;> omega) i
    · intro i hi
      have hl : i < (SRoute.durBefores data v r.nodes).length := by
        rw [hn]; unfold SRoute.durBefores; rw [scanNodes_length]; omega
      have := getD_some hl ({} : DurSeg)
      generalize (SRoute.durBefores data v r.nodes).getD i {} = s at this ⊢
      rw [hn] at this
      have := b1.2 i s this
      rw [Nat.zero_add] at this
      exact this
    · intro i hi
      exact a1.2 i _ (getD_some (by rw [← hal] at hi; exact hi) ({} : DurSeg))
    · intro dim i
      refine getD_of_forall (P := fun s => LBd B s) (fun s hs => ?_) (LBd.zero h0) i
      have : ∀ s ∈ (((List.range data.numLoadDimensions).map
          (fun dim => r.nodes.map (SRoute.loadAtOf data v dim))).getD dim []), LBd B s :=
        getD_of_forall (P := fun l => ∀ s ∈ l, LBd B s) (fun l hl => by
          obtain ⟨k, -, rfl⟩ := List.mem_map.1 hl
          intro s hs
          obtain ⟨a, -, rfl⟩ := List.mem_map.1 hs
          exact (hlat k a).2) (fun s hs => by cases hs) dim
      exact this s hs
    · intro dim i
      have : ∀ l : List LoadSeg, (∀ (j : Nat) x, l[j]? = some x → LBd (B * ((j + 1 : Nat) : Int)) x) →
          LBd (B * ((i + 1 : Nat) : Int)) (l.getD i {}) := by
        intro l hl
        by_cases hi : i < l.length
        · exact hl i _ (getD_some hi ({} : LoadSeg))
        · rw [List.getD_eq_getElem?_getD, List.getElem?_eq_none (by omega)]
          exact LBd.zero (Int.mul_nonneg h0 (Int.natCast_nonneg _))
      refine this _ ?_
      refine getD_of_forall (P := fun l => ∀ (j : Nat) x, l[j]? = some x → LBd (B * ((j + 1 : Nat) : Int)) x)
        (fun l hl => ?_) (fun j x hx => by cases hx) dim
      obtain ⟨k, -, rfl⟩ := List.mem_map.1 hl
      intro j x hx
      rw [hn] at hx
      have := (lb k).2 j x hx
      rw [Nat.zero_add] at this
      exact this
    · intro dim i
      have : ∀ l : List LoadSeg, (∀ (j : Nat) x, l[j]? = some x → LBd (B * ((r.nodes.length - j : Nat) : Int)) x) →
          LBd (B * ((r.nodes.length - i : Nat) : Int)) (l.getD i {}) := by
        intro l hl
        by_cases hi : i < l.length
        · exact hl i _ (getD_some hi ({} : LoadSeg))
        · rw [List.getD_eq_getElem?_getD, List.getElem?_eq_none (by omega)]
          exact LBd.zero (Int.mul_nonneg h0 (Int.natCast_nonneg _))
      refine this _ ?_
      refine getD_of_forall (P := fun l => ∀ (j : Nat) x, l[j]? = some x →
        LBd (B * ((r.nodes.length - j : Nat) : Int)) x) (fun l hl => ?_) (fun j x hx => by cases hx) dim
      obtain ⟨k, -, rfl⟩ := List.mem_map.1 hl
      exact (la k).2
    · rw [dlast, hXd]; exact c1
    · rw [dlast, hXd]; omega
    · rw [hXd]; omega
    · rw [hXd]; exact ⟨w2, by omega⟩
    · rw [List.length_map, List.length_range]
    · intro x hx
      obtain ⟨dim, -, rfl⟩ := List.mem_map.1 hx
      rw [hXd]
      exact (hex dim).2

end PyVRP.I64
