import Verif.Lemmas.Int64Env
import Verif.Lemmas.CheckedInsert
import Verif.Model.Int64Run
/-!
# Inserting clients and shipments does not overflow
-/
namespace PyVRP.Checked64
open Spec Checked
open I64 (SegBd Bd LBd)
open SSol (ClientSpot ShipmentSpot)

variable {data : ProblemData} {ce : CostEvaluator} {B M : Int} {N : Nat} {K : Int}

/-! ## `IncrementalSegmentBetween` -/

/-- The segment between positions of a route is bounded. -/
structure IncBd (B : Int) (r : SRoute) (b : IncBetween) : Prop where
  order : b.start ≤ b.finish
  size : b.finish < r.nodes.length
  duration : Bd B (4 * B + 4 * (B * (b.finish - b.start : Nat))) 0 b.duration
  load : ∀ dim, LBd (B * (b.finish - b.start + 1 : Nat)) (b.loads.getD dim {})

theorem at_duration (data : ProblemData) (r : SRoute) (pos profile : Nat) :
    (I64.between data r pos pos).duration profile = some (r.durAt.getD pos {})
    ∧ (r.between data pos pos).duration profile = r.durAt.getD pos {} := by
  constructor
  · simp [I64.between, I64.betweenDuration, I64.choose]
  · simp [SRoute.between, SRoute.betweenDuration]

theorem at_load (data : ProblemData) (r : SRoute) (pos dim : Nat) :
    (I64.between data r pos pos).load dim = some ((r.loadAt.getD dim []).getD pos {})
    ∧ (r.between data pos pos).load dim = (r.loadAt.getD dim []).getD pos {} := by
  constructor
  · simp [I64.between, I64.betweenLoad]
  · simp [SRoute.between, SRoute.betweenLoad]

theorem getD_range {f : Nat → LoadSeg} (n dim : Nat) :
    ((List.range n).map f).getD dim {} = if dim < n then f dim else {} := by
  rw [List.getD_eq_getElem?_getD, List.getElem?_map]
  split
  · rw [List.getElem?_range ‹_›]; rfl
  · rw [List.getElem?_eq_none (by rw [List.length_range]; omega)]; rfl

theorem lbd_empty {q : Int} (h : 0 ≤ q) : LBd q {} := by
  constructor <;> simp <;> omega

theorem incNew_ref (h : Env data ce B M N K) {r : SRoute} (hr : RBd data B M N r) (pos : Nat) :
    Ref (Same (IncBd B r)) (Checked.IncBetween.new data r pos) (IncBetween.new data r pos) := by
  intro b hb
  unfold IncBetween.new
  rw [hb]
  unfold Checked.IncBetween.new at hb
  simp only [Option.bind_eq_bind, Option.bind_eq_some_iff] at hb
  obtain ⟨c, hc, -, -, -, -, hb⟩ := hb
  cases hb
  have hp : pos < r.nodes.length := by
    unfold Checked.between Checked.ensure at hc
    simp only [Option.bind_eq_bind, Option.bind_eq_some_iff] at hc
    obtain ⟨_, _, _, hx, _⟩ := hc
    split at hx
    · exact (‹pos ≤ pos ∧ pos < r.size›).2
    · cases hx
  have h0 := h.small.nonneg
  simp only [Option.bind_eq_bind, Option.bind_some, (at_duration data r pos _).1]
  rw [mapM_eq (g := (r.between data pos pos).load)
    (fun dim _ => by rw [(at_load data r pos dim).1, (at_load data r pos dim).2])]
  refine ⟨_, rfl, ?_, ⟨Nat.le_refl _, hp, ?_, fun dim => ?_⟩⟩
  · show PyVRP.IncBetween.new data r pos = _
    unfold PyVRP.IncBetween.new
    dsimp only
    rw [(at_duration data r pos _).2]
  · show Bd B (4 * B + 4 * (B * (pos - pos : Nat))) 0
      ((r.between data pos pos).duration (data.vehicleType r.vehicleType).profile)
    rw [(at_duration data r pos _).2, Nat.sub_self]
    exact (hr.upd.durAt pos).mono (by omega) (by rw [show ((0 : Nat) : Int) = 0 from rfl, Int.mul_zero]; omega)
      (by omega)
  · show LBd (B * (pos - pos + 1 : Nat)) (((List.range _).map (r.between data pos pos).load).getD dim {})
    rw [getD_range, Nat.sub_self, Nat.zero_add, I64.one_size]
    split
    · rw [(at_load data r pos dim).2]; exact hr.upd.loadAt dim pos
    · exact lbd_empty h0

theorem incNext_ref (h : Env data ce B M N K) {r : SRoute} (hr : RBd data B M N r) {b : IncBetween}
    (hi : IncBd B r b) :
    Ref (Same (IncBd B r)) (Checked.IncBetween.next data r b) (IncBetween.next data r b) := by
  intro b' hb
  unfold IncBetween.next
  rw [hb]
  unfold Checked.IncBetween.next at hb
  simp only [Option.bind_eq_bind, Option.bind_eq_some_iff] at hb
  obtain ⟨_, _, _, _, n, hn, _, _, _, _, _, _, _, _, _, _, _, _, _, _, _, _, hb⟩ := hb
  cases hb
  have hp : b.finish + 1 < r.nodes.length := by
    unfold Checked.node at hn
    exact (List.getElem?_eq_some_iff.1 hn).1
  have h0 := h.small.nonneg
  have hord := hi.order
  have hsub : b.finish + 1 - b.start = (b.finish - b.start) + 1 := by omega
  have h1 := I64.mul_succ' B (b.finish - b.start)
  have h1' := I64.mul_succ' B (b.finish - b.start + 1)
  have hle : B * ((b.finish - b.start + 1 + 1 : Nat) : Int) ≤ B * r.nodes.length :=
    Int.mul_le_mul_of_nonneg_left (by omega) h0
  have hle0 : 0 ≤ B * ((b.finish - b.start : Nat) : Int) := Int.mul_nonneg h0 (Int.natCast_nonneg _)
  have hrl := h.route_le hr
  have hhalf := h.half
  have hm := MAX_eq
  have hh := HALF_eq
  have hd := h.small.dur (profile data r) (r.locations.getD b.finish 0)
    (I64.between data r (b.finish + 1) (b.finish + 1)).plain.frontLoc
  have ha := hr.upd.durAt (b.finish + 1)
  simp only [Option.bind_eq_bind, Option.bind_some, (at_duration data r (b.finish + 1) _).1,
    (at_load data r (b.finish + 1) _).1]
  have hme : I64.merge (data.dur (profile data r) (r.locations.getD b.finish 0)
      (I64.between data r (b.finish + 1) (b.finish + 1)).plain.frontLoc) b.duration
      (r.durAt.getD (b.finish + 1) {}) = some _ := I64.merge_eq hi.duration ha hd.1 (by omega)
  rw [hme, Option.bind_some, mapM_eq (g := fun dim => LoadSeg.merge (b.loads.getD dim {})
      ((r.between data (b.finish + 1) (b.finish + 1)).load dim))]
  · refine ⟨_, rfl, ?_, ⟨by show b.start ≤ b.finish + 1; omega, hp, ?_, fun dim => ?_⟩⟩
    · show b.next data r = _
      unfold PyVRP.IncBetween.next SRoute.at
      dsimp only
      rw [(at_duration data r (b.finish + 1) _).2]
      rfl
    · show Bd B (4 * B + 4 * (B * (b.finish + 1 - b.start : Nat))) 0 (DurSeg.merge
        (data.dur (data.vehicleType r.vehicleType).profile (r.locations.getD b.finish 0)
          (r.between data (b.finish + 1) (b.finish + 1)).frontLoc) b.duration
        ((r.between data (b.finish + 1) (b.finish + 1)).duration (data.vehicleType r.vehicleType).profile))
      rw [(at_duration data r (b.finish + 1) _).2, hsub]
      have hp := hi.duration.dur
      exact (Bd.merge (a := B) hi.duration ha hd.1 (by omega) (by omega) (by omega)).mono (by omega)
        (by omega) (by omega)
    · show LBd (B * (b.finish + 1 - b.start + 1 : Nat)) (((List.range _).map (fun dim => LoadSeg.merge
        (b.loads.getD dim {}) ((r.between data (b.finish + 1) (b.finish + 1)).load dim))).getD dim {})
      rw [getD_range, hsub]
      split
      · rw [(at_load data r (b.finish + 1) dim).2]
        exact (I64.mergeLoad_eq (hi.load dim) (hr.upd.loadAt dim (b.finish + 1)) (by omega)).2.mono (by omega)
      · exact lbd_empty (by omega)
  · intro dim _
    rw [(at_load data r (b.finish + 1) dim).2]
    exact (I64.mergeLoad_eq (hi.load dim) (hr.upd.loadAt dim (b.finish + 1)) (by omega)).1

theorem incSeg (h : Env data ce B M N K) {r : SRoute} (hr : RBd data B M N r) {b : IncBetween}
    (hi : IncBd B r b) : SegR B N (Checked.IncBetween.seg data r b) (IncBetween.seg data r b) := by
  have h0 := h.small.nonneg
  have hrl := h.route_le hr
  have hhalf := h.half
  have hs := hr.size
  have hsz := hi.size
  have h1 := I64.mul_succ' B (b.finish - b.start)
  have hle0 : 0 ≤ B * ((b.finish - b.start : Nat) : Int) := Int.mul_nonneg h0 (Int.natCast_nonneg _)
  have hb := I64.between_bd h.small hr.upd hi.order hi.size (by omega)
  refine ⟨rfl, rfl, ⟨hb.distance, fun profile => ⟨rfl, ?_⟩, fun dim => ⟨rfl, ?_⟩⟩, ?_, ?_⟩
  · refine hi.duration.mono (by omega) ?_ (by omega)
    show _ ≤ 6 * (B * ((b.finish - b.start + 1 : Nat) : Int))
    omega
  · exact hi.load dim
  · show 1 ≤ b.finish - b.start + 1
    omega
  · show b.finish - b.start + 1 ≤ N
    omega

/-! ## Clients -/

section
variable (h : Env data ce B M N K) {s : SSol} (hs : SolBd data B M N s)
include h hs

theorem insertCost_ref (c : Nat) (at_ : Nat × Nat) :
    Ref Eq (Checked.insertCost data ce s c at_) (insertCost data ce s c at_) := by
  have hk := h.le
  have hm := MAX_eq
  unfold Checked.insertCost insertCost
  refine Ref.same (fun r hr => Ref.same (fun cl hcl => ?_))
  have kr := hs _ _ hr
  have hp := h.clientPrize hcl
  walk_step h
  walk_step h
  walk_step h
  walk_step h
  refine Ref.skip (I64.neg_eq (by omega)) ?_
  walk h

theorem clientNeighbours_ref (c : Nat) : ∀ (ns : List Activity) (best : ClientSpot),
    Ref Eq (Checked.clientNeighbours data ce s c ns best) (clientNeighbours data ce s c ns best)
  | [], _ => Ref.some rfl
  | v :: rest, best => by
    unfold Checked.clientNeighbours clientNeighbours
    refine Ref.same (fun _ _ => ?_)
    cases s.place v with
    | none => exact clientNeighbours_ref c rest best
    | some p => exact Ref.bindEq (insertCost_ref h hs c p) (fun _ => clientNeighbours_ref c rest _)

theorem clientEmpty_ref (c : Nat) : ∀ (order : List (Nat × Nat)) (best : ClientSpot),
    Ref Eq (Checked.clientEmpty data ce s c order best) (clientEmpty data ce s c order best)
  | [], _ => Ref.some rfl
  | (t, off) :: rest, best => by
    unfold Checked.clientEmpty clientEmpty
    refine Ref.same (fun x _ => ?_)
    cases x with
    | none => exact clientEmpty_ref c rest best
    | some i =>
      exact Ref.bindEq (insertCost_ref h hs c (i, 0)) (fun _ =>
        Ref.ite (fun _ => Ref.ret rfl) (fun _ => clientEmpty_ref c rest best))

theorem insertClient_ref (space : SearchSpace) (c : Nat) (required : Bool) :
    Ref Eq (Checked.insertClient data ce space s c required) (insertClient data ce space s c required) := by
  unfold Checked.insertClient insertClient
  refine Ref.same (fun _ _ => Ref.same (fun r _ => Ref.same (fun _ _ => ?_)))
  refine Ref.bindEq (insertCost_ref h hs c (0, 0)) (fun cost => ?_)
  cases space.neighboursOf ⟨.client, c⟩ with
  | error e => exact Ref.ret rfl
  | ok ns =>
    refine Ref.bindEq (clientNeighbours_ref h hs c ns _) (fun best => ?_)
    refine Ref.bindEq (clientEmpty_ref h hs c _ best) (fun best => ?_)
    refine Ref.ite (fun _ => Ref.same (fun x _ => ?_)) (fun _ => Ref.ret rfl)
    cases x <;> exact Ref.ret rfl

/-! ## Shipments -/

theorem shipmentDirect_ref (k i pos : Nat) :
    Ref Eq (Checked.shipmentDirect data ce s k i pos) (shipmentDirect data ce s k i pos) := by
  have hk := h.le
  have hm := MAX_eq
  unfold Checked.shipmentDirect shipmentDirect
  refine Ref.same (fun r hr => Ref.same (fun sh hsh => ?_))
  have kr := hs _ _ hr
  have hp := h.shipmentPrize hsh
  walk_step h
  walk_step h
  walk_step h
  walk_step h
  walk_step h
  refine Ref.skip (I64.neg_eq (by omega)) ?_
  walk h

theorem shipmentLater_ref (k i pos : Nat) {r : SRoute} (hr : Checked.route s i = some r) :
    ∀ (nodes : List SNode) (next : Nat) (b : IncBetween) (best : ShipmentSpot), IncBd B r b →
    Ref Eq (Checked.shipmentLater data ce s k i pos nodes next b best)
      (shipmentLater data ce s k i pos nodes next b best)
  | [], _, _, _, _ => Ref.none
  | n :: nodes, next, b, best, hb => by
    have hk := h.le
    have hm := MAX_eq
    have kr := hs _ _ hr
    unfold Checked.shipmentLater shipmentLater
    refine Ref.ite (fun _ => Ref.ret rfl) (fun _ => ?_)
    refine Ref.same (fun r' hr' => Ref.same (fun sh hsh => ?_))
    rw [hr] at hr'
    cases hr'
    have hp := h.shipmentPrize hsh
    have hseg := incSeg h kr hb
    walk_step h
    walk_step h
    walk_step h
    walk_step h
    walk_step h
    refine Ref.skip (I64.neg_eq (by omega)) ?_
    walk_step h
    exact Ref.bindSame (incNext_ref h kr hb) (fun b' hb' => shipmentLater_ref k i pos hr nodes _ b' _ hb')

theorem shipmentAfter_ref (k i pos : Nat) (best : ShipmentSpot) :
    Ref Eq (Checked.shipmentAfter data ce s k i pos best) (shipmentAfter data ce s k i pos best) := by
  unfold Checked.shipmentAfter shipmentAfter
  refine Ref.same (fun r hr => Ref.same (fun _ _ => ?_))
  refine Ref.bindEq (shipmentDirect_ref h hs k i pos) (fun _ => ?_)
  exact Ref.bindSame (incNew_ref h (hs _ _ hr) _) (fun b hb => shipmentLater_ref h hs k i pos hr _ _ b _ hb)

theorem shipmentNeighbours_ref (k : Nat) : ∀ (ns : List Activity) (best : ShipmentSpot),
    Ref Eq (Checked.shipmentNeighbours data ce s k ns best) (shipmentNeighbours data ce s k ns best)
  | [], _ => Ref.some rfl
  | v :: rest, best => by
    unfold Checked.shipmentNeighbours shipmentNeighbours
    refine Ref.same (fun _ _ => ?_)
    cases s.place v with
    | none => exact shipmentNeighbours_ref k rest best
    | some p =>
      exact Ref.same (fun _ _ => Ref.bindEq (shipmentAfter_ref h hs k _ _ _) (fun _ =>
        Ref.bindEq (shipmentAfter_ref h hs k _ _ _) (fun _ => shipmentNeighbours_ref k rest _)))

theorem shipmentEmpty_ref (k : Nat) : ∀ (order : List (Nat × Nat)) (best : ShipmentSpot),
    Ref Eq (Checked.shipmentEmpty data ce s k order best) (shipmentEmpty data ce s k order best)
  | [], _ => Ref.some rfl
  | (t, off) :: rest, best => by
    unfold Checked.shipmentEmpty shipmentEmpty
    refine Ref.same (fun x _ => ?_)
    cases x with
    | none => exact shipmentEmpty_ref k rest best
    | some i =>
      exact Ref.bindEq (shipmentDirect_ref h hs k i 0) (fun _ =>
        Ref.ite (fun _ => Ref.ret rfl) (fun _ => shipmentEmpty_ref k rest best))

theorem insertShipment_ref (space : SearchSpace) (k : Nat) (required : Bool) :
    Ref Eq (Checked.insertShipment data ce space s k required)
      (insertShipment data ce space s k required) := by
  unfold Checked.insertShipment insertShipment
  refine Ref.same (fun _ _ => Ref.same (fun _ _ => Ref.same (fun _ _ => Ref.same (fun _ _ =>
    Ref.same (fun _ _ => ?_)))))
  cases space.neighboursOf ⟨.pickup, k⟩ with
  | error e => exact Ref.ret rfl
  | ok ns =>
    refine Ref.bindEq (shipmentNeighbours_ref h hs k ns _) (fun best => ?_)
    refine Ref.bindEq (shipmentEmpty_ref h hs k _ best) (fun best => ?_)
    refine Ref.ite (fun _ => Ref.same (fun _ _ => Ref.same (fun x _ => ?_))) (fun _ => Ref.ret rfl)
    cases x with
    | error e => exact Ref.ret rfl
    | ok s' =>
      refine Ref.same (fun x _ => ?_)
      cases x <;> exact Ref.ret rfl

end

theorem ref_eq {α : Type} {a b : Option α} {x : α} (h : Ref Eq a b) (ha : a = some x) : b = some x := by
  obtain ⟨y, hy, rfl⟩ := h x ha
  exact hy

end PyVRP.Checked64
