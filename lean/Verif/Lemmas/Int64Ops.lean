import Verif.Lemmas.Int64Move
import Verif.Model.Int64Operators
/-!
# The operators on 64-bit integers: segments, proposals and costs

If an operator passes its assertions, and the numbers are small, then it does not overflow.
-/
namespace PyVRP.Checked64
open Checked
open I64 (DataBd VehBd PenBd UpdBd SegBd FirstBd PropBd)

/-! ## Refinement -/

/-- If `a` has a value, then so has `b`, and the values are related. -/
def Ref {α β : Type} (P : α → β → Prop) (a : Option α) (b : Option β) : Prop :=
  ∀ x, a = some x → ∃ y, b = some y ∧ P x y

/-- The same value, for which `P` holds. -/
def Same {α : Type} (P : α → Prop) (x y : α) : Prop := x = y ∧ P x

namespace Ref

variable {α β γ δ : Type} {P : α → β → Prop} {Q : γ → δ → Prop}

theorem bind {a : Option α} {b : Option β} {f : α → Option γ} {g : β → Option δ} (h : Ref P a b)
    (hf : ∀ x y, P x y → Ref Q (f x) (g y)) : Ref Q (a >>= f) (b >>= g) := by
  intro z hz
  cases a with
  | none => cases hz
  | some x =>
    obtain ⟨y, rfl, hxy⟩ := h x rfl
    exact hf x y hxy z hz

theorem same {a : Option α} {f : α → Option γ} {g : α → Option δ}
    (hf : ∀ x, a = some x → Ref Q (f x) (g x)) : Ref Q (a >>= f) (a >>= g) := by
  intro z hz
  cases a with
  | none => cases hz
  | some x => exact hf x rfl z hz

theorem bindSame {P : α → Prop} {a b : Option α} {f : α → Option γ} {g : α → Option δ}
    (h : Ref (Same P) a b) (hf : ∀ x, P x → Ref Q (f x) (g x)) : Ref Q (a >>= f) (b >>= g) :=
  bind h (fun x y e => by obtain ⟨rfl, e⟩ := e; exact hf x e)

theorem bindEq {a b : Option α} {f : α → Option γ} {g : α → Option δ}
    (h : Ref Eq a b) (hf : ∀ x, Ref Q (f x) (g x)) : Ref Q (a >>= f) (b >>= g) :=
  bind h (fun x y e => by subst e; exact hf x)

/-- A computation that only the second one makes. -/
theorem skip {a : Option γ} {b : Option β} {g : β → Option δ} {y : β} (hb : b = some y)
    (h : Ref Q a (g y)) : Ref Q a (b >>= g) := by rw [hb]; exact h

theorem ret {x : γ} {y : δ} (h : Q x y) : Ref Q (pure x) (pure y) := by
  intro z hz
  cases hz
  exact ⟨y, rfl, h⟩

theorem pureBind {x : α} {y : β} {f : α → Option γ} {g : β → Option δ} (h : Ref Q (f x) (g y)) :
    Ref Q (pure x >>= f) (pure y >>= g) := h

theorem some {x : γ} {y : δ} (h : Q x y) : Ref Q (some x) (some y) := ret h

theorem none {b : Option δ} : Ref Q none b := fun _ h => by cases h

theorem ite {c : Prop} [Decidable c] {a a' : Option γ} {b b' : Option δ} (h : c → Ref Q a b)
    (h' : ¬ c → Ref Q a' b') : Ref Q (if c then a else a') (if c then b else b') := by
  split
  · exact h ‹_›
  · exact h' ‹_›

theorem mono {a : Option γ} {b : Option δ} {Q' : γ → δ → Prop} (h : Ref Q a b)
    (hq : ∀ x y, Q x y → Q' x y) : Ref Q' a b := fun x hx =>
  let ⟨y, h1, h2⟩ := h x hx
  ⟨y, h1, hq x y h2⟩

theorem map {a : Option α} {b : Option β} {f : α → γ} {g : β → δ} (h : Ref P a b)
    (hf : ∀ x y, P x y → Q (f x) (g y)) : Ref Q (a.map f) (b.map g) := by
  intro z hz
  cases a with
  | none => cases hz
  | some x =>
    obtain ⟨y, rfl, hxy⟩ := h x rfl
    cases hz
    exact ⟨_, rfl, hf x y hxy⟩

end Ref

/-! ## Bounds -/

/-- The numbers are small: `K` bounds what an evaluation adds. -/
structure Env (data : ProblemData) (ce : CostEvaluator) (B M : Int) (N : Nat) (K : Int) : Prop where
  small : DataBd data B
  veh : ∀ vt, vt < data.numVehicleTypes → VehBd (data.vehicleType vt) B M
  dims : ∀ vt, vt < data.numVehicleTypes → (data.vehicleType vt).capacity.length = data.numLoadDimensions
  unit : 1 ≤ M
  pen : PenBd ce M data.numLoadDimensions
  size : 1 ≤ N
  bound : K = 2 * (M * (B * (5 * N : Nat))) * data.numLoadDimensions + 100 * (M * (B * (5 * N : Nat)))
  room : 4 * K ≤ MAX

/-- A route whose statistics are bounded. -/
structure RBd (data : ProblemData) (B M : Int) (N : Nat) (r : SRoute) : Prop where
  upd : UpdBd data B M r
  size : r.nodes.length ≤ N
  type : r.vehicleType < data.numVehicleTypes

/-- A segment that is not the first one. -/
structure SegR (B : Int) (N : Nat) (c : CSeg) (w : WSeg) : Prop where
  base : w.base = c
  plain : w.wide.plain = c.seg
  bd : SegBd B w.wide
  one : 1 ≤ c.seg.size
  size : c.seg.size ≤ N

/-- The first segment. -/
structure FirstR (data : ProblemData) (B M : Int) (N : Nat) (c : CSeg) (w : WSeg) : Prop where
  base : w.base = c
  plain : w.wide.plain = c.seg
  bd : FirstBd B w.wide
  size : c.seg.size ≤ N
  route : ∀ r, c.route = some r → RBd data B M N r

/-- A proposal. -/
structure PropR (data : ProblemData) (B M : Int) (N : Nat) (p : CProp) (w : WProp) : Prop where
  base : w.base = p
  plain : w.wide.plain = p.prop
  bd : PropBd B (B * (5 * N : Nat)) w.wide
  route : RBd data B M N w.wide.route

variable {data : ProblemData} {ce : CostEvaluator} {B M : Int} {N : Nat} {K : Int}

namespace Env

variable (h : Env data ce B M N K)
include h

theorem le : 0 ≤ B ∧ B ≤ B * (5 * N : Nat) ∧ B * (5 * N : Nat) ≤ M * (B * (5 * N : Nat))
    ∧ 0 ≤ 2 * (M * (B * (5 * N : Nat))) * (data.numLoadDimensions : Int)
    ∧ 100 * (M * (B * (5 * N : Nat))) ≤ K ∧ 400 * (M * (B * (5 * N : Nat))) ≤ MAX
    ∧ 4 * K ≤ MAX ∧ B ≤ K ∧ 0 ≤ K := by
  have h0 := h.small.nonneg
  have h1 := h.size
  have hb := h.bound
  have hr := h.room
  have h2 : B * 1 ≤ B * ((5 * N : Nat) : Int) := Int.mul_le_mul_of_nonneg_left (by omega) h0
  have h3 := Int.mul_le_mul_of_nonneg_right h.unit (show 0 ≤ B * ((5 * N : Nat) : Int) by omega)
  have h4 : 0 ≤ 2 * (M * (B * (5 * N : Nat))) * (data.numLoadDimensions : Int) :=
    Int.mul_nonneg (by omega) (Int.natCast_nonneg _)
  generalize 2 * (M * (B * (5 * N : Nat))) * (data.numLoadDimensions : Int) = y at *
  generalize M * (B * ((5 * N : Nat) : Int)) = x at *
  omega

theorem route_le {r : SRoute} (hr : RBd data B M N r) :
    B * (r.nodes.length : Int) ≤ B * (5 * N : Nat) := by
  have := hr.size
  exact Int.mul_le_mul_of_nonneg_left (by omega) h.small.nonneg

theorem half : 10 * (B * (5 * N : Nat)) ≤ HALF ∧ B * (5 * N : Nat) ≤ MAX ∧ B ≤ HALF := by
  have hm := MAX_eq
  have hh := HALF_eq
  have := h.le
  omega

omit h in
theorem before (_h : Env data ce B M N K) {r : SRoute} (hr : RBd data B M N r) (e : Nat) :
    Ref (FirstR data B M N) (Checked.before data r e) (Checked64.before data r e) := by
  intro c hc
  unfold Checked64.before
  rw [hc]
  unfold Checked.before at hc
  cases h1 : Checked.fresh data r with
  | none => rw [h1] at hc; cases hc
  | some =>
    rw [h1] at hc
    by_cases h2 : e < r.size
    · unfold Checked.ensure at hc
      rw [if_pos h2] at hc
      cases hc
      have hs := hr.size
      have h2' : e < r.nodes.length := h2
      refine ⟨_, rfl, rfl, rfl, I64.before_bd hr.upd h2, ?_, fun r' h' => by cases h'; exact hr⟩
      change e + 1 ≤ N
      omega
    · unfold Checked.ensure at hc
      rw [if_neg h2] at hc
      cases hc

theorem after {r : SRoute} (hr : RBd data B M N r) (e : Nat) :
    Ref (SegR B N) (Checked.after data r e) (Checked64.after data r e) := by
  intro c hc
  unfold Checked64.after
  rw [hc]
  unfold Checked.after at hc
  cases h1 : Checked.fresh data r with
  | none => rw [h1] at hc; cases hc
  | some =>
    rw [h1] at hc
    by_cases h2 : e < r.size
    · unfold Checked.ensure at hc
      rw [if_pos h2] at hc
      cases hc
      have hs := hr.size
      have h2' : e < r.nodes.length := h2
      have := h.route_le hr
      have := h.half
      refine ⟨_, rfl, rfl, rfl, I64.after_bd h.small.nonneg hr.upd h2 (by omega), ?_, ?_⟩
      · change 1 ≤ r.nodes.length - e
        omega
      · change r.nodes.length - e ≤ N
        omega
    · unfold Checked.ensure at hc
      rw [if_neg h2] at hc
      cases hc

theorem between {r : SRoute} (hr : RBd data B M N r) (a e : Nat) :
    Ref (SegR B N) (Checked.between data r a e) (Checked64.between data r a e) := by
  intro c hc
  unfold Checked64.between
  rw [hc]
  unfold Checked.between at hc
  cases h1 : Checked.fresh data r with
  | none => rw [h1] at hc; cases hc
  | some =>
    rw [h1] at hc
    by_cases h2 : a ≤ e ∧ e < r.size
    · unfold Checked.ensure at hc
      rw [if_pos h2] at hc
      cases h3 : Checked.minus (r.node e).trip (r.node a).trip with
      | none => rw [h3] at hc; cases hc
      | some d =>
        rw [h3] at hc
        by_cases h4 : d ≤ SRoute.one (r.node e).isDepot
        · dsimp only [Option.bind_eq_bind, Option.bind_some] at hc
          rw [if_pos h4] at hc
          cases hc
          have hs := hr.size
          have h2' : e < r.nodes.length := h2.2
          have := h.route_le hr
          have := h.half
          refine ⟨_, rfl, rfl, rfl, I64.between_bd h.small hr.upd h2.1 h2.2 (by omega), ?_, ?_⟩
          · change 1 ≤ e - a + 1
            omega
          · change e - a + 1 ≤ N
            omega
        · dsimp only [Option.bind_eq_bind, Option.bind_some] at hc
          rw [if_neg h4] at hc
          cases hc
    · unfold Checked.ensure at hc
      rw [if_neg h2] at hc
      cases hc

theorem «at» {r : SRoute} (hr : RBd data B M N r) (a : Nat) :
    Ref (SegR B N) (Checked.at data r a) (Checked64.at data r a) := h.between hr a a

theorem client (i : Nat) : Ref (SegR B N) (Checked.clientSeg data i) (Checked64.clientSeg data i) := by
  intro c hc
  unfold Checked64.clientSeg
  rw [hc]
  unfold Checked.clientSeg at hc
  cases h1 : Checked.client data i with
  | none => rw [h1] at hc; cases hc
  | some => rw [h1] at hc; cases hc; exact ⟨_, rfl, rfl, rfl, I64.client_bd h.small h.half.2.2 i, Nat.le_refl 1, h.size⟩

theorem depot (i : Nat) : Ref (SegR B N) (Checked.depotSeg data i) (Checked64.depotSeg data i) := by
  intro c hc
  unfold Checked64.depotSeg
  rw [hc]
  unfold Checked.depotSeg at hc
  cases h1 : Checked.depot data i with
  | none => rw [h1] at hc; cases hc
  | some => rw [h1] at hc; cases hc; exact ⟨_, rfl, rfl, rfl, I64.depot_bd h.small i, Nat.le_refl 1, h.size⟩

theorem pickup (i : Nat) : Ref (SegR B N) (Checked.pickupSeg data i) (Checked64.pickupSeg data i) := by
  intro c hc
  unfold Checked64.pickupSeg
  rw [hc]
  unfold Checked.pickupSeg at hc
  cases h1 : Checked.shipment data i with
  | none => rw [h1] at hc; cases hc
  | some => rw [h1] at hc; cases hc; exact ⟨_, rfl, rfl, rfl, I64.pickup_bd h.small h.half.2.2 i, Nat.le_refl 1, h.size⟩

theorem delivery (i : Nat) : Ref (SegR B N) (Checked.deliverySeg data i) (Checked64.deliverySeg data i) := by
  intro c hc
  unfold Checked64.deliverySeg
  rw [hc]
  unfold Checked.deliverySeg at hc
  cases h1 : Checked.shipment data i with
  | none => rw [h1] at hc; cases hc
  | some => rw [h1] at hc; cases hc; exact ⟨_, rfl, rfl, rfl, I64.delivery_bd h.small h.half.2.2 i, Nat.le_refl 1, h.size⟩

end Env

/-- The segments after the first. -/
inductive SegsR (B : Int) (N : Nat) : List CSeg → List WSeg → Prop where
  | nil : SegsR B N [] []
  | cons {c : CSeg} {w : WSeg} {cs : List CSeg} {ws : List WSeg} (h : SegR B N c w) (t : SegsR B N cs ws) :
    SegsR B N (c :: cs) (w :: ws)

theorem SegsR.facts {cs : List CSeg} {ws : List WSeg} (h : SegsR B N cs ws) :
    ws.map (·.base) = cs ∧ (ws.map (·.wide)).map (·.plain) = cs.map (·.seg)
    ∧ (∀ c ∈ ws.map (·.wide), SegBd B c ∧ 1 ≤ c.plain.size)
    ∧ I64.segSizes (ws.map (·.wide)) ≤ N * cs.length := by
  induction h with
  | nil => exact ⟨rfl, rfl, (fun c hc => absurd hc List.not_mem_nil), Nat.le_refl 0⟩
  | cons h t ih =>
    obtain ⟨h1, h2, h3, h4⟩ := ih
    refine ⟨by rw [List.map_cons, h1, h.base],
      by rw [List.map_cons, List.map_cons, List.map_cons, h2, h.plain], ?_, ?_⟩
    · intro c hc
      rcases List.mem_cons.1 hc with rfl | hc
      · exact ⟨h.bd, by rw [h.plain]; exact h.one⟩
      · exact h3 c hc
    · have := h.size
      rw [List.map_cons, I64.segSizes_cons, List.length_cons, Nat.mul_succ, h.plain]
      omega

theorem propose_route {c : CSeg} {cs : List CSeg} {p : CProp} (h : Checked.propose c cs = some p) :
    c.route = some p.prop.route ∧ p.prop = ⟨p.prop.route, c.seg, cs.map (·.seg)⟩ := by
  unfold Checked.propose at h
  simp only [Option.bind_eq_bind, Option.bind_eq_some_iff] at h
  obtain ⟨-, -, -, -, r, hr, -, -, -, -, -, -, -, -, -, -, h⟩ := h
  cases h
  exact ⟨hr, rfl⟩

namespace Env

variable (h : Env data ce B M N K)
include h

theorem propose {c : CSeg} {w : WSeg} {cs : List CSeg} {ws : List WSeg} (h1 : FirstR data B M N c w)
    (h2 : SegsR B N cs ws) (h3 : cs ≠ []) (h4 : cs.length ≤ 4) :
    Ref (PropR data B M N) (Checked.propose c cs) (Checked64.propose w ws) := by
  intro p hp
  obtain ⟨f1, f2, f3, f4⟩ := h2.facts
  obtain ⟨p1, p2⟩ := propose_route hp
  unfold Checked64.propose
  rw [h1.base, f1, hp]
  refine ⟨_, rfl, rfl, ?_, ?_, h1.route _ p1⟩
  · unfold I64.Proposal.plain
    dsimp only
    rw [h1.plain, f2, ← p2]
  · have hs := h1.size
    have h0 := h.small.nonneg
    refine ⟨h1.bd, f3, ?_, ?_, h.le.2.1⟩
    · intro he
      dsimp only at he
      rw [List.map_eq_nil_iff] at he
      subst he
      cases h2
      exact h3 rfl
    · have : N * cs.length ≤ N * 4 := Nat.mul_le_mul_left N h4
      refine Int.mul_le_mul_of_nonneg_left ?_ h0
      dsimp only
      rw [I64.segSizes_cons, h1.plain]
      omega

theorem penalised {r : SRoute} (hr : RBd data B M N r) :
    Ref (Same fun x => -K ≤ x ∧ x ≤ K) (Checked.penalisedCost data ce r)
      (Checked64.penalisedCost data ce r) := by
  intro x hx
  unfold Checked64.penalisedCost
  rw [hx]
  have hb := h.bound
  obtain ⟨l1, l2, l3, l4, l5, l6, l7, l8, l9⟩ := h.le
  have hx' : x = ce.penalisedCostSearch data r := by
    unfold Checked.penalisedCost at hx
    simp only [Option.bind_eq_bind, Option.bind_eq_some_iff] at hx
    obtain ⟨-, -, -, -, -, -, hx⟩ := hx
    cases hx
    rfl
  obtain ⟨q1, q2, q3⟩ := I64.penalisedCostSearch_eq h.unit l1 l2 h.pen hr.upd (h.route_le hr)
    (h.veh _ hr.type) (by omega)
  subst hx'
  exact ⟨_, q1, rfl, by omega, by omega⟩

theorem delta {p : CProp} {w : WProp} (hp : PropR data B M N p w) (exact : Bool) {out : Int}
    (h1 : -(3 * K) ≤ out) (h2 : out ≤ 3 * K) :
    Ref (Same fun x => out - K ≤ x ∧ x ≤ out + K) (Checked.deltaCost exact data ce out p)
      (Checked64.deltaCost exact data ce out w) := by
  intro x hx
  unfold Checked.deltaCost at hx
  simp only [Option.bind_eq_bind, Option.bind_eq_some_iff] at hx
  obtain ⟨_, hx, hx'⟩ := hx
  cases hx'
  have hb := h.bound
  obtain ⟨l1, l2, l3, l4, l5, l6, l7, l8, l9⟩ := h.le
  obtain ⟨q1, q2, q3⟩ := I64.deltaCost_eq (out := out) h.small hp.bd (h.veh _ hp.route.type) h.unit h.pen
    (h.dims _ hp.route.type) hp.route.upd (h.route_le hp.route) (by omega) (by omega) (by omega) exact
  rw [hp.plain] at q1 q2 q3
  unfold Checked64.deltaCost
  rw [hp.base, hx, q1]
  exact ⟨_, rfl, rfl, by omega, by omega⟩

theorem delta2 {p q : CProp} {w v : WProp} (hp : PropR data B M N p w) (hq : PropR data B M N q v)
    (exact : Bool) :
    Ref Eq (Checked.deltaCost2 exact data ce 0 p q) (Checked64.deltaCost2 exact data ce 0 w v) := by
  intro x hx
  unfold Checked.deltaCost2 at hx
  simp only [Option.bind_eq_bind, Option.bind_eq_some_iff] at hx
  obtain ⟨_, hx1, _, hx2, hx'⟩ := hx
  cases hx'
  have hb := h.bound
  obtain ⟨l1, l2, l3, l4, l5, l6, l7, l8, l9⟩ := h.le
  have q1 := I64.deltaCost2_eq (out := 0) h.small hp.bd hq.bd (h.veh _ hp.route.type)
    (h.veh _ hq.route.type) h.unit h.pen
    (h.dims _ hp.route.type) (h.dims _ hq.route.type) hp.route.upd (h.route_le hp.route)
    hq.route.upd (h.route_le hq.route) (by omega) (by omega) (by omega) exact
  rw [hp.plain, hq.plain] at q1
  unfold Checked64.deltaCost2
  rw [hp.base, hq.base, hx1, hx2, q1]
  exact ⟨_, rfl, rfl⟩

end Env

end PyVRP.Checked64
