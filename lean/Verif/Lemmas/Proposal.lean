import Verif.Lemmas.SearchRoute
import Verif.Model.Proposal
/-!
# Segments and proposals
-/
namespace PyVRP
open Spec

/-- Elements at the same position are related. -/
inductive All2 {α β : Type} (R : α → β → Prop) : List α → List β → Prop where
  | nil : All2 R [] []
  | cons {a : α} {b : β} {as : List α} {bs : List β} : R a b → All2 R as bs →
    All2 R (a :: as) (b :: bs)

theorem All2.append {α β : Type} {R : α → β → Prop} {as as' : List α} {bs bs' : List β}
    (h : All2 R as bs) (h' : All2 R as' bs') : All2 R (as ++ as') (bs ++ bs') := by
  induction h with
  | nil => exact h'
  | cons h _ ih => exact .cons h ih

theorem All2.reverse {α β : Type} {R : α → β → Prop} {as : List α} {bs : List β}
    (h : All2 R as bs) : All2 R as.reverse bs.reverse := by
  induction h with
  | nil => exact .nil
  | cons h _ ih =>
    rw [List.reverse_cons, List.reverse_cons]
    exact ih.append (.cons h .nil)

theorem All2.map {α β β' : Type} {R : α → β → Prop} {R' : α → β' → Prop} {f : β → β'}
    {as : List α} {bs : List β} (h : All2 R as bs) (hf : ∀ a b, R a b → R' a (f b)) :
    All2 R' as (bs.map f) := by
  induction h with
  | nil => exact .nil
  | cons h _ ih => exact .cons (hf _ _ h) ih

/-! ## The loops of `Proposal` -/

/-- The body of the loop in `Proposal::duration` for the first segment. -/
def lastDur (data : ProblemData) (profile : Nat) (other : Seg) (ds : DurSeg) (loc : Nat) : DurSeg :=
  let edgeDur := data.dur profile other.backLoc loc
  let depot := data.depot other.backActivity.idx
  if other.endsAtReloadDepot then
    DurSeg.merge 0 (other.duration profile)
      (DurSeg.merge edgeDur (DurSeg.ofDepot depot depot.serviceDuration) ds).finaliseFront
  else DurSeg.merge edgeDur (other.duration profile) ds

/-- The body of the loop in `Proposal::duration` for the other segments. -/
def midDur (data : ProblemData) (profile : Nat) (other : Seg) (ds : DurSeg) (loc : Nat) : DurSeg :=
  if other.startsAtReloadDepot ∧ other.size > 1 then (lastDur data profile other ds loc).finaliseFront
  else lastDur data profile other ds loc

/-- The body of the loop in `Proposal::excessLoad` for all but the last segment. -/
def midLoad (cap : Int) (dim : Nat) (ls : LoadSeg) (other : Seg) : LoadSeg :=
  finIf cap (other.endsAtReloadDepot && decide (other.size > 1))
    (LoadSeg.merge (finIf cap other.startsAtReloadDepot ls) (other.load dim))

theorem durationLoop_concat (data : ProblemData) (profile : Nat) (first : Seg) (ms : List Seg)
    (ds : DurSeg) (loc : Nat) :
    Proposal.durationLoop data profile ds loc (ms ++ [first])
      = let st := ms.foldl (fun st m => (midDur data profile m st.1 st.2, m.frontLoc)) (ds, loc)
        lastDur data profile first st.1 st.2 := by
  induction ms generalizing ds loc with
  | nil =>
    simp only [List.nil_append, Proposal.durationLoop, List.foldl_nil]
    rw [if_neg (by simp)]
    rfl
  | cons m rest ih =>
    rw [List.cons_append, Proposal.durationLoop]
    dsimp only
    rw [ih, List.foldl_cons]
    have : midDur data profile m ds loc
        = if rest ++ [first] ≠ [] ∧ m.startsAtReloadDepot = true ∧ m.size > 1 then
            (lastDur data profile m ds loc).finaliseFront
          else lastDur data profile m ds loc := by
      simp [midDur]
    rw [this]
    rfl

theorem loadLoop_concat (cap : Int) (dim : Nat) (last : Seg) (ms : List Seg) (ls : LoadSeg) :
    Proposal.loadLoop cap dim ls (ms ++ [last])
      = LoadSeg.merge (finIf cap last.startsAtReloadDepot (ms.foldl (midLoad cap dim) ls))
          (last.load dim) := by
  induction ms generalizing ls with
  | nil =>
    simp only [List.nil_append, Proposal.loadLoop, List.foldl_nil]
    rw [if_neg (by simp)]
    rfl
  | cons m rest ih =>
    rw [List.cons_append, Proposal.loadLoop]
    rw [ih, List.foldl_cons]
    have : midLoad cap dim ls m
        = if rest ++ [last] ≠ [] ∧ m.endsAtReloadDepot = true ∧ m.size > 1 then
            (LoadSeg.merge (if m.startsAtReloadDepot then ls.finalise cap else ls) (m.load dim)).finalise cap
          else LoadSeg.merge (if m.startsAtReloadDepot then ls.finalise cap else ls) (m.load dim) := by
      simp [midLoad, finIf]
    rw [this]

/-! ## What a segment stands for -/

/-- The locations a segment goes through. -/
structure SegDist (data : ProblemData) (profile : Nat) (seg : Seg) (ls : List Nat) : Prop where
  ne : ls ≠ []
  front : seg.frontLoc = ls.headD 0
  back : seg.backLoc = ls.getLastD 0
  dist : seg.distance profile = legSum (data.dist profile) ls

theorem legSum_append (f : Nat → Nat → Int) (l : List Nat) (x : Nat) (m : List Nat) :
    legSum f (l ++ x :: m) = legSum f (l ++ [x]) + legSum f (x :: m) := by
  induction l with
  | nil => simp [legSum]
  | cons a rest ih =>
    cases rest with
    | nil =>
      cases m <;> simp [legSum]
    | cons b rest =>
      simp only [List.cons_append, legSum] at ih ⊢
      rw [ih]; omega

theorem legSum_join (f : Nat → Nat → Int) (x : Nat) (l m : List Nat) (hl : l ≠ []) :
    legSum f (x :: (l ++ m)) = f x (l.headD 0) + legSum f l + legSum f (l.getLastD 0 :: m) := by
  induction l generalizing x with
  | nil => exact absurd rfl hl
  | cons a rest ih =>
    cases rest with
    | nil => simp [legSum]
    | cons b rest =>
      rw [List.cons_append, legSum, ih a (by simp)]
      simp only [legSum, List.headD_cons, List.getLastD_cons]
      omega

theorem distanceLoop_eq (data : ProblemData) (profile : Nat) (segs : List Seg) (ls : List (List Nat))
    (h : All2 (SegDist data profile) segs ls) (acc : Int) (loc : Nat) :
    Proposal.distanceLoop data profile acc loc segs
      = acc + legSum (data.dist profile) (loc :: ls.flatten) := by
  induction h generalizing acc loc with
  | nil => simp [Proposal.distanceLoop, legSum]
  | @cons s l segs ls hs _ ih =>
    rw [Proposal.distanceLoop, ih, List.flatten_cons, legSum_join _ _ _ _ hs.ne, hs.front, hs.back,
      hs.dist]
    omega

/-- A segment in the middle of a proposal stands for `acts`. -/
structure Mid (data : ProblemData) (seg : Seg) (acts : List Activity) : Prop where
  dist : ∀ profile, SegDist data profile seg (acts.map data.locationOf)
  dur : TimesOk data → ∀ (profile : Nat) (R : Int) (s : DurSeg) (loc : Nat), R ≤ HALF →
    (∀ a ∈ acts, released data a ≤ R) →
    (∀ a ∈ acts, a.type = .depot → R ≤ latest data a) → SegOk R s →
    midDur data profile seg s loc = onto data profile acts s loc
  load : ∀ (dim : Nat) (cap : Int) (p : LoadSeg), dim < data.numLoadDimensions → p.Ok →
    midLoad cap dim p seg = acts.foldl (stepLoad data cap dim) p

theorem Mid.ne {data : ProblemData} {seg : Seg} {acts : List Activity} (h : Mid data seg acts) :
    acts ≠ [] := by
  intro he; subst he; exact (h.dist 0).ne rfl

theorem Mid.front {data : ProblemData} {seg : Seg} {acts : List Activity} (h : Mid data seg acts)
    (loc : Nat) : seg.frontLoc = headLoc data acts loc := by
  have h1 := h.ne
  rw [(h.dist 0).front]
  cases acts with
  | nil => exact absurd rfl h1
  | cons a rest => rfl

/-- Merging segments from right to left. -/
theorem foldl_midDur {data : ProblemData} (ht : TimesOk data) (profile : Nat) (R : Int)
    (hR : R ≤ HALF) (ms : List Seg) (as : List (List Activity)) (h : All2 (Mid data) ms as)
    (hrel : ∀ a ∈ as.reverse.flatten, released data a ≤ R)
    (hlate : ∀ a ∈ as.reverse.flatten, a.type = .depot → R ≤ latest data a)
    (s : DurSeg) (loc : Nat) (hs : SegOk R s) :
    ms.foldl (fun st m => (midDur data profile m st.1 st.2, m.frontLoc)) (s, loc)
      = (onto data profile as.reverse.flatten s loc, headLoc data as.reverse.flatten loc) := by
  induction h generalizing s loc with
  | nil => rfl
  | @cons m a ms as hm _ ih =>
    simp only [List.reverse_cons, List.flatten_append, List.flatten_singleton] at hrel hlate ⊢
    have hR0 : 0 ≤ R := Int.le_trans hs.r0 hs.rR
    rw [List.foldl_cons, hm.dur ht profile R s loc hR
      (fun b hb => hrel b (List.mem_append_right _ hb))
      (fun b hb => hlate b (List.mem_append_right _ hb)) hs, hm.front loc,
      ih (fun b hb => hrel b (List.mem_append_left _ hb))
        (fun b hb => hlate b (List.mem_append_left _ hb)) _ _
        (onto_ok ht hR0 hR profile a (fun b hb => hrel b (List.mem_append_right _ hb)) hs loc),
      onto_append, headLoc_append]

theorem foldl_midLoad {data : ProblemData} (dim : Nat) (hdim : dim < data.numLoadDimensions)
    (cap : Int) (ms : List Seg) (as : List (List Activity)) (h : All2 (Mid data) ms as)
    (p : LoadSeg) (hp : p.Ok) :
    ms.foldl (midLoad cap dim) p = as.flatten.foldl (stepLoad data cap dim) p := by
  induction h generalizing p with
  | nil => rfl
  | @cons m a ms as hm _ ih =>
    rw [List.foldl_cons, hm.load dim cap p hdim hp, ih _ (foldl_stepLoad_ok a hp), List.flatten_cons,
      List.foldl_append]

/-! ## Single activities -/

theorem mid_single {data : ProblemData} {seg : Seg} {a : Activity} (ha : a.type ≠ .depot)
    (h1 : seg.frontLoc = data.locationOf a) (h2 : seg.backLoc = data.locationOf a)
    (h3 : ∀ p, seg.distance p = 0) (h4 : ∀ p, seg.duration p = innerSeg data a)
    (h5 : ∀ dim, dim < data.numLoadDimensions → seg.load dim = innerLoad data dim a)
    (h6 : seg.startsAtReloadDepot = false)
    (h7 : seg.endsAtReloadDepot = false) : Mid data seg [a] := by
  refine ⟨fun p => ⟨by simp, h1, h2, by rw [h3]; rfl⟩, ?_, ?_⟩
  · intro ht profile R s loc _ _ _ _
    simp only [midDur, lastDur, h6, h7, h2, h4, onto, stepDs, ha, headLoc]
    simp
  · intro dim cap p hdim _
    simp [midLoad, h6, h7, finIf, stepLoad, ha, h5 dim hdim]

theorem mid_single_depot {data : ProblemData} {seg : Seg} {a : Activity} (ha : a.type = .depot)
    (h1 : seg.frontLoc = data.locationOf a) (h2 : seg.backLoc = data.locationOf a)
    (h3 : ∀ p, seg.distance p = 0) (h4 : ∀ p, seg.duration p = innerSeg data a)
    (h5 : ∀ dim, dim < data.numLoadDimensions → seg.load dim = {})
    (h6 : seg.startsAtReloadDepot = true)
    (h7 : seg.endsAtReloadDepot = true) (h8 : seg.size = 1) (h9 : seg.backActivity = a) :
    Mid data seg [a] := by
  refine ⟨fun p => ⟨by simp, h1, h2, by rw [h3]; rfl⟩, ?_, ?_⟩
  · intro ht profile R s loc hRH hrel hlate hs
    have := window_stepDs ht hRH profile ha (hlate a (by simp) ha) hs loc
    simp only [onto, headLoc]
    rw [← this]
    simp only [midDur, lastDur, h6, h7, h2, h4, h8, h9, stepDs, ha]
    simp
  · intro dim cap p hdim hp
    simp only [midLoad, h6, h7, h8, finIf, stepLoad, ha, h5 dim hdim, List.foldl_cons, List.foldl_nil]
    simp [LoadSeg.merge_nil (LoadSeg.Ok.finalise (a := p) cap)]

theorem mid_client (data : ProblemData) (i : Nat) : Mid data (.client data i) [⟨.client, i⟩] :=
  mid_single (by simp) rfl rfl (fun _ => rfl) (fun _ => rfl) (fun _ _ => rfl) rfl rfl

theorem mid_pickup (data : ProblemData) (i : Nat) : Mid data (.pickup data i) [⟨.pickup, i⟩] :=
  mid_single (by simp) rfl rfl (fun _ => rfl) (fun _ => rfl) (fun _ _ => rfl) rfl rfl

theorem mid_delivery (data : ProblemData) (i : Nat) :
    Mid data (.delivery data i) [⟨.delivery, i⟩] :=
  mid_single (by simp) rfl rfl (fun _ => rfl) (fun _ => rfl) (fun _ _ => rfl) rfl rfl

theorem mid_depot (data : ProblemData) (i : Nat) : Mid data (.depot data i) [⟨.depot, i⟩] :=
  mid_single_depot rfl rfl rfl (fun _ => rfl) (fun _ => rfl) (fun _ _ => rfl) rfl rfl rfl rfl

/-! ## Segments of a route -/

namespace SRoute

theorem ofActs_node (data : ProblemData) (vt : Nat) (xs : List Activity) (a : Activity)
    (ys : List Activity) :
    Inner ((ofActs data vt (xs ++ a :: ys)).node (xs.length + 1))
    ∧ ((ofActs data vt (xs ++ a :: ys)).node (xs.length + 1)).activity = a := by
  have hx : xs ++ a :: ys = (xs ++ [a]) ++ ys := by simp
  have h : (ofActs data vt (xs ++ a :: ys)).node (xs.length + 1)
      = (innerNodes 1 0 (xs ++ [a])).getLastD (startNode (data.vehicleType vt)) := by
    show (canon (data.vehicleType vt) (xs ++ a :: ys)).getD (xs.length + 1) default = _
    rw [hx, ← canon_getD _ (xs ++ [a]) ys]
    simp
  rw [h, innerNodes_append]
  simp only [innerNodes]
  rw [List.getLastD_concat]
  exact ⟨rfl, rfl⟩

theorem getD_map_of_lt {α β : Type} (f : α → β) (l : List α) (k : Nat) (hk : k < l.length) (d : β)
    (e : α) : (l.map f).getD k d = f (l.getD k e) := by
  simp [List.getD_eq_getElem?_getD, List.getElem?_eq_getElem hk]

theorem ofActs_locations (data : ProblemData) (vt : Nat) (xs : List Activity) (a : Activity)
    (ys : List Activity) :
    (ofActs data vt (xs ++ a :: ys)).locations.getD (xs.length + 1) 0 = data.locationOf a := by
  have h := (ofActs_node data vt xs a ys).2
  show ((canon (data.vehicleType vt) (xs ++ a :: ys)).map
    (fun n => data.locationOf n.activity)).getD _ _ = _
  rw [getD_map_of_lt _ _ _ (by rw [canon_length]; simp; omega) _ default]
  show data.locationOf ((ofActs data vt (xs ++ a :: ys)).node (xs.length + 1)).activity = _
  rw [h]

theorem ofActs_durAt (data : ProblemData) (vt : Nat) (xs : List Activity) (a : Activity)
    (ys : List Activity) :
    (ofActs data vt (xs ++ a :: ys)).durAt.getD (xs.length + 1) {} = innerSeg data a := by
  obtain ⟨h, ha⟩ := ofActs_node data vt xs a ys
  show ((canon (data.vehicleType vt) (xs ++ a :: ys)).map _).getD _ _ = _
  rw [getD_map_of_lt _ _ _ (by rw [canon_length]; simp; omega) _ default]
  show durAtOf data _ ((ofActs data vt (xs ++ a :: ys)).node (xs.length + 1)) = _
  rw [h.durAtOf, ha]

theorem getD_range_map {β : Type} (n : Nat) (f : Nat → β) (k : Nat) (hk : k < n) (d : β) :
    ((List.range n).map f).getD k d = f k := by
  simp [List.getD_eq_getElem?_getD, List.getElem?_map, List.getElem?_range hk]

theorem ofActs_loadAt (data : ProblemData) (vt : Nat) (xs : List Activity) (a : Activity)
    (ys : List Activity) (dim : Nat) (hdim : dim < data.numLoadDimensions) :
    ((ofActs data vt (xs ++ a :: ys)).loadAt.getD dim []).getD (xs.length + 1) {}
      = innerLoad data dim a := by
  obtain ⟨h, ha⟩ := ofActs_node data vt xs a ys
  show (((List.range _).map _).getD dim []).getD _ _ = _
  rw [getD_range_map _ _ _ hdim]
  show ((canon (data.vehicleType vt) (xs ++ a :: ys)).map _).getD _ _ = _
  rw [getD_map_of_lt _ _ _ (by rw [canon_length]; simp; omega) _ default]
  show loadAtOf data _ _ ((ofActs data vt (xs ++ a :: ys)).node (xs.length + 1)) = _
  rw [h.loadAtOf, ha]

/-- The distance up to the end of `xs`. -/
theorem ofActs_cumDist (data : ProblemData) (vt : Nat) (xs ys : List Activity) :
    (ofActs data vt (xs ++ ys)).cumDist.getD xs.length 0
      = legSum (data.dist (data.vehicleType vt).profile)
          ((data.depot (data.vehicleType vt).startDepot).location :: xs.map data.locationOf) := by
  show (cumDists data _ (canon _ _)).getD _ _ = _
  rw [canon_split, List.cons_append, cumDists, scanNodes_getD _ _ _ _ _ (by simp [innerNodes_length]),
    List.take_left' (by simp [innerNodes_length]), foldNodes_dist, Int.zero_add]
  congr 2
  rw [show (fun m : SNode => data.locationOf m.activity) = data.locationOf ∘ SNode.activity from rfl,
    ← List.map_map, innerNodes_activity]

/-- Merging the activities of one trip from left to right. -/
def foldMerge (data : ProblemData) (profile : Nat) (ds : DurSeg) (loc : Nat) :
    List Activity → DurSeg
  | [] => ds
  | a :: rest =>
    foldMerge data profile
      (DurSeg.merge (data.dur profile loc (data.locationOf a)) ds (innerSeg data a))
      (data.locationOf a) rest

theorem betweenDuration_eq (data : ProblemData) (profile vt : Nat) (rest zs : List Activity) :
    ∀ (xs : List Activity) (a : Activity) (ds : DurSeg),
    betweenDuration data profile (ofActs data vt (xs ++ a :: (rest ++ zs))) (xs.length + 1)
      rest.length ds = foldMerge data profile ds (data.locationOf a) rest := by
  induction rest with
  | nil => intros; rfl
  | cons b rest ih =>
    intro xs a ds
    have h1 := ofActs_locations data vt xs a (b :: rest ++ zs)
    have hx : xs ++ a :: (b :: rest ++ zs) = (xs ++ [a]) ++ b :: (rest ++ zs) := by simp
    have h2 := ofActs_locations data vt (xs ++ [a]) b (rest ++ zs)
    have h3 := ofActs_durAt data vt (xs ++ [a]) b (rest ++ zs)
    rw [← hx] at h2 h3
    have hl : (xs ++ [a]).length + 1 = xs.length + 1 + 1 := by simp
    rw [hl] at h2 h3
    rw [List.length_cons, betweenDuration, h1, h2, h3, foldMerge]
    have := ih (xs ++ [a]) b
      (DurSeg.merge (data.dur profile (data.locationOf a) (data.locationOf b)) ds (innerSeg data b))
    rw [← hx, hl] at this
    exact this

theorem betweenLoad_eq (data : ProblemData) (vt dim : Nat) (hdim : dim < data.numLoadDimensions)
    (rest zs : List Activity) :
    ∀ (xs : List Activity) (a : Activity) (ls : LoadSeg),
    betweenLoad ((ofActs data vt (xs ++ a :: (rest ++ zs))).loadAt.getD dim []) (xs.length + 1)
      rest.length ls = rest.foldl (fun ls b => LoadSeg.merge ls (innerLoad data dim b)) ls := by
  induction rest with
  | nil => intros; rfl
  | cons b rest ih =>
    intro xs a ls
    have hx : xs ++ a :: (b :: rest ++ zs) = (xs ++ [a]) ++ b :: (rest ++ zs) := by simp
    have h3 := ofActs_loadAt data vt (xs ++ [a]) b (rest ++ zs) dim hdim
    rw [← hx] at h3
    have hl : (xs ++ [a]).length + 1 = xs.length + 1 + 1 := by simp
    rw [hl] at h3
    rw [List.length_cons, betweenLoad, h3, List.foldl_cons]
    have := ih (xs ++ [a]) b (LoadSeg.merge ls (innerLoad data dim b))
    rw [← hx, hl] at this
    exact this

theorem betweenDistance_eq (data : ProblemData) (profile vt : Nat) (rest zs : List Activity) :
    ∀ (xs : List Activity) (a : Activity) (acc : Int),
    betweenDistance data profile (ofActs data vt (xs ++ a :: (rest ++ zs))) (xs.length + 1)
      rest.length acc
      = acc + legSum (data.dist profile) (data.locationOf a :: rest.map data.locationOf) := by
  induction rest with
  | nil => intros; simp [betweenDistance, legSum]
  | cons b rest ih =>
    intro xs a acc
    have h1 := ofActs_locations data vt xs a (b :: rest ++ zs)
    have hx : xs ++ a :: (b :: rest ++ zs) = (xs ++ [a]) ++ b :: (rest ++ zs) := by simp
    have h2 := ofActs_locations data vt (xs ++ [a]) b (rest ++ zs)
    rw [← hx] at h2
    have hl : (xs ++ [a]).length + 1 = xs.length + 1 + 1 := by simp
    rw [hl] at h2
    rw [List.length_cons, betweenDistance, h1, h2]
    have := ih (xs ++ [a]) b
      (acc + data.dist profile (data.locationOf a) (data.locationOf b))
    rw [← hx, hl] at this
    rw [this]
    simp only [List.map_cons, legSum]
    omega

theorem foldMerge_ok {data : ProblemData} (ht : TimesOk data) (profile : Nat) (L : List Activity) :
    ∀ (x : DurSeg) (l0 : Nat), x.Ok → (foldMerge data profile x l0 L).Ok := by
  induction L with
  | nil => intro x l0 h; exact h
  | cons b rest ih => intro x l0 h; exact ih _ _ (h.merge (ht.dur ..) (innerSeg_ok ht b).ok)

theorem foldMerge_concat (data : ProblemData) (profile : Nat) (L : List Activity) (z : Activity) :
    ∀ (x : DurSeg) (l0 : Nat), foldMerge data profile x l0 (L ++ [z])
      = DurSeg.merge (data.dur profile ((L.map data.locationOf).getLastD l0) (data.locationOf z))
          (foldMerge data profile x l0 L) (innerSeg data z) := by
  induction L with
  | nil => intros; rfl
  | cons b rest ih =>
    intro x l0
    rw [List.cons_append, foldMerge, ih, List.map_cons, List.getLastD_cons, foldMerge]

theorem foldMerge_onto {data : ProblemData} (ht : TimesOk data) (profile : Nat) {R : Int}
    (hRH : R ≤ HALF) (L : List Activity) (hL : ∀ b ∈ L, b.type ≠ .depot)
    (hrel : ∀ b ∈ L, released data b ≤ R) {s : DurSeg} (hs : SegOk R s) (loc : Nat) :
    ∀ (x : DurSeg) (l0 : Nat), x.Ok →
    DurSeg.merge (data.dur profile ((L.map data.locationOf).getLastD l0) loc)
      (foldMerge data profile x l0 L) s
    = DurSeg.merge (data.dur profile l0 (headLoc data L loc)) x (onto data profile L s loc) := by
  have hR0 : 0 ≤ R := Int.le_trans hs.r0 hs.rR
  induction L with
  | nil => intros; rfl
  | cons b rest ih =>
    intro x l0 hx
    have hrest := onto_ok ht hR0 hRH profile rest (fun c hc => hrel c (List.mem_cons_of_mem _ hc)) hs loc
    rw [List.map_cons, List.getLastD_cons, foldMerge,
      ih (fun c hc => hL c (List.mem_cons_of_mem _ hc))
        (fun c hc => hrel c (List.mem_cons_of_mem _ hc)) _ _ (hx.merge (ht.dur ..) (innerSeg_ok ht b).ok),
      DurSeg.merge_assoc (ht.dur ..) (ht.dur ..) hx (innerSeg_ok ht b).ok hrest.ok]
    simp only [onto, headLoc, stepDs, hL b (List.mem_cons_self ..), if_false]

theorem merge_foldl_load (data : ProblemData) (dim : Nat) (L : List Activity) :
    ∀ (q x : LoadSeg),
    LoadSeg.merge q (L.foldl (fun ls b => LoadSeg.merge ls (innerLoad data dim b)) x)
      = L.foldl (fun ls b => LoadSeg.merge ls (innerLoad data dim b)) (LoadSeg.merge q x) := by
  induction L with
  | nil => intros; rfl
  | cons b rest ih => intro q x; rw [List.foldl_cons, ih, List.foldl_cons, LoadSeg.merge_assoc]

theorem foldl_stepLoad_inner (data : ProblemData) (dim : Nat) (cap : Int) (L : List Activity)
    (hL : ∀ b ∈ L, b.type ≠ .depot) :
    ∀ (q : LoadSeg), L.foldl (fun ls b => LoadSeg.merge ls (innerLoad data dim b)) q
      = L.foldl (stepLoad data cap dim) q := by
  induction L with
  | nil => intros; rfl
  | cons b rest ih =>
    intro q
    rw [List.foldl_cons, ih (fun c hc => hL c (List.mem_cons_of_mem _ hc)), List.foldl_cons]
    simp [stepLoad, hL b (List.mem_cons_self ..)]

/-- The depot, its service, and what comes after. -/
theorem depot_merge' {data : ProblemData} (ht : TimesOk data) {R : Int} {a : Activity}
    (ha : a.type = .depot) {s : DurSeg} (hs : SegOk R s) {edge : Int} (he : 0 ≤ edge) :
    DurSeg.merge edge (DurSeg.merge 0 (innerSeg data a)
      { duration_ := (data.depot a.idx).serviceDuration }) s
    = DurSeg.merge edge (DurSeg.ofDepot (data.depot a.idx) (data.depot a.idx).serviceDuration) s := by
  have hd := ht.depot a.idx 0 (Int.le_refl 0)
  rw [show ({ duration_ := (data.depot a.idx).serviceDuration } : DurSeg)
      = DurSeg.service (data.depot a.idx).serviceDuration from rfl,
    DurSeg.merge_assoc (Int.le_refl 0) he (innerSeg_ok ht a).ok (DurSeg.service_ok hd.2) hs.ok,
    innerSeg_depot ha]
  exact DurSeg.merge_window_service' hd.1.e0 hd.1.el hd.1.lM hd.1.eH hd.2 hs.ok he hs.r0

/-- A segment of an updated route that is part of one trip, except that it may begin or end at a
reload depot. -/
theorem mid_between (data : ProblemData) (vt : Nat) (xs : List Activity) (a : Activity)
    (rest zs : List Activity) (hrest : ∀ b ∈ rest.dropLast, b.type ≠ .depot) :
    Mid data ((ofActs data vt (xs ++ a :: (rest ++ zs))).between data (xs.length + 1)
      (xs.length + 1 + rest.length)) (a :: rest) := by
  obtain ⟨hn, hna⟩ := ofActs_node data vt xs a (rest ++ zs)
  have hloc := ofActs_locations data vt xs a (rest ++ zs)
  have hdist : ∀ profile,
      ((ofActs data vt (xs ++ a :: (rest ++ zs))).between data (xs.length + 1)
        (xs.length + 1 + rest.length)).distance profile
      = legSum (data.dist profile) ((a :: rest).map data.locationOf) := by
    intro profile
    simp only [between, Nat.add_sub_cancel_left]
    split
    · rw [betweenDistance_eq, Int.zero_add]; rfl
    · next hp =>
      have hp : profile = (data.vehicleType vt).profile := Decidable.not_not.1 hp
      have h1 := ofActs_cumDist data vt (xs ++ [a]) (rest ++ zs)
      have h2 := ofActs_cumDist data vt (xs ++ a :: rest) zs
      rw [show (xs ++ [a]) ++ (rest ++ zs) = xs ++ a :: (rest ++ zs) by simp,
        show (xs ++ [a]).length = xs.length + 1 by simp] at h1
      rw [show (xs ++ a :: rest) ++ zs = xs ++ a :: (rest ++ zs) by simp,
        show (xs ++ a :: rest).length = xs.length + 1 + rest.length by simp; omega] at h2
      rw [h1, h2, hp, List.map_append, List.map_append, List.map_cons, List.map_cons, List.map_nil]
      have h3 := legSum_append (data.dist (data.vehicleType vt).profile)
        ((data.depot (data.vehicleType vt).startDepot).location :: xs.map data.locationOf)
        (data.locationOf a) (rest.map data.locationOf)
      simp only [List.cons_append] at h3
      rw [h3]; omega
  by_cases hr : rest = []
  · subst hr
    simp only [List.length_nil, Nat.add_zero]
    simp only [List.length_nil, Nat.add_zero, List.nil_append] at hdist hn hna hloc ⊢
    have hdur : ∀ profile, ((ofActs data vt (xs ++ a :: zs)).between data (xs.length + 1)
        (xs.length + 1)).duration profile = innerSeg data a := by
      intro profile
      simp only [between, Nat.sub_self, betweenDuration]
      rw [if_neg (by simp)]
      exact ofActs_durAt data vt xs a zs
    have hload : ∀ dim, dim < data.numLoadDimensions →
        ((ofActs data vt (xs ++ a :: zs)).between data (xs.length + 1)
        (xs.length + 1)).load dim = innerLoad data dim a := by
      intro dim hdim
      simp only [between, Nat.sub_self, betweenLoad]
      exact ofActs_loadAt data vt xs a zs dim hdim
    by_cases ha : a.type = .depot
    · have hre : ((ofActs data vt (xs ++ a :: zs)).node (xs.length + 1)).isReloadDepot = true := by
        rw [hn.reload, isDepot_iff, hna]; exact ha
      refine mid_single_depot ha hloc hloc (fun p => ?_) hdur (fun dim hdim => ?_) hre hre ?_ hna
      · rw [hdist]; rfl
      · rw [hload dim hdim]; simp [innerLoad, ha]
      · simp [between]
    · have hre : ((ofActs data vt (xs ++ a :: zs)).node (xs.length + 1)).isReloadDepot = false := by
        rw [hn.reload]
        apply Bool.eq_false_iff.2
        intro h
        rw [isDepot_iff, hna] at h
        exact ha h
      refine mid_single ha hloc hloc (fun p => ?_) hdur hload hre hre
      rw [hdist]; rfl
  · -- more than one activity
    obtain ⟨mid, z, rfl⟩ : ∃ mid z, rest = mid ++ [z] :=
      ⟨rest.dropLast, rest.getLast hr, (List.dropLast_concat_getLast hr).symm⟩
    rw [List.dropLast_concat] at hrest
    have hlist : xs ++ a :: (mid ++ [z] ++ zs) = (xs ++ a :: mid) ++ z :: zs := by simp
    have hlen : xs.length + 1 + (mid ++ [z]).length = (xs ++ a :: mid).length + 1 := by
      simp; omega
    obtain ⟨hz, hza⟩ := ofActs_node data vt (xs ++ a :: mid) z zs
    have hzloc := ofActs_locations data vt (xs ++ a :: mid) z zs
    rw [← hlist, ← hlen] at hz hza hzloc
    have hsz : ((ofActs data vt (xs ++ a :: (mid ++ [z] ++ zs))).between data (xs.length + 1)
        (xs.length + 1 + (mid ++ [z]).length)).size > 1 := by
      simp only [between, List.length_append, List.length_singleton]; omega
    generalize hseg : (ofActs data vt (xs ++ a :: (mid ++ [z] ++ zs))).between data (xs.length + 1)
      (xs.length + 1 + (mid ++ [z]).length) = seg at hdist hsz ⊢
    have hfront : seg.frontLoc = data.locationOf a := by rw [← hseg]; exact hloc
    have hback : seg.backLoc = data.locationOf z := by rw [← hseg]; exact hzloc
    have hbackA : seg.backActivity = z := by rw [← hseg]; exact hza
    have hstart : seg.startsAtReloadDepot = true ↔ a.type = .depot := by
      rw [← hseg]
      show SNode.isReloadDepot _ = true ↔ _
      rw [hn.reload, isDepot_iff, hna]
    have hend : seg.endsAtReloadDepot = true ↔ z.type = .depot := by
      rw [← hseg]
      show SNode.isReloadDepot _ = true ↔ _
      rw [hz.reload, isDepot_iff, hza]
    refine ⟨fun p => ⟨by simp, hfront, ?_, hdist p⟩, ?_, ?_⟩
    · rw [hback, List.map_cons, List.map_append, List.map_singleton, ← List.cons_append,
        List.getLastD_concat]
    · intro ht profile R s loc hRH hrel hlate hs
      have hR0 : 0 ≤ R := Int.le_trans hs.r0 hs.rR
      -- the segment's own duration
      obtain ⟨x, hx, hxok, hdur⟩ : ∃ x, (x = if a.type = .depot then
            DurSeg.merge 0 (innerSeg data a) { duration_ := (data.depot a.idx).serviceDuration }
          else innerSeg data a) ∧ x.Ok ∧
          seg.duration profile = foldMerge data profile x (data.locationOf a) (mid ++ [z]) := by
        refine ⟨_, rfl, ?_, ?_⟩
        · split
          · exact (innerSeg_ok ht a).ok.merge (Int.le_refl 0)
              (DurSeg.service_ok (ht.depot a.idx 0 (Int.le_refl 0)).2)
          · exact (innerSeg_ok ht a).ok
        · rw [← hseg]
          simp only [between, Nat.add_sub_cancel_left]
          rw [ofActs_durAt, betweenDuration_eq, hna]
          congr 1
          have hiff : ((mid ++ [z]).length + 1 ≠ 1 ∧
              ((ofActs data vt (xs ++ a :: (mid ++ [z] ++ zs))).node (xs.length + 1)).isReloadDepot
                = true) ↔ a.type = .depot := by
            rw [hn.reload, isDepot_iff, hna]
            simp
          by_cases hty : a.type = .depot
          · rw [if_pos (hiff.2 hty), if_pos hty]
          · rw [if_neg (fun h => hty (hiff.1 h)), if_neg hty]
      have hT : ∀ b ∈ mid ++ [z], released data b ≤ R :=
        fun b hb => hrel b (List.mem_cons_of_mem _ hb)
      have hTok := onto_ok ht hR0 hRH profile (mid ++ [z]) hT hs loc
      have hlast : lastDur data profile seg s loc
          = DurSeg.merge (data.dur profile (data.locationOf a) (headLoc data (mid ++ [z]) loc)) x
              (onto data profile (mid ++ [z]) s loc) := by
        unfold lastDur
        dsimp only
        rw [hback, hbackA, hdur]
        by_cases hzd : z.type = .depot
        · rw [if_pos (hend.2 hzd), foldMerge_concat]
          have hst : (DurSeg.merge (data.dur profile (data.locationOf z) loc)
              (DurSeg.ofDepot (data.depot z.idx) (data.depot z.idx).serviceDuration) s).finaliseFront
              = stepDs data profile z s loc := by simp [stepDs, hzd]
          have hstok := stepDs_ok ht hR0 hRH profile z (hT z (by simp)) hs loc
          rw [hst, DurSeg.merge_assoc (ht.dur ..) (Int.le_refl 0) (foldMerge_ok ht profile mid x _ hxok)
            (innerSeg_ok ht z).ok hstok.ok,
            window_stepDs ht hRH profile hzd (hlate z (by simp) hzd) hs loc,
            foldMerge_onto ht profile hRH mid hrest (fun b hb => hT b (by simp [hb])) hstok
              (data.locationOf z) x (data.locationOf a) hxok, onto_append, headLoc_append]
          rfl
        · rw [if_neg (fun h => hzd (hend.1 h))]
          have := foldMerge_onto ht profile hRH (mid ++ [z])
            (fun b hb => by
              rcases List.mem_append.1 hb with h | h
              · exact hrest b h
              · rw [List.mem_singleton.1 h]; exact hzd) hT hs loc x (data.locationOf a) hxok
          rw [← this]
          simp
      unfold midDur
      rw [hlast, onto]
      by_cases hty : a.type = .depot
      · rw [if_pos ⟨hstart.2 hty, hsz⟩, hx, if_pos hty, depot_merge' ht hty hTok (ht.dur ..)]
        simp [stepDs, hty]
      · rw [if_neg (fun h => hty (hstart.1 h.1)), hx, if_neg hty]
        simp [stepDs, hty]
    · intro dim cap p hdim hp
      have hl : seg.load dim = (mid ++ [z]).foldl
          (fun ls b => LoadSeg.merge ls (innerLoad data dim b)) (innerLoad data dim a) := by
        rw [← hseg]
        simp only [between, Nat.add_sub_cancel_left]
        rw [ofActs_loadAt _ _ _ _ _ _ hdim, betweenLoad_eq _ _ _ hdim]
      have hq : LoadSeg.merge (finIf cap seg.startsAtReloadDepot p) (innerLoad data dim a)
          = stepLoad data cap dim p a := by
        unfold finIf stepLoad
        by_cases hty : a.type = .depot
        · rw [if_pos (hstart.2 hty), if_pos hty]
          rw [show innerLoad data dim a = {} by simp [innerLoad, hty],
            LoadSeg.merge_nil (.finalise _)]
        · rw [if_neg (fun h => hty (hstart.1 h)), if_neg hty]
      unfold midLoad
      rw [hl, merge_foldl_load, hq, List.foldl_cons, List.foldl_append, List.foldl_append,
        foldl_stepLoad_inner data dim cap mid hrest]
      have hok := foldl_stepLoad_ok (data := data) (cap := cap) (dim := dim) mid
        (stepLoad_ok (data := data) (cap := cap) (dim := dim) hp a)
      generalize mid.foldl (stepLoad data cap dim) (stepLoad data cap dim p a) = q at hok
      simp only [List.foldl_cons, List.foldl_nil]
      by_cases hzd : z.type = .depot
      · rw [hend.2 hzd, show innerLoad data dim z = {} by simp [innerLoad, hzd],
          LoadSeg.merge_nil hok]
        simp [finIf, stepLoad, hzd, hsz]
      · have : seg.endsAtReloadDepot = false := Bool.eq_false_iff.2 (fun h => hzd (hend.1 h))
        rw [this]
        simp [finIf, stepLoad, hzd]

/-! ## The end of a route -/

/-- A segment at the end of a proposal stands for `acts` and the end depot. -/
structure Tail (data : ProblemData) (vt : Nat) (seg : Seg) (acts : List Activity) : Prop where
  dist : SegDist data (data.vehicleType vt).profile seg
    (acts.map data.locationOf ++ [endLoc data (data.vehicleType vt)])
  dur : TimesOk data → openIf seg.startsAtReloadDepot (seg.duration (data.vehicleType vt).profile)
    = onto data (data.vehicleType vt).profile acts (endSeg data (data.vehicleType vt))
        (endLoc data (data.vehicleType vt))
  load : ∀ (dim : Nat) (p : LoadSeg), dim < data.numLoadDimensions → p.Ok →
    (LoadSeg.merge (finIf ((data.vehicleType vt).capacity.getD dim 0) seg.startsAtReloadDepot p)
      (seg.load dim)).excessLoad ((data.vehicleType vt).capacity.getD dim 0)
    = (acts.foldl (stepLoad data ((data.vehicleType vt).capacity.getD dim 0) dim) p).excessLoad
        ((data.vehicleType vt).capacity.getD dim 0)

theorem Tail.front {data : ProblemData} {vt : Nat} {seg : Seg} {acts : List Activity}
    (h : Tail data vt seg acts) :
    seg.frontLoc = headLoc data acts (endLoc data (data.vehicleType vt)) := by
  rw [h.dist.front]
  cases acts <;> rfl

theorem getD_head_drop {α : Type} (l : List α) (k : Nat) (d : α) : l.getD k d = (l.drop k).headD d := by
  induction l generalizing k with
  | nil => simp
  | cons a rest ih =>
    cases k with
    | zero => rfl
    | succ k => simp only [List.getD_cons_succ, List.drop_succ_cons]; exact ih k

theorem ofActs_cumDist_last (data : ProblemData) (vt : Nat) (acts : List Activity) :
    (ofActs data vt acts).cumDist.getLastD 0
      = legSum (data.dist (data.vehicleType vt).profile)
          ((data.depot (data.vehicleType vt).startDepot).location
            :: (acts.map data.locationOf ++ [endLoc data (data.vehicleType vt)])) := by
  show (cumDists data _ (canon _ _)).getLastD _ = _
  rw [canon, cumDists, scanNodes_getLastD, foldNodes_dist, Int.zero_add, List.map_append,
    show (fun m : SNode => data.locationOf m.activity) = data.locationOf ∘ SNode.activity from rfl,
    ← List.map_map, innerNodes_activity]
  rfl

theorem ofActs_locations_end (data : ProblemData) (vt : Nat) (acts : List Activity) :
    (ofActs data vt acts).locations.getLastD 0 = endLoc data (data.vehicleType vt) := by
  show ((canon (data.vehicleType vt) acts).map
    (fun n => data.locationOf n.activity)).getLastD 0 = _
  rw [canon, ← List.cons_append, List.map_append, List.map_singleton, List.getLastD_concat]
  rfl

/-- The nodes from position `xs.length + 1` on. -/
theorem ofActs_after_head (data : ProblemData) (vt : Nat) (xs ys : List Activity) :
    (ofActs data vt (xs ++ ys)).node (xs.length + 1)
      = (innerNodes (xs.length + 1) (depotVisits xs) ys
          ++ [endNode (data.vehicleType vt) (xs.length + ys.length + 1)
            (depotVisits xs + depotVisits ys + 1)]).headD default := by
  show (canon (data.vehicleType vt) (xs ++ ys)).getD (xs.length + 1) default = _
  rw [getD_head_drop, canon_drop]

theorem tail_after (data : ProblemData) (vt : Nat) (xs ys : List Activity) :
    Tail data vt ((ofActs data vt (xs ++ ys)).after (xs.length + 1)) ys := by
  have hnode := ofActs_after_head data vt xs ys
  have hinner := innerNodes_inner (xs.length + 1) (depotVisits xs) ys
  have hact := innerNodes_activity (xs.length + 1) (depotVisits xs) ys
  refine ⟨⟨by simp, ?_, ?_, ?_⟩, ?_, ?_⟩
  · show ((canon (data.vehicleType vt) (xs ++ ys)).map
      (fun n => data.locationOf n.activity)).getD (xs.length + 1) 0 = _
    rw [getD_map_of_lt _ _ _ (by rw [canon_length]; simp <;> omega) _ default]
    show data.locationOf ((ofActs data vt (xs ++ ys)).node (xs.length + 1)).activity = _
    rw [hnode]
    cases ys <;> rfl
  · rw [List.getLastD_concat]; exact ofActs_locations_end data vt _
  · show (ofActs data vt (xs ++ ys)).cumDist.getLastD 0
      - (ofActs data vt (xs ++ ys)).cumDist.getD (xs.length + 1) 0 = _
    rw [ofActs_cumDist_last, List.map_append]
    cases ys with
    | nil =>
      have h1 : (ofActs data vt (xs ++ [])).cumDist.getD (xs.length + 1) 0
          = (ofActs data vt (xs ++ [])).cumDist.getLastD 0 := by
        rw [getLastD_eq_getD]
        congr 1
        show _ = (cumDists data _ (canon _ _)).length - 1
        rw [canon, cumDists, scanNodes_length]
        simp [innerNodes_length]
      rw [h1, ofActs_cumDist_last]
      simp [legSum]
    | cons a rest =>
      have h1 := ofActs_cumDist data vt (xs ++ [a]) rest
      rw [show (xs ++ [a]) ++ rest = xs ++ a :: rest by simp,
        show (xs ++ [a]).length = xs.length + 1 by simp] at h1
      have h2 := legSum_append (data.dist (data.vehicleType vt).profile)
        ((data.depot (data.vehicleType vt).startDepot).location :: xs.map data.locationOf)
        (data.locationOf a) (rest.map data.locationOf ++ [endLoc data (data.vehicleType vt)])
      rw [h1]
      simp only [List.map_append, List.map_cons, List.map_nil, List.cons_append,
        List.append_assoc] at h2 ⊢
      rw [h2]; omega
  · intro ht
    have h := (durAfter_suffix ht vt _ hinner (endNode (data.vehicleType vt)
      (xs.length + ys.length + 1) (depotVisits xs + depotVisits ys + 1)) rfl rfl).1
    rw [hact] at h
    rw [← h]
    show openIf ((ofActs data vt (xs ++ ys)).node (xs.length + 1)).isReloadDepot
      ((durAfters data _ (canon _ _)).getD _ _) = _
    rw [hnode, durAfters, scanNodesBack_getD _ _ _ _ (by rw [canon_length]; simp <;> omega), canon_drop]
  · intro dim p hdim hp
    have h := loadAfter_suffix data (data.vehicleType vt) dim _ hinner (endNode (data.vehicleType vt)
      (xs.length + ys.length + 1) (depotVisits xs + depotVisits ys + 1)) rfl p hp
    rw [hact] at h
    rw [← h]
    show (LoadSeg.merge (finIf _ ((ofActs data vt (xs ++ ys)).node (xs.length + 1)).isReloadDepot p)
      ((((List.range _).map _).getD dim []).getD _ _)).excessLoad _ = _
    rw [hnode, getD_range_map _ _ _ hdim]
    show (LoadSeg.merge _ ((loadAfters data _ _ (canon _ _)).getD _ _)).excessLoad _ = _
    rw [loadAfters, scanNodesBack_getD _ _ _ _ (by rw [canon_length]; simp <;> omega), canon_drop]

theorem ofActs_end_node (data : ProblemData) (vt : Nat) (acts : List Activity) :
    (ofActs data vt acts).node (acts.length + 1)
      = endNode (data.vehicleType vt) (acts.length + 1) (depotVisits acts + 1) := by
  have := ofActs_after_head data vt acts []
  rw [List.append_nil] at this
  rw [this]
  simp [innerNodes, depotVisits]

/-- The end depot. -/
theorem tail_at (data : ProblemData) (vt : Nat) (acts : List Activity) :
    Tail data vt ((ofActs data vt acts).at data (acts.length + 1)) [] := by
  have hnode := ofActs_end_node data vt acts
  have hloc : (ofActs data vt acts).locations.getD (acts.length + 1) 0
      = endLoc data (data.vehicleType vt) := by
    show ((canon (data.vehicleType vt) acts).map
      (fun n => data.locationOf n.activity)).getD (acts.length + 1) 0 = _
    rw [getD_map_of_lt _ _ _ (by rw [canon_length]; simp <;> omega) _ default]
    show data.locationOf ((ofActs data vt acts).node (acts.length + 1)).activity = _
    rw [hnode]; rfl
  have hre : ((ofActs data vt acts).node (acts.length + 1)).isReloadDepot = false := by
    rw [hnode]; rfl
  refine ⟨⟨by simp, hloc, hloc, ?_⟩, ?_, ?_⟩
  · show (if _ then _ else _) = _
    rw [if_neg (fun h => h rfl)]
    simp [legSum]
  · intro ht
    show openIf ((ofActs data vt acts).node (acts.length + 1)).isReloadDepot _ = _
    rw [hre]
    show (between data (ofActs data vt acts) (acts.length + 1) (acts.length + 1)).duration _ = _
    simp only [between, Nat.sub_self, betweenDuration]
    rw [if_neg (by simp)]
    show ((canon (data.vehicleType vt) acts).map _).getD _ _ = _
    rw [getD_map_of_lt _ _ _ (by rw [canon_length]; simp <;> omega) _ default]
    show durAtOf data _ ((ofActs data vt acts).node (acts.length + 1)) = _
    rw [hnode]; rfl
  · intro dim p hdim hp
    show (LoadSeg.merge (finIf _ ((ofActs data vt acts).node (acts.length + 1)).isReloadDepot p)
      ((between data (ofActs data vt acts) (acts.length + 1) (acts.length + 1)).load dim)).excessLoad
        _ = _
    rw [hre]
    simp only [between, Nat.sub_self, betweenLoad]
    have : ((ofActs data vt acts).loadAt.getD dim []).getD (acts.length + 1) {} = {} := by
      show (((List.range _).map _).getD dim []).getD _ _ = _
      rw [getD_range_map _ _ _ hdim]
      show ((canon (data.vehicleType vt) acts).map _).getD _ _ = _
      rw [getD_map_of_lt _ _ _ (by rw [canon_length]; simp <;> omega) _ default]
      show loadAtOf data _ _ ((ofActs data vt acts).node (acts.length + 1)) = _
      rw [hnode]; rfl
    rw [this]
    simp only [finIf, List.foldl_nil]
    rw [if_neg (by simp), LoadSeg.merge_nil hp]

/-! ## The start of a route -/

theorem ofActs_before_node (data : ProblemData) (vt : Nat) (xs ys : List Activity) :
    (ofActs data vt (xs ++ ys)).node xs.length
      = (innerNodes 1 0 xs).getLastD (startNode (data.vehicleType vt)) :=
  canon_getD (data.vehicleType vt) xs ys

theorem ofActs_before_activity (data : ProblemData) (vt : Nat) (xs ys : List Activity) :
    ((ofActs data vt (xs ++ ys)).node xs.length).activity
      = xs.getLastD ⟨.depot, (data.vehicleType vt).startDepot⟩ := by
  rw [ofActs_before_node, ← getLastD_map, innerNodes_activity]; rfl

theorem before_dist (data : ProblemData) (vt : Nat) (xs ys : List Activity) :
    ((ofActs data vt (xs ++ ys)).before xs.length).distance (data.vehicleType vt).profile
      = legSum (data.dist (data.vehicleType vt).profile)
          ((data.depot (data.vehicleType vt).startDepot).location :: xs.map data.locationOf)
    ∧ ((ofActs data vt (xs ++ ys)).before xs.length).backLoc
      = (xs.map data.locationOf).getLastD (data.depot (data.vehicleType vt).startDepot).location := by
  refine ⟨ofActs_cumDist data vt xs ys, ?_⟩
  show ((canon (data.vehicleType vt) (xs ++ ys)).map
    (fun n => data.locationOf n.activity)).getD xs.length 0 = _
  rw [getD_map_of_lt _ _ _ (by rw [canon_length]; simp; omega) _ default]
  show data.locationOf ((ofActs data vt (xs ++ ys)).node xs.length).activity = _
  rw [ofActs_before_activity, List.getLastD_eq_getLast?, List.getLastD_eq_getLast?,
    List.getLast?_map]
  cases xs.getLast? <;> rfl

theorem before_load (data : ProblemData) (vt : Nat) (xs ys : List Activity) (dim : Nat)
    (hdim : dim < data.numLoadDimensions) :
    finIf ((data.vehicleType vt).capacity.getD dim 0)
      ((ofActs data vt (xs ++ ys)).before xs.length).endsAtReloadDepot
      (((ofActs data vt (xs ++ ys)).before xs.length).load dim)
    = xs.foldl (stepLoad data ((data.vehicleType vt).capacity.getD dim 0) dim)
        (LoadSeg.ofVehicle (data.vehicleType vt) dim) := by
  have h := loadBefore_prefix data (data.vehicleType vt) dim (startNode _) ⟨rfl, rfl⟩
    (innerNodes 1 0 xs) (innerNodes_inner 1 0 xs)
  rw [innerNodes_activity] at h
  rw [← h]
  show finIf _ ((ofActs data vt (xs ++ ys)).node xs.length).isReloadDepot
    ((((List.range _).map _).getD dim []).getD _ _) = _
  rw [ofActs_before_node, getD_range_map _ _ _ hdim]
  show finIf _ _ ((loadBefores data _ _ (canon _ _)).getD _ _) = _
  rw [canon_split, List.cons_append, loadBefores, scanNodes_getD _ _ _ _ _ (by simp [innerNodes_length]),
    List.take_left' (by simp [innerNodes_length])]

theorem before_lastDur (data : ProblemData) (vt : Nat) (xs ys : List Activity) (s : DurSeg)
    (loc : Nat) :
    lastDur data (data.vehicleType vt).profile ((ofActs data vt (xs ++ ys)).before xs.length) s loc
    = close data (data.vehicleType vt).profile
        ((innerNodes 1 0 xs).getLastD (startNode (data.vehicleType vt)))
        (foldNodes (durBeforeStep data (data.vehicleType vt)) (startNode (data.vehicleType vt))
          (durAtOf data (data.vehicleType vt) (startNode (data.vehicleType vt))) (innerNodes 1 0 xs))
        s loc := by
  have hdur : ((ofActs data vt (xs ++ ys)).before xs.length).duration (data.vehicleType vt).profile
      = foldNodes (durBeforeStep data (data.vehicleType vt)) (startNode (data.vehicleType vt))
          (durAtOf data (data.vehicleType vt) (startNode (data.vehicleType vt))) (innerNodes 1 0 xs) := by
    show (durBefores data _ (canon _ _)).getD _ _ = _
    rw [canon_split, List.cons_append, durBefores, scanNodes_getD _ _ _ _ _ (by simp [innerNodes_length]),
      List.take_left' (by simp [innerNodes_length])]
  have hback : ((ofActs data vt (xs ++ ys)).before xs.length).backLoc
      = data.locationOf ((innerNodes 1 0 xs).getLastD (startNode (data.vehicleType vt))).activity := by
    rw [← ofActs_before_node data vt xs ys]
    show ((canon (data.vehicleType vt) (xs ++ ys)).map
      (fun n => data.locationOf n.activity)).getD xs.length 0 = _
    rw [getD_map_of_lt _ _ _ (by rw [canon_length]; simp; omega) _ default]
    rfl
  have hbackA : ((ofActs data vt (xs ++ ys)).before xs.length).backActivity
      = ((innerNodes 1 0 xs).getLastD (startNode (data.vehicleType vt))).activity := by
    rw [← ofActs_before_node data vt xs ys]; rfl
  have hend : ((ofActs data vt (xs ++ ys)).before xs.length).endsAtReloadDepot
      = ((innerNodes 1 0 xs).getLastD (startNode (data.vehicleType vt))).isReloadDepot := by
    rw [← ofActs_before_node data vt xs ys]; rfl
  unfold lastDur close
  dsimp only
  rw [hdur, hback, hbackA, hend]
  generalize (innerNodes 1 0 xs).getLastD (startNode (data.vehicleType vt)) = n
  split
  · next h =>
    have : n.activity.type = .depot := by
      simp only [SNode.isReloadDepot, Bool.and_eq_true] at h
      exact (isDepot_iff n).1 h.1.1
    simp [stepDs, this]
  · rfl

/-! ## The parts of the time warp -/

theorem merge_early {e : Int} {a b : DurSeg} (ha : a.Ok) :
    a.startEarly_ ≤ (DurSeg.merge e a b).startEarly_ := by
  have := ha.el
  simp only [DurSeg.merge]
  omega

theorem W_nonneg {s : DurSeg} (h : s.Ok) (t : Int) : 0 ≤ s.W t := by
  have := h.w0
  simp only [DurSeg.W]; omega

/-- Time warp of earlier trips is not negative; and without release times, the release time that
stands for the end of the earlier trips is not after the earliest start. -/
theorem prefix_parts {data : ProblemData} (ht : TimesOk data) (vt : Nat) (M : Int)
    (s0 : SNode) (hs0 : IsStart (data.vehicleType vt) s0) (ns : List SNode)
    (hns : ∀ n ∈ ns, Inner n)
    (hM : EarlyBy data (data.vehicleType vt) M (ns.map SNode.activity))
    (hfit : M + serviceTime data s0.activity
      + span data (data.vehicleType vt).profile (data.locationOf s0.activity)
        (ns.map SNode.activity) ≤ HALF) :
    let v := data.vehicleType vt
    let p := foldNodes (SRoute.durBeforeStep data v) s0 (SRoute.durAtOf data v s0) ns
    0 ≤ p.cumTimeWarp_
    ∧ ((∀ n ∈ ns, released data n.activity = 0) → p.releaseTime_ ≤ p.startEarly_) := by
  intro v
  induction ns using snoc_induction with
  | h0 =>
    dsimp only
    rw [foldNodes, show SRoute.durAtOf data v s0 = _ from hs0.durAt]
    have hok : (DurSeg.merge 0 (DurSeg.ofVehicle v v.startLate)
      (DurSeg.ofDepot (data.depot v.startDepot) (data.depot v.startDepot).serviceDuration)).Ok :=
      (ht.vehicle vt).2.merge (Int.le_refl 0) (depotSeg_ok ht (Int.le_refl 0) _).ok
    refine ⟨by simp [DurSeg.merge, DurSeg.ofVehicle, DurSeg.ofDepot], fun _ => ?_⟩
    have h1 := hok.e0
    have h2 : (DurSeg.merge 0 (DurSeg.ofVehicle v v.startLate)
      (DurSeg.ofDepot (data.depot v.startDepot)
        (data.depot v.startDepot).serviceDuration)).releaseTime_ = 0 := by
      simp [DurSeg.merge, DurSeg.ofVehicle, DurSeg.ofDepot]
    rw [h2]; exact h1
  | hs ns n ih =>
    have hn : Inner n := hns n (by simp)
    have hns' : ∀ m ∈ ns, Inner m := fun m hm => hns m (by simp [hm])
    have hM' : EarlyBy data v M (ns.map SNode.activity) :=
      ⟨hM.M0, hM.vehicle, hM.start, fun a ha => hM.acts a (by
        rw [List.map_append]; exact List.mem_append_left _ ha)⟩
    rw [List.map_append, List.map_singleton,
      span_append data v.profile _ _ n.activity s0.activity rfl, getLastD_map] at hfit
    have hdur := ht.dur v.profile (data.locationOf (ns.getLastD s0).activity)
      (data.locationOf n.activity)
    have hsv := serviceTime_nonneg ht n.activity
    have hfit' : M + serviceTime data s0.activity
      + span data v.profile (data.locationOf s0.activity) (ns.map SNode.activity) ≤ HALF := by
      omega
    have hinv := prefix_inv ht vt M s0 hs0 ns hns' hM' hfit'
    have hpend := pending_bounds ht (ns.getLastD s0)
    obtain ⟨ih1, ih2⟩ := ih hns' hM' hfit'
    have hpre := hinv.1.pre (by
      have hv : data.vehicleType vt = v := rfl
      rw [hv]; omega)
    rw [show data.vehicleType vt = v from rfl] at hpre
    dsimp only
    rw [foldNodes_concat]
    generalize foldNodes (SRoute.durBeforeStep data v) s0 (SRoute.durAtOf data v s0) ns = p at *
    generalize ns.getLastD s0 = last at *
    -- what the node is merged with
    obtain ⟨b, hb, hbok, hbc, hbr⟩ : ∃ b, SRoute.durBeforeStep data v last p n
        = DurSeg.merge (data.dur v.profile (data.locationOf last.activity)
            (data.locationOf n.activity)) b (innerSeg data n.activity)
        ∧ b.Ok ∧ 0 ≤ b.cumTimeWarp_
        ∧ ((∀ n ∈ ns, released data n.activity = 0) → b.releaseTime_ ≤ b.startEarly_) := by
      by_cases hl : last.isReloadDepot = true
      · have hd0 := (ht.depot last.activity.idx 0 (Int.le_refl 0)).2
        refine ⟨DurSeg.merge 0 p.finaliseBack
          { duration_ := (data.depot last.activity.idx).serviceDuration }, ?_,
          hpre.finaliseBack_ok.merge (Int.le_refl 0) (DurSeg.service_ok hd0), ?_, ?_⟩
        · simp only [SRoute.durBeforeStep, hn.durAtOf, hl, if_true]
        · have := W_nonneg hpre.ok p.releaseTime_
          simp only [DurSeg.merge]
          rw [hpre.finaliseBack_fields]
          dsimp only
          omega
        · intro _
          have h1 := merge_early (e := 0)
            (b := { duration_ := (data.depot last.activity.idx).serviceDuration })
            hpre.finaliseBack_ok
          have h2 : (DurSeg.merge 0 p.finaliseBack
              { duration_ := (data.depot last.activity.idx).serviceDuration }).releaseTime_
              = p.fin p.releaseTime_ := by
            have := hpre.fin_nonneg p.releaseTime_
            simp only [DurSeg.merge]
            rw [hpre.finaliseBack_fields]
            dsimp only
            omega
          rw [h2]
          have h3 : p.finaliseBack.startEarly_ = p.fin p.releaseTime_ := by
            rw [hpre.finaliseBack_fields]
          omega
      · refine ⟨p, ?_, hpre.ok, ih1, ih2⟩
        simp [SRoute.durBeforeStep, hn.durAtOf, hl]
    rw [hb]
    have hcs := (innerSeg_ok ht n.activity).cumW
    refine ⟨?_, fun hz => ?_⟩
    · simp only [DurSeg.merge]; rw [hcs]; omega
    · have h1 := merge_early (e := data.dur v.profile (data.locationOf last.activity)
        (data.locationOf n.activity)) (b := innerSeg data n.activity) hbok
      have h2 := hbr (fun m hm => hz m (by simp [hm]))
      have h3 : (innerSeg data n.activity).releaseTime_ = 0 := by
        rw [(innerSeg_fields n.activity).2.2.2.1]; exact hz n (by simp)
      have h4 := hbok.e0
      have h5 : (DurSeg.merge (data.dur v.profile (data.locationOf last.activity)
        (data.locationOf n.activity)) b (innerSeg data n.activity)).releaseTime_
          = max b.releaseTime_ 0 := by
        simp only [DurSeg.merge]; rw [h3]
      rw [h5]; omega

theorem span_prefix {data : ProblemData} (ht : TimesOk data) (profile : Nat) (xs ys : List Activity)
    (loc : Nat) : span data profile loc xs ≤ span data profile loc (xs ++ ys) := by
  induction xs generalizing loc with
  | nil =>
    rw [List.nil_append, span]
    induction ys generalizing loc with
    | nil => exact Int.le_refl 0
    | cons a rest ih =>
      have h1 := ht.dur profile loc (data.locationOf a)
      have h2 := serviceTime_nonneg ht a
      have h3 := ih (data.locationOf a)
      simp only [span]; omega
  | cons a rest ih =>
    have := ih (data.locationOf a)
    simp only [List.cons_append, span]; omega

/-- What is left of the time warp after the parts that the duration limit takes into account. -/
theorem timeWarp_eq (s : DurSeg) (m : Int) :
    s.timeWarp m = s.obs.2 + max (s.obs.1 - (s.cumTimeWarp_ + s.timeWarp_) - m) 0 := by
  simp only [DurSeg.timeWarp, DurSeg.obs]
  split <;> omega

section Main
variable {data : ProblemData} {vt : Nat} {xs ys : List Activity} {ms : List Seg}
  {as : List (List Activity)} {last : Seg} {tail : List Activity}

theorem proposal_distance (hm : All2 (Mid data) ms as) (hl : Tail data vt last tail) :
    Proposal.distance data ⟨ofActs data vt (xs ++ ys), (ofActs data vt (xs ++ ys)).before xs.length,
      ms ++ [last]⟩
    = ((data.vehicleType vt).unitDistanceCost
        * (Route.build data (xs ++ as.flatten ++ tail) vt).distance,
      max ((Route.build data (xs ++ as.flatten ++ tail) vt).distance
        - (data.vehicleType vt).maxDistance) 0) := by
  have hd : Proposal.distanceLoop data (data.vehicleType vt).profile
      (((ofActs data vt (xs ++ ys)).before xs.length).distance (data.vehicleType vt).profile)
      ((ofActs data vt (xs ++ ys)).before xs.length).backLoc (ms ++ [last])
      = (Route.build data (xs ++ as.flatten ++ tail) vt).distance := by
    obtain ⟨h1, h2⟩ := before_dist data vt xs ys
    rw [distanceLoop_eq data _ _ (as.map (·.map data.locationOf)
      ++ [tail.map data.locationOf ++ [endLoc data (data.vehicleType vt)]])
      ((hm.map (fun _ _ h => h.dist _)).append (.cons hl.dist .nil)), h1, h2, ← ofActs_distance]
    have h3 : (ofActs data vt (xs ++ as.flatten ++ tail)).distance_
        = (ofActs data vt (xs ++ as.flatten ++ tail)).cumDist.getLastD 0 := rfl
    rw [h3, ofActs_cumDist_last, List.flatten_append, List.flatten_singleton, ← List.map_flatten,
      List.map_append, List.map_append]
    generalize xs.map data.locationOf = l1
    generalize as.flatten.map data.locationOf = l2
    generalize tail.map data.locationOf = l3
    cases l1 with
    | nil => simp [legSum]
    | cons a rest =>
      have := legSum_join (data.dist (data.vehicleType vt).profile)
        (data.depot (data.vehicleType vt).startDepot).location (a :: rest)
        (l2 ++ (l3 ++ [endLoc data (data.vehicleType vt)])) (by simp)
      rw [show a :: rest ++ l2 ++ l3 ++ [endLoc data (data.vehicleType vt)]
        = a :: rest ++ (l2 ++ (l3 ++ [endLoc data (data.vehicleType vt)])) by simp, this]
      simp only [legSum, List.headD_cons, List.getLastD_cons]
  have hv : (ofActs data vt (xs ++ ys)).vehicleType = vt := rfl
  simp only [Proposal.distance, hv, hd]

theorem proposal_load (hm : All2 (Mid data) ms as) (hl : Tail data vt last tail)
    (dim : Nat) (hdim : dim < data.numLoadDimensions)
    (hcap : 0 ≤ (data.vehicleType vt).capacity.getD dim 0)
    (hinit : 0 ≤ (data.vehicleType vt).initialLoad.getD dim 0) :
    Proposal.excessLoad data ⟨ofActs data vt (xs ++ ys), (ofActs data vt (xs ++ ys)).before xs.length,
      ms ++ [last]⟩ dim
    = (Route.build data (xs ++ as.flatten ++ tail) vt).excessLoad.getD dim 0 := by
  have hb : (Route.build data (xs ++ as.flatten ++ tail) vt).excessLoad.getD dim 0
      = (Route.loadDim data (data.vehicleType vt)
          (Route.build data (xs ++ as.flatten ++ tail) vt).schedule dim).2.2 := by
    have h : (Route.build data (xs ++ as.flatten ++ tail) vt).excessLoad
      = (List.range data.numLoadDimensions).map (fun dim =>
        (Route.loadDim data (data.vehicleType vt)
          (Route.build data (xs ++ as.flatten ++ tail) vt).schedule dim).2.2) := by
      simp only [Route.build, List.map_map]
      rfl
    rw [h, getD_range_map _ _ _ hdim]
  rw [hb, build_excessLoad vt _ dim hcap hinit]
  have h0 := before_load data vt xs ys dim hdim
  unfold finIf at h0
  have hok := foldl_stepLoad_ok (data := data) (cap := (data.vehicleType vt).capacity.getD dim 0)
    (dim := dim) xs (.ofVehicle (data.vehicleType vt) dim)
  show (Proposal.loadLoop ((data.vehicleType vt).capacity.getD dim 0) dim
    (if ((ofActs data vt (xs ++ ys)).before xs.length).endsAtReloadDepot = true then
      (((ofActs data vt (xs ++ ys)).before xs.length).load dim).finalise
        ((data.vehicleType vt).capacity.getD dim 0)
      else ((ofActs data vt (xs ++ ys)).before xs.length).load dim) (ms ++ [last])).excessLoad
        ((data.vehicleType vt).capacity.getD dim 0) = _
  rw [h0, loadLoop_concat, foldl_midLoad dim hdim _ ms as hm _ hok,
    hl.load dim _ hdim (foldl_stepLoad_ok _ hok), List.foldl_append, List.foldl_append]

/-- The segment of a proposal. -/
theorem proposal_durationSeg (ht : TimesOk data) (hm : All2 (Mid data) ms as)
    (hl : Tail data vt last tail) (M R : Int) (hR : R ≤ HALF)
    (hM : EarlyBy data (data.vehicleType vt) M xs)
    (hfit : M + serviceTime data ⟨.depot, (data.vehicleType vt).startDepot⟩
      + span data (data.vehicleType vt).profile
          (data.depot (data.vehicleType vt).startDepot).location xs ≤ HALF)
    (hR0 : 0 ≤ R)
    (hrel : ∀ a ∈ xs ++ as.flatten ++ tail, released data a ≤ R)
    (hlate : ∀ a ∈ xs ++ as.flatten ++ tail, a.type = .depot → R ≤ latest data a) :
    let P := Proposal.durationSeg data ⟨ofActs data vt (xs ++ ys),
      (ofActs data vt (xs ++ ys)).before xs.length, ms ++ [last]⟩
    let B := (Route.backward data (data.vehicleType vt) (xs ++ as.flatten ++ tail)).ds
    P.obs = B.obs
    ∧ ((∀ a ∈ xs.dropLast, a.type ≠ .depot) → P = B)
    ∧ 0 ≤ P.cumTimeWarp_ ∧ 0 ≤ P.timeWarp_ ∧ 0 ≤ B.cumTimeWarp_ ∧ 0 ≤ B.timeWarp_
    ∧ (R = 0 → P.releaseTime_ ≤ P.startLate_ ∧ B.releaseTime_ ≤ B.startLate_) := by
  intro P B
  have hrelX : ∀ a ∈ xs, released data a ≤ R := fun a ha => hrel a (by simp [ha])
  have hrelA : ∀ a ∈ as.flatten, released data a ≤ R := fun a ha =>
    hrel a (List.mem_append_left _ (List.mem_append_right _ ha))
  have hrelT : ∀ a ∈ tail, released data a ≤ R := fun a ha => hrel a (by simp [ha])
  have hlateX : ∀ a ∈ xs, a.type = .depot → R ≤ latest data a := fun a ha => hlate a (by simp [ha])
  have hlateA : ∀ a ∈ as.flatten, a.type = .depot → R ≤ latest data a := fun a ha =>
    hlate a (List.mem_append_left _ (List.mem_append_right _ ha))
  -- the last segment
  have hsT := onto_ok ht hR0 hR (data.vehicleType vt).profile tail hrelT
    ((endSeg_ok ht vt).mono hR0) (endLoc data (data.vehicleType vt))
  -- the segments in the middle
  have hmid := foldl_midDur ht (data.vehicleType vt).profile R hR ms.reverse as.reverse hm.reverse
    (by rw [List.reverse_reverse]; exact hrelA) (by rw [List.reverse_reverse]; exact hlateA)
    _ (headLoc data tail (endLoc data (data.vehicleType vt))) hsT
  rw [List.reverse_reverse, ← onto_append, ← headLoc_append] at hmid
  have hsA := onto_ok ht hR0 hR (data.vehicleType vt).profile (as.flatten ++ tail)
    (fun a ha => by
      rcases List.mem_append.1 ha with h | h
      · exact hrelA a h
      · exact hrelT a h)
    ((endSeg_ok ht vt).mono hR0) (endLoc data (data.vehicleType vt))
  have hP : P = close data (data.vehicleType vt).profile
        ((innerNodes 1 0 xs).getLastD (startNode (data.vehicleType vt)))
        (foldNodes (durBeforeStep data (data.vehicleType vt)) (startNode (data.vehicleType vt))
          (durAtOf data (data.vehicleType vt) (startNode (data.vehicleType vt))) (innerNodes 1 0 xs))
        (onto data (data.vehicleType vt).profile (as.flatten ++ tail)
          (endSeg data (data.vehicleType vt)) (endLoc data (data.vehicleType vt)))
        (headLoc data (as.flatten ++ tail) (endLoc data (data.vehicleType vt))) := by
    rw [← before_lastDur data vt xs ys]
    show Proposal.durationSeg data _ = _
    unfold Proposal.durationSeg
    simp only [List.reverse_cons, List.reverse_append, List.reverse_nil, List.nil_append,
      List.cons_append]
    rw [durationLoop_concat]
    have hv : (ofActs data vt (xs ++ ys)).vehicleType = vt := rfl
    have hd := hl.dur ht
    unfold openIf at hd
    rw [hv, hd, hl.front, hmid]
  have hB : B = top data (data.vehicleType vt)
      (onto data (data.vehicleType vt).profile xs
        (onto data (data.vehicleType vt).profile (as.flatten ++ tail)
          (endSeg data (data.vehicleType vt)) (endLoc data (data.vehicleType vt)))
        (headLoc data (as.flatten ++ tail) (endLoc data (data.vehicleType vt))))
      (headLoc data xs (headLoc data (as.flatten ++ tail) (endLoc data (data.vehicleType vt)))) := by
    show (Route.backward _ _ _).ds = _
    rw [backward_ds ht vt, List.append_assoc, onto_append data _ xs, headLoc_append data xs]
  have hact := innerNodes_activity 1 0 xs
  have hinner := innerNodes_inner 1 0 xs
  have hstart : IsStart (data.vehicleType vt) (startNode (data.vehicleType vt)) := ⟨rfl, rfl⟩
  have hmem : ∀ n ∈ innerNodes 1 0 xs, n.activity ∈ xs := fun n hn => by
    rw [← hact]; exact List.mem_map_of_mem hn
  have hobs := prefix_obs ht vt M R hR (startNode (data.vehicleType vt)) hstart (innerNodes 1 0 xs)
    hinner (by rw [hact]; exact hM) (by rw [hact]; exact hfit)
    (fun n hn => hrelX _ (hmem n hn)) (fun n hn => hlateX _ (hmem n hn)) _ hsA
    (headLoc data (as.flatten ++ tail) (endLoc data (data.vehicleType vt)))
  have hparts := prefix_parts ht vt M (startNode (data.vehicleType vt)) hstart (innerNodes 1 0 xs)
    hinner (by rw [hact]; exact hM) (by rw [hact]; exact hfit)
  have hinv := (prefix_inv ht vt M (startNode (data.vehicleType vt)) hstart (innerNodes 1 0 xs)
    hinner (by rw [hact]; exact hM) (by rw [hact]; exact hfit)).1
  have hpre := hinv.pre (by
    have := pending_bounds ht ((innerNodes 1 0 xs).getLastD (startNode (data.vehicleType vt)))
    have h2 : M + serviceTime data (startNode (data.vehicleType vt)).activity
      + span data (data.vehicleType vt).profile
          (data.locationOf (startNode (data.vehicleType vt)).activity) xs ≤ HALF := hfit
    rw [hact]; omega)
  dsimp only at hobs hparts
  rw [hact, ← hP, ← hB] at hobs
  have hinB := Route.back_inv ht vt (xs ++ as.flatten ++ tail)
  -- the end result of the prefix
  have hmergeP : ∃ e x, 0 ≤ e ∧ SegOk R x ∧ P = DurSeg.merge e
      (foldNodes (durBeforeStep data (data.vehicleType vt)) (startNode (data.vehicleType vt))
          (durAtOf data (data.vehicleType vt) (startNode (data.vehicleType vt))) (innerNodes 1 0 xs))
      x := by
    rw [hP]
    unfold close
    split
    · next hr =>
      refine ⟨_, _, Int.le_refl 0, ?_, rfl⟩
      rcases getLastD_inner hinner (startNode (data.vehicleType vt)) with ⟨h1, _⟩ | ⟨_, h2⟩
      · rw [h1] at hr
        exact absurd hr (by rw [hstart.reload]; simp)
      · exact stepDs_ok ht hR0 hR _ _ (hrelX _ (hmem _ h2)) hsA _
    · exact ⟨_, _, ht.dur .., hsA, rfl⟩
  obtain ⟨e, x, he, hx, hPe⟩ := hmergeP
  generalize foldNodes (durBeforeStep data (data.vehicleType vt)) (startNode (data.vehicleType vt))
    (durAtOf data (data.vehicleType vt) (startNode (data.vehicleType vt))) (innerNodes 1 0 xs)
    = p at *
  have hsX := onto_ok ht hR0 hR (data.vehicleType vt).profile xs hrelX hsA
    (headLoc data (as.flatten ++ tail) (endLoc data (data.vehicleType vt)))
  have hokP : P.Ok := by rw [hPe]; exact hpre.ok.merge he hx.ok
  have hseg : SegOk R B := by
    rw [hB]
    refine SegOk.merge (ht.dur ..) ?_ hsX
    refine SegOk.merge (Int.le_refl 0) ?_ ?_
    · exact ⟨(ht.vehicle vt).2, Int.le_refl 0, hR0, rfl, rfl, rfl⟩
    · exact depotSeg_ok ht hR0 _
  refine ⟨hobs.1, ?_, ?_, hokP.w0, ?_, hseg.ok.w0, ?_⟩
  · intro h
    refine hobs.2 (fun n hn => h _ ?_)
    rw [← hact, ← List.map_dropLast]
    exact List.mem_map_of_mem hn
  · rw [hPe]; simp only [DurSeg.merge]; rw [hx.cumW]; have := hparts.1; omega
  · rw [hseg.cumW]; exact Int.le_refl 0
  · intro h0
    subst h0
    constructor
    · have h1 := hparts.2 (fun n hn => by
        have := hrelX _ (hmem n hn)
        have := (released_bounds ht n.activity).1
        omega)
      have h2 := merge_early (e := e) (b := x) hpre.ok
      have h3 := hpre.r0
      have h4 : P.releaseTime_ = max p.releaseTime_ x.releaseTime_ := by rw [hPe]; rfl
      have h5 := hx.rR
      have h6 := hx.r0
      rw [← hPe] at h2
      have := hokP.el
      omega
    · have h5 := hseg.rR
      have := hseg.ok.el; have := hseg.ok.e0
      omega

end Main
end SRoute
end PyVRP
