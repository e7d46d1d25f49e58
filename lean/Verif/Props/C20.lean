import Verif.Lemmas.SearchRoute
import Verif.Lemmas.SearchLoadSum
import Verif.Props.C04
import Verif.Props.C07
import Verif.Props.Demo
/-!
# C20: search routes agree with routes
-/
namespace PyVRP
open Spec

namespace Spec

/-- Changes to a search route; positions count the start depot as 0. `exchange` is what a swap with
a node of another route does to this route. -/
inductive RouteOp where
  | insert (pos : Nat) (a : Activity)
  | remove (pos : Nat)
  | swap (i j : Nat)
  | exchange (pos : Nat) (a : Activity)
  | clear
  | update

namespace RouteOp

/-- The activity at position `pos`. -/
def actAt (acts : List Activity) (pos : Nat) : Activity := acts.getD (pos - 1) default

/-- What the change means for the list of activities between the start and end depot. -/
def onActs (acts : List Activity) : RouteOp → List Activity
  | insert pos a => acts.insertIdx (pos - 1) a
  | remove pos => acts.eraseIdx (pos - 1)
  | swap i j => (acts.set (i - 1) (actAt acts j)).set (j - 1) (actAt acts i)
  | exchange pos a => acts.set (pos - 1) a
  | clear => []
  | update => acts

/-- A position of an activity between the start and end depot. -/
def InRange (acts : List Activity) (pos : Nat) : Prop := 1 ≤ pos ∧ pos ≤ acts.length

/-- What the code asserts of the arguments. -/
def Legal (acts : List Activity) : RouteOp → Prop
  | insert pos _ => 1 ≤ pos ∧ pos ≤ acts.length + 1
  | remove pos => InRange acts pos
  | swap i j => InRange acts i ∧ InRange acts j ∧ (actAt acts i).type ≠ .depot
      ∧ (actAt acts j).type ≠ .depot
  | exchange pos a => InRange acts pos ∧ (actAt acts pos).type ≠ .depot ∧ a.type ≠ .depot
  | clear => True
  | update => True

/-- Performing the change. -/
def run (data : ProblemData) (r : SRoute) : RouteOp → Except Error SRoute
  | insert pos a => r.insert data pos a
  | remove pos => .ok (r.remove pos)
  | swap i j => .ok (r.swap i j)
  | exchange pos a => .ok (r.put pos a)
  | clear => .ok (r.clear data)
  | update => .ok (r.update data)

end RouteOp

/-- `r` is a search route of vehicle type `vt`, made by any sequence of changes, that should visit
`acts`. -/
inductive History (data : ProblemData) (vt : Nat) : List Activity → SRoute → Prop where
  | new : History data vt [] (SRoute.new data vt)
  | step {acts : List Activity} {r r' : SRoute} (op : RouteOp) :
    History data vt acts r → op.Legal acts → op.run data r = .ok r' →
    History data vt (op.onActs acts) r'

end Spec

theorem insertIdx_split {α : Type} (l : List α) (a : α) :
    ∀ i, i ≤ l.length → l.insertIdx i a = l.take i ++ a :: l.drop i := by
  induction l with
  | nil => intro i hi; have : i = 0 := by simpa using hi
           subst this; rfl
  | cons b rest ih =>
    intro i hi
    cases i with
    | zero => rfl
    | succ i => simp [List.insertIdx_succ_cons, ih i (by simpa using hi)]

theorem getD_append_lt {α : Type} (l m : List α) (k : Nat) (d : α) (h : k < l.length) :
    (l ++ m).getD k d = l.getD k d := by
  simp [List.getD_eq_getElem?_getD, List.getElem?_append_left h]

theorem getD_append_ge {α : Type} (l m : List α) (k : Nat) (d : α) (h : l.length ≤ k) :
    (l ++ m).getD k d = m.getD (k - l.length) d := by
  simp [List.getD_eq_getElem?_getD, List.getElem?_append_right h]

/-- Split a list at a position. -/
theorem split_at {acts : List Activity} {pos : Nat} (h : RouteOp.InRange acts pos) :
    ∃ xs ys, acts = xs ++ RouteOp.actAt acts pos :: ys ∧ xs.length = pos - 1 := by
  obtain ⟨h1, h2⟩ := h
  have hlt : pos - 1 < acts.length := by omega
  refine ⟨acts.take (pos - 1), acts.drop pos, ?_, by simp; omega⟩
  have : RouteOp.actAt acts pos = acts[pos - 1] := by
    simp [RouteOp.actAt, List.getD_eq_getElem?_getD, List.getElem?_eq_getElem hlt]
  rw [this]
  have hd : acts.drop (pos - 1) = acts[pos - 1] :: acts.drop (pos - 1 + 1) :=
    List.drop_eq_getElem_cons hlt
  rw [show pos - 1 + 1 = pos by omega] at hd
  rw [← hd, List.take_append_drop]

theorem SRoute.node_activity {data : ProblemData} {r : SRoute} {acts : List Activity}
    (h : r.Visits data acts) {pos : Nat} (hp : RouteOp.InRange acts pos) :
    (r.nodes.getD pos default).activity = RouteOp.actAt acts pos := by
  obtain ⟨xs, ys, he, hl⟩ := split_at hp
  have h1 := hp.1
  have hx : acts = (xs ++ [RouteOp.actAt acts pos]) ++ ys := by simp [← he]
  unfold SRoute.Visits at h
  have hpos : pos = (xs ++ [RouteOp.actAt acts pos]).length := by simp; omega
  rw [h]
  generalize RouteOp.actAt acts pos = a at *
  rw [hx, hpos, canon_getD, innerNodes_append]
  simp [innerNodes]

theorem SRoute.put_set {data : ProblemData} {r : SRoute} {acts : List Activity}
    (h : r.Visits data acts) {pos : Nat} (hp : RouteOp.InRange acts pos) (a : Activity)
    (ha : a.type ≠ .depot) (hb : (RouteOp.actAt acts pos).type ≠ .depot) :
    (r.put pos a).Visits data (acts.set (pos - 1) a)
    ∧ (r.put pos a).vehicleType = r.vehicleType := by
  obtain ⟨xs, ys, he, hl⟩ := split_at hp
  have h1 := hp.1
  have hpos : pos = xs.length + 1 := by omega
  have hset : acts.set (pos - 1) a = xs ++ a :: ys := by
    conv => lhs; rw [he]
    rw [← hl, List.set_append_right _ _ (Nat.le_refl _)]
    simp
  rw [hset]
  rw [he] at h
  rw [hpos]
  rw [hpos] at hb h
  exact SRoute.put_visits h a ha hb

/-- **C20.** After any sequence of changes, the nodes of the search route are the start depot, the
activities that the changes lead to, and the end depot; each node knows its position and its trip. -/
theorem C20_nodes (data : ProblemData) (vt : Nat) (acts : List Activity) (r : SRoute)
    (h : History data vt acts r) :
    r.vehicleType = vt ∧ r.nodes.map (·.activity) = fullActs (data.vehicleType vt) acts
    ∧ r.size = acts.length + 2
    ∧ (∀ k, k ≤ acts.length + 1 → (r.node k).pos = k)
    ∧ (∀ k, k ≤ acts.length → (r.node k).trip = depotVisits (acts.take k))
    ∧ (r.node (acts.length + 1)).trip = depotVisits acts + 1
    ∧ r.numTrips = depotVisits acts + 1
    ∧ r.Visits data acts := by
  have key : r.vehicleType = vt ∧ r.Visits data acts := by
    induction h with
    | new => exact ⟨rfl, rfl⟩
    | @step acts r r' op _ hl hr ih =>
      obtain ⟨hv, hvis⟩ := ih
      cases op with
      | insert pos a =>
        obtain ⟨h1, h2⟩ := hl
        have hxs : (acts.take (pos - 1)).length = pos - 1 := by simp; omega
        have hsp : acts = acts.take (pos - 1) ++ acts.drop (pos - 1) := by simp
        have hins : acts.insertIdx (pos - 1) a
            = acts.take (pos - 1) ++ a :: acts.drop (pos - 1) :=
          insertIdx_split _ _ _ (by omega)
        have := SRoute.insert_visits (xs := acts.take (pos - 1)) (ys := acts.drop (pos - 1))
          (data := data) (r := r) (by rw [← hsp]; exact hvis) a
        rw [hxs, show pos - 1 + 1 = pos by omega] at this
        simp only [RouteOp.run] at hr
        dsimp only at this
        split at this
        · rw [this] at hr; cases hr
        · obtain ⟨r'', h3, h4, h5⟩ := this
          rw [h3] at hr
          cases hr
          refine ⟨by rw [h4, hv], ?_⟩
          simp only [RouteOp.onActs, hins]
          exact h5
      | remove pos =>
        obtain ⟨xs, ys, he, hlen⟩ := split_at hl
        have h1 := hl.1
        simp only [RouteOp.run, Except.ok.injEq] at hr
        subst hr
        have hpos : pos = xs.length + 1 := by omega
        have her : acts.eraseIdx (pos - 1) = xs ++ ys := by
          conv => lhs; rw [he]
          rw [← hlen, List.eraseIdx_append_of_length_le (Nat.le_refl _)]
          simp
        rw [he] at hvis
        have := SRoute.remove_visits hvis
        rw [← hpos] at this
        simp only [RouteOp.onActs, her]
        exact ⟨by rw [this.2, hv], this.1⟩
      | swap i j =>
        obtain ⟨hi, hj, hdi, hdj⟩ := hl
        simp only [RouteOp.run, Except.ok.injEq] at hr
        subst hr
        have h1 := SRoute.put_set hvis hi (RouteOp.actAt acts j) hdj hdi
        have hj' : RouteOp.InRange (acts.set (i - 1) (RouteOp.actAt acts j)) j := by
          refine ⟨hj.1, ?_⟩; rw [List.length_set]; exact hj.2
        have hdj' : (RouteOp.actAt (acts.set (i - 1) (RouteOp.actAt acts j)) j).type ≠ .depot := by
          have : RouteOp.actAt (acts.set (i - 1) (RouteOp.actAt acts j)) j = RouteOp.actAt acts j := by
            have hlt : j - 1 < acts.length := by have := hj.1; have := hj.2; omega
            unfold RouteOp.actAt
            simp only [List.getD_eq_getElem?_getD, List.getElem?_set]
            split
            · split <;> simp_all
            · rfl
          rw [this]; exact hdj
        have h2 := SRoute.put_set h1.1 hj' (RouteOp.actAt acts i) hdi hdj'
        unfold SRoute.swap
        rw [SRoute.node_activity hvis hi, SRoute.node_activity hvis hj]
        exact ⟨by rw [h2.2, h1.2, hv], h2.1⟩
      | exchange pos a =>
        simp only [RouteOp.run, Except.ok.injEq] at hr
        subst hr
        have h1 := SRoute.put_set hvis hl.1 a hl.2.2 hl.2.1
        exact ⟨by rw [h1.2, hv], h1.1⟩
      | clear =>
        simp only [RouteOp.run, Except.ok.injEq] at hr
        subst hr
        unfold SRoute.clear
        split
        · next h2 =>
          rw [hvis, canon_length] at h2
          have : acts = [] := List.eq_nil_of_length_eq_zero (by omega)
          subst this
          exact ⟨hv, hvis⟩
        · exact ⟨hv, rfl⟩
      | update =>
        simp only [RouteOp.run, Except.ok.injEq] at hr
        subst hr
        exact ⟨hv, hvis⟩
  obtain ⟨hv, hvis⟩ := key
  have hn : r.nodes = canon (data.vehicleType vt) acts := by rw [← hv]; exact hvis
  refine ⟨hv, ?_, ?_, ?_, ?_, ?_, ?_, hvis⟩
  · rw [hn]; exact SRoute.canon_activities _ _
  · rw [SRoute.size, hn, canon_length]
  · intro k hk
    rw [SRoute.node, hn]
    have hin : ∀ (acts : List Activity) (pos trip k : Nat), k < acts.length →
        ((innerNodes pos trip acts).getD k default).pos = pos + k := by
      intro acts
      induction acts with
      | nil => intro _ _ k hk; simp at hk
      | cons a rest ih =>
        intro pos trip k hk
        cases k with
        | zero => simp [innerNodes]
        | succ k =>
          simp only [innerNodes, List.getD_cons_succ]
          rw [ih _ _ _ (by simpa using hk)]; omega
    cases k with
    | zero => rfl
    | succ k =>
      simp only [canon, List.getD_cons_succ]
      by_cases hlt : k < acts.length
      · rw [getD_append_lt _ _ _ _ (by rw [innerNodes_length]; exact hlt), hin _ _ _ _ hlt]
        omega
      · have : k = acts.length := by omega
        subst this
        rw [getD_append_ge _ _ _ _ (by rw [innerNodes_length]; exact Nat.le_refl _),
          innerNodes_length, Nat.sub_self]
        rfl
  · intro k hk
    rw [SRoute.node, hn]
    have := canon_getD_trip (data.vehicleType vt) (acts.take k) (acts.drop k)
    rw [List.take_append_drop, List.length_take, Nat.min_eq_left hk] at this
    exact this
  · rw [SRoute.node, hn]
    simp only [canon, List.getD_cons_succ]
    rw [getD_append_ge _ _ _ _ (by rw [innerNodes_length]; exact Nat.le_refl _),
      innerNodes_length, Nat.sub_self]
    rfl
  · rw [SRoute.numTrips, hn, canon_depots]
    rfl

/-- **C20.** Inserting fails exactly if the vehicle cannot perform that many trips. -/
theorem C20_insert_rejects_exactly_too_many_trips (data : ProblemData) (vt : Nat)
    (acts : List Activity) (r : SRoute) (h : History data vt acts r) (pos : Nat) (a : Activity)
    (hl : (RouteOp.insert pos a).Legal acts) :
    (∃ r', r.insert data pos a = .ok r')
      ↔ depotVisits (acts.insertIdx (pos - 1) a) + 1 ≤ (data.vehicleType vt).maxTrips := by
  obtain ⟨hv, _, _, _, _, _, _, hvis⟩ := C20_nodes data vt acts r h
  obtain ⟨h1, h2⟩ := hl
  have hxs : (acts.take (pos - 1)).length = pos - 1 := by simp; omega
  have hsp : acts = acts.take (pos - 1) ++ acts.drop (pos - 1) := by simp
  have hins : acts.insertIdx (pos - 1) a = acts.take (pos - 1) ++ a :: acts.drop (pos - 1) :=
    insertIdx_split _ _ _ (by omega)
  have := SRoute.insert_visits (xs := acts.take (pos - 1)) (ys := acts.drop (pos - 1))
    (data := data) (r := r) (by rw [← hsp]; exact hvis) a
  rw [hxs, show pos - 1 + 1 = pos by omega, hv, ← hins] at this
  dsimp only at this
  split at this
  · rw [this]
    constructor
    · rintro ⟨_, h⟩; cases h
    · intro; omega
  · obtain ⟨r', h3, _⟩ := this
    exact ⟨fun _ => by omega, fun _ => ⟨r', h3⟩⟩

/-- **C20.** Appending is inserting after all other activities. -/
theorem C20_append (data : ProblemData) (vt : Nat) (acts : List Activity) (r r' : SRoute)
    (h : History data vt acts r) (a : Activity) (ha : r.pushBack data a = .ok r') :
    History data vt (acts ++ [a]) r' := by
  have hl : r.nodes.length = acts.length + 2 := by
    have := congrArg List.length (C20_nodes data vt acts r h).2.1
    simpa [fullActs] using this
  have hins : acts.insertIdx acts.length a = acts ++ [a] := by
    rw [insertIdx_split _ _ _ (Nat.le_refl _)]; simp
  have := History.step (.insert (acts.length + 1) a) h ⟨by omega, by omega⟩
    (by unfold SRoute.pushBack at ha; rw [hl] at ha; exact ha)
  rwa [RouteOp.onActs, Nat.add_sub_cancel, hins] at this

/-- **C20.** After any sequence of changes followed by an update, the search route reports exactly
what a `Route` constructed from the same activities reports. -/
theorem C20_search_route_agrees (data : ProblemData) (ht : TimesOk data) (vt : Nat)
    (hcap : ∀ dim, 0 ≤ (data.vehicleType vt).capacity.getD dim 0)
    (hinit : ∀ dim, 0 ≤ (data.vehicleType vt).initialLoad.getD dim 0)
    (acts : List Activity) (hsize : acts.length < SIZE_MAX)
    (hreloads : (data.vehicleType vt).maxReloads ≤ SIZE_MAX)
    (r : SRoute) (h : History data vt acts r)
    (route : Route) (hroute : Route.make data acts vt = .ok route) :
    let s := r.update data
    s.distance_ = route.distance ∧ s.distanceCost_ = route.distanceCost
    ∧ s.excessDistance_ = route.excessDistance
    ∧ s.duration_ = route.duration ∧ s.durationCost_ = route.durationCost
    ∧ s.overtime data = route.overtime
    ∧ s.timeWarp_ = route.timeWarp
    ∧ s.excessLoad_ = route.excessLoad
    ∧ s.numClients = route.numClients ∧ s.numShipments = route.numShipments
    ∧ s.numTrips = route.numTrips ∧ s.numDepots = route.numDepots
    ∧ s.empty = route.empty
    ∧ s.isFeasible = route.isFeasible
    ∧ ∀ ce : CostEvaluator, ce.penalisedCostSearch data s = ce.penalisedCostRoute route := by
  obtain ⟨hv, _, _, _, _, _, _, hvis⟩ := C20_nodes data vt acts r h
  have hup := SRoute.update_eq hvis
  rw [hv] at hup
  intro s
  have hs : s = SRoute.ofActs data vt acts := hup
  have hr := Route.make_eq_ok hroute
  obtain ⟨c1, _, c3, c4, c5, c6⟩ := C07_counts data acts vt route hsize hreloads hroute
  have hw := (C05_route_accepts_exactly_wellformed data acts vt hsize hreloads).1.1 ⟨route, hroute⟩
  obtain ⟨k1, k2, _, k4, k5⟩ := SRoute.ofActs_counts data vt acts
  obtain ⟨d1, d2, d3⟩ := SRoute.ofActs_duration ht vt acts
  have hd := SRoute.ofActs_distance data vt acts
  have hl := SRoute.ofActs_excessLoad data vt acts hcap hinit
  rw [← hr] at hd hl d1 d2 d3
  have hdc : (SRoute.ofActs data vt acts).distanceCost_ = route.distanceCost := by
    show (data.vehicleType vt).unitDistanceCost * (SRoute.ofActs data vt acts).distance_ = _
    rw [hd, hr]; rfl
  have hxd : (SRoute.ofActs data vt acts).excessDistance_ = route.excessDistance := by
    show max ((SRoute.ofActs data vt acts).distance_ - (data.vehicleType vt).maxDistance) 0 = _
    rw [hd, hr]; rfl
  have hemp : (SRoute.ofActs data vt acts).empty = route.empty := by
    unfold SRoute.empty Route.empty
    rw [k1, k2, ← c3]
    have : route.numClientsInt = (acts.countP (fun a => a.type = .client) : Nat) := by
      rw [← c1]
      exact (C07_counts data acts vt route hsize hreloads hroute).2.1
    rw [this, Bool.eq_iff_iff]
    simp
  have hot : (SRoute.ofActs data vt acts).overtime data = route.overtime := by
    show max ((SRoute.ofActs data vt acts).duration_ - (data.vehicleType vt).shiftDuration) 0 = _
    rw [d1, hr]; rfl
  rw [hs]
  refine ⟨hd, hdc, hxd, d1, d2, hot, d3, hl, by rw [k1, c1], by rw [k2, c3], by rw [k4, c4],
    by rw [k5, c5], hemp, ?_, ?_⟩
  · unfold SRoute.isFeasible Route.isFeasible SRoute.hasExcessLoad Route.hasExcessLoad
      SRoute.hasTimeWarp Route.hasTimeWarp SRoute.hasExcessDistance Route.hasExcessDistance
    rw [hl, d3, hxd]
  · intro ce
    unfold CostEvaluator.penalisedCostSearch CostEvaluator.penalisedCostRoute
    rw [hemp, hdc, d2, hl, d3, hxd]
    have : (data.vehicleType (SRoute.ofActs data vt acts).vehicleType).fixedCost
        = route.fixedVehicleCost := by rw [hr]; rfl
    rw [this]

/-- **C20.** The same without the assumption that the activities form a valid route (a pickup may be
without its delivery while a shipment is being moved): the statistics are those of the plain
computation of `Route`. -/
theorem C20_search_route_agrees_unchecked (data : ProblemData) (ht : TimesOk data) (vt : Nat)
    (hcap : ∀ dim, 0 ≤ (data.vehicleType vt).capacity.getD dim 0)
    (hinit : ∀ dim, 0 ≤ (data.vehicleType vt).initialLoad.getD dim 0)
    (acts : List Activity) (r : SRoute) (h : History data vt acts r) :
    let s := r.update data
    let route := Route.build data acts vt
    s.distance_ = route.distance ∧ s.duration_ = route.duration
    ∧ s.durationCost_ = route.durationCost
    ∧ s.timeWarp_ = route.timeWarp ∧ s.excessLoad_ = route.excessLoad
    ∧ s.numClients = acts.countP (fun a => a.type = .client)
    ∧ s.numShipments = acts.countP (fun a => a.type = .pickup)
    ∧ s.numTrips = depotVisits acts + 1 := by
  obtain ⟨hv, _, _, _, _, _, _, hvis⟩ := C20_nodes data vt acts r h
  have hup := SRoute.update_eq hvis
  rw [hv] at hup
  intro s
  have hs : s = SRoute.ofActs data vt acts := hup
  obtain ⟨k1, k2, _, k4, k5⟩ := SRoute.ofActs_counts data vt acts
  obtain ⟨d1, d2, d3⟩ := SRoute.ofActs_duration ht vt acts
  rw [hs]
  exact ⟨SRoute.ofActs_distance data vt acts, d1, d2, d3,
    SRoute.ofActs_excessLoad data vt acts hcap hinit, k1, k2, k4⟩

/-- The peaks of the trips add up to `peaksFrom`. -/
theorem Spec.peaksFrom_peaks (data : ProblemData) (dim : Nat) (extra : Int)
    (acts : List Activity) :
    ∃ peaks : List Int, List.Forall₂ IsPeak peaks (routeAmounts data dim extra acts)
      ∧ peaksFrom data dim [⟨extra, 0⟩] (trips acts) = peaks.sum := by
  unfold routeAmounts
  cases ht : trips acts with
  | nil => exact ⟨[], .nil, rfl⟩
  | cons t ts =>
    refine ⟨peak (extra + loadedAtStart (t.map (loadEvent data dim))) (t.map (loadEvent data dim))
      :: ts.map (fun t => peak (loadedAtStart (t.map (loadEvent data dim)))
          (t.map (loadEvent data dim))), ?_, ?_⟩
    · refine .cons (isPeak_peak _ _) ?_
      rw [List.forall₂_map_left_iff, List.forall₂_map_right_iff, List.forall₂_same]
      intro t _
      have := isPeak_peak (loadedAtStart (t.map (loadEvent data dim))) (t.map (loadEvent data dim))
      simpa [tripAmounts] using this
    · have h0 := le_peak (extra + loadedAtStart (t.map (loadEvent data dim)))
        (t.map (loadEvent data dim))
      simp only [peaksFrom, List.sum_cons]
      congr 1
      have : loadedAtStart ([⟨extra, 0⟩] ++ t.map (loadEvent data dim))
          = extra + loadedAtStart (t.map (loadEvent data dim)) := by
        simp [loadedAtStart]
      rw [this]
      simp only [List.singleton_append, peak, Int.add_zero]
      rw [Int.max_eq_right h0]

/-- **C20.** After any sequence of changes followed by an update, the load that a search route
reports in a dimension is the sum over its trips of the trip's peak load, the first trip starting
with the vehicle's initial load on board. There is one load for each dimension. -/
theorem C20_load (data : ProblemData) (vt : Nat) (acts : List Activity) (r : SRoute)
    (h : History data vt acts r) :
    (r.update data).load_.length = data.numLoadDimensions
    ∧ ∀ dim, dim < data.numLoadDimensions →
      ∃ peaks : List Int,
        List.Forall₂ IsPeak peaks
          (routeAmounts data dim ((data.vehicleType vt).initialLoad.getD dim 0) acts)
        ∧ (r.update data).load_[dim]? = some peaks.sum := by
  obtain ⟨hv, _, _, _, _, _, _, hvis⟩ := C20_nodes data vt acts r h
  have hup := SRoute.update_eq hvis
  rw [hv] at hup
  rw [hup, SRoute.ofActs_load]
  refine ⟨by simp, fun dim hdim => ?_⟩
  obtain ⟨peaks, hp, he⟩ := Spec.peaksFrom_peaks data dim
    ((data.vehicleType vt).initialLoad.getD dim 0) acts
  refine ⟨peaks, hp, ?_⟩
  rw [List.getElem?_map, List.getElem?_range hdim, Option.map_some, he]

/-! ## Non-vacuity -/

namespace Demo

/-- Insert, remove, swap and clear: a history that leads to the route with two trips. -/
def ops : List RouteOp :=
  [.insert 1 (client 3), .update, .clear, .insert 1 (client 1), .insert 1 (client 0), .insert 3 (depot 0),
    .insert 2 (pickup 0), .insert 4 (delivery 0), .insert 6 (client 4), .insert 7 (depot 0),
    .remove 7, .swap 1 3, .swap 3 1, .exchange 6 (client 2)]

def runOps : List RouteOp → SRoute → Except Error SRoute
  | [], r => .ok r
  | op :: rest, r =>
    match op.run data r with
    | .error e => .error e
    | .ok r => runOps rest r

example : (match runOps ops (SRoute.new data 0) with
    | .ok r => decide (
      r.nodes.map (·.activity) = fullActs (data.vehicleType 0) acts
      ∧ (r.update data).duration_ = (Route.build data acts 0).duration
      ∧ (r.update data).duration_ = 61
      ∧ (r.update data).timeWarp_ = 0
      ∧ (r.update data).excessLoad_ = [0]
      ∧ Spec.routeAmounts data 0 ((data.vehicleType 0).initialLoad.getD 0 0) acts
          = [[7, 3, 6, 8, 5], [1, 1]]
      ∧ (r.update data).load_ = [8 + 1])
    | .error _ => false) = true := by decide +kernel

/-- Appending to the route. -/
example : (match runOps ops (SRoute.new data 0) with
    | .ok r => (match r.pushBack data (client 4) with
      | .ok r => decide (r.nodes.map (·.activity) = fullActs (data.vehicleType 0) (acts ++ [client 4]))
      | .error _ => false)
    | .error _ => false) = true := by decide +kernel

/-- A fourth trip is rejected. -/
example : (match runOps (ops ++ [.insert 6 (depot 0), .insert 6 (depot 0)]) (SRoute.new data 0) with
    | .ok _ => false
    | .error _ => true) = true := by decide +kernel

end Demo
end PyVRP
