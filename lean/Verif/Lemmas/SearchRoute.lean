import Verif.Lemmas.SearchLoad
import Verif.Spec.WellFormed
/-!
# Lemmas on search routes: the nodes, and the statistics
-/
namespace PyVRP
open Spec

/-! ## The nodes of a route that visits given activities -/

/-- The inner nodes: positions count from `pos`, trips from `trip`. -/
def innerNodes (pos trip : Nat) : List Activity → List SNode
  | [] => []
  | a :: rest =>
    let trip' := if a.type = .depot then trip + 1 else trip
    { activity := a, pos := pos, trip := trip' } :: innerNodes (pos + 1) trip' rest

/-- The start node. -/
def startNode (v : VehicleType) : SNode :=
  { activity := ⟨.depot, v.startDepot⟩, role := .start, pos := 0, trip := 0 }

/-- The end node. -/
def endNode (v : VehicleType) (pos trip : Nat) : SNode :=
  { activity := ⟨.depot, v.endDepot⟩, role := .finish, pos := pos, trip := trip }

/-- All nodes of a route of vehicle type `v` that visits `acts`. -/
def canon (v : VehicleType) (acts : List Activity) : List SNode :=
  startNode v :: (innerNodes 1 0 acts ++ [endNode v (acts.length + 1) (depotVisits acts + 1)])

theorem innerNodes_length (pos trip : Nat) (acts : List Activity) :
    (innerNodes pos trip acts).length = acts.length := by
  induction acts generalizing pos trip with
  | nil => rfl
  | cons a rest ih => simp [innerNodes, ih]

theorem innerNodes_activity (pos trip : Nat) (acts : List Activity) :
    (innerNodes pos trip acts).map SNode.activity = acts := by
  induction acts generalizing pos trip with
  | nil => rfl
  | cons a rest ih => simp [innerNodes, ih]

theorem innerNodes_inner (pos trip : Nat) (acts : List Activity) :
    ∀ n ∈ innerNodes pos trip acts, Inner n := by
  induction acts generalizing pos trip with
  | nil => intro n h; cases h
  | cons a rest ih =>
    intro n h
    simp only [innerNodes, List.mem_cons] at h
    rcases h with rfl | h
    · rfl
    · exact ih _ _ n h

theorem depotVisits_append (xs ys : List Activity) :
    depotVisits (xs ++ ys) = depotVisits xs + depotVisits ys := by
  simp [depotVisits, List.countP_append]

theorem innerNodes_append (pos trip : Nat) (xs ys : List Activity) :
    innerNodes pos trip (xs ++ ys)
      = innerNodes pos trip xs ++ innerNodes (pos + xs.length) (trip + depotVisits xs) ys := by
  induction xs generalizing pos trip with
  | nil => simp [innerNodes, depotVisits]
  | cons a rest ih =>
    simp only [List.cons_append, innerNodes, ih, Route.depotVisits_cons, List.length_cons]
    congr 2
    congr 1
    · omega
    · split <;> omega

theorem renumber_innerNodes (k : Nat → Nat) (d : Nat → Nat) (pos pos' trip : Nat)
    (acts : List Activity) (hk : ∀ t, trip ≤ t → k t = d t) (hd : ∀ t, trip ≤ t → d (t + 1) = d t + 1) :
    SRoute.renumber k pos' (innerNodes pos trip acts) = innerNodes pos' (d trip) acts := by
  induction acts generalizing pos pos' trip with
  | nil => rfl
  | cons a rest ih =>
    simp only [innerNodes, SRoute.renumber]
    by_cases h : a.type = .depot
    · simp only [h, if_true]
      rw [hk _ (by omega), hd _ (Nat.le_refl _), ih _ _ _ (fun t ht => hk t (by omega))
        (fun t ht => hd t (by omega)), hd _ (Nat.le_refl _)]
    · simp only [h, if_false]
      rw [hk _ (Nat.le_refl _), ih _ _ _ hk hd]

theorem renumber_append (k : Nat → Nat) (pos : Nat) (xs ys : List SNode) :
    SRoute.renumber k pos (xs ++ ys)
      = SRoute.renumber k pos xs ++ SRoute.renumber k (pos + xs.length) ys := by
  induction xs generalizing pos with
  | nil => rfl
  | cons a rest ih =>
    simp only [List.cons_append, SRoute.renumber, ih, List.length_cons]
    rw [show pos + 1 + rest.length = pos + (rest.length + 1) by omega]

theorem canon_split (v : VehicleType) (xs ys : List Activity) :
    canon v (xs ++ ys)
      = (startNode v :: innerNodes 1 0 xs)
        ++ (innerNodes (xs.length + 1) (depotVisits xs) ys
          ++ [endNode v (xs.length + ys.length + 1) (depotVisits xs + depotVisits ys + 1)]) := by
  simp only [canon, innerNodes_append, depotVisits_append, List.length_append, List.cons_append,
    List.append_assoc, Nat.zero_add]
  rw [Nat.add_comm 1 xs.length]

theorem canon_take (v : VehicleType) (xs ys : List Activity) :
    (canon v (xs ++ ys)).take (xs.length + 1) = startNode v :: innerNodes 1 0 xs := by
  rw [canon_split]
  exact List.take_left' (by simp [innerNodes_length])

theorem canon_drop (v : VehicleType) (xs ys : List Activity) :
    (canon v (xs ++ ys)).drop (xs.length + 1)
      = innerNodes (xs.length + 1) (depotVisits xs) ys
          ++ [endNode v (xs.length + ys.length + 1) (depotVisits xs + depotVisits ys + 1)] := by
  rw [canon_split]
  exact List.drop_left' (by simp [innerNodes_length])

theorem innerNodes_last (pos trip : Nat) (acts : List Activity) (n : SNode) (hn : n.trip = trip) :
    ((innerNodes pos trip acts).getLastD n).trip = trip + depotVisits acts := by
  induction acts generalizing pos trip n with
  | nil => simp [innerNodes, depotVisits, hn]
  | cons a rest ih =>
    simp only [innerNodes, List.getLastD_cons, Route.depotVisits_cons]
    rw [ih (pos + 1) (if a.type = .depot then trip + 1 else trip) _ rfl]
    split <;> omega

theorem canon_length (v : VehicleType) (acts : List Activity) :
    (canon v acts).length = acts.length + 2 := by
  simp [canon, innerNodes_length]

theorem canon_getD (v : VehicleType) (xs ys : List Activity) :
    (canon v (xs ++ ys)).getD xs.length default = (innerNodes 1 0 xs).getLastD (startNode v) := by
  have h1 : (canon v (xs ++ ys)).getD xs.length default
      = ((canon v (xs ++ ys)).take (xs.length + 1)).getD xs.length default := by
    simp [List.getD_eq_getElem?_getD, List.getElem?_take]
  rw [h1, canon_take]
  have := getLastD_eq_getD (startNode v :: innerNodes 1 0 xs) default
  simp only [List.length_cons, innerNodes_length, Nat.add_sub_cancel] at this
  rw [← this, List.getLastD_cons]

theorem canon_getD_trip (v : VehicleType) (xs ys : List Activity) :
    ((canon v (xs ++ ys)).getD xs.length default).trip = depotVisits xs := by
  rw [canon_getD, innerNodes_last 1 0 xs (startNode v) rfl, Nat.zero_add]

theorem canon_depots (v : VehicleType) (acts : List Activity) :
    ((canon v acts).filter SNode.isDepot).length = depotVisits acts + 2 := by
  have h : ∀ (acts : List Activity) (pos trip : Nat),
      ((innerNodes pos trip acts).filter SNode.isDepot).length = depotVisits acts := by
    intro acts
    induction acts with
    | nil => intros; rfl
    | cons a rest ih =>
      intro pos trip
      simp only [innerNodes, List.filter_cons, Route.depotVisits_cons]
      by_cases hd : a.type = .depot
      · simp [SNode.isDepot, Activity.isDepot, hd, ih]
      · simp [SNode.isDepot, Activity.isDepot, hd, ih]
  simp only [canon, List.filter_cons, List.filter_append, List.length_append, List.length_cons]
  have h1 : (startNode v).isDepot = true := rfl
  have h2 : (endNode v (acts.length + 1) (depotVisits acts + 1)).isDepot = true := rfl
  simp [h1, h2, h]

namespace SRoute

/-- The nodes of `r` are those of a route that visits `acts`. -/
def Visits (data : ProblemData) (r : SRoute) (acts : List Activity) : Prop :=
  r.nodes = canon (data.vehicleType r.vehicleType) acts

theorem emptyNodes_eq (data : ProblemData) (vt : Nat) :
    emptyNodes data vt = canon (data.vehicleType vt) [] := rfl

theorem update_nodes (data : ProblemData) (r : SRoute) :
    (update data r).nodes = r.nodes ∧ (update data r).vehicleType = r.vehicleType := ⟨rfl, rfl⟩

/-- `insert` succeeds exactly if the number of trips allows it. -/
theorem insert_visits {data : ProblemData} {r : SRoute} {xs ys : List Activity}
    (h : r.Visits data (xs ++ ys)) (a : Activity) :
    let v := data.vehicleType r.vehicleType
    if depotVisits (xs ++ a :: ys) + 1 > v.maxTrips then
      r.insert data (xs.length + 1) a
        = .error (.invalidArgument "Vehicle cannot perform this many trips.")
    else ∃ r', r.insert data (xs.length + 1) a = .ok r' ∧ r'.vehicleType = r.vehicleType
      ∧ r'.Visits data (xs ++ a :: ys) := by
  intro v
  unfold Visits at h
  have hcount : (r.nodes.filter SNode.isDepot).length + (if a.isDepot then 1 else 0) - 1
      = depotVisits (xs ++ a :: ys) + 1 := by
    rw [h, canon_depots, depotVisits_append, depotVisits_append, Route.depotVisits_cons]
    by_cases hd : a.type = .depot
    · simp [Activity.isDepot, hd]; omega
    · simp [Activity.isDepot, hd]
  unfold insert
  dsimp only
  rw [hcount]
  split
  · rfl
  · refine ⟨_, rfl, rfl, ?_⟩
    unfold Visits
    dsimp only
    rw [h, canon_take, canon_drop, Nat.add_sub_cancel, canon_getD_trip, canon_split]
    congr 1
    simp only [renumber, renumber_append, innerNodes, List.cons_append, List.length_cons,
      Route.depotVisits_cons, innerNodes_length]
    by_cases hd : a.type = .depot
    · have hdb : a.isDepot = true := by simp [Activity.isDepot, hd]
      simp only [hdb, hd, if_true]
      rw [renumber_innerNodes (fun t => t + 1) (fun t => t + 1) _ _ _ _ (fun _ _ => rfl)
        (fun _ _ => rfl)]
      simp [endNode]
      omega
    · have hdb : a.isDepot = false := by simp [Activity.isDepot, hd]
      simp only [hdb, hd, if_false]
      rw [renumber_innerNodes (fun t => if false = true then t + 1 else t) (fun t => t) _ _ _ _
        (fun _ _ => by simp) (fun _ _ => rfl)]
      simp [endNode]
      omega

theorem remove_visits {data : ProblemData} {r : SRoute} {xs ys : List Activity} {a : Activity}
    (h : r.Visits data (xs ++ a :: ys)) :
    (r.remove (xs.length + 1)).Visits data (xs ++ ys)
    ∧ (r.remove (xs.length + 1)).vehicleType = r.vehicleType := by
  refine ⟨?_, rfl⟩
  unfold Visits at h ⊢
  have hx : xs ++ a :: ys = (xs ++ [a]) ++ ys := by simp
  have hget : r.nodes.getD (xs.length + 1) default
      = (innerNodes 1 0 (xs ++ [a])).getLastD (startNode (data.vehicleType r.vehicleType)) := by
    rw [h, hx, ← canon_getD _ (xs ++ [a]) ys]
    simp
  have hnode : r.nodes.getD (xs.length + 1) default
      = { activity := a, pos := xs.length + 1
          trip := if a.type = .depot then depotVisits xs + 1 else depotVisits xs } := by
    rw [hget, innerNodes_append]
    simp [innerNodes, Nat.add_comm]
  have hrel : (r.nodes.getD (xs.length + 1) default).isReloadDepot = decide (a.type = .depot) := by
    rw [hnode]
    by_cases hd : a.type = .depot
    · simp [SNode.isReloadDepot, SNode.isDepot, SNode.isStartDepot, SNode.isEndDepot,
        Activity.isDepot, hd]
    · simp [SNode.isReloadDepot, SNode.isDepot, Activity.isDepot, hd]
  have hdrop : r.nodes.drop (xs.length + 1 + 1)
      = innerNodes (xs.length + 1 + 1) (depotVisits (xs ++ [a])) ys
          ++ [endNode (data.vehicleType r.vehicleType) (xs.length + 1 + ys.length + 1)
            (depotVisits (xs ++ [a]) + depotVisits ys + 1)] := by
    have := canon_drop (data.vehicleType r.vehicleType) (xs ++ [a]) ys
    rw [h, hx]
    simpa using this
  unfold remove
  dsimp only
  rw [hrel, hdrop, h, canon_take, canon_split]
  congr 1
  rw [renumber_append, innerNodes_length, depotVisits_append]
  have h1 : depotVisits [a] = if a.type = .depot then 1 else 0 := by
    rw [Route.depotVisits_cons]; simp [depotVisits]
  rw [h1]
  by_cases hd : a.type = .depot
  · simp only [hd, decide_true, if_true]
    rw [renumber_innerNodes (fun t => t - 1) (fun t => t - 1) _ _ _ _ (fun _ _ => rfl)
      (fun t ht => by omega)]
    simp [endNode, renumber]
    omega
  · simp only [hd, decide_false, if_false]
    rw [renumber_innerNodes (fun t => if false = true then t - 1 else t) (fun t => t) _ _ _ _
      (fun _ _ => by simp) (fun _ _ => rfl)]
    simp [endNode, renumber]
    omega

theorem put_visits {data : ProblemData} {r : SRoute} {xs ys : List Activity} {b : Activity}
    (h : r.Visits data (xs ++ b :: ys)) (a : Activity) (ha : a.type ≠ .depot) (hb : b.type ≠ .depot) :
    (r.put (xs.length + 1) a).Visits data (xs ++ a :: ys)
    ∧ (r.put (xs.length + 1) a).vehicleType = r.vehicleType := by
  refine ⟨?_, rfl⟩
  unfold Visits at h ⊢
  unfold put
  dsimp only
  rw [h, canon_split, canon_split]
  have hl : (startNode (data.vehicleType r.vehicleType) :: innerNodes 1 0 xs).length
      = xs.length + 1 := by simp [innerNodes_length]
  have hm : ∀ (l r : List SNode) (f : SNode → SNode) (x : SNode),
      (l ++ x :: r).modify l.length f = l ++ f x :: r := by
    intro l r f x
    induction l with
    | nil => rfl
    | cons y l ih => simp only [List.cons_append, List.length_cons, List.modify_succ_cons, ih]
  rw [← hl]
  simp only [innerNodes, List.cons_append (as := innerNodes _ _ ys), hm]
  simp [ha, hb, Route.depotVisits_cons]

/-! ## The statistics -/

/-- The route of vehicle type `vt` that visits `acts`, with its statistics. -/
def ofActs (data : ProblemData) (vt : Nat) (acts : List Activity) : SRoute :=
  update data { vehicleType := vt, nodes := canon (data.vehicleType vt) acts }

theorem update_eq {data : ProblemData} {r : SRoute} {acts : List Activity}
    (h : r.Visits data acts) : update data r = ofActs data r.vehicleType acts := by
  unfold Visits at h
  unfold ofActs update
  rw [h]

theorem ofActs_visits (data : ProblemData) (vt : Nat) (acts : List Activity) :
    (ofActs data vt acts).Visits data acts ∧ (ofActs data vt acts).vehicleType = vt := ⟨rfl, rfl⟩

theorem update_ofActs (data : ProblemData) (vt : Nat) (acts : List Activity) :
    update data (ofActs data vt acts) = ofActs data vt acts := rfl

theorem foldNodes_dist (data : ProblemData) (profile : Nat) (l : List SNode) (n : SNode) (acc : Int) :
    foldNodes (fun prev d m => d + data.dist profile (data.locationOf prev.activity)
      (data.locationOf m.activity)) n acc l
    = acc + legSum (data.dist profile)
        (data.locationOf n.activity :: l.map (fun m => data.locationOf m.activity)) := by
  induction l generalizing n acc with
  | nil => simp [foldNodes, legSum]
  | cons m rest ih =>
    simp only [foldNodes, ih, List.map_cons, legSum]
    omega

theorem legSum_places (data : ProblemData) (profile : Nat) (l : List Activity) :
    legSum (data.dist profile) (l.map data.locationOf)
      = legSum (data.dist profile) (l.map (place data)) := by
  congr 1

theorem canon_activities (v : VehicleType) (acts : List Activity) :
    (canon v acts).map SNode.activity = fullActs v acts := by
  simp [canon, innerNodes_activity, fullActs, startNode, endNode]

theorem ofActs_distance (data : ProblemData) (vt : Nat) (acts : List Activity) :
    (ofActs data vt acts).distance_ = (Route.build data acts vt).distance := by
  have h1 : (ofActs data vt acts).distance_ = legSum (data.dist (data.vehicleType vt).profile)
      ((fullActs (data.vehicleType vt) acts).map data.locationOf) := by
    rw [← canon_activities, List.map_map]
    simp only [ofActs, update, canon, cumDists]
    rw [scanNodes_getLastD, foldNodes_dist, Int.zero_add]
    rfl
  rw [h1, legSum_places]
  simp only [Route.build]
  rw [Route.distanceLoop_eq, Int.zero_add, List.map_drop, Route.mkSchedule_activities]
  rfl

theorem headD_append_singleton {α : Type} (l : List α) (a d : α) (h : l ≠ []) :
    (l ++ [a]).headD d = l.headD d := by
  cases l with
  | nil => exact absurd rfl h
  | cons x xs => rfl

/-- The first duration segment is that of the backward pass. -/
theorem ofActs_durAfter {data : ProblemData} (ht : TimesOk data) (vt : Nat) (acts : List Activity) :
    (ofActs data vt acts).durAfter.headD {} = (Route.backward data (data.vehicleType vt) acts).ds := by
  rw [backward_ds ht vt acts]
  have hs := durAfter_suffix ht vt (innerNodes 1 0 acts) (innerNodes_inner 1 0 acts)
    (endNode (data.vehicleType vt) (acts.length + 1) (depotVisits acts + 1)) rfl rfl
  rw [innerNodes_activity] at hs
  simp only [ofActs, update, durAfters]
  rw [scanNodesBack_headD _ _ _ _ (by simp [canon]), canon,
    backNodes_cons _ _ _ _ (by simp) default, ← hs.1, ← hs.2]
  simp only [durAfterStep, top, openIf]
  have h1 : (startNode (data.vehicleType vt)).isReloadDepot = false := by
    simp [startNode, SNode.isReloadDepot, SNode.isStartDepot]
  rw [h1]
  rfl

theorem ofActs_duration {data : ProblemData} (ht : TimesOk data) (vt : Nat) (acts : List Activity) :
    (ofActs data vt acts).duration_ = (Route.build data acts vt).duration
    ∧ (ofActs data vt acts).durationCost_ = (Route.build data acts vt).durationCost
    ∧ (ofActs data vt acts).timeWarp_ = (Route.build data acts vt).timeWarp := by
  have h := ofActs_durAfter ht vt acts
  have h1 : (ofActs data vt acts).duration_ = (Route.build data acts vt).duration := by
    show ((ofActs data vt acts).durAfter.headD {}).duration = _
    rw [h]; rfl
  refine ⟨h1, ?_, ?_⟩
  · show _ * ((ofActs data vt acts).durAfter.headD {}).duration
      + _ * max (((ofActs data vt acts).durAfter.headD {}).duration - _) 0 = _
    rw [h]; rfl
  · show ((ofActs data vt acts).durAfter.headD {}).timeWarp _ = _
    rw [h]; rfl

theorem ofActs_loadBefore_last (data : ProblemData) (vt : Nat) (acts : List Activity) (dim : Nat) :
    (loadBefores data (data.vehicleType vt) dim (canon (data.vehicleType vt) acts)).getLastD {}
      = acts.foldl (stepLoad data ((data.vehicleType vt).capacity.getD dim 0) dim)
          (LoadSeg.ofVehicle (data.vehicleType vt) dim) := by
  have h := loadBefore_prefix data (data.vehicleType vt) dim (startNode _) ⟨rfl, rfl⟩
    (innerNodes 1 0 acts) (innerNodes_inner 1 0 acts)
  rw [innerNodes_activity] at h
  simp only [canon, loadBefores]
  rw [scanNodes_getLastD, foldNodes_concat, ← h]
  have hok : (finIf ((data.vehicleType vt).capacity.getD dim 0)
      ((innerNodes 1 0 acts).getLastD (startNode (data.vehicleType vt))).isReloadDepot
      (foldNodes (loadBeforeStep data (data.vehicleType vt) dim) (startNode (data.vehicleType vt))
        (loadAtOf data (data.vehicleType vt) dim (startNode (data.vehicleType vt)))
        (innerNodes 1 0 acts))).Ok := by
    rw [h]; exact foldl_stepLoad_ok _ (.ofVehicle ..)
  conv => rhs; rw [← LoadSeg.merge_nil hok]
  unfold loadBeforeStep finIf
  have : loadAtOf data (data.vehicleType vt) dim
      (endNode (data.vehicleType vt) (acts.length + 1) (depotVisits acts + 1)) = {} := rfl
  rw [this]
  split <;> rfl

theorem ofActs_excessLoad (data : ProblemData) (vt : Nat) (acts : List Activity)
    (hcap : ∀ dim, 0 ≤ (data.vehicleType vt).capacity.getD dim 0)
    (hinit : ∀ dim, 0 ≤ (data.vehicleType vt).initialLoad.getD dim 0) :
    (ofActs data vt acts).excessLoad_ = (Route.build data acts vt).excessLoad := by
  have h : (Route.build data acts vt).excessLoad
      = (List.range data.numLoadDimensions).map (fun dim =>
        (Route.loadDim data (data.vehicleType vt) (Route.build data acts vt).schedule dim).2.2) := by
    simp only [Route.build, List.map_map]
    rfl
  rw [h]
  simp only [ofActs, update]
  apply List.map_congr_left
  intro dim hd
  rw [List.mem_range] at hd
  have hget : ((List.range data.numLoadDimensions).map (fun dim =>
      loadBefores data (data.vehicleType vt) dim (canon (data.vehicleType vt) acts))).getD dim []
      = loadBefores data (data.vehicleType vt) dim (canon (data.vehicleType vt) acts) := by
    simp [List.getD_eq_getElem?_getD, hd]
  rw [hget, ofActs_loadBefore_last, build_excessLoad vt acts dim (hcap dim) (hinit dim)]

theorem foldNodes_count (p : SNode → Bool) (l : List SNode) (n : SNode) (c : Nat) :
    foldNodes (fun _ c m => c + if p m then 1 else 0) n c l = c + l.countP p := by
  induction l generalizing n c with
  | nil => rfl
  | cons m rest ih =>
    simp only [foldNodes, ih, List.countP_cons]
    omega

theorem ofActs_counts (data : ProblemData) (vt : Nat) (acts : List Activity) :
    (ofActs data vt acts).numClients = acts.countP (fun a => a.type = .client)
    ∧ (ofActs data vt acts).numShipments = acts.countP (fun a => a.type = .pickup)
    ∧ (ofActs data vt acts).numDeliveries_.getLastD 0 = acts.countP (fun a => a.type = .delivery)
    ∧ (ofActs data vt acts).numTrips = depotVisits acts + 1
    ∧ (ofActs data vt acts).numDepots = depotVisits acts + 2 := by
  have key : ∀ (q : Activity → Bool) (p : SNode → Bool), (∀ n, p n = q n.activity) →
      q ⟨.depot, (data.vehicleType vt).endDepot⟩ = false →
      (counts p (canon (data.vehicleType vt) acts)).getLastD 0 = acts.countP q := by
    intro q p hpq hq
    simp only [canon, counts]
    rw [scanNodes_getLastD, foldNodes_count, Nat.zero_add, List.countP_append]
    have h1 : (innerNodes 1 0 acts).countP p = acts.countP q := by
      conv => rhs; rw [← innerNodes_activity 1 0 acts, List.countP_map]
      apply List.countP_congr
      intro n _
      simp [hpq]
    rw [h1]
    simp [hpq, endNode, hq]
  refine ⟨?_, ?_, ?_, ?_, ?_⟩
  · exact key (fun a => a.type = .client) SNode.isClient
      (fun n => by cases h : n.activity.type <;> simp [SNode.isClient, Activity.isClient, h]) rfl
  · exact key (fun a => a.type = .pickup) SNode.isPickup
      (fun n => by cases h : n.activity.type <;> simp [SNode.isPickup, Activity.isPickup, h]) rfl
  · exact key (fun a => a.type = .delivery) SNode.isDelivery
      (fun n => by cases h : n.activity.type <;> simp [SNode.isDelivery, Activity.isDelivery, h]) rfl
  · show ((canon _ acts).filter SNode.isDepot).length - 1 = _
    rw [canon_depots]
    rfl
  · exact canon_depots _ _

end SRoute
end PyVRP
