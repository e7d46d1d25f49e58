import Verif.Lemmas.CheckedRepair
import Verif.Props.C26
/-!
# No assertion fails when a solution is loaded
-/
namespace PyVRP.Checked
open Spec
open SSol (Loading OffsetsOk)

variable {data : ProblemData}

theorem sized_route {s : SSol} (h : SSol.Sized data s) {i : Nat} (hi : i < data.numVehicles) :
    Checked.route s i = some (s.route i) := by
  have hl : i < s.routes.length := by rw [h.routes]; exact hi
  unfold Checked.route SSol.route
  rw [List.getD_eq_getElem?_getD, List.getElem?_eq_getElem hl]; rfl

theorem vehicleType_lt {t : Nat} (h : t < data.numVehicleTypes) :
    vehicleType data t = some (data.vehicleType t) := by
  have h' : t < data.vehicleTypes.length := h
  show data.vehicleTypes[t]? = some (data.vehicleTypes.getD t _)
  rw [List.getD_eq_getElem?_getD, List.getElem?_eq_getElem h']; rfl

theorem readable_visits (hd : Consistent data) {r : SRoute} (ht : r.vehicleType < data.numVehicleTypes)
    {acts : List Activity} (hv : r.Visits data acts) (hin : ∀ a ∈ acts, Spec.InRange data a) :
    readable data r = some () := by
  have hvm := SSol.vehicleType_mem data ht
  have hsd : (data.vehicleType r.vehicleType).startDepot < data.depots.length := by
    obtain ⟨_, h1, -⟩ := hd.startDepot _ hvm
    exact (List.getElem?_eq_some_iff.1 h1).1
  have hed : (data.vehicleType r.vehicleType).endDepot < data.depots.length := by
    obtain ⟨_, h1, -⟩ := hd.endDepot _ hvm
    exact (List.getElem?_eq_some_iff.1 h1).1
  unfold SRoute.Visits at hv
  have hall : ∀ n ∈ r.nodes, Spec.InRange data n.activity := by
    intro n hn
    have hm : n.activity ∈ r.nodes.map SNode.activity := List.mem_map_of_mem hn
    rw [hv, SRoute.canon_activities] at hm
    simp only [fullActs, List.mem_cons, List.mem_append, List.not_mem_nil, or_false] at hm
    rcases hm with (hm | hm) | hm
    · rw [hm]; exact hsd
    · exact hin _ hm
    · rw [hm]; exact hed
  have hsz : 2 ≤ r.size := by
    unfold SRoute.size
    rw [hv, canon_length]; omega
  unfold readable
  simp only [Option.bind_eq_bind]
  rw [vehicleType_lt ht, Option.bind_some, ensure_true (hd.profile _ hvm), Option.bind_some,
    ensure_true hsz, Option.bind_some]
  exact ensure_true (fun n hn => ⟨present_of (hall n hn), locationOf_lt hd (hall n hn)⟩)

theorem clearRoute_eq (hd : Consistent data) {s : SSol} (h : SSol.Sized data s) {i : Nat}
    (hi : i < data.numVehicles) {acts : List Activity}
    (hr : s.route i = SRoute.ofActs data (vehTypeAt data i) acts) :
    clearRoute data s i = some (s.clearRoute data i) := by
  obtain ⟨c1, c2, -, -⟩ := SSol.clearRoute_spec h hi hr
  unfold clearRoute
  simp only [Option.bind_eq_bind]
  rw [sized_route h hi, Option.bind_some]
  by_cases h2 : (s.route i).nodes.length = 2
  · rw [if_pos h2]
    have : s.clearRoute data i = s := by simp [SSol.clearRoute, h2]
    rw [this]; rfl
  · have ht : (s.route i).vehicleType < data.numVehicleTypes := by
      rw [hr]; exact vehTypeAt_lt data hi
    rw [if_neg h2, vehicleType_lt ht, Option.bind_some, sized_route c1 hi, Option.bind_some, c2,
      readable_visits hd (r := SRoute.ofActs data (vehTypeAt data i) []) (vehTypeAt_lt data hi)
        (SRoute.ofActs_visits data _ []).1 (by simp), Option.bind_some, ensure_true, Option.bind_some]
    · have he : empty data (SRoute.ofActs data (vehTypeAt data i) []) = some true := by
        unfold empty fresh
        rw [ensure_true (SRoute.update_ofActs data _ [])]
        rfl
      rw [he]
      rfl
    · show (canon _ _).length = 2
      rw [canon_length]; rfl

theorem pushAll_eq {i : Nat} (hi : i < data.numVehicles) (acts : List Activity) : ∀ {s : SSol},
    SSol.Sized data s → ∀ {xs : List Activity}, (s.route i).Visits data xs →
    depotVisits (xs ++ acts) + 1 ≤ (data.vehicleType (s.route i).vehicleType).maxTrips →
    (∀ a ∈ acts, Spec.InRange data a) →
    pushAll data i s acts = some (SSol.pushAll data i s acts) := by
  induction acts with
  | nil => intro s _ xs _ _ _; rfl
  | cons a rest ih =>
    intro s hs xs hv ht hr
    have hnl : (s.route i).nodes.length = xs.length + 2 := by
      unfold SRoute.Visits at hv; rw [hv, canon_length]
    have hlen : (s.route i).nodes.length - 1 = xs.length + 1 := by omega
    have hpre : depotVisits (xs ++ [a]) ≤ depotVisits (xs ++ a :: rest) := by
      have : xs ++ a :: rest = (xs ++ [a]) ++ rest := by simp
      rw [this, depotVisits_append (xs ++ [a])]; omega
    obtain ⟨s1, k1, k2, k3, k4, k5, k6⟩ := SSol.insertAt_spec hs hi (xs := xs) (ys := []) (by simpa using hv)
      a (by omega)
    have hins : insertAt data s i ((s.route i).nodes.length - 1) a = some (.ok s1) := by
      unfold insertAt
      rw [sized_route hs hi, Option.bind_eq_bind, Option.bind_some,
        ensure_true (by unfold SRoute.size; omega), hlen, k1]
      rfl
    have hfin : (do
        let r ← route s i
        match ← insertAt data s i (← minus r.nodes.length 1) a with
        | .error e => return .error e
        | .ok s => pushAll data i s rest) = some (SSol.pushAll data i s (a :: rest)) := by
      simp only [Option.bind_eq_bind]
      rw [sized_route hs hi, Option.bind_some, minus_eq (show 1 ≤ (s.route i).nodes.length by omega),
        Option.bind_some, hins, Option.bind_some]
      dsimp only
      rw [ih k2 (xs := xs ++ [a]) k3 (by rw [k4]; simpa using ht) (fun b hb => hr b (by simp [hb]))]
      simp only [SSol.pushAll]
      rw [hlen, k1]
    unfold pushAll
    by_cases hdep : a.type ≠ .depot
    · have hk : known data a = some () := by
        refine known_of ⟨hdep, ?_⟩
        have := hr a (by simp)
        obtain ⟨ty, k⟩ := a
        cases ty
        · exact absurd rfl hdep
        · exact this
        · exact this
        · exact this
      rw [if_pos hdep, hk]
      exact hfin
    · rw [if_neg hdep]
      exact hfin

theorem loadRoute_eq (hd : Consistent data) (ht : TimesOk data) {P : RoutePlan}
    {old : Nat → List Activity} {s : SSol} (hl : Loading data P old s) {p : Nat × List Activity}
    {r : PyVRP.Route} (hm : Route.make data p.2 p.1 = .ok r) (hp : p.1 < data.numVehicleTypes)
    (hw : WellFormed data (data.vehicleType p.1) p.2)
    (htrips : depotVisits p.2 + 1 ≤ (data.vehicleType p.1).maxTrips)
    (hc : P.countP (fun q => q.1 = p.1) < (data.vehicleType p.1).numAvailable) :
    loadRoute data s (vehiclesBefore data p.1 + P.countP (fun q => q.1 = p.1)) r
      = some (SSol.loadRoute data s (vehiclesBefore data p.1 + P.countP (fun q => q.1 = p.1)) r) := by
  obtain ⟨hvt, hidx⟩ := vehTypeAt_block data hp hc
  have hnone := planAt_next (P := P) hp hc
  generalize hi : vehiclesBefore data p.1 + P.countP (fun q => q.1 = p.1) = idx at *
  have hroute := hl.routes idx hidx
  rw [hnone, Option.getD_none] at hroute
  have hfresh : fresh data (s.route idx) = some () := by
    rw [hroute]; exact ensure_true (SRoute.update_ofActs data _ _)
  unfold loadRoute SSol.loadRoute
  simp only [Option.bind_eq_bind]
  rw [sized_route hl.sized hidx, Option.bind_some, hfresh, Option.bind_some]
  by_cases hs : SSol.sameRoute r (s.route idx) = true
  · rw [if_pos hs, if_pos hs]; rfl
  · rw [if_neg hs, if_neg hs]
    obtain ⟨c1, c2, c3, c4⟩ := SSol.clearRoute_spec hl.sized hidx hroute
    have hv0 : ((s.clearRoute data idx).route idx).vehicleType = p.1 := by rw [c2, ← hvt]; rfl
    have hsched := (C07_schedule_lists_activities data p.2 p.1 r hm).1
    have hinner : (r.schedule.map (·.activity)).tail.dropLast = p.2 := by
      rw [hsched]; simp [fullActs]
    have hlen : 2 ≤ r.schedule.length := by
      have := congrArg List.length hsched
      rw [List.length_map] at this
      rw [this]; simp [fullActs]
    have hvis : ((s.clearRoute data idx).route idx).Visits data [] := by
      rw [c2]; exact (SRoute.ofActs_visits data _ []).1
    obtain ⟨s1, k1, k2, k3, k4, k5, k6⟩ := SSol.pushAll_spec hidx p.2 c1 (xs := []) hvis
      (by rw [hv0]; simpa using htrips) hw.inRange
    rw [clearRoute_eq hd hl.sized hidx hroute, Option.bind_some, ensure_true hlen, Option.bind_some, hinner,
      pushAll_eq hidx p.2 c1 (xs := []) hvis (by rw [hv0]; simpa using htrips) hw.inRange,
      Option.bind_some, k1]
    dsimp only
    have href : refresh data s1 idx = some (s1.updateRoute data idx) := by
      unfold refresh
      rw [sized_route k2 hidx, Option.bind_eq_bind, Option.bind_some,
        readable_visits hd (by rw [k4, hv0]; exact hp) k3 (by simpa using hw.inRange)]
      rfl
    rw [href]
    rfl

theorem loadRoutes_eq (hd : Consistent data) (ht : TimesOk data) {plan : RoutePlan} {routes : List PyVRP.Route}
    (hb : Built data plan routes) (hv : ValidPlan data plan) {old : Nat → List Activity} :
    ∀ (rest : RoutePlan) (rroutes : List PyVRP.Route), Built data rest rroutes → ∀ (P : RoutePlan),
    plan = P ++ rest → ∀ (s : SSol) (offsets : List Nat), Loading data P old s →
    OffsetsOk data P offsets →
    loadRoutes data s offsets rroutes = some (SSol.loadRoutes data s offsets rroutes) := by
  intro rest rroutes hbr
  refine Spec.Built.induction (motive := fun rest rroutes => ∀ (P : RoutePlan),
    plan = P ++ rest → ∀ (s : SSol) (offsets : List Nat), Loading data P old s →
    OffsetsOk data P offsets →
    loadRoutes data s offsets rroutes = some (SSol.loadRoutes data s offsets rroutes)) ?_ ?_ hbr
  · intro P hP s offsets hl ho
    rfl
  · intro p rest r rroutes hm hp hsize hrel _ ih P hP s offsets hl ho
    have hw := (C05_route_accepts_exactly_wellformed data p.2 p.1 hsize hrel).1.1 ⟨r, hm⟩
    have hvr : r.vehicleType = p.1 := by rw [Route.make_eq_ok hm]; rfl
    have hc : P.countP (fun q => q.1 = p.1) < (data.vehicleType p.1).numAvailable := by
      have hget : data.vehicleTypes[p.1]? = some (data.vehicleType p.1) := by
        simp [ProblemData.vehicleType, List.getD_eq_getElem?_getD, List.getElem?_eq_getElem hp]
      have := hv.available p.1 _ hget
      rw [hP, List.countP_append, List.countP_cons] at this
      simp at this
      omega
    have htrips : depotVisits p.2 + 1 ≤ (data.vehicleType p.1).maxTrips := by
      have := hw.reloads
      have hd : depotVisits p.2 ≤ p.2.length := List.countP_le_length
      unfold reloadLimit at this
      unfold VehicleType.maxTrips
      unfold SIZE_MAX at *
      split <;> split at this <;> omega
    have hnew : ∀ a ∈ p.2, a.type ≠ .depot → ∀ q ∈ P, a ∉ q.2 := by
      intro a ha had q hq haq
      have h1 := tasks_once hb hv had
      have e : visited plan = visited P ++ (p.2 ++ visited rest) := by
        rw [hP]; simp [visited]
      have k1 : 0 < (visited P).count a := by
        rw [List.count_pos_iff]
        simp only [visited, List.mem_flatMap]
        exact ⟨q, hq, haq⟩
      have k2 : 0 < p.2.count a := by rw [List.count_pos_iff]; exact ha
      rw [e, List.count_append, List.count_append] at h1
      omega
    obtain ⟨s1, h1, h2⟩ := hl.step ht hm hp hw htrips hc hnew
    have hoff : offsets[r.vehicleType]? = some (offsets.getD r.vehicleType 0) := by
      rw [List.getD_eq_getElem?_getD, List.getElem?_eq_getElem (by rw [hvr, ho.1]; exact hp)]
      rfl
    unfold loadRoutes SSol.loadRoutes
    simp only [Option.bind_eq_bind]
    rw [hoff, Option.bind_some, hvr, ho.2 p.1 hp, loadRoute_eq hd ht hl hm hp hw htrips hc, Option.bind_some,
      h1]
    exact ih (P ++ [p]) (by rw [hP]; simp) s1 _ h2 (ho.step p)

theorem clearAll_eq (hd : Consistent data) {P : RoutePlan} (l : List Nat) :
    ∀ {old : Nat → List Activity} {s : SSol}, Loading data P old s →
    (∀ i ∈ l, i < data.numVehicles ∧ planAt data P i = none) →
    clearAll data s l = some (l.foldl (SSol.clearRoute data) s) := by
  induction l with
  | nil => intro old s hl _; rfl
  | cons idx rest ih =>
    intro old s hl hall
    obtain ⟨h1, h2⟩ := hall idx (by simp)
    unfold clearAll
    rw [clearRoute_eq hd hl.sized h1 (hl.routes idx h1), Option.bind_eq_bind, Option.bind_some]
    exact ih (hl.clear h1 h2) (fun i hi => hall i (by simp [hi]))

theorem clearUnused_eq (hd : Consistent data) {P : RoutePlan} {offsets : List Nat}
    (ho : OffsetsOk data P offsets)
    (hav : ∀ t, t < data.numVehicleTypes →
      P.countP (fun q => q.1 = t) ≤ (data.vehicleType t).numAvailable) :
    ∀ (n t : Nat), t + n = data.numVehicleTypes → ∀ {old : Nat → List Activity} {s : SSol},
    Loading data P old s →
    clearUnused data s (vehiclesBefore data t) (data.vehicleTypes.drop t) (offsets.drop t)
      = some (SSol.clearUnused data s (vehiclesBefore data t) (data.vehicleTypes.drop t) (offsets.drop t)) := by
  intro n
  induction n with
  | zero =>
    intro t htn old s hl
    have h1 : data.vehicleTypes.drop t = [] := by
      apply List.drop_eq_nil_of_le
      show data.numVehicleTypes ≤ t
      omega
    rw [h1]
    simp [clearUnused, SSol.clearUnused]
  | succ n ih =>
    intro t htn old s hl
    have ht : t < data.numVehicleTypes := by omega
    have ht' : t < data.vehicleTypes.length := ht
    have hto : t < offsets.length := by rw [ho.1]; exact ht
    have hv : data.vehicleTypes[t] = data.vehicleType t := by
      simp [ProblemData.vehicleType, List.getD_eq_getElem?_getD, List.getElem?_eq_getElem ht']
    have hoff : offsets[t] = vehiclesBefore data t + P.countP (fun q => q.1 = t) := by
      have := ho.2 t ht
      rwa [List.getD_eq_getElem?_getD, List.getElem?_eq_getElem hto, Option.getD_some] at this
    rw [List.drop_eq_getElem_cons ht', List.drop_eq_getElem_cons hto]
    simp only [clearUnused, SSol.clearUnused, hv, Option.bind_eq_bind]
    rw [← vehiclesBefore_succ data ht]
    have hsucc := vehiclesBefore_succ data ht
    have hle := hav t ht
    have hrange : ∀ i ∈ List.range' offsets[t] (vehiclesBefore data (t + 1) - offsets[t]),
        i < data.numVehicles ∧ planAt data P i = none := by
      intro i hi
      rw [List.mem_range'_1] at hi
      have hk : i - vehiclesBefore data t < (data.vehicleType t).numAvailable := by omega
      have he : i = vehiclesBefore data t + (i - vehiclesBefore data t) := by omega
      rw [he]
      refine ⟨(vehTypeAt_block data ht hk).2, ?_⟩
      rw [planAt_block _ ht hk, List.getElem?_eq_none]
      · rfl
      · have := List.countP_eq_length_filter (p := fun q : Nat × List Activity => decide (q.1 = t)) (l := P)
        omega
    obtain ⟨old1, k1, k2, k3⟩ := hl.clearAll _ hrange
    rw [minus_eq (by omega), Option.bind_some, clearAll_eq hd _ hl hrange, Option.bind_some]
    exact ih (t + 1) (by omega) k1

theorem load_eq (hg : GoodData data) {plan : RoutePlan} {routes : List PyVRP.Route}
    {sol : Solution} (hb : Built data plan routes) (hn : ∀ g ∈ data.groups, g.clients.Nodup)
    (h : Solution.make data routes = .ok sol) {old : List (List Activity)} {s : SSol}
    (hs : SSol.Clean data old s) : load data s sol = some (SSol.load data s sol) := by
  have ht := hg.times
  have hd : Consistent data := ((C37_accepts_exactly_consistent data data).1 hg.made).2
  have hr := (C15_totals data plan routes sol hb hn h).1
  have hv := (C13_solution_accepts_exactly_valid data plan routes hb hn).1.1 ⟨sol, h⟩
  have hinit : Loading data [] (fun i => old.getD i []) s := by
    refine ⟨hs.1.sized, ?_, ?_, ?_, ?_⟩
    · intro i hi; exact hs.2 i hi
    · intro i _ acts hacts; simp [planAt] at hacts
    · intro a i ho
      have htask := (SSol.owner_task hs.1.sized ho).1
      have hm := (hs.1.owner a htask i).1 ho
      exact ⟨hs.1.lt_of_mem hm, by simpa [planAt] using hm⟩
    · intro i hi _ a ha had
      exact .inl ((hs.1.owner a had i).2 ha)
  obtain ⟨s1, off, h1, h2, h3⟩ := Loading.all ht hb hv plan routes hb [] rfl s _ hinit (OffsetsOk.init data)
  have hav : ∀ t, t < data.numVehicleTypes →
      plan.countP (fun q => q.1 = t) ≤ (data.vehicleType t).numAvailable := by
    intro t htl
    have hget : data.vehicleTypes[t]? = some (data.vehicleType t) := by
      simp [ProblemData.vehicleType, List.getD_eq_getElem?_getD,
        List.getElem?_eq_getElem (show t < data.vehicleTypes.length from htl)]
    exact hv.available t _ hget
  have hcu := clearUnused_eq hd h3 hav data.numVehicleTypes 0 (by omega) h2
  have e0 : vehiclesBefore data 0 = 0 := by simp [vehiclesBefore]
  rw [List.drop_zero, List.drop_zero, e0] at hcu
  unfold load SSol.load
  rw [hr, loadRoutes_eq hd ht hb hv plan routes hb [] rfl s _ hinit (OffsetsOk.init data),
    Option.bind_eq_bind, Option.bind_some, h1]
  dsimp only
  rw [hcu]
  rfl

end PyVRP.Checked
