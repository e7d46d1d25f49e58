import Verif.Lemmas.Proposal
import Verif.Props.C20
/-!
# C21: proposed routes are evaluated exactly

A proposal is the start of an existing route, then any number of pieces (pieces of existing routes,
or single clients, depots, pickups and deliveries), then the end of an existing route. `Proposes`
says which list of activities the proposal stands for. The theorems compare the proposal's
evaluation with a `Route` constructed from that list.

The property as stated in `properties.jsonl` does not hold of the code: `C21_negation_time_warp` and
`C21_negation_duration` give counterexamples, both with release times. `C21_proposal_exact_partial`
is what does hold.
-/
namespace PyVRP
open Spec

namespace Spec

/-- A piece in the middle of a proposal and the activities it stands for. -/
inductive Piece (data : ProblemData) : Seg → List Activity → Prop where
  /-- The activities at positions `s, ..., e` of any route. The code asserts that these are part of
  one trip, apart from the depot that may come at either end. -/
  | between {vt : Nat} {acts : List Activity} {r : SRoute} (h : History data vt acts r) (s e : Nat)
      (hs : 1 ≤ s) (hse : s ≤ e) (he : e ≤ acts.length)
      (htrip : depotVisits (acts.take e)
        ≤ depotVisits (acts.take s) + if (RouteOp.actAt acts e).type = .depot then 1 else 0) :
      Piece data ((r.update data).between data s e) ((acts.take e).drop (s - 1))
  | client (i : Nat) : Piece data (.client data i) [⟨.client, i⟩]
  | depot (i : Nat) : Piece data (.depot data i) [⟨.depot, i⟩]
  | pickup (i : Nat) : Piece data (.pickup data i) [⟨.pickup, i⟩]
  | delivery (i : Nat) : Piece data (.delivery data i) [⟨.delivery, i⟩]

/-- The last piece of a proposal for vehicle type `vt`. -/
inductive LastPiece (data : ProblemData) (vt : Nat) : Seg → List Activity → Prop where
  /-- The activities from position `s` on. -/
  | after {acts : List Activity} {r : SRoute} (h : History data vt acts r) (s : Nat)
      (hs : 1 ≤ s) (hse : s ≤ acts.length + 1) :
      LastPiece data vt ((r.update data).after s) (acts.drop (s - 1))
  /-- The end depot only. -/
  | finish {acts : List Activity} {r : SRoute} (h : History data vt acts r) :
      LastPiece data vt ((r.update data).at data ((r.update data).size - 1)) []

/-- `p` proposes to change a route that visits `old` into one that visits `new`, keeping the first
`k` activities. -/
inductive Proposes (data : ProblemData) (vt k : Nat) : Proposal → List Activity → List Activity → Prop
  where
  | mk {old tail : List Activity} {r : SRoute} {ms : List Seg} {as : List (List Activity)} {last : Seg}
      (hist : History data vt old r) (hk : k ≤ old.length)
      (mids : All2 (Piece data) ms as) (hlast : LastPiece data vt last tail) :
      Proposes data vt k ⟨r.update data, (r.update data).before k, ms ++ [last]⟩ old
        (old.take k ++ as.flatten ++ tail)

/-- Times along a route stay well below the largest value of a `Duration`: `M` bounds the opening and
release times on the route, and adding all travel and service times gives at most `HALF`. -/
def TimesFit (data : ProblemData) (v : VehicleType) (acts : List Activity) : Prop :=
  ∃ M, 0 ≤ M ∧ v.twEarly ≤ M ∧ (data.depot v.startDepot).twEarly ≤ M
    ∧ (∀ a ∈ acts, earliest data a ≤ M ∧ released data a ≤ M)
    ∧ M + ((fullActs v acts).map (serviceTime data)).sum
      + legSum (data.dur v.profile) ((fullActs v acts).map (place data)) ≤ HALF

/-- No depot on the way closes before a client's release time. -/
def ReleasedInTime (data : ProblemData) (acts : List Activity) : Prop :=
  ∀ a ∈ acts, ∀ d ∈ acts, d.type = .depot → released data a ≤ latest data d

/-- No client on the way has a release time. -/
def NoReleases (data : ProblemData) (acts : List Activity) : Prop := ∀ a ∈ acts, released data a = 0

end Spec

/-! ## Pieces -/

theorem SRoute.update_of_history {data : ProblemData} {vt : Nat} {acts : List Activity} {r : SRoute}
    (h : History data vt acts r) : r.update data = SRoute.ofActs data vt acts := by
  obtain ⟨hv, _, _, _, _, _, _, hvis⟩ := C20_nodes data vt acts r h
  have hup := SRoute.update_eq hvis
  rwa [hv] at hup

theorem piece_mid {data : ProblemData} {seg : Seg} {acts : List Activity} (h : Piece data seg acts) :
    Mid data seg acts := by
  cases h with
  | client i => exact mid_client data i
  | depot i => exact mid_depot data i
  | pickup i => exact mid_pickup data i
  | delivery i => exact mid_delivery data i
  | @between vt acts r h s e hs hse he htrip =>
    rw [SRoute.update_of_history h]
    -- split the route
    obtain ⟨xs, ys, hx, rfl⟩ : ∃ xs ys : List Activity, xs.length = s - 1 ∧ xs ++ ys = acts :=
      ⟨acts.take (s - 1), acts.drop (s - 1), by rw [List.length_take]; omega, by simp⟩
    rw [List.length_append] at he
    cases ys with
    | nil => rw [List.length_nil] at he; omega
    | cons a ys =>
      obtain ⟨rest, zs, hr, rfl⟩ : ∃ rest zs : List Activity, rest.length = e - s ∧ rest ++ zs = ys :=
        ⟨ys.take (e - s), ys.drop (e - s), by
          rw [List.length_take]; rw [List.length_cons] at he; omega, by simp⟩
      have es : s = xs.length + 1 := by omega
      have ee : e = xs.length + 1 + rest.length := by omega
      have hdrop : ((xs ++ a :: (rest ++ zs)).take e).drop (s - 1) = a :: rest := by
        rw [show xs ++ a :: (rest ++ zs) = (xs ++ a :: rest) ++ zs by simp,
          List.take_left' (by simp; omega), List.drop_left' (by omega)]
      rw [hdrop, es, ee]
      apply SRoute.mid_between
      -- no depot strictly inside
      have h1 : (xs ++ a :: (rest ++ zs)).take e = xs ++ [a] ++ rest := by
        rw [show xs ++ a :: (rest ++ zs) = (xs ++ [a] ++ rest) ++ zs by simp,
          List.take_left' (by simp; omega)]
      have h2 : (xs ++ a :: (rest ++ zs)).take s = xs ++ [a] := by
        rw [show xs ++ a :: (rest ++ zs) = (xs ++ [a]) ++ (rest ++ zs) by simp,
          List.take_left' (by simp; omega)]
      rw [h1, h2, depotVisits_append (xs ++ [a])] at htrip
      intro b hb hbd
      have hne : rest ≠ [] := by intro h; subst h; simp at hb
      have hact : RouteOp.actAt (xs ++ a :: (rest ++ zs)) e = rest.getLast hne := by
        unfold RouteOp.actAt
        have hlen : 0 < rest.length := List.length_pos_of_ne_nil hne
        have := List.getLast_eq_getElem hne
        rw [this, List.getD_eq_getElem?_getD, List.getElem?_append_right (by omega),
          show e - 1 - xs.length = rest.length - 1 + 1 by omega, List.getElem?_cons_succ,
          List.getElem?_append_left (by omega), List.getElem?_eq_getElem (by omega)]
        rfl
      rw [hact] at htrip
      have h3 : depotVisits rest = depotVisits rest.dropLast
          + if (rest.getLast hne).type = .depot then 1 else 0 := by
        conv => lhs; rw [← List.dropLast_append_getLast hne]
        rw [depotVisits_append]
        congr 1
        simp [depotVisits, List.countP_cons]
      have h4 : 0 < depotVisits rest.dropLast :=
        List.countP_pos_iff.2 ⟨b, hb, by simp [hbd]⟩
      omega

theorem pieces_mid {data : ProblemData} {ms : List Seg} {as : List (List Activity)}
    (h : All2 (Piece data) ms as) : All2 (Mid data) ms as := by
  induction h with
  | nil => exact .nil
  | cons h _ ih => exact .cons (piece_mid h) ih

theorem lastPiece_tail {data : ProblemData} {vt : Nat} {seg : Seg} {acts : List Activity}
    (h : LastPiece data vt seg acts) : SRoute.Tail data vt seg acts := by
  cases h with
  | @after acts r h s hs hse =>
    rw [SRoute.update_of_history h]
    have := SRoute.tail_after data vt (acts.take (s - 1)) (acts.drop (s - 1))
    rw [List.take_append_drop, List.length_take, show min (s - 1) acts.length + 1 = s by omega] at this
    exact this
  | @finish acts r h =>
    rw [SRoute.update_of_history h]
    have hsz : (SRoute.ofActs data vt acts).size = acts.length + 2 := canon_length _ _
    rw [hsz]
    exact SRoute.tail_at data vt acts

theorem span_eq (data : ProblemData) (profile : Nat) (a : Activity) (acts : List Activity) :
    span data profile (data.locationOf a) acts
      = (acts.map (serviceTime data)).sum + legSum (data.dur profile) ((a :: acts).map (place data)) := by
  induction acts generalizing a with
  | nil => simp [span, legSum]
  | cons b rest ih =>
    simp only [span, ih b, List.map_cons, List.sum_cons, legSum]
    have h1 : place data a = data.locationOf a := rfl
    have h2 : place data b = data.locationOf b := rfl
    rw [h1, h2]
    omega

/-! ## C21 -/

/-- The largest release time, if the data are as constructors leave them. -/
theorem exists_release {data : ProblemData} (ht : TimesOk data) (acts : List Activity) :
    ∃ R, 0 ≤ R ∧ R ≤ HALF ∧ (∀ a ∈ acts, released data a ≤ R)
      ∧ (R = 0 ∨ ∃ a ∈ acts, R = released data a) := by
  induction acts with
  | nil => exact ⟨0, Int.le_refl 0, HALF_nonneg, by simp, Or.inl rfl⟩
  | cons b rest ih =>
    obtain ⟨R, h0, hH, hR, he⟩ := ih
    obtain ⟨b0, bH⟩ := released_bounds ht b
    by_cases h : released data b ≤ R
    · refine ⟨R, h0, hH, ?_, ?_⟩
      · intro a ha
        rcases List.mem_cons.1 ha with rfl | ha
        · exact h
        · exact hR a ha
      · rcases he with he | ⟨a, ha, he⟩
        · exact Or.inl he
        · exact Or.inr ⟨a, List.mem_cons_of_mem _ ha, he⟩
    · refine ⟨released data b, b0, bH, ?_, Or.inr ⟨b, List.mem_cons_self .., rfl⟩⟩
      intro a ha
      rcases List.mem_cons.1 ha with rfl | ha
      · exact Int.le_refl _
      · have := hR a ha; omega

/-- **C21**, without the assumption that the new activities form a valid route. -/
theorem C21_proposal_exact_unchecked_partial (data : ProblemData) (ht : TimesOk data) (vt k : Nat)
    (hcap : ∀ dim, 0 ≤ (data.vehicleType vt).capacity.getD dim 0)
    (hinit : ∀ dim, 0 ≤ (data.vehicleType vt).initialLoad.getD dim 0)
    (p : Proposal) (old new : List Activity) (h : Proposes data vt k p old new)
    (hfit : TimesFit data (data.vehicleType vt) new) (hrel : ReleasedInTime data new) :
    let route := Route.build data new vt
    p.distance data = (route.distanceCost, route.excessDistance)
    ∧ (p.duration data).1 = route.durationCost
    ∧ (∀ dim, dim < data.numLoadDimensions → p.excessLoad data dim = route.excessLoad.getD dim 0)
    ∧ ((NoReleases data new ∨ (∀ a ∈ (old.take k).dropLast, a.type ≠ .depot)
        ∨ route.duration ≤ (data.vehicleType vt).maxDuration) →
      (p.duration data).2 = route.timeWarp)
    ∧ ((p.duration data).2 = 0 ↔ route.timeWarp = 0)
    ∧ route.timeWarp ≤ (p.duration data).2 + max (route.duration - (data.vehicleType vt).maxDuration) 0
    ∧ (p.duration data).2 ≤ route.timeWarp + max (route.duration - (data.vehicleType vt).maxDuration) 0 := by
  cases h with
  | @mk _ tail r ms as last hist hk mids hlast =>
  rw [SRoute.update_of_history hist]
  have hm := pieces_mid mids
  have hl := lastPiece_tail hlast
  obtain ⟨xs, ys, hx, rfl⟩ : ∃ xs ys : List Activity, xs.length = k ∧ xs ++ ys = old :=
    ⟨old.take k, old.drop k, by rw [List.length_take]; omega, by simp⟩
  rw [List.take_left' hx] at hfit hrel ⊢
  subst hx
  -- times
  obtain ⟨R, hR0, hRH, hRrel, hRe⟩ := exists_release ht (xs ++ as.flatten ++ tail)
  have hlate : ∀ a ∈ xs ++ as.flatten ++ tail, a.type = .depot → R ≤ latest data a := by
    intro d hd hdt
    rcases hRe with h0 | ⟨a, ha, he⟩
    · rw [h0]
      obtain ⟨ty, i⟩ := d
      cases hdt
      have := (ht.depot i 0 (Int.le_refl 0)).1
      exact Int.le_trans this.e0 this.el
    · rw [he]; exact hrel a ha d hd hdt
  obtain ⟨M, hM0, hMv, hMs, hMa, hMfit⟩ := hfit
  have hspan := span_eq data (data.vehicleType vt).profile
    ⟨.depot, (data.vehicleType vt).startDepot⟩
    (xs ++ as.flatten ++ tail ++ [⟨.depot, (data.vehicleType vt).endDepot⟩])
  have hpre := SRoute.span_prefix ht (data.vehicleType vt).profile xs
    (as.flatten ++ (tail ++ [⟨.depot, (data.vehicleType vt).endDepot⟩]))
    (data.locationOf ⟨.depot, (data.vehicleType vt).startDepot⟩)
  rw [← List.append_assoc, ← List.append_assoc] at hpre
  have hfull : fullActs (data.vehicleType vt) (xs ++ as.flatten ++ tail)
      = ⟨.depot, (data.vehicleType vt).startDepot⟩
        :: (xs ++ as.flatten ++ tail ++ [⟨.depot, (data.vehicleType vt).endDepot⟩]) := rfl
  rw [hfull, List.map_cons (f := serviceTime data), List.sum_cons] at hMfit
  obtain ⟨hobs, hfirst, hPc, hPw, hBc, hBw, hzero⟩ :=
    SRoute.proposal_durationSeg (ys := ys) ht hm hl M R hRH
    ⟨hM0, hMv, hMs, fun a ha => hMa a (by simp [ha])⟩ (by
      have : data.locationOf ⟨.depot, (data.vehicleType vt).startDepot⟩
        = (data.depot (data.vehicleType vt).startDepot).location := rfl
      rw [this] at hpre hspan
      omega) hR0 hRrel hlate
  have hdist := SRoute.proposal_distance (xs := xs) (ys := ys) hm hl
  intro route
  have hrd : route.duration
      = (Route.backward data (data.vehicleType vt) (xs ++ as.flatten ++ tail)).ds.duration := rfl
  have hrw : route.timeWarp
      = (Route.backward data (data.vehicleType vt) (xs ++ as.flatten ++ tail)).ds.timeWarp
          (data.vehicleType vt).maxDuration := rfl
  have hpd : (Proposal.duration data ⟨SRoute.ofActs data vt (xs ++ ys),
      (SRoute.ofActs data vt (xs ++ ys)).before xs.length, ms ++ [last]⟩).2
      = (Proposal.durationSeg data ⟨SRoute.ofActs data vt (xs ++ ys),
      (SRoute.ofActs data vt (xs ++ ys)).before xs.length, ms ++ [last]⟩).timeWarp
        (data.vehicleType vt).maxDuration := rfl
  refine ⟨hdist, ?_, ?_, ?_⟩
  · have h1 : (Proposal.durationSeg data ⟨SRoute.ofActs data vt (xs ++ ys),
      (SRoute.ofActs data vt (xs ++ ys)).before xs.length, ms ++ [last]⟩).duration = route.duration :=
      congrArg Prod.fst hobs
    show (data.vehicleType vt).unitDurationCost * _
      + (data.vehicleType vt).unitOvertimeCost * max (_ - (data.vehicleType vt).shiftDuration) 0 = _
    rw [h1]; rfl
  · intro dim hdim
    exact SRoute.proposal_load hm hl dim hdim (hcap dim) (hinit dim)
  · rw [hpd, hrw, SRoute.timeWarp_eq, SRoute.timeWarp_eq, hobs, hrd]
    generalize Proposal.durationSeg data ⟨SRoute.ofActs data vt (xs ++ ys),
      (SRoute.ofActs data vt (xs ++ ys)).before xs.length, ms ++ [last]⟩ = P at *
    generalize (Route.backward data (data.vehicleType vt) (xs ++ as.flatten ++ tail)).ds = B at *
    have o1 : B.obs.1 = B.duration := rfl
    have o2 : B.obs.2 = B.cumTimeWarp_ + B.timeWarp_ + max (B.releaseTime_ - B.startLate_) 0 := rfl
    have o3 : P.obs.2 = P.cumTimeWarp_ + P.timeWarp_ + max (P.releaseTime_ - P.startLate_) 0 := rfl
    rw [hobs] at o3
    rw [o1]
    refine ⟨?_, ?_, ?_, ?_⟩
    · rintro (hno | hno | hno)
      · have hR : R = 0 := by
          rcases hRe with h | ⟨a, ha, h⟩
          · exact h
          · rw [h]; exact hno a ha
        obtain ⟨z1, z2⟩ := hzero hR
        omega
      · rw [hfirst hno]
      · omega
    · omega
    · omega
    · omega

/-- **C21.** A proposal's distance, duration and loads are those of the route constructed from the
activities that it stands for. The same holds for its time warp when no client on the new route has a
release time, or when the kept part does not go beyond the first reload, or when the new route keeps
the duration limit. In any case the proposal has time warp exactly when the new route has, and the two
differ by at most the violation of the duration limit.

Missing for the full property: release times after the closing of a reload depot, and the exact time
warp in case of a violated duration limit with release times in a later trip. See the negations. -/
theorem C21_proposal_exact_partial (data : ProblemData) (ht : TimesOk data) (vt k : Nat)
    (hcap : ∀ dim, 0 ≤ (data.vehicleType vt).capacity.getD dim 0)
    (hinit : ∀ dim, 0 ≤ (data.vehicleType vt).initialLoad.getD dim 0)
    (p : Proposal) (old new : List Activity) (h : Proposes data vt k p old new)
    (hfit : TimesFit data (data.vehicleType vt) new) (hrel : ReleasedInTime data new)
    (route : Route) (hroute : Route.make data new vt = .ok route) :
    p.distance data = (route.distanceCost, route.excessDistance)
    ∧ (p.duration data).1 = route.durationCost
    ∧ (∀ dim, dim < data.numLoadDimensions → p.excessLoad data dim = route.excessLoad.getD dim 0)
    ∧ ((NoReleases data new ∨ (∀ a ∈ (old.take k).dropLast, a.type ≠ .depot)
        ∨ route.duration ≤ (data.vehicleType vt).maxDuration) →
      (p.duration data).2 = route.timeWarp)
    ∧ ((p.duration data).2 = 0 ↔ route.timeWarp = 0)
    ∧ route.timeWarp ≤ (p.duration data).2 + max (route.duration - (data.vehicleType vt).maxDuration) 0
    ∧ (p.duration data).2 ≤ route.timeWarp
        + max (route.duration - (data.vehicleType vt).maxDuration) 0 := by
  have hr := Route.make_eq_ok hroute
  subst hr
  exact C21_proposal_exact_unchecked_partial data ht vt k hcap hinit p old new h hfit hrel

/-- **C21**, without release times: everything is exact, at any split point. -/
theorem C21_proposal_exact_without_releases (data : ProblemData) (ht : TimesOk data) (vt k : Nat)
    (hcap : ∀ dim, 0 ≤ (data.vehicleType vt).capacity.getD dim 0)
    (hinit : ∀ dim, 0 ≤ (data.vehicleType vt).initialLoad.getD dim 0)
    (p : Proposal) (old new : List Activity) (h : Proposes data vt k p old new)
    (hfit : TimesFit data (data.vehicleType vt) new) (hno : NoReleases data new)
    (route : Route) (hroute : Route.make data new vt = .ok route) :
    p.distance data = (route.distanceCost, route.excessDistance)
    ∧ p.duration data = (route.durationCost, route.timeWarp)
    ∧ ∀ dim, dim < data.numLoadDimensions → p.excessLoad data dim = route.excessLoad.getD dim 0 := by
  have hrel : ReleasedInTime data new := by
    intro a ha d _ hdt
    rw [hno a ha]
    obtain ⟨ty, i⟩ := d
    cases hdt
    have := (ht.depot i 0 (Int.le_refl 0)).1
    exact Int.le_trans this.e0 this.el
  obtain ⟨h1, h2, h3, h4, _⟩ := C21_proposal_exact_partial data ht vt k hcap hinit p old new h hfit
    hrel route hroute
  exact ⟨h1, Prod.ext h2 (h4 (Or.inl hno)), h3⟩

/-! ## Counterexamples -/

namespace Demo

/-- One vehicle that may reload once. Client 1 has release time 50 and closes at 70; client 2 closes at
`late2`; the depot closes at `lateDepot`; the duration is limited to `limit`. -/
def releaseData (late2 lateDepot limit : Int) : ProblemData :=
  { locations := [⟨0, 0, ""⟩, ⟨3, 4, ""⟩]
    clients := [
      ⟨1, [], [], 0, 0, 100, 0, 0, true, none, ""⟩,
      ⟨1, [], [], 0, 0, 70, 50, 0, true, none, ""⟩,
      ⟨1, [], [], 0, 0, late2, 0, 0, true, none, ""⟩]
    depots := [⟨0, 0, lateDepot, 0, ""⟩]
    vehicleTypes := [
      { numAvailable := 1, startDepot := 0, endDepot := 0, capacity := [], twEarly := 0
        twLate := 100, shiftDuration := limit, maxDistance := MAX, fixedCost := 0
        unitDistanceCost := 1, unitDurationCost := 1, profile := 0, startLate := 100
        initialLoad := [], reloadDepots := [0], maxReloads := 1, maxOvertime := 0
        unitOvertimeCost := 0, maxDuration := limit, name := "" }]
    dists := [⟨2, 2, [0, 5, 5, 0]⟩]
    durs := [⟨2, 2, [0, 5, 5, 0]⟩]
    groups := []
    shipments := [] }

end Demo

/-- Any list of activities with few enough trips can be reached, by inserting one after another at
the end. -/
theorem history_of_inserts (data : ProblemData) (vt : Nat) (acts : List Activity)
    (hdep : depotVisits acts + 1 ≤ (data.vehicleType vt).maxTrips) :
    ∃ r, History data vt acts r := by
  induction acts using snoc_induction with
  | h0 => exact ⟨_, .new⟩
  | hs acts a ih =>
    obtain ⟨r, hr⟩ := ih (by rw [depotVisits_append] at hdep; omega)
    have hl : (RouteOp.insert (acts.length + 1) a).Legal acts := ⟨by omega, Nat.le_refl _⟩
    have hins : acts.insertIdx (acts.length + 1 - 1) a = acts ++ [a] := by
      rw [insertIdx_split _ _ _ (by omega)]; simp
    obtain ⟨r', hr'⟩ := (C20_insert_rejects_exactly_too_many_trips data vt acts r hr
      (acts.length + 1) a hl).2 (by rw [hins]; exact hdep)
    have := History.step (RouteOp.insert (acts.length + 1) a) hr hl hr'
    rw [RouteOp.onActs, hins] at this
    exact ⟨r', this⟩

namespace Demo

def oldActs : List Activity := [client 0, depot 0, client 1]
def newActs : List Activity := [client 0, depot 0, client 1, client 2]

end Demo

/-- **C21, negation.** The time warp of a proposal need not be that of the new route. Here client 2 is
inserted after client 1, in the second trip. Client 2 closes before the release time of client 1, and
the new route takes longer than the duration limit. The proposal says time warp 40; the new route has
time warp 35. -/
theorem C21_negation_time_warp :
    let data := Demo.releaseData 20 100 15
    ProblemData.make data = .ok data ∧ (∀ c ∈ data.clients, Client.make c = .ok c)
    ∧ ∃ p, Proposes data 0 3 p Demo.oldActs Demo.newActs
      ∧ ∃ route, Route.make data Demo.newActs 0 = .ok route
        ∧ (p.duration data).2 = 40 ∧ route.timeWarp = 35 := by
  intro data
  refine ⟨by decide +kernel, by decide +kernel, ?_⟩
  obtain ⟨r, hr⟩ := history_of_inserts data 0 Demo.oldActs (by decide)
  refine ⟨_, Proposes.mk (k := 3) hr (by decide) (.cons (.client 2) .nil)
    (.after hr 4 (by decide) (by decide)), Route.build data Demo.newActs 0, by decide +kernel, ?_⟩
  rw [SRoute.update_of_history hr]
  decide +kernel

/-- **C21, negation.** The duration of a proposal need not be that of the new route either. Here a
visit to the reload depot and to client 1 are added at the end. The depot closes at 40, before the
client's release time 50. The proposal says duration 30; the new route takes 20. -/
theorem C21_negation_duration :
    let data := Demo.releaseData 100 40 100
    ProblemData.make data = .ok data ∧ (∀ c ∈ data.clients, Client.make c = .ok c)
    ∧ ∃ p, Proposes data 0 1 p [Demo.client 0] Demo.oldActs
      ∧ ∃ route, Route.make data Demo.oldActs 0 = .ok route
        ∧ (p.duration data).1 = 30 ∧ route.durationCost = 20 ∧ route.duration = 20 := by
  intro data
  refine ⟨by decide +kernel, by decide +kernel, ?_⟩
  obtain ⟨r, hr⟩ := history_of_inserts data 0 [Demo.client 0] (by decide)
  refine ⟨_, Proposes.mk (k := 1) hr (by decide) (.cons (.depot 0) (.cons (.client 1) .nil))
    (.after hr 2 (by decide) (by decide)), Route.build data Demo.oldActs 0, by decide +kernel, ?_⟩
  rw [SRoute.update_of_history hr]
  decide +kernel

/-! ## Non-vacuity -/

namespace Demo

/-- The demo route with clients 3 and 4 inserted, the reload moved, and the part from the pickup to
the delivery kept as one piece. -/
def newActs' : List Activity :=
  [client 0, client 3, pickup 0, client 1, delivery 0, client 4, depot 0, client 2]

example : ∃ p, Proposes data 0 1 p acts newActs' := by
  obtain ⟨r, hr⟩ := history_of_inserts data 0 acts (by decide)
  exact ⟨_, Proposes.mk hr (by decide)
    (.cons (.client 3) (.cons (.between hr 2 4 (by decide) (by decide) (by decide) (by decide))
      (.cons (.client 4) .nil)))
    (.after hr 5 (by decide) (by decide))⟩

/-- A split in the second trip, a piece that ends at the reload depot, and only the end depot kept. -/
example : ∃ p, Proposes data 0 6 p acts (acts ++ [delivery 0, depot 0, client 3]) := by
  obtain ⟨r, hr⟩ := history_of_inserts data 0 acts (by decide)
  exact ⟨_, Proposes.mk hr (by decide)
    (.cons (.between hr 4 5 (by decide) (by decide) (by decide) (by decide))
      (.cons (.client 3) .nil))
    (.finish hr)⟩

example : TimesFit data (data.vehicleType 0) newActs' :=
  ⟨100, by decide, by decide, by decide, by decide, by decide⟩

example : ReleasedInTime data newActs' := by
  unfold ReleasedInTime; decide

example : ∃ route, Route.make data newActs' 0 = .ok route := ⟨Route.build data newActs' 0, by decide +kernel⟩

example : ∀ dim, 0 ≤ (data.vehicleType 0).capacity.getD dim 0 := by
  intro dim
  match dim with
  | 0 => decide
  | dim + 1 => exact Int.le_refl 0

example : NoReleases data [client 1, depot 0, client 3, client 4] := by unfold NoReleases; decide

end Demo
end PyVRP
