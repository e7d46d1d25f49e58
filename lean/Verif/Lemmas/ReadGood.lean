import Verif.Lemmas.ReadFile
import Verif.Spec.FileGood
/-!
# Well-formed files are read
-/
namespace PyVRP
open Csv ModelApi Spec SolutionFile

theorem Py.get_lt {α : Type} {l : List α} {i : Nat} (h : i < l.length) : Py.get l (i : Int) = .ok l[i] :=
  Py.get_nat (List.getElem?_eq_getElem h)

theorem Py.mapE_exists {α β : Type} {f : α → Except Error β} {l : List α} (h : ∀ a ∈ l, ∃ b, f a = .ok b) :
    ∃ bs, Py.mapE f l = .ok bs := by
  induction l with
  | nil => exact ⟨[], rfl⟩
  | cons a l ih =>
    obtain ⟨b, hb⟩ := h a (by simp)
    obtain ⟨bs, hbs⟩ := ih fun x hx => h x (by simp [hx])
    exact ⟨b :: bs, by rw [Py.mapE, hb]; dsimp only; rw [hbs]⟩

namespace Read

theorem lines_eq {α : Type} (t : Table α) : t.toRows.length = File.lines t := by
  cases t <;> simp [Table.toRows, File.lines]

theorem lines_map {α β : Type} (f : α → β) (t : Table α) : (t.map f).toRows.length = File.lines t := by
  cases t <;> simp [Table.map, Table.toRows, File.lines]

/-! ## Groups -/

theorem enter_good (g : Nat) : ∀ (ms : List Int) (l : List (Option Nat)),
    (∀ m ∈ ms, 0 ≤ m ∧ m < l.length) → ∃ out, enter l g ms = .ok out ∧ out.length = l.length
      ∧ ∀ i : Nat, (((i : Int) ∈ ms) → out[i]? = some (some g)) ∧ ((i : Int) ∉ ms → out[i]? = l[i]?)
  | [], l, _ => ⟨l, rfl, rfl, fun i => ⟨fun h => by simp at h, fun _ => rfl⟩⟩
  | m :: ms, l, h => by
    obtain ⟨h1, h2⟩ := h m (by simp)
    obtain ⟨out, e1, e2, e3⟩ := enter_good g ms (l.set m.toNat (some g)) fun x hx => by
      rw [List.length_set]; exact h x (by simp [hx])
    refine ⟨out, ?_, by rw [e2, List.length_set], fun i => ?_⟩
    · rw [enter, Py.modify, Py.position, if_pos h1, if_pos h2]
      dsimp only
      rw [List.getElem?_eq_getElem (by omega)]
      exact e1
    · by_cases hi : (i : Int) ∈ ms
      · exact ⟨fun _ => (e3 i).1 hi, fun hn => absurd (List.mem_cons_of_mem _ hi) hn⟩
      · have := (e3 i).2 hi
        rw [List.getElem?_set] at this
        constructor
        · intro hm
          have : (i : Int) = m := by
            rcases List.mem_cons.1 hm with h | h
            · exact h
            · exact absurd h hi
          rw [(e3 i).2 hi, List.getElem?_set, if_pos (by omega), if_pos (by omega)]
        · intro hm
          rw [this, if_neg]
          intro hc
          exact hm (List.mem_cons.2 (.inl (by omega)))

theorem enterAll_good : ∀ (rows : List (List Int)) (g : Nat) (l : List (Option Nat)),
    (∀ m ∈ rows.flatten, 0 ≤ m ∧ m < l.length) → rows.flatten.Nodup →
    ∃ out, enterAll l g rows = .ok out ∧ out.length = l.length
      ∧ ∀ i : Nat, (∀ k ms, rows[k]? = some ms → (i : Int) ∈ ms → out[i]? = some (some (g + k)))
        ∧ ((i : Int) ∉ rows.flatten → out[i]? = l[i]?)
  | [], g, l, _, _ => ⟨l, rfl, rfl, fun i => ⟨fun k ms h => by simp at h, fun _ => rfl⟩⟩
  | ms :: rows, g, l, h, hn => by
    rw [List.flatten_cons] at h hn
    obtain ⟨hn1, hn2, hn3⟩ := List.nodup_append.1 hn
    obtain ⟨l1, a1, a2, a3⟩ := enter_good g ms l fun m hm => h m (by simp [hm])
    obtain ⟨out, b1, b2, b3⟩ := enterAll_good rows (g + 1) l1 (fun m hm => by
      rw [a2]; exact h m (by simp only [List.mem_append]; exact .inr hm)) hn2
    refine ⟨out, by rw [enterAll, a1]; exact b1, by rw [b2, a2], fun i => ⟨?_, ?_⟩⟩
    · intro k ms' hk hi
      cases k with
      | zero =>
        simp only [List.getElem?_cons_zero, Option.some.injEq] at hk
        subst hk
        rw [(b3 i).2 (fun hc => hn3 _ hi _ hc rfl), (a3 i).1 hi]
        rfl
      | succ k =>
        rw [List.getElem?_cons_succ] at hk
        rw [(b3 i).1 k ms' hk hi]
        congr 2
        omega
    · intro hi
      rw [List.flatten_cons, List.mem_append, not_or] at hi
      rw [(b3 i).2 hi.2, (a3 i).2 hi.1]

theorem flatten_shift (k : Int) (rows : List (List Int)) :
    (rows.map (·.map (· + k + 1))).flatten = rows.flatten.map (· + k + 1) := by
  rw [List.map_flatten]

/-- The groups of the file, as places counted from the first client. -/
theorem groupRows_good {R : Rat → Rat} {inst : Vrplib} (hg : File.Good R inst) :
    ∃ rows, mutuallyExclusiveGroups inst = .ok rows ∧ rows.flatten.Nodup
      ∧ (∀ m ∈ rows.flatten, 0 ≤ m ∧ m < (numClients inst).toNat) ∧ ∀ r ∈ rows, r ≠ [] := by
  have hok : ∃ rows, mutuallyExclusiveGroups inst = .ok rows ∧ ∀ r ∈ rows, r ≠ [] := by
    unfold mutuallyExclusiveGroups
    cases h : inst.groups with
    | none => exact ⟨[], rfl, by simp⟩
    | some t =>
      have := hg.groupLines t h
      rw [← lines_eq] at this
      dsimp only
      rw [if_neg (fun hc => this (by rw [hc]; rfl))]
      refine ⟨_, rfl, fun r hr => ?_⟩
      have := (List.mem_filter.1 hr).2
      simp only [decide_eq_true_eq] at this
      intro hc
      subst hc
      simp at this
  obtain ⟨rows, h1, h2⟩ := hok
  have e := groupRows h1
  rw [numDepots_eq] at e
  have hgr := hg.groups
  rw [← e, flatten_shift] at hgr
  refine ⟨rows, h1, List.Pairwise.of_map _ (fun a b h hab => h (by rw [hab])) hgr.1, fun m hm => ?_, h2⟩
  have := hgr.2 _ (List.mem_map.2 ⟨m, hm, rfl⟩)
  have hn : numClients inst = inst.dimension - File.numDepots inst := by
    rw [numClients_eq, File.numClients, hg.noShipments]
  omega

theorem groups_good {R : Rat → Rat} {inst : Vrplib} (hg : File.Good R inst) :
    ∃ gs, groups inst = .ok gs := by
  obtain ⟨rows, h1, h2, h3, _⟩ := groupRows_good hg
  have hp := hg.places
  have hn : numClients inst = inst.dimension - File.numDepots inst := by
    rw [numClients_eq, File.numClients, hg.noShipments]
  unfold groups
  rw [h1]
  refine Py.mapE_exists fun ms hms => ?_
  have hmem : ∀ m ∈ ms, m ∈ rows.flatten := fun m hm => List.mem_flatten.2 ⟨ms, hms, hm⟩
  obtain ⟨cs, hcs⟩ := Py.mapE_exists (f := size) (l := ms) fun m hm => by
    have := h3 m (hmem m hm)
    exact ⟨m.toNat, by unfold size; rw [if_pos (by omega)]⟩
  rw [hcs]
  have hnd : cs.Nodup := by
    have : (cs.map Int.ofNat).Nodup := by
      rw [sizes_ok hcs]
      exact h2.sublist (List.sublist_flatten_of_mem hms)
    exact List.Pairwise.of_map _ (fun a b h hab => h (by rw [hab])) this
  exact ⟨_, ((C36_group_accepts _).1 _).2 ⟨rfl, hnd⟩⟩

/-! ## Clients -/

theorem broadcast_good {n : Nat} {s : Option Values} (d : Rat) (h : File.OneOrEach n s) :
    ∃ l, broadcast n (s.getD (.one d)) = .ok l ∧ l.length = n := by
  cases s with
  | none => exact ⟨_, rfl, by simp⟩
  | some v =>
    cases v with
    | one x => exact ⟨_, rfl, by simp⟩
    | many l =>
      rw [Option.getD_some, broadcast]
      by_cases h1 : l.length = n
      · rw [if_pos h1]; exact ⟨l, rfl, h1⟩
      · rw [if_neg h1]
        rcases h l rfl with h2 | h2
        · omega
        · rw [if_pos h2]; exact ⟨_, rfl, by simp⟩

theorem demands_lines {R : Rat → Rat} {inst : Vrplib} (hg : File.Good R inst) :
    (demands R inst).toRows.length = inst.dimension := by
  have h := hg.amounts
  unfold File.deliveries at h
  unfold demands
  cases h1 : inst.demand with
  | some t => rw [h1] at h; rw [lines_map]; exact h t (.inl rfl)
  | none =>
    rw [h1] at h
    dsimp only at h ⊢
    cases h2 : inst.linehaul with
    | some t => rw [lines_map]; exact h t (.inl h2)
    | none => simp [zeros, Table.toRows]

theorem backhauls_lines {R : Rat → Rat} {inst : Vrplib} (hg : File.Good R inst) :
    (backhauls R inst).toRows.length = inst.dimension := by
  unfold backhauls
  cases h1 : inst.backhaul with
  | some t => rw [lines_map]; exact hg.amounts t (.inr h1)
  | none => simp [zeros, Table.toRows]

theorem map_width {R : Rat → Rat} {t : Table Rat} {loc : Nat} {row : List Rat}
    (h : (t.map R).toRows[loc]? = some row) : row.length = File.width (some t) loc := by
  cases t with
  | flat l =>
    simp only [Table.map, Table.toRows, List.getElem?_map, Option.map_eq_some_iff] at h
    obtain ⟨x, _, rfl⟩ := h
    rfl
  | rows l =>
    simp only [Table.map, Table.toRows, List.getElem?_map, Option.map_eq_some_iff] at h
    obtain ⟨x, hx, rfl⟩ := h
    simp only [List.length_map, File.width]
    rw [getD_some hx]

theorem zeros_width {n loc : Nat} {row : List Rat} (h : (zeros n).toRows[loc]? = some row) :
    row.length = 1 := by
  rw [replicate_get (show (List.replicate n [(0 : Rat)])[loc]? = some row from h)]
  rfl

theorem demands_width {R : Rat → Rat} {inst : Vrplib} {loc : Nat} {row : List Rat}
    (h : (demands R inst).toRows[loc]? = some row) : row.length = File.width (File.deliveries inst) loc := by
  unfold demands at h
  unfold File.deliveries
  cases h1 : inst.demand with
  | some t => rw [h1] at h; exact map_width h
  | none =>
    rw [h1] at h
    dsimp only at h ⊢
    cases h2 : inst.linehaul with
    | some t => rw [h2] at h; exact map_width h
    | none => rw [h2] at h; exact zeros_width h

theorem backhauls_width {R : Rat → Rat} {inst : Vrplib} {loc : Nat} {row : List Rat}
    (h : (backhauls R inst).toRows[loc]? = some row) : row.length = File.width inst.backhaul loc := by
  unfold backhauls at h
  cases h1 : inst.backhaul with
  | some t => rw [h1] at h; exact map_width h
  | none => rw [h1] at h; exact zeros_width h

theorem serviceTimes_lines {R : Rat → Rat} {inst : Vrplib} (hg : File.Good R inst) :
    (serviceTimes R inst).length = inst.dimension := by
  unfold serviceTimes
  cases h : inst.serviceTime with
  | none => simp
  | some v =>
    cases v with
    | one x => simp
    | many l => simp [hg.services l h]

theorem timeWindows_lines {R : Rat → Rat} {inst : Vrplib} (hg : File.Good R inst) :
    (timeWindows R inst).length = inst.dimension := by
  unfold timeWindows
  rw [hg.noShipments]
  dsimp only
  cases h : inst.timeWindow with
  | none => simp
  | some l => simp [hg.windows l h]

theorem prizes_lines {R : Rat → Rat} {inst : Vrplib} (hg : File.Good R inst) :
    (prizes R inst).length = inst.dimension := by
  unfold prizes
  cases h : inst.prize with
  | none => simp
  | some l => simp [hg.prizes l h]

theorem releaseTimes_good {R : Rat → Rat} {inst : Vrplib} (hg : File.Good R inst) :
    ∃ l, releaseTimes R inst = .ok l ∧ l.length = inst.dimension := by
  obtain ⟨l, h1, h2⟩ := broadcast_good 0 hg.releases
  exact ⟨l.map R, by unfold releaseTimes; rw [h1]; rfl, by simp [h2]⟩

theorem nonneg_of_getD {l : List Int} (h : ∀ d, 0 ≤ l.getD d 0) : Nonneg l := by
  intro x hx
  obtain ⟨d, hd⟩ := List.getElem?_of_mem hx
  have := h d
  rwa [getD_some hd] at this

theorem pad_length (a b : List Int) : (pad a b).length = max a.length b.length := by
  unfold pad
  rw [List.length_append, List.length_replicate]
  omega

theorem numClients_good {R : Rat → Rat} {inst : Vrplib} (hg : File.Good R inst) :
    (numClients inst).toNat = inst.dimension - numDepots inst := by
  rw [numClients_eq, File.numClients, hg.noShipments, numDepots_eq]
  dsimp only
  omega

theorem numDepots_pos {R : Rat → Rat} {inst : Vrplib} (hg : File.Good R inst) : 0 < numDepots inst := by
  rw [numDepots_eq, File.numDepots]
  cases h : inst.depot with
  | none => exact Nat.one_pos
  | some l => exact List.length_pos_iff.2 (hg.depots l h).1

/-- A client of a well-formed file, with its group. -/
theorem client_good {R : Rat → Rat} (h0 : R 0 = 0) {inst : Vrplib} (hg : File.Good R inst)
    {release : List Rat} (hr : releaseTimes R inst = .ok release) (hrl : release.length = inst.dimension)
    {idx2group : List (Option Nat)} (hl : idx2group.length = (numClients inst).toNat) {i : Nat}
    (hi : i < (numClients inst).toNat) :
    ∃ c, client
        { idx2group := idx2group, demands := demands R inst, backhauls := backhauls R inst
          serviceDuration := serviceTimes R inst, timeWindows := timeWindows R inst
          releaseTimes := release, prizes := prizes R inst } (numDepots inst) (numDepots inst + i) = .ok c
      ∧ c.delivery.length = max (File.width (File.deliveries inst) (numDepots inst + i))
          (File.width inst.backhaul (numDepots inst + i))
      ∧ c.pickup.length = c.delivery.length := by
  have hn := numClients_good hg
  have hp := numDepots_pos hg
  have hlt : numDepots inst + i < inst.dimension := by omega
  have l1 : numDepots inst + i < (demands R inst).toRows.length := by rw [demands_lines hg]; exact hlt
  have l2 : numDepots inst + i < (backhauls R inst).toRows.length := by rw [backhauls_lines hg]; exact hlt
  have l3 : numDepots inst + i < (serviceTimes R inst).length := by rw [serviceTimes_lines hg]; exact hlt
  have l4 : numDepots inst + i < (timeWindows R inst).length := by rw [timeWindows_lines hg]; exact hlt
  have l5 : numDepots inst + i < release.length := by rw [hrl]; exact hlt
  have l6 : numDepots inst + i < (prizes R inst).length := by rw [prizes_lines hg]; exact hlt
  have l7 : numDepots inst + i - numDepots inst < idx2group.length := by omega
  have gc := hg.client (numDepots inst + i) (by rw [← numDepots_eq]; omega) hlt
  have gw := hg.window (numDepots inst + i) hlt
  have e1 := demands_amount h0 (List.getElem?_eq_getElem l1)
  have e2 := backhauls_amount h0 (List.getElem?_eq_getElem l2)
  have e3 := serviceTimes_number (List.getElem?_eq_getElem l3) (by omega) hp
  have e4 := timeWindows_window (List.getElem?_eq_getElem l4)
  have e5 := releaseTimes_number hr (List.getElem?_eq_getElem l5)
  have e6 := prizes_prize h0 (List.getElem?_eq_getElem l6)
  have w1 := demands_width (List.getElem?_eq_getElem l1)
  have w2 := backhauls_width (List.getElem?_eq_getElem l2)
  unfold client row
  rw [Py.get_lt l1]; dsimp only
  rw [Py.get_lt l2]; dsimp only
  rw [Py.get_lt l3]; dsimp only
  rw [Py.get_lt l4]; dsimp only
  rw [Py.get_lt l5]; dsimp only
  rw [Py.get_lt l6]; dsimp only
  rw [Py.get_lt l7]; dsimp only
  generalize hd : (demands R inst).toRows[numDepots inst + i] = dl at *
  generalize hb : (backhauls R inst).toRows[numDepots inst + i] = pl at *
  generalize (serviceTimes R inst)[numDepots inst + i] = sv at *
  generalize (timeWindows R inst)[numDepots inst + i] = tw at *
  generalize release[numDepots inst + i] = rl at *
  generalize (prizes R inst)[numDepots inst + i] = pr at *
  subst e3 e4 e5 e6
  have hok : ClientArgsOk
      { location := numDepots inst + i, delivery := dl.map trunc, pickup := pl.map trunc
        serviceDuration := trunc (R (File.number inst.serviceTime 0 (numDepots inst + i)))
        twEarly := trunc (File.window R inst (numDepots inst + i)).1
        twLate := trunc (File.window R inst (numDepots inst + i)).2
        releaseTime := trunc (R (File.number inst.releaseTime 0 (numDepots inst + i)))
        prize := trunc (R (File.prize inst (numDepots inst + i)))
        required := isZero (R (File.prize inst (numDepots inst + i)))
          && (idx2group[numDepots inst + i - numDepots inst]).isNone
        group := idx2group[numDepots inst + i - numDepots inst], name := "" } :=
    { delivery := nonneg_of_getD fun d => by rw [e1]; exact gc.delivery d
      pickup := nonneg_of_getD fun d => by rw [e2]; exact gc.pickup d
      service := gc.service
      early := gw.1
      window := gw.2.1
      release := gc.release
      prize := gc.prize }
  obtain ⟨c, hc⟩ := (C36_client_accepts _).1.2 hok
  refine ⟨c, hc, ?_⟩
  have := checked_ok hc
  subst this
  dsimp only
  rw [pad_length, pad_length, pad_length, List.length_map, List.length_map, w1, w2]
  omega

/-- The clients of a well-formed file. -/
theorem clients_good {R : Rat → Rat} (h0 : R 0 = 0) {inst : Vrplib} (hg : File.Good R inst)
    {rows : List (List Int)} (hrows : mutuallyExclusiveGroups inst = .ok rows) :
    ∃ cs, clients R inst = .ok cs ∧ cs.length = (numClients inst).toNat
      ∧ (∀ c ∈ cs, ∃ loc, loc = c.location ∧ numDepots inst ≤ loc ∧ loc < inst.dimension
        ∧ c.delivery.length = max (File.width (File.deliveries inst) loc) (File.width inst.backhaul loc)
        ∧ c.pickup.length = c.delivery.length)
      ∧ (∀ (i : Nat) (c : Client), cs[i]? = some c → ∀ g, c.group = some g →
        c.required = false ∧ ∃ ms, rows[g]? = some ms ∧ (i : Int) ∈ ms)
      ∧ ∀ (g : Nat) (ms : List Int), rows[g]? = some ms → ∀ i : Nat, (i : Int) ∈ ms →
        ∃ c : Client, cs[i]? = some c ∧ c.group = some g := by
  obtain ⟨rows', r1, r2, r3, r4⟩ := groupRows_good hg
  rw [hrows] at r1
  injection r1 with r1
  subst r1
  obtain ⟨idx2group, g1, g2, g3⟩ := enterAll_good rows 0 (List.replicate (numClients inst).toNat none)
    (fun m hm => by rw [List.length_replicate]; exact r3 m hm) r2
  rw [List.length_replicate] at g2
  obtain ⟨release, t1, t2⟩ := releaseTimes_good hg
  have hn := numClients_good hg
  obtain ⟨cs, hcs⟩ := Py.mapE_exists (f := client
        { idx2group := idx2group, demands := demands R inst, backhauls := backhauls R inst
          serviceDuration := serviceTimes R inst, timeWindows := timeWindows R inst
          releaseTimes := release, prizes := prizes R inst } (numDepots inst))
      (l := List.range' (numDepots inst) (numClients inst).toNat) fun loc hloc => by
    rw [List.mem_range'_1] at hloc
    obtain ⟨c, hc, _⟩ := client_good h0 hg t1 t2 g2 (i := loc - numDepots inst) (by omega)
    rw [show numDepots inst + (loc - numDepots inst) = loc by omega] at hc
    exact ⟨c, hc⟩
  have hall := Py.mapE_all2 hcs
  have hlen : cs.length = (numClients inst).toNat := by rw [← All2.length hall, List.length_range']
  have hget : ∀ (i : Nat) (c : Client), cs[i]? = some c → i < (numClients inst).toNat ∧ client
        { idx2group := idx2group, demands := demands R inst, backhauls := backhauls R inst
          serviceDuration := serviceTimes R inst, timeWindows := timeWindows R inst
          releaseTimes := release, prizes := prizes R inst } (numDepots inst) (numDepots inst + i) = .ok c := by
    intro i c hc
    have hi : i < (numClients inst).toNat := by rw [← hlen]; exact (List.getElem?_eq_some_iff.1 hc).1
    refine ⟨hi, ?_⟩
    have h1 : (List.range' (numDepots inst) (numClients inst).toNat)[i]? = some (numDepots inst + i) := by
      rw [List.getElem?_range' hi]; simp
    exact All2.get hall h1 hc
  have hgroup : ∀ (i : Nat) (c : Client), cs[i]? = some c → idx2group[i]? = some c.group
      ∧ (c.group ≠ none → c.required = false) := by
    intro i c hc
    obtain ⟨hi, hcl⟩ := hget i c hc
    obtain ⟨dl, pl, sv, tw, rl, pr, gr, _, _, _, _, _, _, k7, _, _, _, _, _, _, _, _, k8, k9⟩ := client_ok hcl
    dsimp only at k7
    rw [show numDepots inst + i - numDepots inst = i by omega] at k7
    subst k9
    refine ⟨k7, fun hne => ?_⟩
    rw [k8]
    cases h : c.group with
    | none => exact absurd h hne
    | some g => simp
  refine ⟨cs, ?_, hlen, ?_, ?_, ?_⟩
  · unfold clients
    rw [hrows]; dsimp only
    rw [g1]; dsimp only
    rw [t1]; dsimp only
    exact hcs
  · intro c hc
    obtain ⟨i, hi⟩ := List.getElem?_of_mem hc
    obtain ⟨hlt, hcl⟩ := hget i c hi
    obtain ⟨c', h1, h2, h3⟩ := client_good h0 hg t1 t2 g2 hlt
    rw [hcl] at h1
    injection h1 with h1
    subst h1
    obtain ⟨_, _, _, _, _, _, _, _, _, _, _, _, _, _, k8, _⟩ := client_ok hcl
    exact ⟨numDepots inst + i, k8.symm, by omega, by omega, h2, h3⟩
  · intro i c hc g hgr
    obtain ⟨h1, h2⟩ := hgroup i c hc
    refine ⟨h2 (by rw [hgr]; simp), ?_⟩
    rw [hgr] at h1
    by_cases hm : (i : Int) ∈ rows.flatten
    · obtain ⟨ms, hms, him⟩ := List.mem_flatten.1 hm
      obtain ⟨k, hk⟩ := List.getElem?_of_mem hms
      have := (g3 i).1 k ms hk him
      rw [h1] at this
      injection this with this
      injection this with this
      rw [Nat.zero_add] at this
      subst this
      exact ⟨ms, hk, him⟩
    · have := (g3 i).2 hm
      rw [h1, List.getElem?_replicate] at this
      split at this
      · injection this with this; cases this
      · cases this
  · intro g ms hms i him
    have hlt := r3 i (List.mem_flatten.2 ⟨ms, List.mem_of_getElem? hms, him⟩)
    have hi : i < cs.length := by rw [hlen]; omega
    refine ⟨cs[i], List.getElem?_eq_getElem hi, ?_⟩
    have h1 := (hgroup i _ (List.getElem?_eq_getElem hi)).1
    rw [(g3 i).1 g ms hms him] at h1
    injection h1 with h1
    rw [← h1, Nat.zero_add]

/-! ## Vehicles -/

theorem indices_good {t : Table Int} (h : File.lines t ≠ 0) :
    ∃ l, indices t = .ok l ∧ l.length = File.lines t := by
  rw [← lines_eq] at h
  refine ⟨_, by unfold indices; rw [if_neg (fun hc => h (by rw [hc]; rfl))], by rw [List.length_map, lines_eq]⟩

theorem allowedClients_good {R : Rat → Rat} {inst : Vrplib} (hg : File.Good R inst) :
    ∃ l, allowedClients inst = .ok l ∧ (l.length : Int) = numVehicles inst := by
  have hv := hg.vehicles
  rw [← numVehicles_eq] at hv
  unfold allowedClients
  cases h : inst.allowedClients with
  | none => exact ⟨_, rfl, by rw [List.length_replicate]; omega⟩
  | some t =>
    have := hg.allowed t h
    rw [← numVehicles_eq] at this
    obtain ⟨l, h1, h2⟩ := indices_good (t := t) (by omega)
    exact ⟨l, h1, by omega⟩

theorem reloadDepots_good {R : Rat → Rat} {inst : Vrplib} (hg : File.Good R inst) :
    ∃ l, reloadDepots inst = .ok l ∧ (l.length : Int) = numVehicles inst := by
  have hv := hg.vehicles
  rw [← numVehicles_eq] at hv
  unfold reloadDepots
  cases h : inst.reloadDepot with
  | none => exact ⟨_, rfl, by rw [List.length_replicate]; omega⟩
  | some t =>
    have := hg.reloads t h
    rw [← numVehicles_eq] at this
    obtain ⟨l, h1, h2⟩ := indices_good (t := t) (by omega)
    exact ⟨l, h1, by omega⟩

theorem depotIdcs_good {R : Rat → Rat} {inst : Vrplib} (hg : File.Good R inst) :
    depotIdcs inst = (List.range (numDepots inst)).map Int.ofNat := by
  unfold depotIdcs numDepots
  cases h : inst.depot with
  | none => rfl
  | some l => exact (hg.depots l h).2

theorem depots_good {R : Rat → Rat} {inst : Vrplib} (hg : File.Good R inst) :
    depots inst = .ok ((List.range (numDepots inst)).map fun idx => ⟨idx, 0, MAX, 0, ""⟩) := by
  have := numDepots_pos hg
  unfold depots
  rw [if_neg (by rw [not_or]; exact ⟨by omega, by rw [depotIdcs_good hg]; simp⟩)]

theorem vehiclesDepots_good {R : Rat → Rat} {inst : Vrplib} (hg : File.Good R inst) :
    ∃ l, vehiclesDepots inst = .ok l ∧ (l.length : Int) = numVehicles inst := by
  have hv := hg.vehicles
  rw [← numVehicles_eq] at hv
  unfold vehiclesDepots
  cases h : inst.vehiclesDepot with
  | none =>
    have hd : 0 < (depotIdcs inst).length := by
      rw [depotIdcs_good hg, List.length_map, List.length_range]; exact numDepots_pos hg
    have := Py.get_lt hd
    rw [Int.natCast_zero] at this
    rw [this]
    exact ⟨_, rfl, by rw [List.length_replicate]; omega⟩
  | some l =>
    have := hg.vehiclesDepots l h
    rw [← numVehicles_eq] at this
    exact ⟨_, rfl, by rw [List.length_map]; exact this⟩

theorem toNat_vehicles {R : Rat → Rat} {inst : Vrplib} (hg : File.Good R inst) :
    ((numVehicles inst).toNat : Int) = File.numVehicles inst ∧ File.numVehicles inst = numVehicles inst := by
  have hv := hg.vehicles
  rw [← numVehicles_eq] at hv ⊢
  omega

theorem limits_good {R : Rat → Rat} {inst : Vrplib} (hg : File.Good R inst) {s : Option Values}
    (h : File.OneOrEach (File.numVehicles inst) s) :
    ∃ l, limits R inst s = .ok l ∧ (l.length : Int) = numVehicles inst := by
  obtain ⟨e1, e2⟩ := toNat_vehicles hg
  unfold limits
  cases s with
  | none => exact ⟨_, rfl, by rw [List.length_replicate]; omega⟩
  | some v =>
    rw [← e1] at h
    obtain ⟨l, h1, h2⟩ := broadcast_good 0 h
    rw [Option.getD_some] at h1
    exact ⟨l.map R, by dsimp only; rw [h1]; rfl, by rw [List.length_map]; omega⟩

theorem maxReloads_good {R : Rat → Rat} {inst : Vrplib} (hg : File.Good R inst) :
    ∃ l, maxReloads inst = .ok l ∧ (l.length : Int) = numVehicles inst := by
  obtain ⟨e1, e2⟩ := toNat_vehicles hg
  unfold maxReloads
  cases h : inst.maxReloads with
  | none => exact ⟨_, rfl, by rw [List.length_replicate]; omega⟩
  | some l =>
    have := hg.maxReloads l h
    dsimp only
    by_cases h1 : l.length = (numVehicles inst).toNat
    · rw [if_pos h1]; exact ⟨l, rfl, by omega⟩
    · rw [if_neg h1, if_pos (by omega)]
      exact ⟨_, rfl, by rw [List.length_replicate]; omega⟩

theorem attributes_good {R : Rat → Rat} {inst : Vrplib} (hg : File.Good R inst) :
    ∃ attrs, attributes R inst = .ok attrs ∧ (attrs.length : Int) = numVehicles inst := by
  obtain ⟨e1, e2⟩ := toNat_vehicles hg
  obtain ⟨l1, a1, b1⟩ := allowedClients_good hg
  obtain ⟨l2, a2, b2⟩ := reloadDepots_good hg
  obtain ⟨l3, a3, b3⟩ := vehiclesDepots_good hg
  obtain ⟨l4, a4, b4⟩ := limits_good hg hg.maxDistances
  obtain ⟨l5, a5, b5⟩ := limits_good hg hg.maxDurations
  obtain ⟨l6, a6, b6⟩ := maxReloads_good hg
  have hf := hg.fixedCosts
  have hu := hg.unitDistanceCosts
  rw [← e1] at hf hu
  obtain ⟨l7, a7, b7⟩ := broadcast_good 0 hf
  obtain ⟨l8, a8, b8⟩ := broadcast_good 1 hu
  have hc : ((capacities R inst).length : Int) = numVehicles inst := by
    unfold capacities
    cases h : inst.capacity with
    | none => dsimp only; rw [List.length_replicate]; omega
    | some c =>
      cases c with
      | one x => dsimp only; rw [List.length_replicate]; omega
      | table t => dsimp only; rw [lines_map, hg.capacities t h, e2]
  unfold attributes
  rw [a1]; dsimp only
  rw [a2]; dsimp only
  rw [a3]; dsimp only
  rw [a4]; dsimp only
  rw [a5]; dsimp only
  rw [a6]; dsimp only
  have a7' : fixedCosts R inst = .ok (l7.map R) := by unfold fixedCosts; rw [a7]; rfl
  have a8' : unitDistanceCosts inst = .ok l8 := a8
  rw [a7']; dsimp only
  rw [a8']; dsimp only
  rw [if_neg (by rw [List.length_map]; omega)]
  exact ⟨_, rfl, by rw [List.length_map, List.length_range]; omega⟩

theorem vehicleType_good {R : Rat → Rat} {inst : Vrplib} (hg : File.Good R inst) {v : Nat}
    (hv : (v : Int) < File.numVehicles inst) (keys : List (List Int)) {vs : List Nat} (hvs : vs ≠ []) :
    ∃ t, vehicleType keys (timeWindows R inst) (File.vehicle R inst v, vs) = .ok t := by
  have hp := hg.places
  obtain ⟨g1, g2, g3, g4, g5, g6, g7, g8⟩ := hg.vehicle v hv
  have hd : (File.vehicle R inst v).depot = ((File.vehicle R inst v).depot.toNat : Int) := by omega
  have hlt : (File.vehicle R inst v).depot.toNat < (timeWindows R inst).length := by
    rw [timeWindows_lines hg]; omega
  have gw := hg.window (File.vehicle R inst v).depot.toNat (by omega)
  have hw := timeWindows_window (List.getElem?_eq_getElem hlt)
  obtain ⟨rs, hrs⟩ := Py.mapE_exists (f := size) (l := (File.vehicle R inst v).reloads) fun r hr => by
    have := g3 r hr
    exact ⟨r.toNat, by unfold size; rw [if_pos (by omega)]⟩
  unfold vehicleType
  dsimp only
  rw [hd, Py.get_lt hlt]; dsimp only
  rw [show size ((File.vehicle R inst v).depot.toNat : Int) = .ok (File.vehicle R inst v).depot.toNat by
    unfold size; rw [if_pos (by omega)]; rfl]
  dsimp only
  rw [hrs]; dsimp only
  rw [show size (File.vehicle R inst v).maxReloads = .ok (File.vehicle R inst v).maxReloads.toNat by
    unfold size; rw [if_pos g5]]
  dsimp only
  rw [hw]
  refine (C36_vehicle_accepts _).1.2
    { available := List.length_pos_iff.2 hvs
      capacity := ?_, startLate := fun s h => by cases h
      window := gw.2.1, early := gw.1, shift := g7, distance := g6, unitDistance := g8
      unitDuration := Int.le_refl _
      initial := fun x hx => by cases hx
      fits := fun i => ?_, overtime := Int.le_refl _, unitOvertime := Int.le_refl _ }
  · intro x hx
    obtain ⟨y, hy, rfl⟩ := List.mem_map.1 hx
    exact g1 y hy
  · dsimp only
    have : Nonneg ((File.vehicle R inst v).capacity.map trunc) := by
      intro x hx
      obtain ⟨y, hy, rfl⟩ := List.mem_map.1 hx
      exact g1 y hy
    rw [List.getD_eq_getElem?_getD (l := (File.vehicle R inst v).capacity.map trunc)]
    cases hx : ((File.vehicle R inst v).capacity.map trunc)[i]? with
    | none => simp
    | some x => exact this x (List.mem_of_getElem? hx)

/-! ## Distances -/

theorem allow_good : ∀ (cs : List Int) (allowed : List Bool), (∀ c ∈ cs, 0 ≤ c ∧ c < allowed.length) →
    ∃ out, allow allowed cs = .ok out
  | [], allowed, _ => ⟨allowed, rfl⟩
  | c :: cs, allowed, h => by
    obtain ⟨h1, h2⟩ := h c (by simp)
    obtain ⟨out, ho⟩ := allow_good cs (allowed.set c.toNat true) fun x hx => by
      rw [List.length_set]; exact h x (by simp [hx])
    refine ⟨out, ?_⟩
    rw [allow, Py.modify, Py.position, if_pos h1, if_pos h2]
    dsimp only
    rw [List.getElem?_eq_getElem (by omega)]
    exact ho

theorem square_of {n : Nat} {m : List (List Rat)} (h : IsSquare n m) : square n m = true := by
  unfold square
  simp only [Bool.and_eq_true, decide_eq_true_eq, List.all_eq_true, beq_iff_eq]
  exact h

theorem base_good {R : Rat → Rat} {inst : Vrplib} (hg : File.Good R inst) :
    ∃ base, (if inst.type = "VRPB" then vrpb R inst (edgeWeight R inst) else .ok (edgeWeight R inst))
      = .ok base := by
  by_cases ht : inst.type = "VRPB"
  · rw [if_pos ht]
    obtain ⟨⟨l, hl⟩, l', hl'⟩ := hg.vrpb ht
    have n1 : l.length = inst.dimension := hg.amounts _ (.inl hl)
    have n2 : l'.length = inst.dimension := hg.amounts _ (.inr hl')
    have d1 : demands R inst = .flat (l.map R) := by
      unfold File.deliveries at hl
      unfold demands
      cases h : inst.demand with
      | some t => rw [h] at hl; injection hl with hl; subst hl; rfl
      | none => rw [h] at hl; dsimp only at hl ⊢; rw [hl]; rfl
    have d2 : backhauls R inst = .flat (l'.map R) := by unfold backhauls; rw [hl']; rfl
    have sq := square_of (edgeWeight_square (R := R) hg.square).1
    unfold vrpb
    rw [d1, d2]
    unfold flatOnly
    dsimp only
    rw [List.length_map, List.length_map, n1, n2, sq, if_neg (by simp)]
    exact ⟨_, rfl⟩
  · rw [if_neg ht]; exact ⟨_, rfl⟩

theorem profileDistances_good {R : Rat → Rat} (h0 : R 0 = 0) {inst : Vrplib} (hg : File.Good R inst)
    {base : List (List Rat)}
    (hb : (if inst.type = "VRPB" then vrpb R inst (edgeWeight R inst) else .ok (edgeWeight R inst)) = .ok base)
    {cs : List Int} (hcs : ∀ c ∈ cs, 0 ≤ c ∧ c < inst.dimension) :
    ∃ m, profileDistances inst base cs = .ok m ∧ IsSquare inst.dimension m
      ∧ ∀ i, i < inst.dimension → trunc (entry m i i) = 0 := by
  obtain ⟨b1, b2⟩ := base_ok h0 hg.square hb
  unfold profileDistances
  by_cases hc : (cs.length : Int) = numClients inst
  · rw [if_pos hc]
    refine ⟨base, rfl, b1, fun i hi => ?_⟩
    rw [b2 i i hi hi, if_neg (hg.open_ i), hg.diagonal i hi]
  · rw [if_neg hc]
    obtain ⟨allowed, ha⟩ := allow_good cs ((List.range inst.dimension).map fun i => decide (i < numDepots inst))
      fun c hc => by rw [List.length_map, List.length_range]; exact hcs c hc
    rw [ha]; dsimp only
    rw [square_of b1, if_neg (by simp)]
    obtain ⟨q1, q2⟩ := mapEntries_square b1 (fun i j x =>
        if i = j then 0
        else if !allowed.getD i false || !allowed.getD j false then (MAX_VALUE : Rat) else x)
    refine ⟨_, rfl, q1, fun i hi => ?_⟩
    rw [q2 i i hi hi, if_pos rfl, trunc_zero]

/-! ## The file -/

/-- The distance matrices of a well-formed file. -/
theorem distanceMatrices_good {R : Rat → Rat} (h0 : R 0 = 0) {inst : Vrplib} (hg : File.Good R inst)
    {allowed : List (List Int)} (ha : allowedClients inst = .ok allowed) :
    ∃ ms, distanceMatrices R inst = .ok ms ∧ ms.length = (profiles allowed).length
      ∧ ∀ m ∈ ms, IsSquare inst.dimension m ∧ ∀ i, i < inst.dimension → trunc (entry m i i) = 0 := by
  obtain ⟨base, hb⟩ := base_good hg
  obtain ⟨e1, e2⟩ := toNat_vehicles hg
  have key : ∀ cs ∈ profiles allowed, ∃ m, profileDistances inst base cs = .ok m ∧ IsSquare inst.dimension m
      ∧ ∀ i, i < inst.dimension → trunc (entry m i i) = 0 := by
    intro cs hcs
    rw [profiles_mem] at hcs
    obtain ⟨v, hv⟩ := List.getElem?_of_mem hcs
    have hc := allowed_line ha hv R
    subst hc
    obtain ⟨l, h1, h2⟩ := allowedClients_good hg
    rw [ha] at h1
    injection h1 with h1
    subst h1
    have hlt := (List.getElem?_eq_some_iff.1 hv).1
    exact profileDistances_good h0 hg hb (hg.vehicle v (by omega)).clients
  obtain ⟨ms, hms⟩ := Py.mapE_exists (f := profileDistances inst base) (l := profiles allowed) fun cs hcs => by
    obtain ⟨m, hm, _⟩ := key cs hcs
    exact ⟨m, hm⟩
  have hall := Py.mapE_all2 hms
  refine ⟨ms, ?_, (All2.length hall).symm, fun m hm => ?_⟩
  · unfold distanceMatrices
    rw [hb]; dsimp only
    rw [ha]
    exact hms
  · obtain ⟨cs, hcs, h1⟩ := All2.mem_right hall hm
    obtain ⟨m', h2, h3⟩ := key cs hcs
    rw [h1] at h2
    injection h2 with h2
    subst h2
    exact h3

/-- The vehicle types of a well-formed file. -/
theorem vehicleTypes_good {R : Rat → Rat} {inst : Vrplib} (hg : File.Good R inst)
    {allowed : List (List Int)} (ha : allowedClients inst = .ok allowed) :
    ∃ ts, vehicleTypes R inst = .ok ts ∧ ts ≠ [] ∧ ∀ t ∈ ts, ∃ (v : Nat) (vs : List Nat),
      (v : Int) < File.numVehicles inst
      ∧ vehicleType (profiles allowed) (timeWindows R inst) (File.vehicle R inst v, vs) = .ok t
      ∧ (File.vehicle R inst v).clients ∈ profiles allowed := by
  obtain ⟨attrs, h1, h2⟩ := attributes_good hg
  obtain ⟨e1, e2⟩ := toNat_vehicles hg
  obtain ⟨s1, s2, s3⟩ := type2idcs_spec attrs
  have hv := hg.vehicles
  have key : ∀ p ∈ type2idcs attrs, ∃ v : Nat, (v : Int) < File.numVehicles inst
      ∧ p = (File.vehicle R inst v, p.2) ∧ p.2 ≠ [] := by
    intro p hp
    obtain ⟨k1, k2⟩ := s3 p hp
    obtain ⟨v, hv⟩ := List.exists_mem_of_ne_nil _ k1
    have k3 := k2 v hv
    have hlt := (List.getElem?_eq_some_iff.1 k3).1
    refine ⟨v, by omega, ?_, k1⟩
    rw [← attributes_vehicle h1 (depotIdcs_good hg) k3]
  obtain ⟨ts, hts⟩ := Py.mapE_exists (f := vehicleType (profiles allowed) (timeWindows R inst))
      (l := type2idcs attrs) fun p hp => by
    obtain ⟨v, k1, k2, k3⟩ := key p hp
    rw [k2]
    exact vehicleType_good hg k1 _ k3
  have hall := Py.mapE_all2 hts
  refine ⟨ts, ?_, ?_, fun t ht => ?_⟩
  · unfold vehicleTypes
    rw [h1]; dsimp only
    rw [ha]
    exact hts
  · intro hc
    have h3 := All2.length hall
    rw [hc, List.length_nil] at h3
    rw [List.length_eq_zero_iff.1 h3] at s1
    have := s1.length_eq
    simp at this
    omega
  · obtain ⟨p, hp, h3⟩ := All2.mem_right hall ht
    obtain ⟨v, k1, k2, k3⟩ := key p hp
    rw [k2] at h3
    refine ⟨v, p.2, k1, h3, ?_⟩
    rw [profiles_mem]
    obtain ⟨l, h4, h5⟩ := allowedClients_good hg
    rw [ha] at h4
    injection h4 with h4
    subst h4
    have hlt : v < allowed.length := by omega
    rw [← allowed_line ha (List.getElem?_eq_getElem hlt) R]
    exact List.getElem_mem hlt

theorem locations_good {R : Rat → Rat} {inst : Vrplib} (hg : File.Good R inst) :
    (locations R inst).length = inst.dimension := by
  unfold locations coords
  rw [List.length_map]
  cases h : inst.nodeCoord with
  | none => simp
  | some l => simp [hg.coords l h]

theorem matrix_good {n : Nat} {m : List (List Rat)} (hn : 0 < n) (h : IsSquare n m)
    (hd : ∀ i, i < n → trunc (entry m i i) = 0) :
    (matrix m).rows = n ∧ (matrix m).cols = n ∧ ∀ i, i < n → (matrix m).get i i = 0 := by
  refine ⟨h.1, ?_, fun i hi => by rw [matrix_get h hi hi, hd i hi]⟩
  have hm := h.1
  cases m with
  | nil => simp at hm; omega
  | cons r m => exact h.2 r (by simp)

/-- A well-formed file is read. -/
theorem build_of_good {R : Rat → Rat} (h0 : R 0 = 0) {inst : Vrplib} (hg : File.Good R inst) :
    ∃ data w, build R inst = .ok (data, w) := by
  have hp := hg.places
  have hnd := numDepots_pos hg
  have hnc := numClients_good hg
  rw [← numDepots_eq] at hp
  obtain ⟨rows, r1, r2, r3, r4⟩ := groupRows_good hg
  obtain ⟨cs, c1, c2, c3, c4, c5⟩ := clients_good h0 hg r1
  have d1 := depots_good hg
  obtain ⟨allowed, a1, a2⟩ := allowedClients_good hg
  obtain ⟨ts, t1, t2, t3⟩ := vehicleTypes_good hg a1
  obtain ⟨ms, m1, m2, m3⟩ := distanceMatrices_good h0 hg a1
  obtain ⟨gs, g1⟩ := groups_good hg
  obtain ⟨rows', k1, k2⟩ := groups_ok g1
  rw [r1] at k1
  injection k1 with k1
  subst k1
  have hs : shipments R inst = .ok [] := by
    unfold shipments pdRows
    rw [hg.noShipments]
    rfl
  have hl := locations_good hg
  have hgs : ∀ (g : Nat) (grp : ClientGroup), gs[g]? = some grp →
      ∃ ms, rows[g]? = some ms ∧ grp.clients.map Int.ofNat = ms := by
    intro g grp hgrp
    have hlt : g < rows.length := by
      rw [All2.length k2]; exact (List.getElem?_eq_some_iff.1 hgrp).1
    exact ⟨rows[g], List.getElem?_eq_getElem hlt, (All2.get k2 (List.getElem?_eq_getElem hlt) hgrp).1⟩
  have hdepot : ∀ t ∈ ts, (∃ dep : Depot, ((List.range (numDepots inst)).map fun idx =>
        (⟨idx, 0, MAX, 0, ""⟩ : Depot))[t.startDepot]? = some dep ∧ dep.twEarly ≤ t.twLate
        ∧ t.twEarly ≤ dep.twLate)
      ∧ ∃ dep : Depot, ((List.range (numDepots inst)).map fun idx =>
        (⟨idx, 0, MAX, 0, ""⟩ : Depot))[t.endDepot]? = some dep ∧ dep.twEarly ≤ t.twLate
        ∧ t.twEarly ≤ dep.twLate := by
    intro t ht
    obtain ⟨v, vs, h1, h2, _⟩ := t3 t ht
    obtain ⟨tw, h3, h4, h5, _, _, _, _, _, h6, h7, _⟩ := vehicleType_ok h2
    have hd := (hg.vehicle v h1).depot
    rw [← numDepots_eq] at hd
    dsimp only at h4
    have hlt : t.startDepot < numDepots inst := by omega
    have gw := hg.window t.startDepot (by omega)
    have := timeWindows_window h3
    subst this
    rw [← h6, ← h7] at gw
    have key : ∃ dep : Depot, ((List.range (numDepots inst)).map fun idx =>
        (⟨idx, 0, MAX, 0, ""⟩ : Depot))[t.startDepot]? = some dep ∧ dep.twEarly ≤ t.twLate
        ∧ t.twEarly ≤ dep.twLate :=
      ⟨⟨t.startDepot, 0, MAX, 0, ""⟩, by rw [List.getElem?_map, List.getElem?_range hlt]; rfl,
        by dsimp only; omega, gw.2.2⟩
    exact ⟨key, h5 ▸ key⟩
  have hcons : Consistent
      { locations := locations R inst, clients := cs
        depots := (List.range (numDepots inst)).map fun idx => ⟨idx, 0, MAX, 0, ""⟩, vehicleTypes := ts
        dists := ms.map matrix, durs := ms.map matrix, groups := gs, shipments := [] } := by
    obtain ⟨n, n1, n2⟩ := hg.dimensions
    refine
    { clientLocation := ?_, depotLocation := ?_, pickupLocation := by simp, deliveryLocation := by simp
      hasDepot := ?_, hasVehicle := t2, hasMatrix := ?_, clientGroup := ?_, groupClients := ?_
      dimensions := ⟨n, ?_, by simp, ?_⟩, startDepot := ?_, endDepot := ?_, reloadDepots := ?_
      profile := ?_, sameCount := rfl, square := ?_ }
    · intro c hc
      obtain ⟨loc, h1, h2, h3, _⟩ := c3 c hc
      dsimp only
      omega
    · intro d hd
      obtain ⟨i, hi, rfl⟩ := List.mem_map.1 hd
      rw [List.mem_range] at hi
      dsimp only
      omega
    · intro hc
      have := congrArg List.length hc
      simp at this
      omega
    · obtain ⟨t, ht⟩ := List.exists_mem_of_ne_nil _ t2
      obtain ⟨v, vs, _, _, hk⟩ := t3 t ht
      intro hc
      rw [List.map_eq_nil_iff] at hc
      rw [hc, List.length_nil] at m2
      rw [List.length_eq_zero_iff.1 m2.symm] at hk
      simp at hk
    · intro i c g hc hgr
      obtain ⟨h1, ms', h2, h3⟩ := c4 i c hc g hgr
      have hlt : g < gs.length := by
        rw [← All2.length k2]; exact (List.getElem?_eq_some_iff.1 h2).1
      refine ⟨gs[g], List.getElem?_eq_getElem hlt, ?_, h1⟩
      obtain ⟨ms'', h4, h5⟩ := hgs g _ (List.getElem?_eq_getElem hlt)
      rw [h2] at h4
      injection h4 with h4
      subst h4
      rw [← h5] at h3
      obtain ⟨j, hj, he⟩ := List.mem_map.1 h3
      have : j = i := Int.ofNat.inj he
      rwa [← this]
    · intro g grp hgrp
      obtain ⟨ms', h1, h2⟩ := hgs g grp hgrp
      refine ⟨fun hc => ?_, fun i hi => c5 g ms' h1 i (h2 ▸ List.mem_map.2 ⟨i, hi, rfl⟩)⟩
      rw [hc] at h2
      exact r4 ms' (List.mem_of_getElem? h1) h2.symm
    · intro c hc
      obtain ⟨loc, h1, h2, h3, h4, h5⟩ := c3 c hc
      rw [h5, h4, n2 loc (by rw [← numDepots_eq]; exact h2) h3]
      exact ⟨rfl, rfl⟩
    · intro t ht
      obtain ⟨v, vs, h1, h2, _⟩ := t3 t ht
      obtain ⟨_, _, _, _, _, _, _, h3, _⟩ := vehicleType_ok h2
      rw [h3, List.length_map, n1 v h1]
    · exact fun t ht => (hdepot t ht).1
    · exact fun t ht => (hdepot t ht).2
    · intro t ht i hi
      obtain ⟨v, vs, h1, h2, _⟩ := t3 t ht
      obtain ⟨_, _, _, _, h3, _⟩ := vehicleType_ok h2
      have := (hg.vehicle v h1).reloads i (h3 ▸ List.mem_map.2 ⟨i, hi, rfl⟩)
      rw [← numDepots_eq] at this
      simp only [List.length_map, List.length_range]
      omega
    · intro t ht
      obtain ⟨v, vs, h1, h2, h3⟩ := t3 t ht
      obtain ⟨_, _, _, _, _, _, _, _, _, _, _, _, _, _, _, _, _, _, _, h4, _⟩ := vehicleType_ok h2
      have := List.idxOf_lt_length_of_mem h3
      simp only [List.length_map]
      rw [h4, m2]
      exact ⟨this, this⟩
    · intro m hm
      rw [List.mem_append, or_self, List.mem_map] at hm
      obtain ⟨m', hm', rfl⟩ := hm
      obtain ⟨h1, h2⟩ := m3 m' hm'
      dsimp only
      rw [hl]
      exact matrix_good (by omega) h1 h2
  obtain ⟨data, hdata⟩ : ∃ d, ProblemData.make
      { locations := locations R inst, clients := cs
        depots := (List.range (numDepots inst)).map fun idx => ⟨idx, 0, MAX, 0, ""⟩, vehicleTypes := ts
        dists := ms.map matrix, durs := ms.map matrix, groups := gs, shipments := [] } = .ok d :=
    ⟨_, (C37_accepts_exactly_consistent _ _).2 ⟨rfl, hcons⟩⟩
  refine ⟨data, warns ms, ?_⟩
  unfold build
  rw [c1]; dsimp only
  rw [d1]; dsimp only
  rw [t1]; dsimp only
  rw [m1]; dsimp only
  rw [g1]; dsimp only
  rw [hs]; dsimp only
  rw [hdata]

end Read
end PyVRP
