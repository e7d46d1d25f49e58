import Verif.Model.ModelApi
import Verif.Lemmas.Proposal
import Verif.Props.C36
import Verif.Props.C37
import Verif.Props.Demo
/-!
# C39: building problem data with `Model`
-/
namespace PyVRP
open ModelApi

/-! ## Specification -/

namespace Spec

/-- The locations that were added, with their identities, in order. -/
def locationsOf (calls : List Call) : List (Nat × Location) :=
  calls.filterMap fun | .location ref loc => some (ref, loc) | _ => none

def profilesOf (calls : List Call) : List Nat :=
  calls.filterMap fun | .profile ref => some ref | _ => none

/-- The edges that were added for a profile, or (`none`) for all profiles, in order. -/
def edgesOf (calls : List Call) (profile : Option Nat) : List Edge :=
  calls.filterMap fun | .edge e p => if p = profile then some e else none | _ => none

/-- Distance and duration of the last edge that was added between two locations. -/
def lastEdge (calls : List Call) (profile : Option Nat) (frm dest : Nat) : Option (Int × Int) :=
  (((edgesOf calls profile).filter fun e => e.frm = frm ∧ e.dest = dest).map
    fun e => (e.distance, e.duration)).getLast?

def depotsOf (calls : List Call) : List (Nat × Nat × Depot) :=
  calls.filterMap fun | .depot ref location args => some (ref, location, args) | _ => none

def groupsOf (calls : List Call) : List (Nat × Bool × String) :=
  calls.filterMap fun | .group ref required name => some (ref, required, name) | _ => none

def clientsOf (calls : List Call) : List (Nat × Option Nat × Client) :=
  calls.filterMap fun | .client location group args => some (location, group, args) | _ => none

def shipmentsOf (calls : List Call) : List (Nat × Nat × Shipment) :=
  calls.filterMap fun | .shipment p d args => some (p, d, args) | _ => none

/-- Start depot, end depot, profile, reload depots, and the other arguments. -/
def vehicleTypesOf (calls : List Call) :
    List (Option Nat × Option Nat × Option Nat × List Nat × VehicleTypeArgs) :=
  calls.filterMap fun | .vehicleType s e p r args => some (s, e, p, r, args) | _ => none

/-- The indices of the clients that were added to a group. -/
def membersOf (calls : List Call) (group : Nat) : List Nat :=
  (clientsOf calls).zipIdx.filterMap fun c => if c.1.2.1 = some group then some c.2 else none

/-- New objects have identities of their own. -/
def FreshIdentity (calls : List Call) : Call → Prop
  | .location ref _ => ref ∉ (locationsOf calls).map (·.1)
  | .profile ref => ref ∉ profilesOf calls ∧ edgesOf calls (some ref) = []
  | .group ref _ _ => ref ∉ (groupsOf calls).map (·.1)
  | _ => True

/-- The model after a sequence of calls, each of which succeeded. (Calls that raise do not change the
model.) -/
inductive Builds : List Call → PyModel → Prop where
  | new : Builds [] {}
  | call {calls : List Call} {m m' : PyModel} (c : Call) (h : Builds calls m)
      (hf : FreshIdentity calls c) (he : m.exec c = .ok m') : Builds (calls ++ [c]) m'

/-- `idx` is the index of the object `ref` among `refs`. -/
def IndexOf (refs : List Nat) (ref idx : Nat) : Prop := refs[idx]? = some ref

/-- The same for an optional object: nothing for nothing. -/
def IndexOfOpt (refs : List Nat) (ref idx : Option Nat) : Prop :=
  match ref, idx with
  | none, none => True
  | some r, some i => IndexOf refs r i
  | _, _ => False

/-- What a client becomes. -/
def MakesClient (locs groups : List Nat) (call : Nat × Option Nat × Client) (c : Client) : Prop :=
  ∃ i g, IndexOf locs call.1 i ∧ IndexOfOpt groups call.2.1 g
    ∧ Client.make { call.2.2 with location := i, group := g } = .ok c

def MakesDepot (locs : List Nat) (call : Nat × Nat × Depot) (c : Nat × Depot) : Prop :=
  c.1 = call.1 ∧ ∃ i, IndexOf locs call.2.1 i
    ∧ Depot.make { call.2.2 with location := i } = .ok c.2

def MakesShipment (locs : List Nat) (call : Nat × Nat × Shipment) (c : Shipment) : Prop :=
  ∃ i j, IndexOf locs call.1 i ∧ IndexOf locs call.2.1 j
    ∧ Shipment.make { call.2.2 with
        pickup := { call.2.2.pickup with location := i }
        delivery := { call.2.2.delivery with location := j } } = .ok c

/-- No start or end depot, or profile, means the first. -/
def MakesVehicleType (depots profiles : List Nat)
    (call : Option Nat × Option Nat × Option Nat × List Nat × VehicleTypeArgs) (v : VehicleType) :
    Prop :=
  ∃ s e p r, IndexOfOpt depots call.1 s ∧ IndexOfOpt depots call.2.1 e
    ∧ IndexOfOpt profiles call.2.2.1 p ∧ All2 (IndexOf depots) call.2.2.2.1 r
    ∧ VehicleType.make { call.2.2.2.2 with
        startDepot := s.getD 0, endDepot := e.getD 0, profile := p.getD 0, reloadDepots := r } = .ok v

/-- Every object that the call refers to, except those of an edge, is in the model. -/
def RefersToModel (calls : List Call) : Call → Prop
  | .client location group _ => location ∈ (locationsOf calls).map (·.1)
      ∧ ∀ g, group = some g → g ∈ (groupsOf calls).map (·.1)
  | .depot _ location _ => location ∈ (locationsOf calls).map (·.1)
  | .shipment p d _ => p ∈ (locationsOf calls).map (·.1) ∧ d ∈ (locationsOf calls).map (·.1)
  | .vehicleType s e p r _ =>
      (∀ x, s = some x → x ∈ (depotsOf calls).map (·.1))
      ∧ (∀ x, e = some x → x ∈ (depotsOf calls).map (·.1))
      ∧ (∀ x, p = some x → x ∈ profilesOf calls) ∧ ∀ x ∈ r, x ∈ (depotsOf calls).map (·.1)
  | _ => True

end Spec
open Spec

/-! ## Lemmas -/

namespace ModelApi

theorem idxById_some {ref idx : Nat} {l : List Nat} (h : idxById ref l = some idx) :
    IndexOf l ref idx := by
  induction l generalizing idx with
  | nil => simp [idxById] at h
  | cons r rest ih =>
    unfold idxById at h
    split at h
    · rename_i he; simp at h; subst h; simp [IndexOf, he]
    · cases hi : idxById ref rest with
      | none => rw [hi] at h; simp at h
      | some k => rw [hi] at h; simp at h; subst h; simpa [IndexOf] using ih hi

theorem idxById_none {ref : Nat} {l : List Nat} : idxById ref l = none ↔ ref ∉ l := by
  induction l with
  | nil => simp [idxById]
  | cons r rest ih =>
    unfold idxById
    by_cases h : r = ref
    · simp [h]
    · rw [if_neg h, Option.map_eq_none_iff, ih]; simp [Ne.symm h]

theorem idxById_eq {ref idx : Nat} {l : List Nat} (hn : l.Nodup) (h : IndexOf l ref idx) :
    idxById ref l = some idx := by
  induction l generalizing idx with
  | nil => simp [IndexOf] at h
  | cons r rest ih =>
    unfold idxById
    rw [List.nodup_cons] at hn
    cases idx with
    | zero => simp [IndexOf] at h; simp [h]
    | succ k =>
      simp only [IndexOf, List.getElem?_cons_succ] at h
      have hne : r ≠ ref := fun he => hn.1 (he ▸ List.mem_of_getElem? h)
      rw [if_neg hne, ih hn.2 h]; rfl

theorem lookup_ok {ref idx : Nat} {l : List Nat} {msg : String} (h : lookup ref l msg = .ok idx) :
    IndexOf l ref idx := by
  unfold lookup at h
  cases hi : idxById ref l with
  | none => rw [hi] at h; cases h
  | some k => rw [hi] at h; cases h; exact idxById_some hi

theorem lookupOpt_ok {ref idx : Option Nat} {l : List Nat} {msg : String}
    (h : lookupOpt ref l msg = .ok idx) : IndexOfOpt l ref idx := by
  unfold lookupOpt at h
  cases ref with
  | none => cases h; trivial
  | some r =>
    dsimp only at h
    cases hi : lookup r l msg with
    | error e => rw [hi] at h; cases h
    | ok k => rw [hi] at h; cases h; exact lookup_ok hi

theorem lookupAll_ok {refs idxs : List Nat} {l : List Nat} {msg : String}
    (h : lookupAll l msg refs = .ok idxs) : All2 (IndexOf l) refs idxs := by
  induction refs generalizing idxs with
  | nil => cases h; exact .nil
  | cons r rest ih =>
    unfold lookupAll at h
    cases hi : lookup r l msg with
    | error e => rw [hi] at h; cases h
    | ok k =>
      rw [hi] at h
      dsimp only at h
      cases ha : lookupAll l msg rest with
      | error e => rw [ha] at h; cases h
      | ok ks => rw [ha] at h; cases h; exact .cons (lookup_ok hi) (ih ha)

theorem IndexOf.append {l l' : List Nat} {ref idx : Nat} (h : IndexOf l ref idx) :
    IndexOf (l ++ l') ref idx := by
  unfold IndexOf at *
  rw [List.getElem?_append_left (List.getElem?_eq_some_iff.1 h).1, h]

theorem IndexOfOpt.append {l l' : List Nat} {ref idx : Option Nat} (h : IndexOfOpt l ref idx) :
    IndexOfOpt (l ++ l') ref idx := by
  cases ref <;> cases idx <;> simp only [IndexOfOpt] at *
  exact IndexOf.append h

theorem All2.mono' {α β : Type} {R S : α → β → Prop} (hRS : ∀ a b, R a b → S a b) {as : List α}
    {bs : List β} (h : All2 R as bs) : All2 S as bs := by
  induction h with
  | nil => exact .nil
  | cons h1 _ ih => exact .cons (hRS _ _ h1) ih

theorem All2.snoc {α β : Type} {R : α → β → Prop} {as : List α} {bs : List β} {a : α} {b : β}
    (h : All2 R as bs) (hab : R a b) : All2 R (as ++ [a]) (bs ++ [b]) :=
  h.append (.cons hab .nil)

theorem All2.length_eq' {α β : Type} {R : α → β → Prop} {as : List α} {bs : List β}
    (h : All2 R as bs) : as.length = bs.length := by
  induction h with
  | nil => rfl
  | cons _ _ ih => simp [ih]

theorem lift_ok {α : Type} {x : Except Error α} {y : α} (h : lift x = .ok y) : x = .ok y := by
  cases x with
  | ok z => cases h; rfl
  | error e => cases h

/-- What holds of a model after its calls. -/
structure Reflects (calls : List Call) (m : PyModel) : Prop where
  locations : m.locations = locationsOf calls
  distinct : m.locationRefs.Nodup
  profiles : m.profiles = profilesOf calls
  edges : m.edges = edgesOf calls none
  profileEdges : ∀ p, m.profileHeap p = edgesOf calls (some p)
  edgesOk : ∀ p, ∀ e ∈ edgesOf calls p, Edge.make e = .ok e
  clients : All2 (MakesClient m.locationRefs m.groups) (clientsOf calls) m.clients
  depots : All2 (MakesDepot m.locationRefs) (depotsOf calls) m.depots
  groups : m.groups = (groupsOf calls).map (·.1)
  groupsDistinct : m.groups.Nodup
  groupHeap : ∀ g ∈ groupsOf calls, m.groupHeap g.1
    = { clients := membersOf calls g.1, required := g.2.1, name := g.2.2 }
  members : ∀ c ∈ clientsOf calls, ∀ g, c.2.1 = some g → g ∈ m.groups
  shipments : All2 (MakesShipment m.locationRefs) (shipmentsOf calls) m.shipments
  vehicleTypes : All2 (MakesVehicleType m.depotRefs m.profiles) (vehicleTypesOf calls) m.vehicleTypes

theorem edgesOf_append (calls : List Call) (c : Call) (p : Option Nat) :
    edgesOf (calls ++ [c]) p = edgesOf calls p
      ++ (match c with | .edge e q => if q = p then [e] else [] | _ => []) := by
  unfold edgesOf
  rw [List.filterMap_append]
  cases c <;> simp
  split <;> simp [*]

theorem membersOf_append (calls : List Call) (c : Call) (g : Nat) :
    membersOf (calls ++ [c]) g = membersOf calls g
      ++ (match c with
          | .client _ group _ => if group = some g then [(clientsOf calls).length] else []
          | _ => []) := by
  unfold membersOf
  have : clientsOf (calls ++ [c]) = clientsOf calls
      ++ (match c with | .client l grp args => [(l, grp, args)] | _ => []) := by
    unfold clientsOf
    rw [List.filterMap_append]
    cases c <;> simp
  rw [this]
  cases c with
  | client l grp args =>
    simp only [List.zipIdx_append, List.filterMap_append, Nat.zero_add, List.zipIdx_cons,
      List.zipIdx_nil]
    congr 1
    by_cases h : grp = some g <;> simp [h]
  | _ => simp

/-- Members of a group without clients. -/
theorem membersOf_none {calls : List Call} {g : Nat}
    (h : ∀ c ∈ clientsOf calls, c.2.1 ≠ some g) : membersOf calls g = [] := by
  unfold membersOf
  rw [List.filterMap_eq_nil_iff]
  rintro ⟨c, i⟩ hc
  have := h c (List.mem_of_getElem? (List.mem_zipIdx_iff_getElem?.1 hc))
  simp [this]


theorem filterMap_snoc {α β : Type} (f : α → Option β) (l : List α) (a : α) :
    (l ++ [a]).filterMap f = l.filterMap f ++ (match f a with | some b => [b] | none => []) := by
  rw [List.filterMap_append]
  cases h : f a <;> simp [h]

theorem locationsOf_append (calls : List Call) (c : Call) : locationsOf (calls ++ [c])
    = locationsOf calls ++ (match c with | .location ref loc => [(ref, loc)] | _ => []) := by
  unfold locationsOf; rw [filterMap_snoc]; cases c <;> rfl

theorem profilesOf_append (calls : List Call) (c : Call) : profilesOf (calls ++ [c])
    = profilesOf calls ++ (match c with | .profile ref => [ref] | _ => []) := by
  unfold profilesOf; rw [filterMap_snoc]; cases c <;> rfl

theorem depotsOf_append (calls : List Call) (c : Call) : depotsOf (calls ++ [c])
    = depotsOf calls ++ (match c with | .depot ref l args => [(ref, l, args)] | _ => []) := by
  unfold depotsOf; rw [filterMap_snoc]; cases c <;> rfl

theorem groupsOf_append (calls : List Call) (c : Call) : groupsOf (calls ++ [c])
    = groupsOf calls ++ (match c with | .group ref r n => [(ref, r, n)] | _ => []) := by
  unfold groupsOf; rw [filterMap_snoc]; cases c <;> rfl

theorem clientsOf_append (calls : List Call) (c : Call) : clientsOf (calls ++ [c])
    = clientsOf calls ++ (match c with | .client l g args => [(l, g, args)] | _ => []) := by
  unfold clientsOf; rw [filterMap_snoc]; cases c <;> rfl

theorem shipmentsOf_append (calls : List Call) (c : Call) : shipmentsOf (calls ++ [c])
    = shipmentsOf calls ++ (match c with | .shipment p d args => [(p, d, args)] | _ => []) := by
  unfold shipmentsOf; rw [filterMap_snoc]; cases c <;> rfl

theorem vehicleTypesOf_append (calls : List Call) (c : Call) : vehicleTypesOf (calls ++ [c])
    = vehicleTypesOf calls
      ++ (match c with | .vehicleType s e p r args => [(s, e, p, r, args)] | _ => []) := by
  unfold vehicleTypesOf; rw [filterMap_snoc]; cases c <;> rfl

theorem addClient_new {grp : ClientGroup} {c : Nat} {g : ClientGroup}
    (h : grp.addClient c = .ok g) : g = { grp with clients := grp.clients ++ [c] } := by
  unfold ClientGroup.addClient at h
  split at h
  · cases h
  · cases h; rfl

theorem reflects {calls : List Call} {m : PyModel} (h : Builds calls m) : Reflects calls m := by
  induction h with
  | new =>
    constructor <;> simp [locationsOf, PyModel.locationRefs, profilesOf, edgesOf, clientsOf, depotsOf,
      groupsOf, shipmentsOf, vehicleTypesOf, All2.nil]
  | @call calls m m' c h hf he ih =>
    obtain ⟨h1, h2, h3, h4, h5, h6, h7, h8, h9, h10, h11, h12, h13, h14⟩ := ih
    cases c with
    | location ref loc =>
      cases he
      have hrefs : PyModel.locationRefs { m with locations := m.locations ++ [(ref, loc)] }
          = m.locationRefs ++ [ref] := by simp [PyModel.locationRefs]
      constructor <;> (try simp only [locationsOf_append, profilesOf_append, edgesOf_append,
        clientsOf_append, depotsOf_append, groupsOf_append, shipmentsOf_append,
        vehicleTypesOf_append, membersOf_append, List.append_nil, hrefs]) <;> try assumption
      · rw [h1]
      · rw [List.nodup_append]
        refine ⟨h2, by simp, fun a ha b hb => ?_⟩
        simp only [List.mem_singleton] at hb
        subst hb
        rintro rfl
        simp only [FreshIdentity, ← h1] at hf
        exact hf ha
      · exact All2.mono' (fun a b ⟨i, g, hi, hg, hm⟩ => ⟨i, g, IndexOf.append hi, hg, hm⟩) h7
      · exact All2.mono' (fun a b ⟨hr, i, hi, hm⟩ => ⟨hr, i, IndexOf.append hi, hm⟩) h8
      · exact All2.mono' (fun a b ⟨i, j, hi, hj, hm⟩ =>
          ⟨i, j, IndexOf.append hi, IndexOf.append hj, hm⟩) h13
    | profile ref =>
      cases he
      constructor <;> (try simp only [locationsOf_append, profilesOf_append, edgesOf_append,
        clientsOf_append, depotsOf_append, groupsOf_append, shipmentsOf_append,
        vehicleTypesOf_append, membersOf_append, List.append_nil]) <;> try assumption
      · rw [h3]
      · intro p
        unfold write
        split
        · rename_i hp; rw [hp, hf.2]
        · exact h5 p
      · exact All2.mono' (fun a b ⟨s, e, p, r, hs, he, hp, hr, hm⟩ =>
          ⟨s, e, p, r, hs, he, IndexOfOpt.append hp, hr, hm⟩) h14
    | group ref required name =>
      cases he
      simp only [FreshIdentity, ← h9] at hf
      constructor <;> (try simp only [locationsOf_append, profilesOf_append, edgesOf_append,
        clientsOf_append, depotsOf_append, groupsOf_append, shipmentsOf_append,
        vehicleTypesOf_append, membersOf_append, List.append_nil]) <;> try assumption
      · exact All2.mono' (fun a b ⟨i, g, hi, hg, hm⟩ => ⟨i, g, hi, IndexOfOpt.append hg, hm⟩) h7
      · rw [h9]; simp
      · rw [List.nodup_append]
        refine ⟨h10, by simp, fun a ha b hb => ?_⟩
        simp only [List.mem_singleton] at hb
        subst hb
        rintro rfl
        exact hf ha
      · intro g hg
        rw [List.mem_append] at hg
        unfold write
        rcases hg with hg | hg
        · have : g.1 ≠ ref := by
            rintro rfl
            exact hf (h9 ▸ List.mem_map_of_mem hg)
          rw [if_neg this]
          exact h11 g hg
        · simp only [List.mem_singleton] at hg
          subst hg
          rw [if_pos rfl, membersOf_none]
          intro c hc he
          exact hf (h12 c hc _ he)
      · intro c hc g hg
        exact List.mem_append_left _ (h12 c hc g hg)
    | edge e profile =>
      simp only [PyModel.exec, PyModel.addEdge] at he
      cases hm : Edge.make e with
      | error err => rw [hm] at he; cases he
      | ok edge =>
        rw [hm] at he
        have hee : edge = e := by
          unfold Edge.make at hm
          split at hm
          · cases hm
          · split at hm
            · cases hm
            · cases hm; rfl
        subst hee
        have hok : ∀ p, ∀ e' ∈ edgesOf (calls ++ [.edge edge profile]) p, Edge.make e' = .ok e' := by
          intro p e' he'
          rw [edgesOf_append, List.mem_append] at he'
          rcases he' with h | h
          · exact h6 p e' h
          · dsimp only at h
            split at h
            · simp only [List.mem_singleton] at h
              rw [h]; exact hm
            · simp at h
        cases profile with
        | none =>
          cases he
          constructor <;> (try simp only [locationsOf_append, profilesOf_append, edgesOf_append,
            clientsOf_append, depotsOf_append, groupsOf_append, shipmentsOf_append,
            vehicleTypesOf_append, membersOf_append, List.append_nil]) <;> try assumption
          · simp [h4]
          · intro p
            simp [h5]
          · intro p e he; refine hok p e ?_; rw [edgesOf_append]; exact he
        | some ref =>
          cases he
          constructor <;> (try simp only [locationsOf_append, profilesOf_append, edgesOf_append,
            clientsOf_append, depotsOf_append, groupsOf_append, shipmentsOf_append,
            vehicleTypesOf_append, membersOf_append, List.append_nil]) <;> try assumption
          · simp [h4]
          · intro p
            unfold write
            split
            · rename_i hp; rw [hp, h5]; simp
            · rename_i hp
              have hp' : ref ≠ p := fun h => hp h.symm
              simp [h5, hp']
          · intro p e he; refine hok p e ?_; rw [edgesOf_append]; exact he
    | depot ref location args =>
      simp only [PyModel.exec, PyModel.addDepot] at he
      cases hl : lookup location m.locationRefs
          "The given location is not in this model instance." with
      | error err => rw [hl] at he; cases he
      | ok idx =>
        rw [hl] at he; dsimp only at he
        cases hd : lift (Depot.make { args with location := idx }) with
        | error err => rw [hd] at he; cases he
        | ok dep =>
          rw [hd] at he; cases he
          have hrefs : PyModel.depotRefs { m with depots := m.depots ++ [(ref, dep)] }
              = m.depotRefs ++ [ref] := by simp [PyModel.depotRefs]
          constructor <;> (try simp only [locationsOf_append, profilesOf_append, edgesOf_append,
            clientsOf_append, depotsOf_append, groupsOf_append, shipmentsOf_append,
            vehicleTypesOf_append, membersOf_append, List.append_nil, hrefs]) <;> try assumption
          · exact All2.snoc h8 ⟨rfl, idx, lookup_ok hl, lift_ok hd⟩
          · refine All2.mono' (fun a b ⟨s, e, p, r, hs, he, hp, hr, hm⟩ => ?_) h14
            exact ⟨s, e, p, r, IndexOfOpt.append hs, IndexOfOpt.append he, hp,
              All2.mono' (fun _ _ h => IndexOf.append h) hr, hm⟩
    | client location group args =>
      simp only [PyModel.exec, PyModel.addClient] at he
      cases hg : lookupOpt group m.groups "The given group is not in this model instance." with
      | error err => rw [hg] at he; cases he
      | ok g =>
        rw [hg] at he; dsimp only at he
        cases hl : lookup location m.locationRefs
            "The given location is not in this model instance." with
        | error err => rw [hl] at he; cases he
        | ok idx =>
          rw [hl] at he; dsimp only at he
          split at he
          · cases he
          · cases hc : lift (Client.make { args with location := idx, group := g }) with
            | error err => rw [hc] at he; cases he
            | ok client =>
              rw [hc] at he; dsimp only at he
              have hlen : m.clients.length = (clientsOf calls).length := (All2.length_eq' h7).symm
              have hnew : MakesClient m.locationRefs m.groups (location, group, args) client :=
                ⟨idx, g, lookup_ok hl, lookupOpt_ok hg, lift_ok hc⟩
              cases group with
              | none =>
                cases he
                constructor <;> (try simp only [locationsOf_append, profilesOf_append, edgesOf_append,
                  clientsOf_append, depotsOf_append, groupsOf_append, shipmentsOf_append,
                  vehicleTypesOf_append, membersOf_append, List.append_nil]) <;> try assumption
                · exact All2.snoc h7 hnew
                · intro g' hg'
                  rw [if_neg (by simp), List.append_nil]
                  exact h11 g' hg'
                · intro c hc' g' hg'
                  rw [List.mem_append] at hc'
                  rcases hc' with hc' | hc'
                  · exact h12 c hc' g' hg'
                  · simp only [List.mem_singleton] at hc'
                    rw [hc'] at hg'; cases hg'
              | some ref =>
                dsimp only at he
                cases ha : lift ((m.groupHeap ref).addClient m.clients.length) with
                | error err => rw [ha] at he; cases he
                | ok grp =>
                  rw [ha] at he; cases he
                  have hgrp := addClient_new (lift_ok ha)
                  constructor <;> (try simp only [locationsOf_append, profilesOf_append, edgesOf_append,
                    clientsOf_append, depotsOf_append, groupsOf_append, shipmentsOf_append,
                    vehicleTypesOf_append, membersOf_append, List.append_nil]) <;> try assumption
                  · exact All2.snoc h7 hnew
                  · intro g' hg'
                    unfold write
                    split
                    · rename_i hr
                      rw [hgrp, ← hr, h11 g' hg', hr, if_pos rfl, hlen]
                    · rename_i hr
                      rw [if_neg (by simpa using fun h => hr h.symm), List.append_nil]
                      exact h11 g' hg'
                  · intro c hc' g' hg'
                    rw [List.mem_append] at hc'
                    rcases hc' with hc' | hc'
                    · exact h12 c hc' g' hg'
                    · simp only [List.mem_singleton] at hc'
                      rw [hc'] at hg'
                      cases hg'
                      have := lookupOpt_ok hg
                      cases g with
                      | none => exact this.elim
                      | some k => exact List.mem_of_getElem? this
    | shipment p d args =>
      simp only [PyModel.exec, PyModel.addShipment] at he
      cases hp : lookup p m.locationRefs
          "The given pickup location is not in this model instance." with
      | error err => rw [hp] at he; cases he
      | ok i =>
        rw [hp] at he; dsimp only at he
        cases hd : lookup d m.locationRefs
            "The given delivery location is not in this model instance." with
        | error err => rw [hd] at he; cases he
        | ok j =>
          rw [hd] at he; dsimp only at he
          cases hs : lift (Shipment.make { args with
              pickup := { args.pickup with location := i }
              delivery := { args.delivery with location := j } }) with
          | error err => rw [hs] at he; cases he
          | ok ship =>
            rw [hs] at he; cases he
            constructor <;> (try simp only [locationsOf_append, profilesOf_append, edgesOf_append,
              clientsOf_append, depotsOf_append, groupsOf_append, shipmentsOf_append,
              vehicleTypesOf_append, membersOf_append, List.append_nil]) <;> try assumption
            exact All2.snoc h13 ⟨i, j, lookup_ok hp, lookup_ok hd, lift_ok hs⟩
    | vehicleType s e p r args =>
      simp only [PyModel.exec, PyModel.addVehicleType] at he
      cases hs : lookupOpt s m.depotRefs "The given start depot is not in this model." with
      | error err => rw [hs] at he; cases he
      | ok s' =>
        rw [hs] at he; dsimp only at he
        cases ht : lookupOpt e m.depotRefs "The given end depot is not in this model." with
        | error err => rw [ht] at he; cases he
        | ok t' =>
          rw [ht] at he; dsimp only at he
          cases hp : lookupOpt p m.profiles "The given profile is not in this model." with
          | error err => rw [hp] at he; cases he
          | ok p' =>
            rw [hp] at he; dsimp only at he
            cases hr : lookupAll m.depotRefs "The given reload depot is not in this model." r with
            | error err => rw [hr] at he; cases he
            | ok r' =>
              rw [hr] at he; dsimp only at he
              cases hv : lift (VehicleType.make { args with
                  startDepot := s'.getD 0, endDepot := t'.getD 0, profile := p'.getD 0
                  reloadDepots := r' }) with
              | error err => rw [hv] at he; cases he
              | ok v =>
                rw [hv] at he; cases he
                constructor <;> (try simp only [locationsOf_append, profilesOf_append, edgesOf_append,
                  clientsOf_append, depotsOf_append, groupsOf_append, shipmentsOf_append,
                  vehicleTypesOf_append, membersOf_append, List.append_nil]) <;> try assumption
                exact All2.snoc h14 ⟨s', t', p', r', lookupOpt_ok hs, lookupOpt_ok ht,
                  lookupOpt_ok hp, lookupAll_ok hr, lift_ok hv⟩

/-- Distance and duration of the last edge between two locations. -/
def last (es : List Edge) (frm dest : Nat) : Option (Int × Int) :=
  ((es.filter fun e => e.frm = frm ∧ e.dest = dest).map fun e => (e.distance, e.duration)).getLast?

theorem last_cons (e : Edge) (es : List Edge) (frm dest : Nat) : last (e :: es) frm dest
    = (last es frm dest).or (if e.frm = frm ∧ e.dest = dest then some (e.distance, e.duration)
        else none) := by
  unfold last
  by_cases h : e.frm = frm ∧ e.dest = dest
  · rw [List.filter_cons_of_pos (by simpa using h), List.map_cons, List.getLast?_cons, if_pos h]
    cases (List.map (fun e => (e.distance, e.duration))
      (List.filter (fun e => decide (e.frm = frm ∧ e.dest = dest)) es)).getLast? <;> rfl
  · rw [List.filter_cons_of_neg (by simpa using h), if_neg h, Option.or_none]

theorem last_const {es : List Edge} {f t : Nat} {v : Int × Int}
    (hex : ∃ e ∈ es, e.frm = f ∧ e.dest = t)
    (hv : ∀ e ∈ es, e.frm = f → e.dest = t → (e.distance, e.duration) = v) :
    last es f t = some v := by
  unfold last
  obtain ⟨e, he, h⟩ := hex
  have hne : ((es.filter fun e => e.frm = f ∧ e.dest = t).map fun e => (e.distance, e.duration))
      ≠ [] := by
    intro hnil
    rw [List.map_eq_nil_iff] at hnil
    have : e ∈ es.filter fun e => e.frm = f ∧ e.dest = t := by
      rw [List.mem_filter]; exact ⟨he, by simpa using h⟩
    rw [hnil] at this; simp at this
  rw [List.getLast?_eq_some_getLast hne]
  have hm := List.getLast_mem hne
  rw [List.mem_map] at hm
  obtain ⟨e', he', heq⟩ := hm
  rw [List.mem_filter] at he'
  rw [← heq]
  have h2 : e'.frm = f ∧ e'.dest = t := by simpa using he'.2
  rw [hv e' he'.1 h2.1 h2.2]

/-- All edges are between given locations. -/
def Known (refs : List Nat) (es : List Edge) : Prop := ∀ e ∈ es, e.frm ∈ refs ∧ e.dest ∈ refs

theorem setEdges_unknown {refs : List Nat} {es : List Edge} (h : ¬ Known refs es)
    (arrays : PyModel.Array2 × PyModel.Array2) :
    PyModel.setEdges refs es arrays = .error .keyError := by
  induction es generalizing arrays with
  | nil => exact absurd (by intro e he; simp at he) h
  | cons e rest ih =>
    obtain ⟨dist, dur⟩ := arrays
    unfold PyModel.setEdges
    cases hi : idxById e.frm refs with
    | none => rfl
    | some i =>
      dsimp only
      cases hj : idxById e.dest refs with
      | none => rfl
      | some j =>
        refine ih (fun hk => h ?_) _
        intro e' he'
        rw [List.mem_cons] at he'
        rcases he' with rfl | he'
        · exact ⟨List.mem_of_getElem? (idxById_some hi), List.mem_of_getElem? (idxById_some hj)⟩
        · exact hk e' he'

theorem indexOf_inj {refs : List Nat} {a b i : Nat} (ha : IndexOf refs a i) :
    IndexOf refs b i ↔ a = b := by
  unfold IndexOf at *
  rw [ha]; simp

theorem setEdges_known {refs : List Nat} (hn : refs.Nodup) {es : List Edge} (h : Known refs es)
    (arrays : PyModel.Array2 × PyModel.Array2) :
    ∃ arr, PyModel.setEdges refs es arrays = .ok arr
      ∧ ∀ i j f t, IndexOf refs f i → IndexOf refs t j →
        (arr.1 i j, arr.2 i j) = (last es f t).getD (arrays.1 i j, arrays.2 i j) := by
  induction es generalizing arrays with
  | nil => exact ⟨arrays, rfl, fun i j f t _ _ => rfl⟩
  | cons e rest ih =>
    obtain ⟨dist, dur⟩ := arrays
    unfold PyModel.setEdges
    cases hi : idxById e.frm refs with
    | none => exact absurd (h e (by simp)).1 (idxById_none.1 hi)
    | some i =>
      dsimp only
      cases hj : idxById e.dest refs with
      | none => exact absurd (h e (by simp)).2 (idxById_none.1 hj)
      | some j =>
        obtain ⟨arr, ha, hspec⟩ := ih (fun e' he' => h e' (List.mem_cons_of_mem _ he'))
          (dist.set i j e.distance, dur.set i j e.duration)
        refine ⟨arr, ha, fun i' j' f t hf ht => ?_⟩
        rw [hspec i' j' f t hf ht, last_cons]
        cases last rest f t with
        | some v => rfl
        | none =>
          simp only [Option.none_or, Option.getD_none, PyModel.Array2.set]
          have e1 := idxById_some hi
          have e2 := idxById_some hj
          by_cases hc : e.frm = f ∧ e.dest = t
          · obtain ⟨rfl, rfl⟩ := hc
            have h1 := idxById_eq hn hf
            have h2 := idxById_eq hn ht
            rw [hi] at h1; rw [hj] at h2
            cases h1; cases h2
            simp
          · have : ¬ (i' = i ∧ j' = j) := by
              rintro ⟨rfl, rfl⟩
              exact hc ⟨(indexOf_inj e1).1 hf, (indexOf_inj e2).1 ht⟩
            simp [hc, this]

theorem toMatrix_get (a : PyModel.Array2) {n i j : Nat} (hi : i < n) (hj : j < n) :
    (a.toMatrix n).get i j = a i j := by
  unfold Matrix.get PyModel.Array2.toMatrix
  have hlt : n * i + j < n * n := by
    calc n * i + j < n * i + n := by omega
      _ = n * (i + 1) := by rw [Nat.mul_succ]
      _ ≤ n * n := Nat.mul_le_mul_left _ hi
  have hd : (n * i + j) / n = i := by
    rw [Nat.mul_add_div (by omega), Nat.div_eq_of_lt hj, Nat.add_zero]
  have hm : (n * i + j) % n = j := by
    rw [Nat.mul_add_mod, Nat.mod_eq_of_lt hj]
  simp [List.getD_eq_getElem?_getD, hlt, hd, hm]

theorem profileArrays_known {refs : List Nat} (hn : refs.Nodup) {heap : Nat → List Edge}
    {ps : List Nat} (h : ∀ p ∈ ps, Known refs (heap p))
    (base : PyModel.Array2 × PyModel.Array2) :
    ∃ arrs, PyModel.profileArrays refs heap base ps = .ok arrs
      ∧ All2 (fun p arr => ∀ i j f t, IndexOf refs f i → IndexOf refs t j →
        (arr.1 i j, arr.2 i j) = (last (heap p) f t).getD (base.1 i j, base.2 i j)) ps arrs := by
  induction ps with
  | nil => exact ⟨[], rfl, .nil⟩
  | cons p rest ih =>
    obtain ⟨arr, ha, hs⟩ := setEdges_known hn (h p (by simp)) base
    obtain ⟨arrs, has, hss⟩ := ih (fun q hq => h q (List.mem_cons_of_mem _ hq))
    exact ⟨arr :: arrs, by simp only [PyModel.profileArrays, ha, has], .cons hs hss⟩

theorem profileArrays_unknown {refs : List Nat} {heap : Nat → List Edge}
    {ps : List Nat} (h : ∃ p ∈ ps, ¬ Known refs (heap p))
    (base : PyModel.Array2 × PyModel.Array2) :
    PyModel.profileArrays refs heap base ps = .error .keyError := by
  induction ps with
  | nil => simp at h
  | cons p rest ih =>
    unfold PyModel.profileArrays
    by_cases hk : Known refs (heap p)
    · obtain ⟨q, hq, hnk⟩ := h
      rw [List.mem_cons] at hq
      have hq : q ∈ rest := by
        rcases hq with rfl | hq
        · exact absurd hk hnk
        · exact hq
      cases hs : PyModel.setEdges refs (heap p) base with
      | error e =>
        -- the first error is the one that is raised
        have : e = .keyError := by
          clear ih
          generalize heap p = es at hs
          induction es generalizing base with
          | nil => cases hs
          | cons e' rest' ih' =>
            obtain ⟨x, y⟩ := base
            unfold PyModel.setEdges at hs
            split at hs
            · cases hs; rfl
            · split at hs
              · cases hs; rfl
              · exact ih' _ hs
        rw [this]
      | ok arr =>
        dsimp only
        rw [ih ⟨q, hq, hnk⟩]
    · rw [setEdges_unknown hk]

theorem All2.getD_eq {α β : Type} {R : α → β → Prop} {as : List α} {bs : List β}
    (h : All2 R as bs) {k : Nat} {a : α} (ha : as[k]? = some a) : ∃ b, bs[k]? = some b ∧ R a b := by
  induction h generalizing k with
  | nil => simp at ha
  | cons h1 _ ih =>
    cases k with
    | zero => simp at ha; subst ha; exact ⟨_, rfl, h1⟩
    | succ k => simpa using ih (by simpa using ha)

/-- The exception is a `ValueError`. -/
def IsValueError (e : ApiError) : Prop := ∃ msg, e = .error (.invalidArgument msg)

theorem lookup_error {ref : Nat} {l : List Nat} {msg : String} {e : ApiError}
    (h : lookup ref l msg = .error e) : IsValueError e := by
  unfold lookup at h
  split at h
  · cases h
  · cases h; exact ⟨_, rfl⟩

theorem lookupOpt_error {ref : Option Nat} {l : List Nat} {msg : String} {e : ApiError}
    (h : lookupOpt ref l msg = .error e) : IsValueError e := by
  unfold lookupOpt at h
  split at h
  · cases h
  · split at h
    · cases h
    · rename_i h'; cases h; exact lookup_error h'

theorem lookupAll_error {refs l : List Nat} {msg : String} {e : ApiError}
    (h : lookupAll l msg refs = .error e) : IsValueError e := by
  induction refs with
  | nil => cases h
  | cons r rest ih =>
    unfold lookupAll at h
    split at h
    · rename_i h'; cases h; exact lookup_error h'
    · split at h
      · rename_i h'; cases h; exact ih h'
      · cases h

theorem indexOf_mem {l : List Nat} {ref idx : Nat} (h : IndexOf l ref idx) : ref ∈ l :=
  List.mem_of_getElem? h

theorem indexOfOpt_mem {l : List Nat} {ref idx : Option Nat} (h : IndexOfOpt l ref idx) {x : Nat}
    (hx : ref = some x) : x ∈ l := by
  subst hx
  cases idx with
  | none => exact h.elim
  | some i => exact indexOf_mem h

theorem all2_indexOf_mem {l refs idxs : List Nat} (h : All2 (IndexOf l) refs idxs) {x : Nat}
    (hx : x ∈ refs) : x ∈ l := by
  induction h with
  | nil => simp at hx
  | cons h1 _ ih =>
    rw [List.mem_cons] at hx
    rcases hx with rfl | hx
    · exact indexOf_mem h1
    · exact ih hx

theorem Reflects.locationRefs_eq {calls : List Call} {m : PyModel} (R : Reflects calls m) :
    m.locationRefs = (locationsOf calls).map (·.1) := by
  rw [← R.locations]; rfl

theorem Reflects.depotRefs_eq {calls : List Call} {m : PyModel} (R : Reflects calls m) :
    m.depotRefs = (depotsOf calls).map (·.1) := by
  have := R.depots
  unfold PyModel.depotRefs
  generalize depotsOf calls = cs at this
  generalize m.depots = ds at this
  induction this with
  | nil => rfl
  | cons h1 _ ih => simp [ih, h1.1]

theorem lift_ne_keyError {α : Type} (x : Except Error α) : lift x ≠ .error .keyError := by
  cases x <;> simp [lift]

end ModelApi

/-! ## Properties -/

/-- **C39.** The matrices have, for each profile (for one profile when none was added) and each pair of
locations, the last edge that was added for the profile, else the last edge that was added for all
profiles, else the missing value, or zero from a location to itself. -/
theorem C39_matrices {calls : List Call} {m : PyModel} (h : Builds calls m) {missingValue : Int}
    {d : ProblemData} (hd : m.data missingValue = .ok d) :
    d.locations = (locationsOf calls).map (·.2)
    ∧ d.dists.length = max 1 (profilesOf calls).length
    ∧ d.durs.length = max 1 (profilesOf calls).length
    ∧ ∀ k i j frm dest, k < max 1 (profilesOf calls).length →
        IndexOf ((locationsOf calls).map (·.1)) frm i →
        IndexOf ((locationsOf calls).map (·.1)) dest j →
        ((d.dists.getD k default).get i j, (d.durs.getD k default).get i j)
          = (((profilesOf calls)[k]?.bind fun p => lastEdge calls (some p) frm dest).or
              (lastEdge calls none frm dest)).getD
            (if i = j then (0, 0) else (min missingValue MAX_VALUE, min missingValue MAX_VALUE)) := by
  have R := reflects h
  have hrefs := R.locationRefs_eq
  unfold PyModel.data at hd
  by_cases hk : Known m.locationRefs m.edges
  · obtain ⟨base, hb, hbs⟩ := setEdges_known R.distinct hk
      (PyModel.blank missingValue, PyModel.blank missingValue)
    rw [hb] at hd
    dsimp only at hd
    by_cases hkp : ∀ p ∈ m.profiles, Known m.locationRefs (m.profileHeap p)
    · obtain ⟨arrs, ha, has⟩ := profileArrays_known R.distinct hkp base
      rw [ha] at hd
      dsimp only at hd
      have hmk := ((C37_accepts_exactly_consistent _ d).1 (lift_ok hd)).1
      have hlen : (if m.profiles = [] then [base] else arrs).length
          = max 1 (profilesOf calls).length := by
        rw [← R.profiles]
        split
        · rename_i he; rw [he]; rfl
        · rename_i he
          rw [← All2.length_eq' has]
          have := List.length_pos_iff.2 he
          omega
      subst hmk
      refine ⟨by rw [← R.locations], by simpa using hlen, by simpa using hlen, ?_⟩
      intro k i j frm dest hk' hf ht
      rw [← hrefs] at hf ht
      have hi : i < m.locations.length := by
        simpa [PyModel.locationRefs] using (List.getElem?_eq_some_iff.1 hf).1
      have hj : j < m.locations.length := by
        simpa [PyModel.locationRefs] using (List.getElem?_eq_some_iff.1 ht).1
      have hblank : (PyModel.blank missingValue i j, PyModel.blank missingValue i j)
          = (if i = j then ((0 : Int), (0 : Int))
            else (min missingValue MAX_VALUE, min missingValue MAX_VALUE)) := by
        unfold PyModel.blank; split <;> rfl
      have hbase := hbs i j frm dest hf ht
      rw [hblank, R.edges] at hbase
      dsimp only
      by_cases he : m.profiles = []
      · simp only [he, if_true]
        rw [← R.profiles, he] at hk' ⊢
        have hk0 : k = 0 := by simp at hk'; omega
        subst hk0
        simp only [List.map_cons, List.map_nil, List.getD_cons_zero, List.getElem?_nil,
          Option.bind_none, Option.none_or]
        rw [toMatrix_get _ hi hj, toMatrix_get _ hi hj, hbase]
        rfl
      · simp only [he, if_false]
        rw [← R.profiles] at hk' ⊢
        have hk2 : k < m.profiles.length := by
          have := List.length_pos_iff.2 he
          omega
        obtain ⟨arr, harr, hspec⟩ := All2.getD_eq has (List.getElem?_eq_getElem hk2)
        simp only [List.getD_eq_getElem?_getD, List.getElem?_map, harr, Option.map_some,
          Option.getD_some, List.getElem?_eq_getElem hk2, Option.bind_some]
        rw [toMatrix_get _ hi hj, toMatrix_get _ hi hj, hspec i j frm dest hf ht, hbase,
          R.profileEdges]
        show (lastEdge calls (some _) frm dest).getD ((lastEdge calls none frm dest).getD _) = _
        cases lastEdge calls (some m.profiles[k]) frm dest <;> rfl
    · rw [profileArrays_unknown (by
        simpa only [Classical.not_forall, not_imp, exists_prop] using hkp)] at hd
      cases hd
  · rw [setEdges_unknown hk] at hd
    cases hd

/-- **C39.** Making the data raises a `KeyError` exactly when some edge, for all profiles or for a
profile of the model, is from or to a location that is not in the model. -/
theorem C39_unknown_location {calls : List Call} {m : PyModel} (h : Builds calls m)
    (missingValue : Int) :
    m.data missingValue = .error .keyError
      ↔ ∃ profile : Option Nat, (∀ p, profile = some p → p ∈ profilesOf calls)
        ∧ ∃ e ∈ edgesOf calls profile, e.frm ∉ (locationsOf calls).map (·.1)
          ∨ e.dest ∉ (locationsOf calls).map (·.1) := by
  have R := reflects h
  have hrefs := R.locationRefs_eq
  rw [← hrefs, ← R.profiles]
  have hnk : ∀ es : List Edge, ¬ Known m.locationRefs es
      ↔ ∃ e ∈ es, e.frm ∉ m.locationRefs ∨ e.dest ∉ m.locationRefs := by
    intro es
    unfold Known
    constructor
    · intro hn
      simp only [Classical.not_forall] at hn
      obtain ⟨e, he, hne⟩ := hn
      exact ⟨e, he, Classical.not_and_iff_not_or_not.1 hne⟩
    · rintro ⟨e, he, hne⟩ hk
      rcases hne with hne | hne
      · exact hne (hk e he).1
      · exact hne (hk e he).2
  unfold PyModel.data
  by_cases hk : Known m.locationRefs m.edges
  · obtain ⟨base, hb, -⟩ := setEdges_known R.distinct hk
      (PyModel.blank missingValue, PyModel.blank missingValue)
    rw [hb]
    dsimp only
    by_cases hkp : ∀ p ∈ m.profiles, Known m.locationRefs (m.profileHeap p)
    · obtain ⟨arrs, ha, -⟩ := profileArrays_known R.distinct hkp base
      rw [ha]
      dsimp only
      constructor
      · intro hc; exact absurd hc (lift_ne_keyError _)
      · rintro ⟨profile, hp, hex⟩
        rw [← hnk] at hex
        cases profile with
        | none => rw [← R.edges] at hex; exact absurd hk hex
        | some p => rw [← R.profileEdges] at hex; exact absurd (hkp p (hp p rfl)) hex
    · have hex : ∃ p ∈ m.profiles, ¬ Known m.locationRefs (m.profileHeap p) := by
        simpa only [Classical.not_forall, not_imp, exists_prop] using hkp
      rw [profileArrays_unknown hex]
      obtain ⟨p, hp, hne⟩ := hex
      refine ⟨fun _ => ⟨some p, fun q hq => by cases hq; exact hp, ?_⟩, fun _ => rfl⟩
      rw [R.profileEdges, hnk] at hne
      exact hne
  · rw [setEdges_unknown hk]
    refine ⟨fun _ => ⟨none, by simp, ?_⟩, fun _ => rfl⟩
    rw [R.edges, hnk] at hk
    exact hk

/-- **C39.** Everything else that was added is in the data, in the order in which it was added, with the
indices of the objects it refers to; each group has the clients that were added to it. -/
theorem C39_objects {calls : List Call} {m : PyModel} (h : Builds calls m) {missingValue : Int}
    {d : ProblemData} (hd : m.data missingValue = .ok d) :
    All2 (MakesClient ((locationsOf calls).map (·.1)) ((groupsOf calls).map (·.1)))
      (clientsOf calls) d.clients
    ∧ All2 (fun call depot => MakesDepot ((locationsOf calls).map (·.1)) call (call.1, depot))
      (depotsOf calls) d.depots
    ∧ All2 (MakesShipment ((locationsOf calls).map (·.1))) (shipmentsOf calls) d.shipments
    ∧ All2 (MakesVehicleType ((depotsOf calls).map (·.1)) (profilesOf calls))
      (vehicleTypesOf calls) d.vehicleTypes
    ∧ d.groups = (groupsOf calls).map fun g =>
        { clients := membersOf calls g.1, required := g.2.1, name := g.2.2 } := by
  have R := reflects h
  have hrefs := R.locationRefs_eq
  have hdep := R.depotRefs_eq
  unfold PyModel.data at hd
  cases hb : PyModel.setEdges m.locationRefs m.edges
      (PyModel.blank missingValue, PyModel.blank missingValue) with
  | error e => rw [hb] at hd; cases hd
  | ok base =>
    rw [hb] at hd; dsimp only at hd
    cases ha : PyModel.profileArrays m.locationRefs m.profileHeap base m.profiles with
    | error e => rw [ha] at hd; cases hd
    | ok arrs =>
      rw [ha] at hd; dsimp only at hd
      have hmk := ((C37_accepts_exactly_consistent _ d).1 (lift_ok hd)).1
      subst hmk
      refine ⟨by rw [← hrefs, ← R.groups]; exact R.clients, ?_, by rw [← hrefs]; exact R.shipments,
        by rw [← hdep, ← R.profiles]; exact R.vehicleTypes, ?_⟩
      · have := R.depots
        rw [hrefs] at this
        dsimp only
        generalize depotsOf calls = cs at this
        generalize m.depots = ds at this
        induction this with
        | nil => exact .nil
        | cons h1 _ ih =>
          obtain ⟨h1, i, h2, h3⟩ := h1
          exact .cons ⟨rfl, i, h2, h3⟩ ih
      · dsimp only
        rw [R.groups, List.map_map]
        exact List.map_congr_left fun g hg => R.groupHeap g hg

/-- **C39.** A call that adds a client, depot, shipment or vehicle type raises a `ValueError` when it
refers to an object that is not in the model. -/
theorem C39_unknown_object {calls : List Call} {m : PyModel} (h : Builds calls m) (c : Call)
    (hc : ¬ RefersToModel calls c) : ∃ e, m.exec c = .error e ∧ IsValueError e := by
  have R := reflects h
  have hrefs := R.locationRefs_eq
  have hdep := R.depotRefs_eq
  cases c with
  | client location group args =>
    simp only [PyModel.exec, PyModel.addClient]
    cases hg : lookupOpt group m.groups "The given group is not in this model instance." with
    | error e => exact ⟨e, rfl, lookupOpt_error hg⟩
    | ok g =>
      dsimp only
      cases hl : lookup location m.locationRefs
          "The given location is not in this model instance." with
      | error e => exact ⟨e, rfl, lookup_error hl⟩
      | ok i =>
        refine absurd ⟨?_, fun x hx => ?_⟩ hc
        · rw [← hrefs]; exact indexOf_mem (lookup_ok hl)
        · rw [← R.groups]; exact indexOfOpt_mem (lookupOpt_ok hg) hx
  | depot ref location args =>
    simp only [PyModel.exec, PyModel.addDepot]
    cases hl : lookup location m.locationRefs
        "The given location is not in this model instance." with
    | error e => exact ⟨e, rfl, lookup_error hl⟩
    | ok i =>
      refine absurd ?_ hc
      show location ∈ _
      rw [← hrefs]; exact indexOf_mem (lookup_ok hl)
  | shipment p d args =>
    simp only [PyModel.exec, PyModel.addShipment]
    cases hp : lookup p m.locationRefs
        "The given pickup location is not in this model instance." with
    | error e => exact ⟨e, rfl, lookup_error hp⟩
    | ok i =>
      dsimp only
      cases hd : lookup d m.locationRefs
          "The given delivery location is not in this model instance." with
      | error e => exact ⟨e, rfl, lookup_error hd⟩
      | ok j =>
        refine absurd ⟨?_, ?_⟩ hc
        · rw [← hrefs]; exact indexOf_mem (lookup_ok hp)
        · rw [← hrefs]; exact indexOf_mem (lookup_ok hd)
  | vehicleType s e p r args =>
    simp only [PyModel.exec, PyModel.addVehicleType]
    cases hs : lookupOpt s m.depotRefs "The given start depot is not in this model." with
    | error e => exact ⟨e, rfl, lookupOpt_error hs⟩
    | ok s' =>
      dsimp only
      cases ht : lookupOpt e m.depotRefs "The given end depot is not in this model." with
      | error e => exact ⟨e, rfl, lookupOpt_error ht⟩
      | ok t' =>
        dsimp only
        cases hp : lookupOpt p m.profiles "The given profile is not in this model." with
        | error e => exact ⟨e, rfl, lookupOpt_error hp⟩
        | ok p' =>
          dsimp only
          cases hr : lookupAll m.depotRefs "The given reload depot is not in this model." r with
          | error e => exact ⟨e, rfl, lookupAll_error hr⟩
          | ok r' =>
            refine absurd ⟨fun x hx => ?_, fun x hx => ?_, fun x hx => ?_, fun x hx => ?_⟩ hc
            · rw [← hdep]; exact indexOfOpt_mem (lookupOpt_ok hs) hx
            · rw [← hdep]; exact indexOfOpt_mem (lookupOpt_ok ht) hx
            · rw [← R.profiles]; exact indexOfOpt_mem (lookupOpt_ok hp) hx
            · rw [← hdep]; exact all2_indexOf_mem (lookupAll_ok hr) hx
  | location | profile | edge | group => exact absurd trivial hc

/-- **C39.** An edge is accepted exactly when its distance and duration are not negative, and zero from
a location to itself; otherwise adding it raises a `ValueError`. -/
theorem C39_edge_accepted (m : PyModel) (e : Edge) (profile : Option Nat) :
    ((∃ m', m.exec (.edge e profile) = .ok m')
      ↔ 0 ≤ e.distance ∧ 0 ≤ e.duration ∧ (e.frm = e.dest → e.distance = 0 ∧ e.duration = 0))
    ∧ ∀ err, m.exec (.edge e profile) = .error err → IsValueError err := by
  simp only [PyModel.exec, PyModel.addEdge, Edge.make]
  by_cases h1 : e.distance < 0 ∨ e.duration < 0
  · simp only [h1, if_true]
    refine ⟨⟨fun ⟨_, h⟩ => (by cases h), fun h => absurd h1 (by omega)⟩, ?_⟩
    rintro err h; cases h; exact ⟨_, rfl⟩
  · simp only [h1, if_false]
    by_cases h2 : e.frm = e.dest ∧ (e.distance ≠ 0 ∨ e.duration ≠ 0)
    · rw [if_pos h2]
      refine ⟨⟨fun ⟨_, h⟩ => (by cases h), fun h => absurd h2 (by omega)⟩, ?_⟩
      rintro err h; cases h; exact ⟨_, rfl⟩
    · simp only [h2, if_false]
      cases profile with
      | none => exact ⟨⟨fun _ => by omega, fun _ => ⟨_, rfl⟩⟩, fun _ h => by cases h⟩
      | some p => exact ⟨⟨fun _ => by omega, fun _ => ⟨_, rfl⟩⟩, fun _ h => by cases h⟩

namespace Spec

/-- The arguments of a call, apart from the objects that it refers to, are acceptable: times, loads and
costs as in C36, edges as in `C39_edge_accepted`, and a required client is not put into a group. -/
def GoodArguments : Call → Prop
  | .location _ _ | .profile _ | .group _ _ _ => True
  | .edge e _ => 0 ≤ e.distance ∧ 0 ≤ e.duration ∧ (e.frm = e.dest → e.distance = 0 ∧ e.duration = 0)
  | .depot _ _ args => DepotArgsOk args
  | .client _ group args => ClientArgsOk args ∧ (args.required = true → group = none)
  | .shipment _ _ args => ShipmentArgsOk args
  | .vehicleType _ _ _ _ args => VehicleArgsOk args

end Spec

namespace ModelApi

theorem lookup_of_mem {ref : Nat} {l : List Nat} (msg : String) (h : ref ∈ l) :
    ∃ i, lookup ref l msg = .ok i := by
  unfold lookup
  cases hi : idxById ref l with
  | none => exact absurd h (idxById_none.1 hi)
  | some i => exact ⟨i, rfl⟩

theorem lookupOpt_of_mem {ref : Option Nat} {l : List Nat} (msg : String)
    (h : ∀ x, ref = some x → x ∈ l) : ∃ i, lookupOpt ref l msg = .ok i := by
  unfold lookupOpt
  cases ref with
  | none => exact ⟨none, rfl⟩
  | some r =>
    obtain ⟨i, hi⟩ := lookup_of_mem msg (h r rfl)
    exact ⟨some i, by dsimp only; rw [hi]⟩

theorem lookupAll_of_mem {refs : List Nat} {l : List Nat} (msg : String) (h : ∀ x ∈ refs, x ∈ l) :
    ∃ is, lookupAll l msg refs = .ok is := by
  induction refs with
  | nil => exact ⟨[], rfl⟩
  | cons r rest ih =>
    obtain ⟨i, hi⟩ := lookup_of_mem msg (h r (by simp))
    obtain ⟨is, his⟩ := ih fun x hx => h x (by simp [hx])
    exact ⟨i :: is, by unfold lookupAll; rw [hi]; dsimp only; rw [his]⟩

theorem membersOf_lt {calls : List Call} {g i : Nat} (h : i ∈ membersOf calls g) :
    i < (clientsOf calls).length := by
  unfold membersOf at h
  obtain ⟨c, hc, hi⟩ := List.mem_filterMap.1 h
  have := (List.mem_zipIdx hc).2.1
  split at hi
  · cases hi; omega
  · cases hi

theorem clientOk_iff (args : Client) (l : Nat) (g : Option Nat) :
    ClientArgsOk { args with location := l, group := g } ↔ ClientArgsOk args :=
  ⟨fun ⟨a, b, c, d, e, f, h⟩ => ⟨a, b, c, d, e, f, h⟩, fun ⟨a, b, c, d, e, f, h⟩ => ⟨a, b, c, d, e, f, h⟩⟩

theorem depotOk_iff (args : Depot) (l : Nat) :
    DepotArgsOk { args with location := l } ↔ DepotArgsOk args :=
  ⟨fun ⟨a, b, c⟩ => ⟨a, b, c⟩, fun ⟨a, b, c⟩ => ⟨a, b, c⟩⟩

theorem shipmentOk_iff (args : Shipment) (p d : Nat) :
    ShipmentArgsOk { args with pickup := { args.pickup with location := p }
                               delivery := { args.delivery with location := d } }
      ↔ ShipmentArgsOk args :=
  ⟨fun ⟨⟨a, b, c⟩, ⟨d, e, f⟩, g, h, i⟩ => ⟨⟨a, b, c⟩, ⟨d, e, f⟩, g, h, i⟩,
   fun ⟨⟨a, b, c⟩, ⟨d, e, f⟩, g, h, i⟩ => ⟨⟨a, b, c⟩, ⟨d, e, f⟩, g, h, i⟩⟩

theorem vehicleOk_iff (args : VehicleTypeArgs) (s t p : Nat) (r : List Nat) :
    VehicleArgsOk { args with startDepot := s, endDepot := t, profile := p, reloadDepots := r }
      ↔ VehicleArgsOk args :=
  ⟨fun ⟨a, b, c, d, e, f, g, h, i, j, k, l, m⟩ => ⟨a, b, c, d, e, f, g, h, i, j, k, l, m⟩,
   fun ⟨a, b, c, d, e, f, g, h, i, j, k, l, m⟩ => ⟨a, b, c, d, e, f, g, h, i, j, k, l, m⟩⟩

theorem raises_lift {α : Type} {x : Except Error α} (h : RaisesValueError x) :
    ∃ e, lift x = .error e ∧ IsValueError e := by
  obtain ⟨msg, h⟩ := h
  exact ⟨_, by rw [h]; rfl, msg, rfl⟩

end ModelApi

/-- **C39.** A call succeeds exactly if everything that it refers to is in the model and its other
arguments are acceptable; otherwise it raises `ValueError`. -/
theorem C39_call_accepted {calls : List Call} {m : PyModel} (h : Builds calls m) (c : Call) :
    ((∃ m', m.exec c = .ok m') ↔ RefersToModel calls c ∧ GoodArguments c)
    ∧ ∀ err, m.exec c = .error err → IsValueError err := by
  by_cases hc : RefersToModel calls c
  case neg =>
    obtain ⟨e, he, hv⟩ := C39_unknown_object h c hc
    refine ⟨⟨fun ⟨m', hm⟩ => ?_, fun hh => absurd hh.1 hc⟩, fun err herr => ?_⟩
    · rw [he] at hm; cases hm
    · rw [he] at herr; cases herr; exact hv
  have R := reflects h
  have hrefs := R.locationRefs_eq
  have hdep := R.depotRefs_eq
  -- It is enough to decide between success and a value error.
  have key : ∀ {c : Call}, RefersToModel calls c → (GoodArguments c → ∃ m', m.exec c = .ok m') →
      (¬ GoodArguments c → ∃ e, m.exec c = .error e ∧ IsValueError e) →
      ((∃ m', m.exec c = .ok m') ↔ RefersToModel calls c ∧ GoodArguments c)
      ∧ ∀ err, m.exec c = .error err → IsValueError err := by
    intro c hc h1 h2
    by_cases hg : GoodArguments c
    · obtain ⟨m', hm⟩ := h1 hg
      refine ⟨⟨fun _ => ⟨hc, hg⟩, fun _ => ⟨m', hm⟩⟩, fun err he => ?_⟩
      rw [hm] at he; cases he
    · obtain ⟨e, he, hv⟩ := h2 hg
      refine ⟨⟨fun ⟨m', hm⟩ => ?_, fun hh => absurd hh.2 hg⟩, fun err herr => ?_⟩
      · rw [he] at hm; cases hm
      · rw [he] at herr; cases herr; exact hv
  refine key hc ?_ ?_ <;> clear key
  all_goals cases c with
  | location ref loc => first | exact fun _ => ⟨_, rfl⟩ | exact fun hn => absurd trivial hn
  | profile ref => first | exact fun _ => ⟨_, rfl⟩ | exact fun hn => absurd trivial hn
  | group ref r n => first | exact fun _ => ⟨_, rfl⟩ | exact fun hn => absurd trivial hn
  | edge e profile =>
    first
    | exact fun hg => (C39_edge_accepted m e profile).1.2 hg
    | intro hg
      cases hx : m.exec (.edge e profile) with
      | ok m' => exact absurd ((C39_edge_accepted m e profile).1.1 ⟨m', hx⟩) hg
      | error err => exact ⟨err, rfl, (C39_edge_accepted m e profile).2 err hx⟩
  | depot ref location args =>
    intro hg
    obtain ⟨i, hi⟩ := lookup_of_mem "The given location is not in this model instance."
      (show location ∈ m.locationRefs by rw [hrefs]; exact hc)
    simp only [PyModel.exec, PyModel.addDepot, hi]
    have hh := C36_depot_accepts { args with location := i }
    rw [depotOk_iff] at hh
    first
    | rw [(hh.1 _).2 ⟨rfl, hg⟩]
      exact ⟨_, rfl⟩
    | obtain ⟨e, he, hv⟩ := raises_lift (hh.2 hg)
      rw [he]
      exact ⟨e, rfl, hv⟩
  | shipment p d args =>
    intro hg
    obtain ⟨i, hi⟩ := lookup_of_mem "The given pickup location is not in this model instance."
      (show p ∈ m.locationRefs by rw [hrefs]; exact hc.1)
    obtain ⟨j, hj⟩ := lookup_of_mem "The given delivery location is not in this model instance."
      (show d ∈ m.locationRefs by rw [hrefs]; exact hc.2)
    simp only [PyModel.exec, PyModel.addShipment, hi, hj]
    have hh := C36_shipment_accepts { args with pickup := { args.pickup with location := i }
                                                delivery := { args.delivery with location := j } }
    rw [shipmentOk_iff] at hh
    first
    | rw [(hh.1 _).2 ⟨rfl, hg⟩]
      exact ⟨_, rfl⟩
    | obtain ⟨e, he, hv⟩ := raises_lift (hh.2 hg)
      rw [he]
      exact ⟨e, rfl, hv⟩
  | vehicleType s t p r args =>
    intro hg
    obtain ⟨h1, h2, h3, h4⟩ := hc
    rw [← hdep] at h1 h2 h4
    rw [← R.profiles] at h3
    obtain ⟨i, hi⟩ := lookupOpt_of_mem "The given start depot is not in this model." h1
    obtain ⟨j, hj⟩ := lookupOpt_of_mem "The given end depot is not in this model." h2
    obtain ⟨k, hk⟩ := lookupOpt_of_mem "The given profile is not in this model." h3
    obtain ⟨l, hl⟩ := lookupAll_of_mem "The given reload depot is not in this model." h4
    simp only [PyModel.exec, PyModel.addVehicleType, hi, hj, hk, hl]
    have hh := C36_vehicle_accepts { args with startDepot := i.getD 0, endDepot := j.getD 0,
                                               profile := k.getD 0, reloadDepots := l }
    rw [vehicleOk_iff] at hh
    first
    | obtain ⟨v, hv⟩ := hh.1.2 hg
      rw [hv]
      exact ⟨_, rfl⟩
    | obtain ⟨e, he, hv⟩ := raises_lift (hh.2 hg)
      rw [he]
      exact ⟨e, rfl, hv⟩
  | client location group args =>
    intro hg
    obtain ⟨h1, h2⟩ := hc
    rw [← hrefs] at h1
    rw [← R.groups] at h2
    obtain ⟨i, hi⟩ := lookupOpt_of_mem "The given group is not in this model instance." h2
    obtain ⟨j, hj⟩ := lookup_of_mem "The given location is not in this model instance." h1
    simp only [PyModel.exec, PyModel.addClient, hi, hj]
    have hh := C36_client_accepts { args with location := j, group := i }
    rw [clientOk_iff] at hh
    by_cases hr : args.required = true ∧ group.isSome = true
    · rw [if_pos hr]
      first
      | rw [hg.2 hr.1] at hr
        exact absurd hr.2 (by simp)
      | exact ⟨_, rfl, _, rfl⟩
    · rw [if_neg hr]
      by_cases ha : ClientArgsOk args
      · obtain ⟨c, hc⟩ := hh.1.2 ha
        rw [hc]
        dsimp only [lift]
        cases group with
        | none =>
          first
          | exact ⟨_, rfl⟩
          | exact absurd ⟨ha, fun _ => rfl⟩ hg
        | some ref =>
          have hreq : args.required ≠ true := fun hq => hr ⟨hq, rfl⟩
          first
          | exact absurd ⟨ha, fun hq => absurd hq hreq⟩ hg
          | have hmem := h2 ref rfl
            rw [R.groups] at hmem
            obtain ⟨g, hgm, rfl⟩ := List.mem_map.1 hmem
            have hnew : m.clients.length ∉ (m.groupHeap g.1).clients := by
              rw [R.groupHeap g hgm, ← ModelApi.All2.length_eq' R.clients]
              exact fun hx => absurd (membersOf_lt hx) (by omega)
            dsimp only
            unfold ClientGroup.addClient
            rw [if_neg hnew]
            exact ⟨_, rfl⟩
      · first
        | exact absurd hg.1 ha
        | obtain ⟨e, he, hv⟩ := raises_lift (hh.2 ha)
          rw [he]
          exact ⟨e, rfl, hv⟩


/-! ### `from_data` -/

namespace Spec

/-- The matrix has as many entries as its dimensions say. -/
def Matrix.Full (m : Matrix) : Prop := m.data.length = m.rows * m.cols

/-- All entries of the matrices are non-negative. -/
def NonNegative (d : ProblemData) : Prop :=
  ∀ i < d.locations.length, ∀ j < d.locations.length,
    (∀ m ∈ d.dists, 0 ≤ m.get i j) ∧ ∀ m ∈ d.durs, 0 ≤ m.get i j

end Spec

namespace ModelApi
open PyModel

/-- The edge that `from_data` makes for a matrix entry. -/
def entryEdge (dist dur : Matrix) (i j : Nat) : Edge := ⟨i, j, dist.get i j, dur.get i j⟩

def Accepts (e : Edge) : Prop := Edge.make e = .ok e

theorem make_cases (e : Edge) : Accepts e ∨ ∃ err, Edge.make e = .error err ∧ IsValueError err := by
  unfold Accepts Edge.make
  split
  · exact .inr ⟨_, rfl, _, rfl⟩
  · split
    · exact .inr ⟨_, rfl, _, rfl⟩
    · exact .inl rfl

theorem accepts_iff (e : Edge) : Accepts e
    ↔ 0 ≤ e.distance ∧ 0 ≤ e.duration ∧ (e.frm = e.dest → e.distance = 0 ∧ e.duration = 0) := by
  unfold Accepts Edge.make
  split
  · exact ⟨fun h => (by cases h), fun h => (by omega)⟩
  · split
    · rename_i h2
      exact ⟨fun h => (by cases h), fun h => absurd h2 (by omega)⟩
    · exact ⟨fun _ => by omega, fun _ => rfl⟩

theorem rowEdges_ok {dist dur : Matrix} {frm : Nat} {cols : List Nat}
    (h : ∀ j ∈ cols, Accepts (entryEdge dist dur frm j)) :
    rowEdges dist dur frm cols = .ok (cols.map (entryEdge dist dur frm)) := by
  induction cols with
  | nil => rfl
  | cons j rest ih =>
    have h1 : Edge.make ⟨frm, j, dist.get frm j, dur.get frm j⟩ = .ok (entryEdge dist dur frm j) :=
      h j (by simp)
    simp only [rowEdges, h1, ih (fun k hk => h k (List.mem_cons_of_mem _ hk)), List.map_cons]

theorem rowEdges_error {dist dur : Matrix} {frm : Nat} {cols : List Nat}
    (h : ∃ j ∈ cols, ¬ Accepts (entryEdge dist dur frm j)) :
    ∃ e, rowEdges dist dur frm cols = .error e ∧ IsValueError e := by
  induction cols with
  | nil => simp at h
  | cons j rest ih =>
    unfold rowEdges
    rcases make_cases (entryEdge dist dur frm j) with ha | ⟨err, ha, hv⟩
    · have h1 : Edge.make ⟨frm, j, dist.get frm j, dur.get frm j⟩
        = .ok (entryEdge dist dur frm j) := ha
      rw [h1]
      obtain ⟨k, hk, hn⟩ := h
      rw [List.mem_cons] at hk
      rcases hk with rfl | hk
      · exact absurd ha hn
      · obtain ⟨e, he, hv⟩ := ih ⟨k, hk, hn⟩
        exact ⟨e, by dsimp only; rw [he], hv⟩
    · have h1 : Edge.make ⟨frm, j, dist.get frm j, dur.get frm j⟩ = .error err := ha
      rw [h1]
      exact ⟨err, rfl, hv⟩

theorem profileEdges_ok {dist dur : Matrix} {n : Nat} {rows : List Nat}
    (h : ∀ i ∈ rows, ∀ j < n, Accepts (entryEdge dist dur i j)) :
    profileEdges dist dur n rows
      = .ok (rows.flatMap fun i => (List.range n).map (entryEdge dist dur i)) := by
  induction rows with
  | nil => rfl
  | cons i rest ih =>
    have h1 := rowEdges_ok (cols := List.range n)
      (fun j hj => h i (by simp) j (List.mem_range.1 hj))
    simp only [profileEdges, h1, ih (fun k hk => h k (List.mem_cons_of_mem _ hk)),
      List.flatMap_cons]

theorem profileEdges_error {dist dur : Matrix} {n : Nat} {rows : List Nat}
    (h : ∃ i ∈ rows, ∃ j < n, ¬ Accepts (entryEdge dist dur i j)) :
    ∃ e, profileEdges dist dur n rows = .error e ∧ IsValueError e := by
  induction rows with
  | nil => simp at h
  | cons i rest ih =>
    unfold profileEdges
    by_cases hr : ∃ j ∈ List.range n, ¬ Accepts (entryEdge dist dur i j)
    · obtain ⟨e, he, hv⟩ := rowEdges_error hr
      rw [he]; exact ⟨e, rfl, hv⟩
    · have hr' : ∀ j ∈ List.range n, Accepts (entryEdge dist dur i j) := fun j hj =>
        Classical.byContradiction fun hn => hr ⟨j, hj, hn⟩
      rw [rowEdges_ok hr']
      obtain ⟨k, hk, j, hj, hn⟩ := h
      rw [List.mem_cons] at hk
      rcases hk with rfl | hk
      · exact absurd (hr' j (List.mem_range.2 hj)) hn
      · obtain ⟨e, he, hv⟩ := ih ⟨k, hk, j, hj, hn⟩
        exact ⟨e, by dsimp only; rw [he], hv⟩

/-- All edges of a profile. -/
def fullEdges (n : Nat) (p : Matrix × Matrix) : List Edge :=
  (List.range n).flatMap fun i => (List.range n).map (entryEdge p.1 p.2 i)

theorem allProfileEdges_ok {n : Nat} {ps : List (Matrix × Matrix)}
    (h : ∀ p ∈ ps, ∀ i < n, ∀ j < n, Accepts (entryEdge p.1 p.2 i j)) :
    allProfileEdges n ps = .ok (ps.map (fullEdges n)) := by
  induction ps with
  | nil => rfl
  | cons p rest ih =>
    have h1 := profileEdges_ok (rows := List.range n)
      (fun i hi => h p (by simp) i (List.mem_range.1 hi))
    simp only [allProfileEdges, h1, ih (fun k hk => h k (List.mem_cons_of_mem _ hk)),
      List.map_cons]
    rfl

theorem allProfileEdges_error {n : Nat} {ps : List (Matrix × Matrix)}
    (h : ∃ p ∈ ps, ∃ i < n, ∃ j < n, ¬ Accepts (entryEdge p.1 p.2 i j)) :
    ∃ e, allProfileEdges n ps = .error e ∧ IsValueError e := by
  induction ps with
  | nil => simp at h
  | cons p rest ih =>
    unfold allProfileEdges
    by_cases hr : ∃ i ∈ List.range n, ∃ j < n, ¬ Accepts (entryEdge p.1 p.2 i j)
    · obtain ⟨e, he, hv⟩ := profileEdges_error hr
      rw [he]; exact ⟨e, rfl, hv⟩
    · have hr' : ∀ i ∈ List.range n, ∀ j < n, Accepts (entryEdge p.1 p.2 i j) :=
        fun i hi j hj => Classical.byContradiction fun hn => hr ⟨i, hi, j, hj, hn⟩
      rw [profileEdges_ok hr']
      obtain ⟨k, hk, i, hi, j, hj, hn⟩ := h
      rw [List.mem_cons] at hk
      rcases hk with rfl | hk
      · exact absurd (hr' i (List.mem_range.2 hi) j hj) hn
      · obtain ⟨e, he, hv⟩ := ih ⟨k, hk, i, hi, j, hj, hn⟩
        exact ⟨e, by dsimp only; rw [he], hv⟩

theorem last_fullEdges {n i j : Nat} (hi : i < n) (hj : j < n) (p : Matrix × Matrix) :
    last (fullEdges n p) i j = some (p.1.get i j, p.2.get i j) := by
  apply last_const
  · refine ⟨entryEdge p.1 p.2 i j, ?_, rfl, rfl⟩
    unfold fullEdges
    rw [List.mem_flatMap]
    exact ⟨i, List.mem_range.2 hi, List.mem_map.2 ⟨j, List.mem_range.2 hj, rfl⟩⟩
  · intro e he hf ht
    unfold fullEdges at he
    rw [List.mem_flatMap] at he
    obtain ⟨i', -, he⟩ := he
    rw [List.mem_map] at he
    obtain ⟨j', -, rfl⟩ := he
    simp only [entryEdge] at hf ht
    subst hf; subst ht
    rfl

theorem known_fullEdges (n : Nat) (p : Matrix × Matrix) : Known (List.range n) (fullEdges n p) := by
  intro e he
  unfold fullEdges at he
  rw [List.mem_flatMap] at he
  obtain ⟨i', hi, he⟩ := he
  rw [List.mem_map] at he
  obtain ⟨j', hj, rfl⟩ := he
  exact ⟨hi, hj⟩

theorem indexOf_range {n i : Nat} (h : i < n) : IndexOf (List.range n) i i := by
  simp [IndexOf, h]

theorem toMatrix_eq {a : PyModel.Array2} {n : Nat} {m : Matrix} (hr : m.rows = n) (hc : m.cols = n)
    (hfull : Matrix.Full m) (h : ∀ i < n, ∀ j < n, a i j = m.get i j) : a.toMatrix n = m := by
  have hm : m = ⟨n, n, m.data⟩ := by cases m; simp_all
  unfold Matrix.Full at hfull
  rw [hr, hc] at hfull
  generalize m.data = data at hm hfull
  subst hm
  unfold Array2.toMatrix
  congr 1
  apply List.ext_getElem
  · simp [hfull]
  · intro k hk1 hk2
    have hk : k < n * n := by simpa using hk1
    have hpos : 0 < n := by
      rcases Nat.eq_zero_or_pos n with h0 | h0
      · subst h0; simp at hk
      · exact h0
    rw [List.getElem_map, List.getElem_range,
      h _ ((Nat.div_lt_iff_lt_mul hpos).2 hk) _ (Nat.mod_lt _ hpos)]
    simp only [Matrix.get]
    rw [Nat.div_add_mod, List.getD_eq_getElem?_getD, List.getElem?_eq_getElem hk2]
    rfl

theorem map_fst_range_zip {α : Type} (l : List α) : ((List.range l.length).zip l).map (·.1)
    = List.range l.length := by
  rw [List.map_fst_zip]; simp

theorem map_snd_range_zip {α : Type} (l : List α) : ((List.range l.length).zip l).map (·.2) = l := by
  rw [List.map_snd_zip]; simp

theorem map_range_getD {α : Type} (l : List α) (x : α) :
    (List.range l.length).map (fun i => l.getD i x) = l := by
  apply List.ext_getElem
  · simp
  · intro i h1 h2
    simp [List.getD_eq_getElem?_getD, List.getElem?_eq_getElem h2]

end ModelApi

/-- Data with full matrices, as the `Matrix` class has. -/
def Spec.FullMatrices (d : ProblemData) : Prop :=
  (∀ m ∈ d.dists, Matrix.Full m) ∧ ∀ m ∈ d.durs, Matrix.Full m

theorem ModelApi.accepts_all {d : ProblemData} (hc : Consistent d) (hn : NonNegative d) :
    ∀ p ∈ d.dists.zip d.durs, ∀ i < d.numLocations, ∀ j < d.numLocations,
      Accepts (entryEdge p.1 p.2 i j) := by
  intro p hp i hi j hj
  obtain ⟨h1, h2⟩ := List.of_mem_zip hp
  rw [accepts_iff]
  refine ⟨(hn i hi j hj).1 _ h1, (hn i hi j hj).2 _ h2, ?_⟩
  intro hij
  simp only [entryEdge] at hij
  subst hij
  exact ⟨(hc.square _ (List.mem_append_left _ h1)).2.2 i hi,
    (hc.square _ (List.mem_append_right _ h2)).2.2 i hi⟩

/-- **C39.** Making a model from accepted data, without negative distances or durations, works, and the
model gives back the same data. -/
theorem C39_from_data_partial (d : ProblemData) (hd : ProblemData.make d = .ok d)
    (hf : FullMatrices d) (hn : NonNegative d) :
    ∃ m, PyModel.fromData d = .ok m ∧ ∀ missingValue, m.data missingValue = .ok d := by
  have hc := ((C37_accepts_exactly_consistent d d).1 hd).2
  have hall := allProfileEdges_ok (accepts_all hc hn)
  unfold PyModel.fromData
  rw [hall]
  refine ⟨_, rfl, fun mv => ?_⟩
  have hrefs : ((List.range d.locations.length).zip d.locations).map (·.1)
      = List.range d.locations.length := map_fst_range_zip _
  have hzl : (d.dists.zip d.durs).length = d.dists.length := by
    rw [List.length_zip, ← hc.sameCount]; simp
  have hheap : ∀ k < d.dists.length,
      ((d.dists.zip d.durs).map (fullEdges d.numLocations)).getD k []
        = fullEdges d.numLocations (d.dists.getD k default, d.durs.getD k default) := by
    intro k hk
    have hk' : k < d.durs.length := hc.sameCount ▸ hk
    have hz : (d.dists.zip d.durs)[k]? = some (d.dists[k], d.durs[k]) := by
      rw [List.getElem?_zip_eq_some]
      exact ⟨List.getElem?_eq_getElem hk, List.getElem?_eq_getElem hk'⟩
    simp [List.getD_eq_getElem?_getD, hk, hk', hz]
  obtain ⟨arrs, ha, has⟩ := profileArrays_known (refs := List.range d.locations.length)
    (heap := fun ref => ((d.dists.zip d.durs).map (fullEdges d.numLocations)).getD ref [])
    (ps := List.range d.dists.length) List.nodup_range
    (fun p hp => by
      rw [hheap p (List.mem_range.1 hp)]; exact known_fullEdges _ _)
    (PyModel.blank mv, PyModel.blank mv)
  have hlen := All2.length_eq' has
  rw [List.length_range] at hlen
  have harr : ∀ k (hk : k < d.dists.length) i (_ : i < d.locations.length) j
      (_ : j < d.locations.length), ((arrs.getD k default).1 i j, (arrs.getD k default).2 i j)
        = ((d.dists.getD k default).get i j, (d.durs.getD k default).get i j) := by
    intro k hk i hi j hj
    obtain ⟨arr, h1, h2⟩ := All2.getD_eq has (k := k) (a := k) (by simp [hk])
    rw [List.getD_eq_getElem?_getD, h1, Option.getD_some,
      h2 i j i j (indexOf_range hi) (indexOf_range hj), hheap k hk]
    rw [last_fullEdges (n := d.numLocations) hi hj]
    rfl
  have hmats : ∀ (sel : PyModel.Array2 × PyModel.Array2 → PyModel.Array2) (ms : List Matrix), ms.length = d.dists.length →
      (∀ x ∈ ms, Matrix.Full x ∧ x.rows = d.locations.length ∧ x.cols = d.locations.length) →
      (∀ k < d.dists.length, ∀ i < d.locations.length, ∀ j < d.locations.length,
        sel (arrs.getD k default) i j = (ms.getD k default).get i j) →
      arrs.map (fun a => (sel a).toMatrix d.locations.length) = ms := by
    intro sel ms hl hx hget
    apply List.ext_getElem
    · simp [hl, ← hlen]
    · intro k h1 h2
      have hk : k < d.dists.length := hl ▸ h2
      rw [List.getElem_map]
      obtain ⟨hfull, hr, hcc⟩ := hx _ (List.getElem_mem h2)
      refine toMatrix_eq hr hcc hfull fun i hi j hj => ?_
      have hk1 : k < arrs.length := hlen ▸ hk
      have := hget k hk i hi j hj
      simpa [List.getD_eq_getElem?_getD, hk1, h2] using this
  have hprof : List.range ((d.dists.zip d.durs).map (fullEdges d.numLocations)).length
      = List.range d.dists.length := by rw [List.length_map, hzl]
  have hne : List.range d.dists.length ≠ [] := by
    intro h0
    have := congrArg List.length h0
    rw [List.length_range] at this
    exact hc.hasMatrix (List.eq_nil_of_length_eq_zero this)
  have hsq := fun m hm => hc.square m hm
  have e1 : arrs.map (fun a => a.1.toMatrix d.locations.length) = d.dists :=
    hmats (·.1) d.dists rfl (fun x hx => ⟨hf.1 x hx, (hsq x (List.mem_append_left _ hx)).1,
      (hsq x (List.mem_append_left _ hx)).2.1⟩)
      (fun k hk i hi j hj => congrArg Prod.fst (harr k hk i hi j hj))
  have e2 : arrs.map (fun a => a.2.toMatrix d.locations.length) = d.durs :=
    hmats (·.2) d.durs hc.sameCount.symm (fun x hx => ⟨hf.2 x hx,
      (hsq x (List.mem_append_right _ hx)).1, (hsq x (List.mem_append_right _ hx)).2.1⟩)
      (fun k hk i hi j hj => congrArg Prod.snd (harr k hk i hi j hj))
  unfold PyModel.data PyModel.locationRefs
  simp only [hrefs, hprof, PyModel.setEdges, ha, if_neg hne, map_snd_range_zip, map_range_getD,
    List.length_zip, List.length_range, Nat.min_self, e1, e2]
  rw [hd]
  rfl

/-- **C39.** Making a model from accepted data raises a `ValueError` when some distance or duration is
negative, although such data are accepted. -/
theorem C39_from_data_negative (d : ProblemData) (hd : ProblemData.make d = .ok d)
    (hn : ¬ NonNegative d) : ∃ e, PyModel.fromData d = .error e ∧ IsValueError e := by
  have hc := ((C37_accepts_exactly_consistent d d).1 hd).2
  have : ∃ p ∈ d.dists.zip d.durs, ∃ i < d.numLocations, ∃ j < d.numLocations,
      ¬ Accepts (entryEdge p.1 p.2 i j) := by
    apply Classical.byContradiction
    intro hno
    apply hn
    have hall : ∀ p ∈ d.dists.zip d.durs, ∀ i < d.numLocations, ∀ j < d.numLocations,
        Accepts (entryEdge p.1 p.2 i j) := fun p hp i hi j hj =>
      Classical.byContradiction fun h => hno ⟨p, hp, i, hi, j, hj, h⟩
    intro i hi j hj
    constructor
    · intro m hm
      obtain ⟨k, hk⟩ := List.getElem?_of_mem hm
      have hk1 := (List.getElem?_eq_some_iff.1 hk).1
      have hk2 : k < d.durs.length := hc.sameCount ▸ hk1
      have hz : (m, d.durs[k]) ∈ d.dists.zip d.durs :=
        List.mem_of_getElem? (i := k) (by
          rw [List.getElem?_zip_eq_some]; exact ⟨hk, List.getElem?_eq_getElem hk2⟩)
      exact ((accepts_iff _).1 (hall _ hz i hi j hj)).1
    · intro m hm
      obtain ⟨k, hk⟩ := List.getElem?_of_mem hm
      have hk1 := (List.getElem?_eq_some_iff.1 hk).1
      have hk2 : k < d.dists.length := hc.sameCount.symm ▸ hk1
      have hz : (d.dists[k], m) ∈ d.dists.zip d.durs :=
        List.mem_of_getElem? (i := k) (by
          rw [List.getElem?_zip_eq_some]; exact ⟨List.getElem?_eq_getElem hk2, hk⟩)
      exact ((accepts_iff _).1 (hall _ hz i hi j hj)).2.1
  obtain ⟨e, he, hv⟩ := allProfileEdges_error this
  unfold PyModel.fromData
  rw [he]
  exact ⟨e, rfl, hv⟩

/-! ### What does not hold -/

/-- **C39**, negation of "never silently dropped". An edge that is added for a profile that is not in the
model (such as one of another model) is accepted, and has no effect on the data. -/
theorem C39_negation_foreign_profile {calls : List Call} {m m' : PyModel} (h : Builds calls m)
    (e : Edge) (p : Nat) (hp : p ∉ profilesOf calls)
    (he : m.exec (.edge e (some p)) = .ok m') (missingValue : Int) :
    m'.data missingValue = m.data missingValue := by
  have R := reflects h
  rw [← R.profiles] at hp
  simp only [PyModel.exec, PyModel.addEdge] at he
  cases hm : Edge.make e with
  | error err => rw [hm] at he; cases he
  | ok edge =>
    rw [hm] at he; cases he
    have hcongr : ∀ refs base ps, p ∉ ps →
        PyModel.profileArrays refs (write m.profileHeap p (m.profileHeap p ++ [edge])) base ps
          = PyModel.profileArrays refs m.profileHeap base ps := by
      intro refs base ps hps
      induction ps with
      | nil => rfl
      | cons q rest ih =>
        rw [List.mem_cons, not_or] at hps
        have hq : write m.profileHeap p (m.profileHeap p ++ [edge]) q = m.profileHeap q := by
          unfold write; rw [if_neg (Ne.symm hps.1)]
        unfold PyModel.profileArrays
        rw [hq, ih hps.2]
    unfold PyModel.data
    simp only [hcongr _ _ _ hp]
    rfl

namespace C39

/-- A model: three locations, two of which are joined by an edge for all profiles that a profile
overrides, a depot, a group of two clients, a shipment and a vehicle type with reloads. -/
def demo : List Call :=
  [.location 10 ⟨0, 0, ""⟩, .location 11 ⟨3, 4, ""⟩, .profile 20, .edge ⟨10, 11, 5, 6⟩ none,
   .edge ⟨11, 10, 7, 8⟩ none, .location 12 ⟨6, 8, ""⟩, .edge ⟨10, 11, 2, 3⟩ (some 20),
   .edge ⟨10, 11, 9, 9⟩ (some 20), .profile 21, .edge ⟨10, 11, 4, 4⟩ none,
   .depot 30 11 ⟨0, 0, 100, 0, ""⟩, .group 40 true "g",
   .client 12 none ⟨0, [1], [0], 1, 0, 50, 0, 0, true, none, ""⟩,
   .client 10 (some 40) ⟨0, [2], [0], 1, 0, 50, 0, 0, false, none, ""⟩,
   .client 12 (some 40) ⟨0, [2], [1], 1, 0, 50, 0, 3, false, none, ""⟩,
   .shipment 10 12 ⟨⟨0, 0, 100, 0⟩, ⟨0, 0, 100, 0⟩, [3], 0, true, ""⟩,
   .vehicleType none (some 30) (some 21) [30] { capacity := [10] }]

/-- The calls in order; nothing when one of them raises. -/
def runAll (m : PyModel) : List Call → Option PyModel
  | [] => some m
  | c :: cs => match m.exec c with | .ok m' => runAll m' cs | .error _ => none

def fresh (calls : List Call) : Call → Bool
  | .location ref _ => decide (ref ∉ (locationsOf calls).map (·.1))
  | .profile ref => decide (ref ∉ profilesOf calls) && decide (edgesOf calls (some ref) = [])
  | .group ref _ _ => decide (ref ∉ (groupsOf calls).map (·.1))
  | _ => true

theorem fresh_iff {calls : List Call} {c : Call} (h : fresh calls c = true) :
    FreshIdentity calls c := by
  cases c <;> simp_all [fresh, FreshIdentity]

def allFresh (done : List Call) : List Call → Bool
  | [] => true
  | c :: cs => fresh done c && allFresh (done ++ [c]) cs

theorem builds {done calls : List Call} {m m' : PyModel} (h : Builds done m)
    (hf : allFresh done calls = true) (hr : runAll m calls = some m') : Builds (done ++ calls) m' := by
  induction calls generalizing done m with
  | nil => cases hr; simpa using h
  | cons c cs ih =>
    simp only [allFresh, Bool.and_eq_true] at hf
    unfold runAll at hr
    cases he : m.exec c with
    | error e => rw [he] at hr; cases hr
    | ok m1 =>
      rw [he] at hr
      have := ih (.call c h (fresh_iff hf.1) he) hf.2 hr
      simpa using this

/-- The matrices of the demo: the first profile has its own last edge, the second the last edge for all
profiles. -/
example : ∃ m d, Builds demo m ∧ m.data 99 = .ok d
    ∧ d.dists = [⟨3, 3, [0, 9, 99, 7, 0, 99, 99, 99, 0]⟩, ⟨3, 3, [0, 4, 99, 7, 0, 99, 99, 99, 0]⟩]
    ∧ d.groups = [⟨[1, 2], true, "g"⟩] ∧ (d.vehicleTypes.map (·.profile)) = [1] := by
  have hrun : (runAll {} demo).isSome = true := by decide
  obtain ⟨m, hm⟩ := Option.isSome_iff_exists.1 hrun
  have hb : Builds demo m := builds .new (by decide) hm
  have hd : ((runAll {} demo).bind fun m => (m.data 99).toOption.map fun d =>
      (d.dists, d.groups, d.vehicleTypes.map (·.profile)))
      = some ([⟨3, 3, [0, 9, 99, 7, 0, 99, 99, 99, 0]⟩, ⟨3, 3, [0, 4, 99, 7, 0, 99, 99, 99, 0]⟩],
        [⟨[1, 2], true, "g"⟩], [1]) := by decide
  rw [hm, Option.bind_some] at hd
  cases hdd : m.data 99 with
  | error e => rw [hdd] at hd; simp [Except.toOption] at hd
  | ok d =>
    rw [hdd] at hd
    simp only [Except.toOption, Option.map_some, Option.some.injEq, Prod.mk.injEq] at hd
    exact ⟨m, d, hb, hdd, hd⟩

/-- After the calls of the demo, an optional client can join the group, a required one cannot, and
neither can a client be at an unknown location or a shipment have a negative prize. -/
example : (runAll {} demo).map (fun m =>
      [Call.client 10 (some 40) ⟨0, [2], [0], 1, 0, 50, 0, 0, false, none, ""⟩,
       .client 10 (some 40) ⟨0, [2], [0], 1, 0, 50, 0, 0, true, none, ""⟩,
       .client 13 none ⟨0, [2], [0], 1, 0, 50, 0, 0, true, none, ""⟩,
       .shipment 10 12 ⟨⟨0, 0, 100, 0⟩, ⟨0, 0, 100, 0⟩, [3], -1, true, ""⟩].map
        fun c => (m.exec c).toOption.isSome)
    = some [true, false, false, false] := by decide

/-- Hypotheses of the theorem about `from_data`. -/
example : ProblemData.make C37.demo = .ok C37.demo ∧ FullMatrices C37.demo
    ∧ NonNegative C37.demo := by
  refine ⟨by decide, ?_, ?_⟩
  · simp [FullMatrices, Matrix.Full, C37.demo]
  · unfold NonNegative; decide

/-- Data with a negative distance are accepted. -/
example : ∃ d, ProblemData.make d = .ok d ∧ ¬ NonNegative d := by
  refine ⟨{ C37.demo with dists := [⟨2, 2, [0, -5, 5, 0]⟩] }, by decide, ?_⟩
  unfold NonNegative; decide

/-- A client for the group of the demo of C37. -/
def newClient : Client := ⟨0, [1], [1], 1, 0, 50, 0, 5, false, none, ""⟩

end C39

/-- **C39**, negation. Adding a client to a group of a model that was made from data changes those data,
which are meant to be immutable, and leaves them inconsistent. -/
theorem C39_negation_shared_groups : ∃ d : ProblemData, ProblemData.make d = .ok d
    ∧ ∃ m m', PyModel.fromData d = .ok m ∧ m.exec (.client 0 (some 0) C39.newClient) = .ok m'
      ∧ ¬ Consistent (PyModel.originalNow d m') := by
  refine ⟨C37.demo, by decide, ?_⟩
  have key : (match PyModel.fromData C37.demo with
      | .ok m => match m.exec (.client 0 (some 0) C39.newClient) with
        | .ok m' => decide (ProblemData.make (PyModel.originalNow C37.demo m')
            ≠ .ok (PyModel.originalNow C37.demo m'))
        | .error _ => false
      | .error _ => false) = true := by decide
  cases hm : PyModel.fromData C37.demo with
  | error e => rw [hm] at key; cases key
  | ok m =>
    rw [hm] at key
    dsimp only at key
    cases hm' : m.exec (.client 0 (some 0) C39.newClient) with
    | error e => rw [hm'] at key; cases key
    | ok m' =>
      rw [hm'] at key
      simp only [decide_eq_true_eq] at key
      exact ⟨m, m', rfl, hm', fun hc =>
        key ((C37_accepts_exactly_consistent _ _).2 ⟨rfl, hc⟩)⟩

end PyVRP
