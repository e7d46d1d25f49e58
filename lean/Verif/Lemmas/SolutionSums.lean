import Verif.Lemmas.Solution
import Verif.Lemmas.RouteNonneg
/-!
# Lemmas on the totals of a solution
-/
namespace PyVRP
open Spec

namespace Solution

theorem foldl_intField {data : ProblemData} (f : Solution → Int) (g : Route → Int)
    (h : ∀ s r, f (addRoute data s r) = f s + g r) (l : List Route) :
    ∀ s, f (l.foldl (addRoute data) s) = f s + (l.map g).sum := by
  induction l with
  | nil => intro s; simp
  | cons r rest ih => intro s; rw [List.foldl_cons, ih, h]; simp; omega

theorem foldl_natField {data : ProblemData} (f : Solution → Nat) (g : Route → Nat)
    (h : ∀ s r, f (addRoute data s r) = f s + g r) (l : List Route) :
    ∀ s, f (l.foldl (addRoute data) s) = f s + (l.map g).sum := by
  induction l with
  | nil => intro s; simp
  | cons r rest ih => intro s; rw [List.foldl_cons, ih, h]; simp; omega

theorem foldl_constField {data : ProblemData} {α : Type} (f : Solution → α)
    (h : ∀ s r, f (addRoute data s r) = f s) (l : List Route) :
    ∀ s, f (l.foldl (addRoute data) s) = f s := by
  induction l with
  | nil => intro s; rfl
  | cons r rest ih => intro s; rw [List.foldl_cons, ih, h]

theorem foldl_excessLoad {data : ProblemData} (l : List Route) :
    ∀ s : Solution, s.excessLoad.length = data.numLoadDimensions →
    (l.foldl (addRoute data) s).excessLoad.length = data.numLoadDimensions
    ∧ ∀ dim, dim < data.numLoadDimensions → (l.foldl (addRoute data) s).excessLoad.getD dim 0
      = s.excessLoad.getD dim 0 + (l.map (fun r => r.excessLoad.getD dim 0)).sum := by
  induction l with
  | nil => intro s h; exact ⟨h, by simp⟩
  | cons r rest ih =>
    intro s h
    rw [List.foldl_cons]
    have hl : (addRoute data s r).excessLoad.length = data.numLoadDimensions := by simp [addRoute]
    refine ⟨(ih _ hl).1, fun dim hd => ?_⟩
    rw [(ih _ hl).2 dim hd]
    have : (addRoute data s r).excessLoad.getD dim 0
        = s.excessLoad.getD dim 0 + r.excessLoad.getD dim 0 := by
      simp [addRoute, List.getD_eq_getElem?_getD, hd]
    rw [this]
    simp; omega

theorem foldl_add {α : Type} (f : α → Int) (l : List α) : ∀ acc : Int,
    l.foldl (fun acc x => acc + f x) acc = acc + (l.map f).sum := by
  induction l with
  | nil => intro acc; simp
  | cons x rest ih => intro acc; rw [List.foldl_cons, ih]; simp; omega

theorem allPrizes_eq (data : ProblemData) :
    allPrizes data = (data.clients.map (·.prize)).sum + (data.shipments.map (·.prize)).sum := by
  simp [allPrizes, foldl_add]

theorem prizesOf_eq (data : ProblemData) (l : List ScheduledActivity) :
    Route.prizesOf data l = ((l.map (·.activity)).map (prizeOf data)).sum := by
  have : ∀ (l : List ScheduledActivity) (acc : Int),
      l.foldl (fun acc s =>
        let acc := if s.activity.isClient then acc + (data.client s.activity.idx).prize else acc
        if s.activity.isPickup then acc + (data.shipment s.activity.idx).prize else acc) acc
      = acc + ((l.map (·.activity)).map (prizeOf data)).sum := by
    intro l
    induction l with
    | nil => intro acc; simp
    | cons s rest ih =>
      intro acc
      rw [List.foldl_cons, ih]
      obtain ⟨⟨ty, i⟩, _, _, _, _, _⟩ := s
      cases ty <;> simp [Activity.isClient, Activity.isPickup, prizeOf] <;> omega
  have h := this l 0
  simpa [Route.prizesOf] using h

theorem sum_append_int (a b : List Int) : (a ++ b).sum = a.sum + b.sum := by simp

theorem perm_sum {a b : List Int} (h : a.Perm b) : a.sum = b.sum := by
  induction h with
  | nil => rfl
  | cons x _ ih => simp [ih]
  | swap x y l => simp; omega
  | trans _ _ h1 h2 => exact h1.trans h2

/-- The prizes collected on the routes of a plan. -/
theorem routes_prizes {data : ProblemData} {plan : RoutePlan} {routes : List Route}
    (hb : Built data plan routes) :
    (routes.map (·.prizes)).sum = ((visited plan).map (prizeOf data)).sum := by
  refine Built.induction (motive := fun plan routes =>
    (routes.map (·.prizes)).sum = ((visited plan).map (prizeOf data)).sum) ?_ ?_ hb
  · rfl
  · intro p plan r routes hm _ _ _ _ ih
    have hacts := (C07_schedule_lists_activities data p.2 p.1 r hm).1
    have hp : r.prizes = Route.prizesOf data r.schedule := by rw [Route.make_eq_ok hm]; rfl
    rw [visited_cons, List.map_cons, List.sum_cons, ih, hp, prizesOf_eq, hacts]
    simp [fullActs, prizeOf]

theorem visited_inRange {data : ProblemData} {plan : RoutePlan} {routes : List Route}
    (hb : Built data plan routes) : ∀ a ∈ visited plan, InRange data a := by
  refine Built.induction (motive := fun plan _ => ∀ a ∈ visited plan, InRange data a) ?_ ?_ hb
  · simp [visited]
  · intro p plan r routes hm _ hs hr _ ih a ha
    rw [visited_cons, List.mem_append] at ha
    rcases ha with ha | ha
    · exact ((C05_route_accepts_exactly_wellformed data p.2 p.1 hs hr).1.1 ⟨r, hm⟩).inRange a ha
    · exact ih a ha

theorem visited_delivery {data : ProblemData} {plan : RoutePlan} {routes : List Route}
    (hb : Built data plan routes) (s : Nat) :
    (⟨.delivery, s⟩ : Activity) ∈ visited plan ↔ ⟨.pickup, s⟩ ∈ visited plan := by
  refine Built.induction (motive := fun plan _ =>
    (⟨.delivery, s⟩ : Activity) ∈ visited plan ↔ ⟨.pickup, s⟩ ∈ visited plan) ?_ ?_ hb
  · simp [visited]
  · intro p plan r routes hm _ hs hr _ ih
    have hw := (C05_route_accepts_exactly_wellformed data p.2 p.1 hs hr).1.1 ⟨r, hm⟩
    have : (⟨.delivery, s⟩ : Activity) ∈ p.2 ↔ ⟨.pickup, s⟩ ∈ p.2 := by
      rcases hw.shipments s with h | ⟨b, m, x, he, -, -⟩
      · exact ⟨fun hh => absurd (.inr rfl) (h _ hh), fun hh => absurd (.inl rfl) (h _ hh)⟩
      · rw [he]; simp [pickupOf, deliveryOf]
    rw [visited_cons, List.mem_append, List.mem_append, this, ih]

theorem range_map_getD {α : Type} [Inhabited α] (l : List α) (f : α → Int) :
    ((List.range l.length).map (fun i => f (l.getD i default))).sum = (l.map f).sum := by
  congr 1
  apply List.ext_getElem
  · simp
  · intro i h1 h2
    simp at h1
    simp [List.getD_eq_getElem?_getD, List.getElem?_eq_getElem h1]

theorem nodup_map {α β : Type} {f : α → β} (hf : ∀ x y, f x = f y → x = y) {l : List α}
    (h : l.Nodup) : (l.map f).Nodup :=
  List.Pairwise.map f (fun x y hxy he => hxy (hf x y he)) h

theorem once_nodup_filter (l : List Activity) (p : Activity → Bool)
    (h : ∀ a, p a = true → l.count a ≤ 1) : (l.filter p).Nodup := by
  rw [List.nodup_iff_count]
  intro a
  by_cases hp : p a = true
  · rw [List.count_filter hp]; exact h a hp
  · rw [List.count_eq_zero.2]
    · omega
    · intro hm; exact hp (List.mem_filter.1 hm).2

theorem sum_map_filter (l : List Activity) (p : Activity → Bool) (f : Activity → Int)
    (h : ∀ a, p a = false → f a = 0) : ((l.filter p).map f).sum = (l.map f).sum := by
  induction l with
  | nil => rfl
  | cons a rest ih =>
    rw [List.filter_cons]
    cases hp : p a
    · simp [ih, h a hp]
    · simp [ih]

end Solution
end PyVRP
