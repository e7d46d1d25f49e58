import Verif.Model.Data
/-!
# Specification: well-formed activity sequences of a route
-/
namespace PyVRP.Spec

/-- Pickup and delivery activity of shipment `s`. -/
def pickupOf (s : Nat) : Activity := ⟨.pickup, s⟩
def deliveryOf (s : Nat) : Activity := ⟨.delivery, s⟩

/-- The activity belongs to shipment `s`. -/
def Concerns (s : Nat) (a : Activity) : Prop := a = pickupOf s ∨ a = deliveryOf s

/-- The activity's index refers to something in the data. -/
def InRange (data : ProblemData) (a : Activity) : Prop :=
  match a.type with
  | .depot => a.idx < data.depots.length
  | .client => a.idx < data.clients.length
  | .pickup => a.idx < data.shipments.length
  | .delivery => a.idx < data.shipments.length

/-- Shipment `s` is picked up once and later delivered once, without a depot visit in
between. -/
def Served (s : Nat) (acts : List Activity) : Prop :=
  ∃ before between after, acts = before ++ pickupOf s :: between ++ deliveryOf s :: after
    ∧ (∀ a ∈ between, a.type ≠ .depot)
    ∧ (∀ a ∈ before ++ between ++ after, ¬ Concerns s a)

/-- The number of (reload) depot visits. -/
def depotVisits (acts : List Activity) : Nat := acts.countP (fun a => a.type = .depot)

/-- Largest number of reloads of a vehicle type: none if there are no reload depots. -/
def reloadLimit (v : VehicleType) : Nat := if v.reloadDepots = [] then 0 else v.maxReloads

structure WellFormed (data : ProblemData) (v : VehicleType) (acts : List Activity) : Prop where
  inRange : ∀ a ∈ acts, InRange data a
  shipments : ∀ s, (∀ a ∈ acts, ¬ Concerns s a) ∨ Served s acts
  reloads : depotVisits acts ≤ reloadLimit v

end PyVRP.Spec
