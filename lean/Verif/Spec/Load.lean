/-!
# Specification: the load on board during a trip

Independent of the segment calculus.
-/
namespace PyVRP.Spec

/-- What happens to the load at a visit: `fromDepot` is the amount for this visit that
must be on board when the trip starts, `change` is the change of the load on board at
the visit (what is picked up minus what is dropped off). -/
structure LoadEvent where
  fromDepot : Int
  change : Int
deriving DecidableEq, Repr

/-- The amounts on board over time, when `l` is on board now. -/
def onBoard (l : Int) : List LoadEvent → List Int
  | [] => [l]
  | e :: rest => l :: onBoard (l + e.change) rest

/-- What must be loaded at the start of the trip. -/
def loadedAtStart (l : List LoadEvent) : Int := (l.map LoadEvent.fromDepot).sum

/-- The amounts on board during a trip that also carries `extra` from its start. -/
def tripAmounts (extra : Int) (l : List LoadEvent) : List Int := onBoard (extra + loadedAtStart l) l

/-- `m` is the largest of the amounts. -/
def IsPeak (m : Int) (amounts : List Int) : Prop := m ∈ amounts ∧ ∀ x ∈ amounts, x ≤ m

end PyVRP.Spec
