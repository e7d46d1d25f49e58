import Verif.Props.C07
/-!
# Excess and time warp of a route are never negative, whatever the data
-/
namespace PyVRP

namespace DurSeg

/-- Time warps are not negative. -/
def WarpOk (s : DurSeg) : Prop := 0 ≤ s.timeWarp_ ∧ 0 ≤ s.cumTimeWarp_

theorem WarpOk.merge {a b : DurSeg} (e : Int) (ha : a.WarpOk) (hb : b.WarpOk) :
    (merge e a b).WarpOk := by
  obtain ⟨h1, h2⟩ := ha
  obtain ⟨h3, h4⟩ := hb
  constructor
  · simp only [DurSeg.merge]; omega
  · simp only [DurSeg.merge]; omega

theorem WarpOk.finaliseFront {a : DurSeg} (ha : a.WarpOk) : a.finaliseFront.WarpOk := by
  obtain ⟨h1, h2⟩ := ha
  unfold DurSeg.finaliseFront
  exact WarpOk.merge 0 ⟨Int.le_refl 0, Int.le_refl 0⟩ ⟨h1, Int.le_refl 0⟩

theorem WarpOk.timeWarp {a : DurSeg} (ha : a.WarpOk) (m : Int) : 0 ≤ a.timeWarp m := by
  obtain ⟨h1, h2⟩ := ha
  simp only [DurSeg.timeWarp]; omega

end DurSeg

namespace Route

theorem backStep_warpOk (data : ProblemData) (p : Nat) (a : Activity) (b : Back)
    (h : b.ds.WarpOk) : (backStep data p a b).ds.WarpOk := by
  obtain ⟨ty, i⟩ := a
  cases ty
  · exact (DurSeg.WarpOk.merge _ ⟨by simp [DurSeg.ofDepot], by simp [DurSeg.ofDepot]⟩ h).finaliseFront
  · exact DurSeg.WarpOk.merge _ ⟨by simp [DurSeg.ofClient], by simp [DurSeg.ofClient]⟩ h
  · exact DurSeg.WarpOk.merge _ ⟨by simp [DurSeg.ofStep], by simp [DurSeg.ofStep]⟩ h
  · exact DurSeg.WarpOk.merge _ ⟨by simp [DurSeg.ofStep], by simp [DurSeg.ofStep]⟩ h

theorem backward_warpOk (data : ProblemData) (v : VehicleType) (acts : List Activity) :
    (backward data v acts).ds.WarpOk := by
  have h : (acts.foldr (backStep data v.profile) (backInit data v)).ds.WarpOk := by
    induction acts with
    | nil =>
      exact DurSeg.WarpOk.merge 0 ⟨by simp [DurSeg.ofDepot], by simp [DurSeg.ofDepot]⟩
        ⟨by simp [DurSeg.ofVehicle], by simp [DurSeg.ofVehicle]⟩
    | cons a rest ih => exact backStep_warpOk data v.profile a _ ih
  exact DurSeg.WarpOk.merge 0 ⟨by simp [DurSeg.ofVehicle], by simp [DurSeg.ofVehicle]⟩
    (DurSeg.WarpOk.merge _ ⟨by simp [DurSeg.ofDepot], by simp [DurSeg.ofDepot]⟩ h)

theorem loadFold_nonneg (data : ProblemData) (v : VehicleType) (dim : Nat)
    (l : List ScheduledActivity) : ∀ st : LState, 0 ≤ st.ls.excessLoad_ →
    0 ≤ (l.foldl (loadStep data v dim) st).ls.excessLoad_ := by
  induction l with
  | nil => intro st h; exact h
  | cons s rest ih =>
    intro st h
    rw [List.foldl_cons]
    apply ih
    unfold loadStep
    split
    · simp only [LoadSeg.finalise, LoadSeg.excessLoad]; omega
    · simp only [LoadSeg.merge, LoadSeg.ofClient]; omega
    · simp only [LoadSeg.merge, LoadSeg.ofShipment]; omega
    · simp only [LoadSeg.merge, LoadSeg.ofShipment]; omega

theorem loadDim_nonneg (data : ProblemData) (v : VehicleType) (l : List ScheduledActivity)
    (dim : Nat) : 0 ≤ (loadDim data v l dim).2.2 := by
  have h0 : 0 ≤ (loadInit v dim).ls.excessLoad_ := by
    unfold loadInit; split <;> simp [LoadSeg.ofVehicle]
  have := loadFold_nonneg data v dim (l.drop 1) _ h0
  simp only [loadDim, LoadSeg.excessLoad]
  omega

theorem make_nonneg {data : ProblemData} {acts : List Activity} {vt : Nat} {r : Route}
    (h : Route.make data acts vt = .ok r) :
    0 ≤ r.timeWarp ∧ 0 ≤ r.excessDistance ∧ (∀ x ∈ r.excessLoad, 0 ≤ x)
      ∧ r.excessLoad.length = data.numLoadDimensions ∧ 0 ≤ r.overtime := by
  have hr := Route.make_eq_ok h
  subst hr
  refine ⟨(backward_warpOk data _ acts).timeWarp _, by simp only [Route.build]; omega, ?_,
    by simp [Route.build], by simp only [Route.build]; omega⟩
  intro x hx
  simp only [Route.build, List.map_map, List.mem_map] at hx
  obtain ⟨dim, _, rfl⟩ := hx
  exact loadDim_nonneg data _ _ dim

end Route
end PyVRP
