import Verif.Spec.Unused

/-! The two load shapes of a building: the peak day and the average day. -/

namespace Eco.Spec
variable {K : Type} [Field K] [LinearOrder K]

/-- The building with another average day. -/
def withAverage (a : List K) (b : Building K) : Building K :=
  ⟨b.climate, b.dailyGal, b.peakShape, a, b.buildingType⟩

/-- The building with another peak day. -/
def withPeak (p : List K) (b : Building K) : Building K :=
  ⟨b.climate, b.dailyGal, p, b.avgShape, b.buildingType⟩

/-- A sizing call asks for load shifting: a schedule is given, and control settings for `"shed"`. -/
def AsksShift (sched : Option (List String)) (cmap : Option (ControlMap K)) : Prop :=
  ∃ s m, sched = some s ∧ s ≠ [] ∧ cmap = some m ∧ "shed" ∈ m.map (·.1)

/-- A heater that can shift load: it has control settings for `"loadUp"` or `"shed"`. -/
def Shifts (w : Heater K) : Prop := ∃ m, w.cmap = some m ∧ CanShift m

end Eco.Spec
