import Verif.Model.MultiPass

/-! Moving a building to another climate. -/

namespace Eco.Spec
variable {K : Type} [Field K] [LinearOrder K]

/-- The same building in another place: its use, its load shapes and its type are kept. -/
def moved (c : Option (ClimateZone K)) (b : Building K) : Building K :=
  ⟨c, b.dailyGal, b.peakShape, b.avgShape, b.buildingType⟩

/-- A call that leaves an object and a building behind and has an outcome comes out the same in both places: the same object,
the same outcome (results, warnings or exception), and buildings that differ in the place only. -/
structure SameCall {S R : Type} (c : Option (ClimateZone K)) (here there : (S × Building K) × Py R) : Prop where
  object : there.1.1 = here.1.1
  outcome : there.2 = here.2
  building : there.1.2 = moved c here.1.2

/-- In the first `m` minutes the weather is the same in both places, whatever the interval in which it is asked for. -/
def SameWeather (b b' : Building K) (m : ℕ) : Prop :=
  ∀ t int, t * int < m → b.getOat t int = b'.getOat t int ∧ b.getInlet t int = b'.getInlet t int

end Eco.Spec
