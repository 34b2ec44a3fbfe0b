import Verif.Model.Building
import Mathlib.Data.List.Rotate

/-! The hour from which a day is counted. -/

namespace Eco.Spec
variable {K : Type} [Field K] [LinearOrder K]

/-- The same building with its days counted from hour `n`: what happened in hour `n` happens in hour 0. -/
def countedFrom (n : ℕ) (b : Building K) : Building K :=
  ⟨b.climate, b.dailyGal, b.peakShape.rotate n, b.avgShape.rotate n, b.buildingType⟩

/-- A day of 24 hours that uses at most the daily use of the building. -/
structure FullDay (b : Building K) : Prop where
  gal : 0 ≤ b.dailyGal
  hours : b.peakShape.length = 24
  sum : b.peakShape.sum ≤ 1

end Eco.Spec
