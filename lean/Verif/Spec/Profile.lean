import Mathlib.MeasureTheory.Integral.IntervalIntegral.Basic
import Mathlib.Analysis.SpecialFunctions.Integrals.Basic

/-!
Specification of the hot-water content of a tank with a given temperature profile over `ℝ`.
Heights are percent of tank height, so a 100-gallon tank holds one gallon per percent.
-/

namespace Eco.Spec
open MeasureTheory

/-- The profile assumed by sizing: it passes through `onTemp` at the sensor height `onPct`, rises with
`slope` and is capped at `storage`. -/
noncomputable def sizingProfile (onPct onTemp slope storage h : ℝ) : ℝ :=
  min storage (onTemp + slope * (h - onPct))

/-- Gallons at supply temperature obtained per gallon of water at temperature `T` by mixing with
inlet water. -/
noncomputable def mixYield (supply inlet T : ℝ) : ℝ := (T - inlet) / (supply - inlet)

/-- Supply-temperature gallons obtained from the part of a 100-gallon tank that lies above the
sensor and is at least at supply temperature. -/
noncomputable def supplyGallons (profile : ℝ → ℝ) (onPct supply inlet : ℝ) : ℝ :=
  ∫ h in {h | onPct ≤ h ∧ h ≤ 100 ∧ supply ≤ profile h}, mixYield supply inlet (profile h)

end Eco.Spec
