import Verif.Model.Constants
import Mathlib.MeasureTheory.Integral.IntervalIntegral.Basic

/-! Specification vocabulary: heat content and mean draw temperature of a reported temperature profile. -/

namespace Eco.Spec

/-- The heat [BTU] above the cold temperature in a tank of `vol` gallons whose temperature at height fraction `f`
is `temp f`. -/
noncomputable def tankHeat (vol cold : ℝ) (temp : ℝ → ℝ) : ℝ := rhoCp ℝ * vol * ∫ f in (0:ℝ)..1, (temp f - cold)

/-- The mean temperature of the top `gal` gallons. -/
noncomputable def topMean (vol : ℝ) (temp : ℝ → ℝ) (gal : ℝ) : ℝ :=
  (∫ f in (1 - gal / vol)..1, temp f) / (gal / vol)

end Eco.Spec
