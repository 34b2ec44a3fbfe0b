import Verif.Model.BuildingArgs

/-! What the arguments of a building mean: a list of parts. -/

namespace Eco.Spec
variable {K : Type} [Field K] [LinearOrder K]

/-- The load shapes an argument gives to the parts: none at all, or one entry for each. -/
def GivesShapes (a : ShapeArg K) (l : List (Option (List K))) : Prop :=
  (a = .none ∧ ∀ x ∈ l, x = none) ∨ a = .shapes l

/-- The parts described by lists of types, magnitudes and load shapes. -/
structure Describes (types : List (Option String)) (mags : List (Option K)) (peak avg : ShapeArg K)
    (parts : List (Building.Part K)) : Prop where
  types : parts.map (·.bt) = types
  mags : parts.map (·.mag) = mags
  peak : GivesShapes peak (parts.map (·.customPeak))
  avg : GivesShapes avg (parts.map (·.customAvg))

/-- The load-shape argument of a single building. -/
def single : Option (List K) → ShapeArg K
  | none => .none
  | some l => .numbers l

/-- Two buildings with the same climate, daily use and load shapes. -/
def SameDemand (a b : Building K) : Prop :=
  a.climate = b.climate ∧ a.dailyGal = b.dailyGal ∧ a.peakShape = b.peakShape ∧ a.avgShape = b.avgShape

end Eco.Spec
