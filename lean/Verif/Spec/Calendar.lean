import Mathlib.Algebra.BigOperators.Group.List.Basic

/-! The 365-day calendar, as a specification. Nothing here refers to the model. -/

namespace Eco.Spec

/-- Days in each month, January first. -/
def monthLen : List ℕ := [31, 28, 31, 30, 31, 30, 31, 31, 30, 31, 30, 31]

/-- Day `d` of the year (0-364) lies in month `m` (0-11): all earlier months have passed, and the
month itself has not. -/
def InMonth (d m : ℕ) : Prop := m < 12 ∧ (monthLen.take m).sum ≤ d ∧ d < (monthLen.take (m + 1)).sum

instance (d m : ℕ) : Decidable (InMonth d m) := by unfold InMonth; infer_instance

/-- Minutes in a year. -/
def yearMin : ℕ := 365 * 24 * 60

end Eco.Spec
