import Verif.Model.Constants
import Mathlib.Algebra.Order.Field.Basic
import Mathlib.Algebra.BigOperators.Group.Finset.Basic
import Mathlib.Order.Bounds.Basic

/-! The growing slug of multi-pass sizing, written from its physics: water that comes in mixes with what is there, the
heater warms it, and water at the target temperature is hot water and no longer counts. -/

namespace Eco.Spec
variable {K : Type} [Field K] [LinearOrder K]

/-- `V t` gallons at `T t` degrees wait to be heated after `t` minutes, when in minute `t` the tank takes in `draw t`
gallons at `inlet t` degrees and `kbtu` thousand BTU of heat. -/
structure Growing (kbtu target : K) (draw inlet V T : ℕ → K) (n : ℕ) : Prop where
  /-- no water waits at the start -/
  start : V 0 = 0
  /-- a minute without water -/
  idle : ∀ t < n, V t + max 0 (draw t) = 0 → V (t + 1) = 0
  /-- a minute with water: `x` is its temperature after mixing and heating, from the heat balance -/
  busy : ∀ t < n, V t + max 0 (draw t) ≠ 0 →
    ∃ x, (V t + max 0 (draw t)) * rhoCp K * x =
        V t * rhoCp K * T t + max 0 (draw t) * rhoCp K * inlet t + 1000 * kbtu ∧
      ((target ≤ x ∧ V (t + 1) = 0) ∨ (x < target ∧ V (t + 1) = V t + max 0 (draw t) ∧ T (t + 1) = x))

end Eco.Spec
