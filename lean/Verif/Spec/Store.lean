import Mathlib.Algebra.BigOperators.Intervals
import Mathlib.Algebra.Order.Field.Basic

/-!
Specification vocabulary for sizing: a design day repeated for ever, the shortfall of a stretch of
hours, and the level of a hot-water store that is refilled and drawn down hour by hour.
Nothing here refers to the model.
-/

namespace Eco.Spec
open Finset

variable {K : Type} [Field K] [LinearOrder K]

/-- Use in hour `h` when the day `shape` (fractions of `daily`) repeats for ever. -/
def use (daily : K) (shape : List K) (h : ℕ) : K := daily * shape.getD (h % shape.length) 0

/-- Use minus generation over the `n` hours starting at hour `s`. -/
def shortfall (use gen : ℕ → K) (s n : ℕ) : K := ∑ i ∈ range n, (use (s + i) - gen (s + i))

/-- Level of a store of size `cap` that is full at hour `s`, after `n` hours: each hour the generated
amount is added, the used amount is taken out, and what does not fit is lost. A negative level
means that the store ran dry. -/
def level (cap : K) (use gen : ℕ → K) (s : ℕ) : ℕ → K
  | 0 => cap
  | n + 1 => min cap (level cap use gen s n + gen (s + n) - use (s + n))

end Eco.Spec
