import Verif.Spec.Shapes
import Verif.Spec.Clock
import Mathlib.Algebra.Order.Group.Unbundled.Abs

/-! How far apart two load shapes are. -/

namespace Eco.Spec
variable {K : Type} [Field K] [LinearOrder K]

/-- The share of the daily use by which two days differ, added up over the hours. -/
def apart (p q : List K) : K := (List.zipWith (fun x y => |x - y|) p q).sum

/-- The building with another peak day and another average day. -/
def withDays (p a : List K) (b : Building K) : Building K := withPeak p (withAverage a b)

/-- Both sizings have results, which differ by at most `x`. -/
structure CloseBy (x : K) (s1 s2 : DhwSys K) : Prop where
  cap : ∃ c1 c2, s1.minCap = some c1 ∧ s2.minCap = some c2 ∧ |c2 - c1| ≤ x
  storage : ∃ v1 v2, s1.minStorage = some v1 ∧ s2.minStorage = some v2 ∧ |v2 - v1| ≤ x

end Eco.Spec
