import Verif.Model.Heater
import Verif.Model.Building

/-! Heaters whose output depends on the weather. -/

namespace Eco.Spec
variable {K : Type} [Field K] [LinearOrder K]

/-- `oat` is an outdoor temperature of the building's place, in time steps of `ts` minutes. -/
def Outdoors (b : Building K) (ts : ℕ) (oat : K) : Prop := ∃ i, b.getOat i ts = .ok oat

/-- In the weather of the building the heater never cools. -/
def NeverCools (b : Building K) (ts : ℕ) (w : Heater K) : Prop :=
  ∀ (oat outlet : K) inlet q, Outdoors b ts oat → w.getCapacity (some oat) outlet inlet = .ok (some q) → 0 ≤ q

/-- In the weather of the building the heater gives between `lo` and `hi`. -/
def GivesBetween (b : Building K) (ts : ℕ) (w : Heater K) (lo hi : K) : Prop :=
  ∀ (oat outlet : K) inlet q, Outdoors b ts oat → w.getCapacity (some oat) outlet inlet = .ok q → lo ≤ q.getD 0 ∧ q.getD 0 ≤ hi

end Eco.Spec
