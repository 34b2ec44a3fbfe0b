import Verif.Spec.Shared
import Verif.Model.ParallelLoop

/-! One plant with a parallel loop for several buildings. -/

namespace Eco.Spec
variable {K : Type} [Field K] [LinearOrder K]

/-- What the sizing of a system with a parallel loop reports. -/
structure LoopSizes (K : Type) where
  cap : K
  storage : K
  loopCap : K
  loopVol : K

/-- The sizing of the system `s` for `b`, with a loop that circulates `flow`, succeeds and reports the sizes `r`. -/
def LoopSizedAs (M : SizingMethods K) (db : ShapeFiles K) (s : ParSys K) (sched : Option (List String)) (cmap : Option (ControlMap K))
    (slope fract : K) (b : Building K) (flow : K) (r : LoopSizes K) : Prop :=
  ∃ s1 b1 w, ParSys.size M db { s with tm := { s.tm with flow := flow } } b sched cmap slope fract = ((s1, b1), .ok w) ∧
    s1.base.minCap = some r.cap ∧ s1.base.minStorage = some r.storage ∧ s1.minTmCap = some r.loopCap ∧ s1.minTmVol = some r.loopVol

end Eco.Spec
