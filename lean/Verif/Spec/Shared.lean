import Verif.Model.Size
import Verif.Model.SimRun
import Verif.Spec.Store
import Verif.Spec.Shapes
import Verif.Spec.Clock

/-! One plant for several buildings. -/

namespace Eco.Spec
variable {K : Type} [Field K] [LinearOrder K]

/-- `b` stands for the buildings `bs` together: they are in the same place, and in every hour of the peak day and of the average day
`b` uses the hot water of all of them. -/
structure Houses (b : Building K) (bs : List (Building K)) : Prop where
  place : ∀ p ∈ bs, p.climate = b.climate
  daily : b.dailyGal = (bs.map (·.dailyGal)).sum
  peak : ∀ h, use b.dailyGal b.peakShape h = (bs.map (fun p => use p.dailyGal p.peakShape h)).sum
  avg : ∀ h, use b.dailyGal b.avgShape h = (bs.map (fun p => use p.dailyGal p.avgShape h)).sum

/-- The sizing of the system `s` for `b` succeeds and reports the capacity and the storage `r`. -/
def SizedAs (M : SizingMethods K) (db : ShapeFiles K) (s : DhwSys K) (sched : Option (List String)) (cmap : Option (ControlMap K))
    (slope fract : K) (b : Building K) (r : K × K) : Prop :=
  ∃ s1 b1 w, size M db s b sched cmap slope fract = ((s1, b1), .ok w) ∧ s1.minCap = some r.1 ∧ s1.minStorage = some r.2

end Eco.Spec
