import Verif.Spec.Shared
import Verif.Model.Swing

/-! One plant with a swing tank for several buildings. -/

namespace Eco.Spec
variable {K : Type} [Field K] [LinearOrder K]

/-- The sizing of the system `s` for `b`, with a loop that circulates `flow`, succeeds and reports for the swing tank the volume
and the heating capacity `r`. -/
def SwingSizedAs (db : ShapeFiles K) (s : SwingSys K) (sched : Option (List String)) (cmap : Option (ControlMap K))
    (slope fract : K) (b : Building K) (flow : K) (r : K × K) : Prop :=
  ∃ s1 b1, SwingSys.size db { s with flow := flow } b sched cmap slope fract = ((s1, b1), .ok ()) ∧
    s1.tmVol = some r.1 ∧ s1.tmCap = some r.2

end Eco.Spec
