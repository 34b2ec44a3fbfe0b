import Verif.Model.Simulate
import Verif.Spec.Sim
import Verif.Spec.Built

/-! Specification vocabulary for simulating the same system twice. -/

namespace Eco.Spec
variable {K : Type} [Field K] [LinearOrder K]

/-- The first decision of a simulation turns every heater on, whatever its state: in the first hour each heater's sensors lie
no higher than the ON sensor of the first heater's normal controls, and the cold water is below its triggers. -/
def StartsOn (ws : List (Heater K)) (storage cold : K) : Prop :=
  cold ≤ storage ∧ ∃ w rest m c, ws = w :: rest ∧ w.cmap = some m ∧ dictGet? m "normal" = some c ∧ 0 ≤ c.onFract ∧
    c.onFract ≤ 1 ∧ ∀ v ∈ ws, ∃ d, InForce v 0 d ∧ d.onFract ≤ c.onFract ∧ d.offFract ≤ c.onFract ∧ cold < d.onTrig ∧
      cold < d.offTrig

/-- A temperature-maintenance heater of capacity `cap` in all weathers that turns on below `on` and off at `off`. -/
structure FixedTm (w : Heater K) (on off cap : K) : Prop where
  keeps : KeepsBetween w on off
  capacity : ∀ oat outlet inlet, w.getCapacity oat outlet inlet = .ok (some cap)
  power : ∀ oat outlet inlet, ∃ x, w.getPower oat outlet inlet = .ok x

/-- The record shows that a temperature-maintenance heater which was off before the simulation ended it on, did not come on in
the first step, and could have: the tank was below `off` by then. -/
def LeftOn (r : SimRun K) (off : K) : Prop :=
  r.tmOutput.getLast? ≠ some 0 ∧ r.tmOutput.head? = some 0 ∧ ∃ x, r.tmTemp.head? = some x ∧ x < off

end Eco.Spec
