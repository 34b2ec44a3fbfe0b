import Verif.Model.Simulate
import Verif.Spec.Sim

/-! Specification of a plant with a temperature-maintenance tank that is built from sizing results. -/

namespace Eco.Spec
variable {K : Type} [Field K] [LinearOrder K]

/-- The heater `w` is idle, follows the given schedule and controls, and has the capacity `cap` in all weathers. -/
structure BuiltHeater (w : Heater K) (cap : K) (sched : Option (List String)) (cmap : Option (ControlMap K)) : Prop where
  idle : w.active = false
  isSched : w.sched = sched
  isMap : w.cmap = cmap
  capacity : ∀ oat outlet inlet, w.getCapacity oat outlet inlet = .ok (some cap)

/-- In every hour of the day the heater turns on when the middle of its tank is below `on`, and off when it has reached
`off`, which is also its outlet temperature. -/
def KeepsBetween (w : Heater K) (on off : K) : Prop :=
  ∀ hour < 24, ∀ c, InForce w hour c ↔ c = ⟨1 / 2, on, 1 / 2, off, off⟩

/-- The simulated parts of a swing system with the given primary capacity and storage, swing tank and element. -/
structure BuiltSwing (sim : SwingSim K) (supply storage ret flow slope cap vol tmVol tmCap : K)
    (sched : Option (List String)) (cmap : Option (ControlMap K)) : Prop where
  isSupply : sim.supply = supply
  isStorage : sim.storage = storage
  loop : sim.ret = ret ∧ sim.flow = flow
  tank : sim.tank.vol = vol ∧ sim.tank.slope = slope
  primary : ∃ w, sim.heaters = [w] ∧ BuiltHeater w cap sched cmap
  swing : sim.tm.vol = tmVol
  element : sim.tmHeater.active = false ∧ ∀ oat outlet inlet, sim.tmHeater.getCapacity oat outlet inlet = .ok (some tmCap)
  keeps : KeepsBetween sim.tmHeater supply (supply + 8)

/-- The primary heater has controls in every hour of the day. -/
def Controlled (sched : Option (List String)) (cmap : Option (ControlMap K)) : Prop :=
  ∃ l m, sched = some l ∧ cmap = some m ∧ ∀ hour < 24, ∃ mode c, l[hour]? = some mode ∧ dictGet? m mode = some c

/-- The primary heater's outlet temperature is never below `supply`. -/
def HotEnough (supply : K) (sched : Option (List String)) (cmap : Option (ControlMap K)) : Prop :=
  ∀ l m, sched = some l → cmap = some m → ∀ mode ∈ l, ∀ c, dictGet? m mode = some c → supply ≤ c.outlet

end Eco.Spec
