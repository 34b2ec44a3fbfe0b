import Verif.Model.Simulate
import Verif.Spec.Scale

/-! Simulated plants of a different size. -/

namespace Eco.Spec
variable {K : Type} [Field K] [LinearOrder K]

/-- `w'` is `w` with `k` times the capacity and the power under all conditions. -/
structure TimesHeater (k : K) (w w' : Heater K) : Prop where
  sched : w'.sched = w.sched
  cmap : w'.cmap = w.cmap
  active : w'.active = w.active
  capacity : ∀ oat outlet inlet, w'.getCapacity oat outlet inlet = (w.getCapacity oat outlet inlet).map (Option.map (k * ·))
  power : ∀ oat outlet inlet, w'.getPower oat outlet inlet = (w.getPower oat outlet inlet).map (Option.map (k * ·))

/-- `m` times as many identical units, for `m` times the nominal capacity. -/
def moreUnits (m : ℕ) : PerfMap K → PerfMap K
  | .nominal cap => .nominal (m * cap)
  | .pkl p => .pkl { p with numUnits := m * p.numUnits, nominal := p.nominal.map ((m : K) * ·) }
  | .sim p => .sim { p with numUnits := m * p.numUnits, nominal := p.nominal.map ((m : K) * ·) }

/-- `k` times the tank, with the same temperatures. -/
def timesTank (k : K) (t : StratTank K) : StratTank K := { t with vol := k * t.vol, delta := k * t.delta }

/-- `k` times the mixed tank, at the same temperature. -/
def timesMixed (k : K) (t : MixedTank K) : MixedTank K := { t with vol := k * t.vol }

/-- `s'` is `k` times the primary system `s`. -/
structure TimesPrim (k : K) (s s' : Prim K) : Prop where
  supply : s'.supply = s.supply
  storage : s'.storage = s.storage
  heaters : List.Forall₂ (TimesHeater k) s.heaters s'.heaters
  tank : s'.tank = s.tank.map (timesTank k)

/-- `s'` is `k` times the swing system `s`, with `k` times the loop flow. -/
structure TimesSwing (k : K) (s s' : SwingSim K) : Prop where
  supply : s'.supply = s.supply
  storage : s'.storage = s.storage
  heaters : List.Forall₂ (TimesHeater k) s.heaters s'.heaters
  tank : s'.tank = timesTank k s.tank
  ret : s'.ret = s.ret
  flow : s'.flow = k * s.flow
  tm : s'.tm = timesMixed k s.tm
  tmHeater : TimesHeater k s.tmHeater s'.tmHeater

/-- `s'` is `k` times the parallel-loop system `s`. -/
structure TimesParSim (k : K) (s s' : ParSim K) : Prop where
  prim : TimesPrim k s.prim s'.prim
  tmTank : s'.tmTank = timesMixed k s.tmTank
  tmHeater : TimesHeater k s.tmHeater s'.tmHeater

/-- The same report with `k` times the volumes, the heat and the power. -/
def timesOut (k : K) (o : StepOut K) : StepOut K :=
  { o with demand := k * o.demand, usable := k * o.usable, output := k * o.output, power := o.power.map (k * ·),
           tmOutput := o.tmOutput.map (k * ·), tmInput := o.tmInput.map (k * ·) }

/-- The same run with `k` times the volumes, the heat and the power: the temperatures, the minutes without hot water and the
verdict are the same. -/
def timesRun (k : K) (r : SimRun K) : SimRun K :=
  { r with demand := r.demand.map (k * ·), usable := r.usable.map (k * ·), output := r.output.map (k * ·),
           power := r.power.map (Option.map (k * ·)), tmOutput := r.tmOutput.map (k * ·), tmInput := r.tmInput.map (k * ·) }

end Eco.Spec
