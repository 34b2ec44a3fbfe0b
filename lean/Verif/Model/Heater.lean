import Verif.Model.Controls
import Verif.Model.PerfMap

/-!
Model of `objects/components/heating/Controls.py` (the two decisions) and
`objects/components/heating/WaterHeater.py`. A tank is seen through its
`get_temperature_at_fraction`, which may raise.
-/

namespace Eco
variable {K : Type} [Field K] [LinearOrder K]

/-- `should_turn_on` (`Controls.py:58-75`). -/
def Controls.shouldTurnOn (c : Controls K) (tempAt : K → Py K) : Py Bool := do
  let t ← tempAt c.onFract
  return decide (t < c.onTrig)

/-- `should_turn_off` (`Controls.py:77-94`). -/
def Controls.shouldTurnOff (c : Controls K) (tempAt : K → Py K) : Py Bool := do
  let t ← tempAt c.offFract
  return decide (c.offTrig ≤ t)

/-- `WaterHeater` (`WaterHeater.py:47-75`), without the fuel type, which nothing modelled reads. -/
structure Heater (K : Type) where
  perf : Option (PerfMap K)
  sched : Option (List String)
  cmap : Option (ControlMap K)
  active : Bool := false

namespace Heater

/-- `is_load_shifting` (`WaterHeater.py:181-185`). -/
def isLoadShifting (w : Heater K) : Bool :=
  match w.cmap with
  | none => false
  | some m => dictHas m "loadUp" || dictHas m "shed"

/-- `get_controls_for_hour` (`WaterHeater.py:187-204`). -/
def getControls (w : Heater K) (hour : Nat) : Py (Option (Controls K)) :=
  match w.sched, w.cmap with
  | some s, some m => do
    let key ← pyGet s hour
    return dictGet? m key
  | _, _ => .ok none

/-- `get_capacity_kbtuh` (`WaterHeater.py:210-233`). -/
def getCapacity (w : Heater K) (oat : Option K) (outlet : K) (inlet : Option K) : Py (Option K) :=
  match w.perf with
  | none => .ok none
  | some p => do return some (← p.getCapacity oat outlet inlet)

/-- `get_power_in_kw` (`WaterHeater.py:235-258`). -/
def getPower (w : Heater K) (oat : Option K) (outlet : K) (inlet : Option K) : Py (Option K) :=
  match w.perf with
  | none => .ok none
  | some p => p.getPower oat outlet inlet

/-- `get_output_kbtuh` (`WaterHeater.py:260-283`). -/
def getOutput (w : Heater K) (oat : Option K) (outlet : K) (inlet : Option K) : Py K :=
  if w.active = false then .ok 0
  else do return (← w.getCapacity oat outlet inlet).getD 0

/-- `get_outlet_temp_f` (`WaterHeater.py:285-303`). -/
def getOutletTemp (w : Heater K) (hour : Nat) : Py K := do
  match ← w.getControls hour with
  | none => .error .valueError
  | some c => return c.outlet

/-- `update_state` (`WaterHeater.py:305-333`): the new state and the outcome. -/
def updateState (w : Heater K) (tempAt : K → Py K) (hour : Nat) : Heater K × Py Unit :=
  match w.getControls hour with
  | .error e => (w, .error e)
  | .ok none => (w, .error .valueError)
  | .ok (some c) =>
    if w.active then
      match c.shouldTurnOff tempAt with
      | .error e => (w, .error e)
      | .ok true => ({ w with active := false }, .ok ())
      | .ok false => (w, .ok ())
    else
      match c.shouldTurnOn tempAt with
      | .error e => (w, .error e)
      | .ok true => ({ w with active := true }, .ok ())
      | .ok false => (w, .ok ())

/-- `from_nominal_capacity` (`WaterHeater.py:81-118`). -/
def fromNominal (cap : K) (sched : Option (List String)) (cmap : Option (ControlMap K)) : Heater K :=
  ⟨some (.nominal cap), sched, cmap, false⟩

end Heater

end Eco
