import Verif.Py
import Verif.Model.Constants

/-! `objects/dhwsystems/utils.py`: the thermostatic mixing valve of a return-to-primary system. -/

namespace Eco
variable {K : Type} [Field K] [LinearOrder K]

/-- `mixing_valve_behavior` (`dhwsystems/utils.py:4-20`): the gallons taken from storage
(`storage_draw_gal`) and the temperature of the water that replaces them (`inlet_temp_f`).
Every `/` is Python's, so a zero divisor raises. -/
def mixingValve (load flow cold supply ret storage : K) : Py (K × K) := do
  let lossBtu := flow * rhoCp K * (supply - ret)
  let critical ← fdiv lossBtu (rhoCp K * (storage - supply))
  if critical < load then
    let a ← fdiv (supply - cold) (storage - cold)
    let b ← fdiv (supply - ret) (storage - cold)
    return (load * a + flow * b, cold)
  else
    let a ← fdiv (supply - ret) (storage - ret)
    let drawn := (load + flow) * a
    let toTank := drawn - load
    let inlet ← fdiv (load * cold + toTank * ret) drawn
    return (drawn, inlet)

end Eco
