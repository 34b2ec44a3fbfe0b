import Verif.Model.Simulate
import Verif.Model.SwingEr
import Verif.Model.Report

/-!
Model of the `from_size` constructors of the systems with a temperature-maintenance tank: what they build once `size` has
returned, and how `simulate` starts it.
-/

namespace Eco
variable {K : Type} [Field K] [LinearOrder K]

/-- The swing tank's heater (`SwingSystem.py:160-173`, `SwingERTrdOffSystem.py:190-202` and `:254-269`). -/
def swingHeater (supply cap : K) : Heater K :=
  Heater.fromNominal cap (some (List.replicate 24 "normal")) (some [("normal", swingControls supply)])

/-- What `from_size` builds from the stored results (`SwingSystem.py:146-173`, and `SwingERTrdOffSystem.py:240-269` with the
enlarged element). A result that is `None` is a `TypeError` in a later step; after a successful `size` none is. -/
def SwingSys.build (s : SwingSys K) (slope : K) (sched : Option (List String)) (cmap : Option (ControlMap K)) :
    Py (SwingSim K) :=
  match s.base.minCap, s.base.minStorage, s.tmVol, s.tmCap with
  | some cap, some vol, some tmVol, some tmCap => .ok {
      supply := s.base.cfg.supply, storage := s.base.cfg.storage, heaters := [Heater.fromNominal cap sched cmap],
      tank := StratTank.new vol slope, ret := s.ret, flow := s.flow, tm := ⟨tmVol, 0, 0⟩,
      tmHeater := swingHeater s.base.cfg.supply tmCap }
  | _, _, _, _ => .error .typeError

/-- `from_size` (`SwingSystem.py:117-175`): the building left behind, and the system with its simulated parts. -/
def SwingSys.fromSize (db : ShapeFiles K) (c : SysCfg K) (ret flow sf : K) (b : Building K)
    (sched : Option (List String)) (cmap : Option (ControlMap K)) (slope fract : K) :
    Building K × Py (SwingSys K × SwingSim K) :=
  match SwingSys.new c ret flow sf with
  | .error e => (b, .error e)
  | .ok s =>
    match s.size db b sched cmap slope fract with
    | ((_, b'), .error e) => (b', .error e)
    | ((s', b'), .ok ()) => (b', do
        let sim ← s'.build slope sched cmap
        return ({ s' with base := { s'.base with heaterMap := cmap } }, sim))

/-- `from_size` (`SwingERTrdOffSystem.py:206-271`). -/
def ErSys.fromSize (db : ShapeFiles K) (c : SysCfg K) (ret flow sf erSf : K) (b : Building K)
    (sched : Option (List String)) (cmap : Option (ControlMap K)) (slope fract : K) :
    Building K × Py (ErSys K × SwingSim K) :=
  match ErSys.new c ret flow sf erSf with
  | .error e => (b, .error e)
  | .ok e =>
    match e.size db b sched cmap slope fract with
    | ((_, b'), .error x) => (b', .error x)
    | ((e', b'), .ok ()) => (b', do
        let sim ← e'.sw.build slope sched cmap
        return ({ e' with sw := { e'.sw with base := { e'.sw.base with heaterMap := cmap } } }, sim))

/-- `from_components` (`SwingERTrdOffSystem.py:103-204`) with a stratified primary tank and a swing tank of the given volumes:
the system with its simulated parts. -/
def ErSys.ofComponents (heaters : List (Heater K)) (tankVol slope tmVol tmCap : K) (b : Building K)
    (supply storage ret flow erSf : K) : Py (ErSys K × SwingSim K) := do
  let (e, w) ← ErSys.fromComponents heaters tankVol tmVol tmCap b supply storage ret flow erSf
  return (e, ⟨supply, storage, heaters, StratTank.new tankVol slope, ret, flow, ⟨tmVol, 0, 0⟩, w⟩)

/-- `tm_off_temp_f` (`SwingSystem.py:833-850`). -/
def tmOffTemp (supply : K) (w : Option (Heater K)) : Py K :=
  match w with
  | none => .ok (supply + 8)
  | some w => do
    match ← w.getControls 0 with
    | some c => return c.offTrig
    | none => return supply + 8

/-- `simulate` (`Simulator.py:11-110`) of a swing system, whose swing tank starts at `tm_off_temp_f`. -/
def SwingSim.simulate (s : SwingSim K) (b : Building K) (threshold : K) (maxMin : Int) (duration : String) :
    Py (SwingSim K × SimRun K) := do
  let _ ← simDuration duration
  let off ← tmOffTemp s.supply (some s.tmHeater)
  swingSimulate off s b threshold maxMin duration

/-- `get_sizing_results` (`EcosizerEngine.py:1145-1164`) of a swing system. The last two keys are present once the swing tank
is sized. -/
def swingResults (s : SwingSys K) : SizingResults K := ⟨s.base.minCap, s.base.minStorage, s.tmVol.map (·, s.tmCap)⟩

/-- `get_sizing_results` (`EcosizerEngine.py:1145-1164`) of a parallel-loop system. -/
def parResults (s : ParSys K) : SizingResults K := ⟨s.base.minCap, s.base.minStorage, s.minTmVol.map (·, s.minTmCap)⟩

/-- The simulated parts of a sized parallel-loop system (`ParallelLoopSystem.py:206-231`). -/
def ParSys.build (s : ParSys K) (slope : K) (sched : Option (List String)) (cmap : Option (ControlMap K)) :
    Py (ParSim K) :=
  match s.base.minCap, s.base.minStorage, s.tmTank, s.tmHeater with
  | some cap, some vol, some tank, some w => .ok ⟨Prim.ofSized s.base.cfg cap vol slope sched cmap, tank, w⟩
  | _, _, _, _ => .error .typeError

end Eco
