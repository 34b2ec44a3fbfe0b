import Verif.Model.SimRun
import Verif.Model.Heater
import Verif.Model.StratTank
import Verif.Model.ParallelLoop
import Verif.Model.Rtp

/-!
Model of the simulation of the systems with a primary stratified tank: `DHWSystem.simulate_step`,
`ParallelLoopSystem.simulate_step`, `SwingSystem.simulate_step`, `SinglePassRTPSystem.simulate_step`, and the set-up of
`interfaces/Simulator.py`.

A step returns the new state of the system and the dict it reports, or the exception; the half-updated state that an
exception leaves behind is not modelled here, since `simulate` lets the exception pass and returns no run.
-/

namespace Eco
variable {K : Type} [Field K] [LinearOrder K]

/-! ### Heaters of a system -/

/-- `self.water_heaters[0].control_schedule[hour_of_day] if … else "normal"` (`DHWSystem.py:1673-1677`,
`SwingSystem.py:936-940`, `MultiPassRTPSystem.py:559-563`). -/
def modeAt (ws : List (Heater K)) (hour : Nat) : Py String :=
  match ws with
  | [] => .ok "normal"
  | w :: _ =>
    match truthySched w.sched with
    | none => .ok "normal"
    | some s => pyGet s hour

/-- `_get_outlet_temp_f` (`DHWSystem.py:1729-1749`). -/
def outletAt (ws : List (Heater K)) (storage : K) (hour : Nat) : Py K := do
  let cs ← ws.mapM (fun w => w.getControls hour)
  return ((cs.filterMap id).map (·.outlet)).max?.getD storage

/-- `for wh in self.water_heaters: wh.update_state(tank, hour_of_day)` (`DHWSystem.py:1681-1682`). -/
def updateAll (ws : List (Heater K)) (tempAt : K → Py K) (hour : Nat) : Py (List (Heater K)) :=
  ws.mapM (fun w =>
    match w.updateState tempAt hour with
    | (_, .error e) => .error e
    | (w', .ok ()) => .ok w')

/-- `sum(wh.get_output_kbtuh(oat_f, wh.get_outlet_temp_f(hour), …) for wh in …)` (`DHWSystem.py:1686-1689`). -/
def totalOutput (ws : List (Heater K)) (oat : K) (hour : Nat) (inlet : Option K) : Py K := do
  let vs ← ws.mapM (fun w => w.getOutletTemp hour >>= fun o => w.getOutput (some oat) o inlet)
  return vs.sum

/-- `active_kws` (`DHWSystem.py:1691-1695`). -/
def activeKws (ws : List (Heater K)) (oat : K) (hour : Nat) (inlet : Option K) : Py (List (Option K)) :=
  (ws.filter (·.active)).mapM (fun w => w.getOutletTemp hour >>= fun o => w.getPower (some oat) o inlet)

/-- `total_kw` (`DHWSystem.py:1690`, `:1696-1697`). -/
def totalKw (kws : List (Option K)) : Option K :=
  if kws.any (·.isSome) then some (kws.map (·.getD 0)).sum else none

/-- The six heights reported (`DHWSystem.py:1710-1713`). -/
def nodeFracts : List K := [0, 1 / 5, 2 / 5, 3 / 5, 4 / 5, 1]

/-! ### The primary system -/

/-- A `DHWSystem` as `simulate_step` sees it. -/
structure Prim (K : Type) where
  supply : K
  storage : K
  heaters : List (Heater K)
  tank : Option (StratTank K)

/-- What a step asks the building and the schedule before it touches the tank (`DHWSystem.py:1655-1677`,
`SwingSystem.py:928-940`). -/
structure StepIn (K : Type) where
  demand : K
  oat : K
  inlet : K
  hour : Nat
  outlet : K
  mode : String

/-- `DHWSystem.py:1655-1677`. -/
def Prim.inputs (s : Prim K) (b : Building K) (t int : Nat) : Py (StepIn K) := do
  let demand ← b.getDhwLoad t int (s.heaters.any (·.isLoadShifting))
  let oat ← b.getOat t int
  let inlet ← b.getInlet t int
  let hour := (t * int / 60) % 24
  let outlet ← outletAt s.heaters s.storage hour
  let mode ← modeAt s.heaters hour
  return ⟨demand, oat, inlet, hour, outlet, mode⟩

/-- `get_temperature_at_fraction` of a stratified tank, which divides by its volume. -/
def StratTank.tempAtPy (s : StratTank K) (f : K) : Py K :=
  if s.vol = 0 then .error .zeroDivision else .ok (s.tempAt f)

/-- Heater decision, output and heat (`DHWSystem.py:1679-1699`, `SwingSystem.py:942-957`): the heaters, the heated tank,
the output and the list of powers. A tank with volume 0 raises when a heater or the line after looks at its
temperature. A slope of 0 raises at the latest when the usable volume is asked for, in the same step; the model raises
here. -/
def heatPrimary (ws : List (Heater K)) (tank : StratTank K) (i : StepIn K) (int : Nat) :
    Py (List (Heater K) × StratTank K × K × List (Option K)) := do
  let ws ← updateAll ws tank.tempAtPy i.hour
  let _ ← tank.tempAtPy 1
  let kbtuh ← totalOutput ws i.oat i.hour (some i.inlet)
  let kws ← activeKws ws i.oat i.hour (some i.inlet)
  if tank.slope = 0 then .error .zeroDivision
  else return (ws, tank.heat kbtuh (int : K) i.outlet, kbtuh, kws)

/-- `simulate_step` (`DHWSystem.py:1617-1727`). -/
def Prim.step (b : Building K) (int : Nat) (s : Prim K) (t : Nat) : Py (Prim K × StepOut K) := do
  let i ← s.inputs b t int
  match s.tank with
  | none => return (s,
      { demand := i.demand, usable := 0, output := 0, power := none, oat := i.oat, inlet := i.inlet,
        temps := List.replicate 6 0, mode := i.mode })
  | some tank => do
    let (ws, tank, kbtuh, kws) ← heatPrimary s.heaters tank i int
    let tank := tank.draw i.demand i.inlet s.supply i.outlet
    return ({ s with heaters := ws, tank := some tank },
      { demand := i.demand, usable := tank.usable s.supply, output := kbtuh, power := totalKw kws, oat := i.oat,
        inlet := i.inlet, temps := nodeFracts.map tank.tempAt, mode := i.mode })

/-- `check_for_outage` (`DHWSystem.py:1751-1768`). -/
def Prim.checkForOutage (s : Prim K) : Bool :=
  match s.tank with
  | none => false
  | some t => decide (t.usable s.supply ≤ 0)

/-! ### The set-up of `simulate` -/

/-- `control_map.get("normal") or next(iter(control_map.values()), None)` (`Simulator.py:169`). -/
def normalOrFirst (m : ControlMap K) : Option (Controls K) :=
  match dictGet? m "normal" with
  | some c => some c
  | none => m.head?.map (·.2)

/-- `_initial_percent_useable` (`Simulator.py:153-172`). -/
def initialUseable : List (Heater K) → K
  | [] => 1
  | w :: ws =>
    match w.cmap.bind normalOrFirst with
    | some c => max 0 (min 1 (1 - c.onFract))
    | none => initialUseable ws

/-- `building.get_design_inlet_water_temp_f() or 50.0` (`Simulator.py:61`): 50 also replaces a zero. -/
def designInletOr (b : Building K) : Py K := do
  match ← b.getDesignInlet with
  | none => return 50
  | some t => return if t = 0 then 50 else t

/-- The primary part of the set-up (`Simulator.py:61-68`). -/
def Prim.init (s : Prim K) (b : Building K) : Py (Prim K) := do
  let cold ← designInletOr b
  return { s with tank := s.tank.map (fun t => t.init s.storage cold (initialUseable s.heaters)) }

/-- `simulate` (`Simulator.py:11-110`) of a `DHWSystem`. -/
def Prim.simulate (s : Prim K) (b : Building K) (threshold : K) (maxMin : Int) (duration : String) :
    Py (Prim K × SimRun K) := do
  let _ ← simDuration duration
  let s ← s.init b
  simulateFrom (Prim.step b) s.supply false threshold maxMin duration s

/-- The system that `from_size` returns (`DHWSystem.py:136-221`, and `SinglePassRTPSystem.py:111-119`,
`ParallelLoopSystem.py:206-214`): a tank of the sized volume and one nominal heater of the sized capacity. -/
def Prim.ofSized (c : SysCfg K) (cap vol slope : K) (sched : Option (List String)) (cmap : Option (ControlMap K)) :
    Prim K :=
  ⟨c.supply, c.storage, [Heater.fromNominal cap sched cmap], some (StratTank.new vol slope)⟩

/-! ### Single-pass return-to-primary -/

/-- `simulate_step` (`SinglePassRTPSystem.py:326-355`). -/
def spStep (l : RtpLoop K) (b : Building K) (int : Nat) (s : Prim K) (t : Nat) : Py (Prim K × StepOut K) := do
  let (s, o) ← Prim.step b int s t
  match s.tank with
  | none => return (s, o)
  | some tank =>
    let tank := tank.recirc l.flow l.ret (int : K) (some s.supply)
    return ({ s with tank := some tank },
      { o with usable := tank.usable s.supply, temps := nodeFracts.map tank.tempAt })

/-- `simulate` of a `SinglePassRTPSystem`. -/
def spSimulate (l : RtpLoop K) (s : Prim K) (b : Building K) (threshold : K) (maxMin : Int) (duration : String) :
    Py (Prim K × SimRun K) := do
  let _ ← simDuration duration
  let s ← s.init b
  simulateFrom (spStep l b) s.supply false threshold maxMin duration s

/-! ### Parallel loop -/

/-- The simulated state of a `ParallelLoopSystem`. -/
structure ParSim (K : Type) where
  prim : Prim K
  tmTank : MixedTank K
  tmHeater : Heater K

/-- `simulate_step` (`ParallelLoopSystem.py:336-418`); the `print` at the end is left out. -/
def parStep (c : TmCfg K) (b : Building K) (int : Nat) (s : ParSim K) (t : Nat) : Py (ParSim K × StepOut K) := do
  let (p, o) ← Prim.step b int s.prim t
  match tmStep c (some o.oat) ((t * int / 60) % 24) (int : K) (s.tmTank, s.tmHeater) with
  | (_, .error e) => .error e
  | ((tank, w), .ok tm) => return (⟨p, tank, w⟩,
      { o with tmTemp := some tm.temp, tmOutput := some tm.kbtuh, tmInput := tm.kw })

/-- `simulate` of a `ParallelLoopSystem`; the TM tank starts at its turn-off temperature (`Simulator.py:70-77`). -/
def parSimulate (c : TmCfg K) (s : ParSim K) (b : Building K) (threshold : K) (maxMin : Int) (duration : String) :
    Py (ParSim K × SimRun K) := do
  let _ ← simDuration duration
  let p ← s.prim.init b
  let cold ← designInletOr b
  simulateFrom (parStep c b) p.supply false threshold maxMin duration { s with prim := p, tmTank := s.tmTank.init c.off cold }

/-! ### Swing tank -/

/-- The simulated state of a `SwingSystem`. -/
structure SwingSim (K : Type) where
  supply : K
  storage : K
  heaters : List (Heater K)
  tank : StratTank K
  ret : K
  flow : K
  tm : MixedTank K
  tmHeater : Heater K

/-- `hw_swing_gal` (`SwingSystem.py:960-969`). -/
def swingFlow (supply inlet t demand : K) : Py K :=
  if supply < t then fdiv (demand * (supply - inlet)) (t - inlet) else .ok demand

/-- The TM element (`SwingSystem.py:982-992`): new heater, output, power and heated tank. After `update_state` has
succeeded there are controls for the hour, so their outlet temperature is used; the tank ignores it. -/
def swingTm (w : Heater K) (tm : MixedTank K) (oat : K) (hour : Nat) (int : K) :
    Py (Heater K × K × Option K × MixedTank K) :=
  match w.updateState (fun f => .ok (tm.tempAt f)) hour with
  | (_, .error e) => .error e
  | (w, .ok ()) => do
    let kbtuh ← w.getOutput (some oat) (tm.tempAt 1) none
    let kw ← (if w.active then w.getPower (some oat) (tm.tempAt 1) none else .ok none)
    let out ← w.getOutletTemp hour
    return (w, kbtuh, kw, tm.heat kbtuh int out)

/-- `primary_kw` and `total_kw` (`SwingSystem.py:954-956`, `:1012-1015`). -/
def swingKw (kws : List (Option K)) (tmKw : Option K) : Option K :=
  let primary := if kws = [] then none else some (kws.map (·.getD 0)).sum
  if primary.isSome || tmKw.isSome then some (primary.getD 0) else none

/-- `simulate_step` (`SwingSystem.py:882-1033`). A TM tank with volume 0 raises. -/
def swingSimStep (b : Building K) (int : Nat) (s : SwingSim K) (t : Nat) : Py (SwingSim K × StepOut K) := do
  let i ← (Prim.mk s.supply s.storage s.heaters (some s.tank)).inputs b t int
  let (ws, tank, kbtuh, kws) ← heatPrimary s.heaters s.tank i int
  let swingT := s.tm.tempAt (1 / 2)
  let hw ← swingFlow s.supply i.inlet swingT i.demand
  let feed := tank.avgDraw hw
  if s.tm.vol = 0 then .error .zeroDivision
  else do
    let tm := (s.tm.mix hw feed).loss (recircLossKbtuh s.supply s.ret s.flow) (int : K)
    let (w, tmKbtuh, tmKw, tm) ← swingTm s.tmHeater tm i.oat i.hour (int : K)
    let tank := tank.drawPhysical hw i.inlet (some s.supply)
    let usable := if swingT < s.supply then 0 else tank.usable s.supply
    let mid := tm.tempAt (1 / 2)
    return ({ s with heaters := ws, tank := tank, tm := tm, tmHeater := w },
      { demand := i.demand, usable := usable, output := kbtuh, power := swingKw kws tmKw, oat := i.oat,
        inlet := i.inlet, temps := nodeFracts.map tank.tempAt, mode := i.mode, delivery := some mid,
        tmTemp := some mid, tmOutput := some tmKbtuh, tmInput := some (tmKbtuh / wToKbtuh K) })

/-- `simulate` of a `SwingSystem`: the swing tank starts at `tm_off_temp_f` (`Simulator.py:70-77`). -/
def swingSimulate (tmOff : K) (s : SwingSim K) (b : Building K) (threshold : K) (maxMin : Int) (duration : String) :
    Py (SwingSim K × SimRun K) := do
  let _ ← simDuration duration
  let cold ← designInletOr b
  let s := { s with
    tank := s.tank.init s.storage cold (initialUseable s.heaters)
    tm := s.tm.init tmOff cold }
  simulateFrom (swingSimStep b) s.supply true threshold maxMin duration s

end Eco
