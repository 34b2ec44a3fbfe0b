import Verif.Model.Rtp
import Verif.Model.Simulate
import Verif.Model.MixingValve
import Verif.Model.SlugTank

/-!
Model of `objects/dhwsystems/rtp_systems/MultiPassRTPSystem.py`: sizing, the capacity boost of `from_size`, and the
simulation. `get_sizing_curve` is in `MultiPassCurve`.

Tanks whose volume or slope is 0 raise `ZeroDivisionError` in most queries of the Python class; the model raises it at
the start of a step.
-/

namespace Eco
variable {K : Type} [Field K] [LinearOrder K]

/-! ### Sizing -/

/-- `_calc_avg_hot_temp_at_on_trigger` (`DHWSystem.py:1085-1147`). -/
def avgHotAtTrigger (c : SysCfg K) (on onTemp slope : K) : Py K := do
  let onPct := on * 100
  let a ← fdiv (c.supply - onTemp) slope
  let supplyH := onPct + a
  let b ← fdiv (c.storage - onTemp) slope
  let storageH := onPct + b
  let top := if 100 < storageH then onTemp + (100 - onPct) * slope else c.storage
  if 100 ≤ supplyH then return c.supply
  else
    let bottom := if supplyH < 0 then onTemp - onPct * slope else c.supply
    let transGal := min 100 storageH - max 0 supplyH
    let hotGal := max 0 (100 - storageH)
    let total := transGal + hotGal
    if total ≤ 0 then return c.supply
    else return (transGal * ((top + bottom) / 2) + c.storage * hotGal) / total

/-- `min([… for control in control_map.values()])` (`MultiPassRTPSystem.py:235-238`): `None` has no `values`, the
minimum of an empty list is a `ValueError`. -/
def mpAvgOutlet (c : SysCfg K) (cmap : Option (ControlMap K)) (slope : K) : Py K :=
  match cmap with
  | none => .error .attributeError
  | some m => do
    let vs ← m.mapM (fun p => avgHotAtTrigger c p.2.onFract p.2.onTrig slope)
    match vs.min? with
    | none => .error .valueError
    | some v => return v

/-- The slug of the sizing run: its volume and temperature. -/
structure SizingSlug (K : Type) where
  vol : K
  temp : K

/-- The part of one minute after the mixing valve (`MultiPassRTPSystem.py:480-503`): `draw` gallons at `inlet` enter the
slug, `heat` kBTU are added, and a slug at storage temperature is done. -/
def slugMinute (heat cold storage : K) (s : SizingSlug K) (draw inlet : K) : SizingSlug K :=
  let s1 : SizingSlug K :=
    if 0 < draw then
      if s.vol ≤ 0 then ⟨draw, inlet⟩
      else ⟨s.vol + draw, (s.vol * s.temp + draw * inlet) / (s.vol + draw)⟩
    else s
  let s2 : SizingSlug K := if 0 < s1.vol then { s1 with temp := s1.temp + heat * 1000 / (s1.vol * rhoCp K) } else s1
  if 0 < s2.vol ∧ storage ≤ s2.temp then ⟨0, cold⟩ else s2

/-- The valve's answer for minute `t` of the sizing run (`MultiPassRTPSystem.py:461-473`). -/
def sizingValve (c : SysCfg K) (l : RtpLoop K) (avg cold : K) (b : Building K) (t : Nat) : Py (K × K) := do
  let demand ← b.getDhwLoad t 1
  mixingValve demand (l.flow * 1) cold c.supply l.ret avg

/-- The loop (`MultiPassRTPSystem.py:461-506`): `n` further minutes from minute `t`; the slug and the largest volume so
far. -/
def slugLoop (c : SysCfg K) (l : RtpLoop K) (avg cold heat : K) (b : Building K) :
    Nat → Nat → SizingSlug K → K → Py K
  | 0, _, _, m => .ok m
  | n + 1, t, s, m => do
    let (draw, inlet) ← sizingValve c l avg cold b t
    let s := slugMinute heat cold c.storage s draw inlet
    slugLoop c l avg cold heat b n (t + 1) s (if m < s.vol then s.vol else m)

/-- `_calc_running_volume_supplyT_gal` (`MultiPassRTPSystem.py:420-508`). -/
def mpRunVol (c : SysCfg K) (l : RtpLoop K) (avg : K) (b : Building K) (cap : K) : Py K := do
  let cold ← requireDesignInlet b
  slugLoop c l avg cold (cap * 1 / 60) b 2880 0 ⟨0, cold⟩ 0

/-- A `MultiPassRTPSystem` before its tank and heater exist. -/
structure MpSys (K : Type) where
  base : DhwSys K
  loop : RtpLoop K
  avgOutlet : Option K := none

/-- The calculations of `size` (`MultiPassRTPSystem.py:239-247`): capacity, running volume and storage. -/
def mpCalc (c : SysCfg K) (l : RtpLoop K) (avg : K) (b : Building K) (cmap : Option (ControlMap K)) (slope : K) :
    Py (K × K) := do
  let cap ← rtpRequiredCapacity l c b
  let rv ← mpRunVol c l avg b cap
  let inlet ← requireDesignInlet b
  let sf ← stratFactor c cmap slope inlet
  let st ← storageVolume rv sf
  return (cap, st)

/-- The `try` block of `size` (`MultiPassRTPSystem.py:234-251`). -/
def mpSizeBody (s : MpSys K) (b : Building K) (cmap : Option (ControlMap K)) (slope : K) : MpSys K × Py Unit :=
  match mpAvgOutlet s.base.cfg cmap slope with
  | .error e => (s, .error e)
  | .ok avg =>
    let s1 := { s with avgOutlet := some avg }
    match mpCalc s1.base.cfg s1.loop avg b cmap slope with
    | .error e => (s1, .error e)
    | .ok (cap, st) =>
      ({ s1 with base := { s1.base with minCap := some cap, minStorage := some st, sizingSlope := some slope } }, .ok ())

/-- `size` (`MultiPassRTPSystem.py:195-256`): the new state of system and building, and the outcome. The control
schedule and the load-shift fraction are not read. -/
def MpSys.size (db : ShapeFiles K) (s : MpSys K) (b : Building K) (cmap : Option (ControlMap K)) (slope : K) :
    (MpSys K × Building K) × Py Unit :=
  if isLoadShifting cmap then ((s, b), .error .valueError)
  else
    let wasAnnual := b.isAnnual
    match (if wasAnnual then b.setToDaily db else .ok b) with
    | .error e => ((s, b), .error e)
    | .ok b1 =>
      let r := mpSizeBody s b1 cmap slope
      if wasAnnual then
        match b1.setToAnnual db with
        | .error e => ((r.1, b1), .error e)
        | .ok b2 => ((r.1, b2), r.2)
      else ((r.1, b1), r.2)

/-! ### Simulation -/

/-- A `MultiPassRTPSystem` as `simulate_step` sees it. -/
structure MpSim (K : Type) where
  supply : K
  storage : K
  loop : RtpLoop K
  heaters : List (Heater K)
  tank : SlugTank K

/-- `total_kbtuh` without an inlet temperature (`MultiPassRTPSystem.py:590-592`), and the other sums of
`Model/Simulate.lean`. -/
def mpOutput (ws : List (Heater K)) (oat : K) (hour : Nat) : Py (K × Option K) := do
  let q ← totalOutput ws oat hour none
  let kws ← activeKws ws oat hour none
  return (q, totalKw kws)

/-- The tank after the heater decision (`MultiPassRTPSystem.py:581-585`). -/
def mpLifecycle (tank : SlugTank K) (supply : K) (was now : Bool) : SlugTank K :=
  if now then tank.activate supply else if was then tank.deactivate else tank

/-- The tank after heat and draw (`MultiPassRTPSystem.py:617-626`). -/
def mpApply (tank : SlugTank K) (now : Bool) (kbtuh dur draw inlet : K) : SlugTank K :=
  let tank := if now && tank.active && decide (0 < tank.slugVol) then tank.heatSlug kbtuh dur else tank
  if 0 < draw then tank.drawPhysical draw inlet false else tank

/-- `simulate_step` (`MultiPassRTPSystem.py:514-646`). The reported outdoor temperature is the temperature at the top of
the tank. -/
def mpStep (b : Building K) (int : Nat) (s : MpSim K) (t : Nat) : Py (MpSim K × StepOut K) := do
  let demand ← b.getDhwLoad t int
  let oat ← b.getOat t int
  let inlet ← b.getInlet t int
  let hour := (t * int / 60) % 24
  let mode ← modeAt s.heaters hour
  if s.tank.base.vol = 0 ∨ s.tank.base.slope = 0 then .error .zeroDivision
  else do
    let tank := { s.tank with base := { s.tank.base with cold := inlet } }
    let was := s.heaters.any (·.active)
    let ws ← updateAll s.heaters (fun f => .ok (tank.tempAt f)) hour
    let now := ws.any (·.active)
    let tank := mpLifecycle tank s.supply was now
    let top := tank.tempAt 1
    let (kbtuh, kw) ← mpOutput ws oat hour
    let (draw, mvInlet) ← mixingValve demand (s.loop.flow * (int : K)) inlet s.supply s.loop.ret top
    let tank := mpApply tank now kbtuh (int : K) draw mvInlet
    return ({ s with heaters := ws, tank := tank },
      { demand := demand, usable := tank.usable s.supply, output := kbtuh, power := kw, oat := top, inlet := inlet,
        temps := nodeFracts.map tank.tempAt, mode := mode, delivery := some (if now then s.supply else top) })

/-- `simulate` (`Simulator.py:11-110`) of a `MultiPassRTPSystem`. -/
def mpSimulate (s : MpSim K) (b : Building K) (threshold : K) (maxMin : Int) (duration : String) :
    Py (MpSim K × SimRun K) := do
  let _ ← simDuration duration
  let cold ← designInletOr b
  let s := { s with tank := s.tank.init s.storage cold (initialUseable s.heaters) }
  simulateFrom (mpStep b) s.supply false threshold maxMin duration s

/-! ### `from_size` -/

/-- The sensor checks (`MultiPassRTPSystem.py:100-115`). -/
def mpSensorsOk (cmap : Option (ControlMap K)) (pu : K) : Bool :=
  match cmap with
  | none => true
  | some m => decide (1 ≤ pu) || m.all (fun p => decide (1 - pu ≤ p.2.onFract) && decide (1 - pu ≤ p.2.offFract))

/-- What the trial loop remembers (`MultiPassRTPSystem.py:153-156`). -/
structure Trial (K : Type) where
  deficit : Int
  minOutlet : K
  heaterOn : Bool
  start : Nat

/-- One minute's bookkeeping (`MultiPassRTPSystem.py:163-174`); a report without temperatures does not occur. -/
def Trial.note (r : Trial K) (i : Nat) (o : StepOut K) : Trial K :=
  let r :=
    if 0 < o.output ∧ r.heaterOn = false then { r with heaterOn := true, start := i }
    else if o.output ≤ 0 ∧ r.heaterOn = true then { r with heaterOn := false }
    else r
  if o.usable ≤ 0 ∧ o.temps.getLastD 0 < r.minOutlet then
    { r with deficit := (i : Int) - (r.start : Int), minOutlet := o.temps.getLastD 0 }
  else r

/-- The trial (`MultiPassRTPSystem.py:157-174`): `n` further minutes from minute `i`. -/
def trialLoop (b : Building K) : Nat → Nat → MpSim K → Trial K → Py (MpSim K × Trial K)
  | 0, _, s, r => .ok (s, r)
  | n + 1, i, s, r => do
    let (s, o) ← mpStep b 1 s i
    trialLoop b n (i + 1) s (r.note i o)

/-- The capacity boost (`MultiPassRTPSystem.py:145-188`): at most `n` further iterations of a trial of `days` days. The
capacity travels with the system. `pu` is the fraction of the tank above the cold inlet, `start` the charge each trial
starts with. -/
def boostLoop (b : Building K) (sched : Option (List String)) (cmap : Option (ControlMap K)) (cold start pu : K)
    (days : Nat) : Nat → MpSim K → K → Py (MpSim K × K)
  | 0, s, cap => .ok (s, cap)
  | n + 1, s, cap => do
    let s := { s with tank := s.tank.init s.storage cold start }
    let (s, r) ← trialLoop b (24 * 60 * days) 0 s ⟨0, s.supply, false, 0⟩
    if 0 < r.deficit then
      let kbtu := s.tank.base.vol * pu * rhoCp K * (s.supply - r.minOutlet) / 1000
      if 0 < kbtu then
        let cap := cap + kbtu / ((r.deficit : K) / 60)
        boostLoop b sched cmap cold start pu days n { s with heaters := [Heater.fromNominal cap sched cmap] } cap
      else boostLoop b sched cmap cold start pu days n s cap
    else return (s, cap)

/-- `from_size` (`MultiPassRTPSystem.py:58-189`): the building, and the sized system with its simulated state, or the
exception. -/
def mpFromSize (db : ShapeFiles K) (c : SysCfg K) (l : RtpLoop K) (b : Building K) (sched : Option (List String))
    (cmap : Option (ControlMap K)) (slope pu : K) (days iterations : Nat) : Building K × Py (MpSys K × MpSim K) :=
  if mpSensorsOk cmap pu = false then (b, .error .valueError)
  else
    match MpSys.size db { base := { cfg := c }, loop := l } b cmap slope with
    | ((_, b'), .error e) => (b', .error e)
    | ((s, b'), .ok ()) => (b', do
        let cap ← getMinCapacity s.base
        let vol ← getMinStorage s.base
        let cold ← requireDesignInlet b'
        let sim : MpSim K := ⟨c.supply, c.storage, l, [Heater.fromNominal cap sched cmap],
          SlugTank.new vol cold c.storage c.supply pu slope⟩
        let inlet ← designInletOr b'
        match cmap.bind normalOrFirst with
        | none => .error .attributeError
        | some ctrl =>
          let (sim, cap) ← boostLoop b' sched cmap inlet (max 0 (min 1 (1 - ctrl.onFract))) pu days iterations sim cap
          return ({ s with base := { s.base with minCap := some cap, heaterMap := cmap } }, sim))

end Eco
