import Verif.Model.ParallelLoop

/-!
Model of the sizing part of `objects/dhwsystems/recirc_systems/SwingSystem.py`: the swing tank in series
with the primary storage.
-/

namespace Eco
variable {K : Type} [Field K] [LinearOrder K]

/-- `_SWING_SIZING_TABLE` (`SwingSystem.py:19-21`). -/
def swingTable : List Nat :=
  [40, 50, 80, 100, 120, 160, 175, 240, 350, 400, 500, 600, 800, 1000, 1250]

/-- `_SWING_SIZING_TABLE_CA` (`SwingSystem.py:26`). -/
def swingTableCa : List Nat := [80, 96, 168, 288, 480]

/-- A `SwingSystem` (`SwingSystem.py:71-110`). -/
structure SwingSys (K : Type) where
  base : DhwSys K
  ret : K
  flow : K
  sf : K
  tmVol : Option K
  tmCa : Option Nat
  tmCap : Option K
  effMix : K

/-- `__init__` (`SwingSystem.py:71-110`). -/
def SwingSys.new (c : SysCfg K) (ret flow sf : K) : Py (SwingSys K) :=
  if sf ≤ 1 then .error .valueError
  else .ok ⟨{ cfg := c }, ret, flow, sf, none, none, none, 1⟩

/-- `min(v for v in table if v >= required)`; `ValueError` when there is none. -/
def minEntry (table : List Nat) (required : K) : Py Nat :=
  match (table.filter (fun v : Nat => decide (required ≤ (v : K)))).min? with
  | none => .error .valueError
  | some v => .ok v

/-- The volume the swing tank must have (`SwingSystem.py:368-377`). -/
def swingRequired (supply ret flow : K) (b : Option (Building K)) : Py K :=
  let byLoss := recircLossKbtuh supply ret flow * 1000 / (100 * wToKbtuh K)
  match b with
  | none => .ok byLoss
  | some b => do
    let mx ← npMax b.peakShape
    return max byLoss (b.dailyGal * mx / 60)

/-- The California volume (`SwingSystem.py:389-394`). -/
def swingCa (vol : Nat) (required : K) : Py Nat :=
  if vol < 480 then minEntry swingTableCa required else .ok 480

/-- `_size_tm_system` (`SwingSystem.py:350-396`): volume, California volume and capacity. `max` of the table
is its last entry, 1250. -/
def sizeSwingTm (supply ret flow sf : K) (b : Option (Building K)) : Py (Nat × Nat × K) := do
  let lossBtu := recircLossKbtuh supply ret flow * 1000
  let required ← swingRequired supply ret flow b
  if (1250 : K) < required then .error .valueError
  else
    let vol ← minEntry swingTable required
    let ca ← swingCa vol required
    return (vol, ca, sf * lossBtu / 1000)

/-- What the minute-by-minute swing simulation reads from the object. -/
structure SwingParams (K : Type) where
  vol : K
  lossKbtuh : K
  capKbtuh : K
  supply : K

/-- Mixing `hw` gallons at `primary` into the swing tank (`SwingSystem.py:784-796`). -/
def swingMixed (vol t hw primary : K) : Py K :=
  if 0 < hw then
    if vol - hw ≤ 0 then .error .valueError
    else .ok ((hw * primary + t * (vol - hw)) / vol)
  else .ok t

/-- The element's minute (`SwingSystem.py:801-820`): element state, temperature and fraction of the minute
the element ran, for a tank at `t1` that the element can warm by `dT` in a minute. -/
def swingElement (supply : K) (heating : Bool) (t1 dT : K) : Py (Bool × K × K) :=
  if heating then
    if supply + 8 < t1 + dT then
      (fdiv (t1 + dT - (supply + 8)) dT).map
        (fun q => (false, t1 + dT - dT * min q 1, 1 - min q 1))
    else .ok (true, t1 + dT, 1)
  else if t1 ≤ supply then
    (fdiv (supply - t1) dT).map (fun q => (true, t1 + dT * min q 1, min q 1))
  else .ok (false, t1, 0)

/-- `_run_one_swing_step` (`SwingSystem.py:755-827`): element state, temperature and fraction of the minute
the element ran. The volume is a table entry, hence not zero. -/
def swingStep (p : SwingParams K) (heating : Bool) (t hw primary : K) : Py (Bool × K × K) := do
  let mixed ← swingMixed p.vol t hw primary
  let r ← swingElement p.supply heating (mixed - p.lossKbtuh * 1000 / 60 / (rhoCp K * p.vol))
    (p.capKbtuh * 1000 / 60 / (rhoCp K * p.vol))
  if r.2.1 < p.supply then .error .valueError else return r

/-- One minute of the swing simulation's result: swing tank temperature, element run fraction, gallons from
the primary storage. -/
structure SwingMin (K : Type) where
  temp : K
  run : K
  hw : K
  deriving DecidableEq

/-- The gallons the primary storage must send for a demand of `d` supply-temperature gallons
(`SwingSystem.py:737-744`). -/
def swingDraw (supply inlet t d : K) : K := if inlet < t then d * (supply - inlet) / (t - inlet) else d

/-- The loop of `_sim_just_swing` (`SwingSystem.py:734-751`). -/
def simSwingFrom (p : SwingParams K) (inlet storage : K) :
    Bool → K → List K → Py (List (SwingMin K))
  | _, _, [] => .ok []
  | heating, t, d :: ds => do
    let hw := swingDraw p.supply inlet t d
    let (h', t', r) ← swingStep p heating t hw storage
    let rest ← simSwingFrom p inlet storage h' t' ds
    return ⟨t', r, hw⟩ :: rest

/-- `_sim_just_swing` (`SwingSystem.py:707-753`) with the inlet temperature already looked up. The first minute
is not simulated; an empty horizon is an `IndexError`. -/
def simSwing (p : SwingParams K) (inlet storage init : K) : List K → Py (List (SwingMin K))
  | [] => .error .indexError
  | d :: ds => do
    let rest ← simSwingFrom p inlet storage false init ds
    return ⟨init, 0, d⟩ :: rest

/-- `_hr_to_min(hourly) / 60.0` (`SwingSystem.py:33-35`). -/
def perMinute (hourly : List K) : List K := hourly.flatMap (fun x => List.replicate 60 (x / 60))

/-- The parameters of the swing simulation once `_size_tm_system` has run. Before that, Python fails with a
`TypeError` on `None`. -/
def SwingSys.params (s : SwingSys K) : Py (SwingParams K) :=
  match s.tmVol, s.tmCap with
  | some v, some cap =>
    .ok ⟨v, recircLossKbtuh s.base.cfg.supply s.ret s.flow, cap, s.base.cfg.supply⟩
  | _, _ => .error .typeError

/-- The temperature every sizing simulation starts from: `supply_temp_f + 0.1`. -/
def swingInit (supply : K) : K := supply + 1 / 10

/-- The primary's minute-by-minute demand for the hours `hourly` [gal at supply temperature]. -/
def swingPrimary (s : SwingSys K) (inlet : K) (hourly : List K) : Py (List K) := do
  let p ← s.params
  let rows ← simSwing p inlet s.base.cfg.storage (swingInit s.base.cfg.supply) (perMinute hourly)
  return rows.map (·.hw)

/-- The start hours that are tried (`SwingSystem.py:454-464`): each peak and the hour after it. -/
def swingStarts (peaks : List Nat) : List Nat :=
  (List.range 24).filter (fun i => decide (i ∈ peaks ∨ ∃ j ∈ peaks, j + 1 = i))

/-- One start hour of `_calc_running_volume_supplyT_gal` (`SwingSystem.py:470-492`): the effective mix fraction
and the worst deficit, if any. `np.float64` division by a zero `daily_gal` gives `nan`, after which no entry
compares below zero; here `0/0 = 0` and no entry is below zero either. -/
def swingWindow (s : SwingSys K) (b : Building K) (inlet : K) (start : Nat) : Py (K × Option K) := do
  let hourly := ((b.peakShape ++ b.peakShape).drop start).take 24
  let hw ← swingPrimary s inlet (hourly.map (fun f => f * b.dailyGal))
  let eff := hw.sum / b.dailyGal
  let genMin := 1 / s.base.cfg.maxRunHr / 60 * b.dailyGal * eff
  let cum := cumsum (hw.map (fun x => genMin - x))
  return (eff, ((cum.filter (fun x => decide (x < 0))).min?).map (fun m => -m))

/-- Keeping the worst deficit seen so far and its effective mix fraction (`SwingSystem.py:488-493`). -/
def swingPick (acc : K × K) (w : K × Option K) : K × K :=
  match w.2 with
  | none => acc
  | some v => if acc.1 < v then (v, w.1) else acc

/-- `_calc_running_volume_supplyT_gal` (`SwingSystem.py:425-503`): the volume and the effective mix fraction it
stores (`none`: no peak, nothing stored). A zero `max_daily_run_hr` makes numpy's generation infinite, so that
there is no peak. A shape that does not have 24 entries fails to broadcast (a one-entry shape, which would
broadcast, is treated the same). -/
def runVolSwing (s : SwingSys K) (b : Building K) : Py (K × Option K) := do
  let inlet ← requireDesignInlet b
  if b.peakShape.length ≠ 24 then .error .valueError
  else if s.base.cfg.maxRunHr = 0 then return (0, none)
  else
    let peaks := peakIndices (b.peakShape.map (fun f => 1 / s.base.cfg.maxRunHr - f))
    if peaks = [] then return (0, none)
    else
      let r ← (swingStarts peaks).foldlM
        (fun acc start => (swingWindow s b inlet start).map (swingPick acc)) ((0 : K), (1 : K))
      let q ← fdiv (s.base.cfg.storage - inlet) (s.base.cfg.supply - inlet)
      return (r.1 * q, some r.2)

/-- `_calc_required_capacity` (`SwingSystem.py:402-419`). -/
def requiredCapacitySwing (s : SwingSys K) (b : Building K) : Py K := do
  let inlet ← requireDesignInlet b
  let gen ← fdiv (b.dailyGal * s.effMix) s.base.cfg.maxRunHr
  let x ← fdiv (gen * rhoCp K * (s.base.cfg.storage - inlet)) s.base.cfg.defrost
  return x / 1000

/-- `_calc_prelim_vols_supplyT_gal` (`SwingSystem.py:509-558`). -/
def prelimVolsSwing (s : SwingSys K) (sched : List String) (b : Building K) (fract : K) : Py (K × K) := do
  let (block, lu) ← firstShedBlock sched
  let shedHours ← block.mapM (fun h => pyGet b.avgShape h)
  let raw := (shedHours.map (fun f => f * b.dailyGal)).sum
  let inlet ← requireDesignInlet b
  let hwShed ← swingPrimary s inlet (shedHours.map (fun f => f * b.dailyGal))
  let effShed := if 0 < raw then hwShed.sum / raw else 1
  match block with
  | [] => .error .indexError
  | h0 :: _ => do
    let luHours ← (List.range' (h0 - lu) lu).mapM (fun h => pyGet b.avgShape h)
    let rawLu := (luHours.map (fun f => f * b.dailyGal)).sum
    let vcons ← if 0 < lu ∧ 0 < rawLu then
        (swingPrimary s inlet (luHours.map (fun f => f * b.dailyGal))).map
          (fun hwLu => rawLu * (hwLu.sum / rawLu))
      else .ok rawLu
    return (raw * effShed * fract, vcons)

/-- `_calc_gen_rate_ls_gph` (`SwingSystem.py:564-606`). -/
def genRateLsSwing (s : SwingSys K) (sched : List String) (m : ControlMap K) (b : Building K)
    (slope fract : K) : Py K := do
  let normal ← fdiv (b.dailyGal * s.effMix) s.base.cfg.maxRunHr
  let (_, lu) ← firstShedBlock sched
  if lu = 0 then return normal
  else do
    let (vshift, vcons) ← prelimVolsSwing s sched b fract
    let (nC, luC, sC) ← lsControls m
    let luP ← stratPctOfTank s.base.cfg luC.onFract luC.onTrig slope
    let nP ← stratPctOfTank s.base.cfg nC.onFract nC.onTrig slope
    let sP ← stratPctOfTank s.base.cfg sC.onFract sC.onTrig slope
    if luP - sP ≤ 0 then return normal
    else
      let vload := vshift * (luP - nP) / (luP - sP)
      return max normal ((vload + vcons) / (lu : K))

/-- `_calc_required_capacity_ls_kbtuh` (`SwingSystem.py:608-624`). -/
def requiredCapacityLsSwing (s : SwingSys K) (sched : List String) (m : ControlMap K) (b : Building K)
    (slope fract : K) : Py K := do
  let inlet ← requireDesignInlet b
  let gen ← genRateLsSwing s sched m b slope fract
  let x ← fdiv (gen * rhoCp K * (s.base.cfg.storage - inlet)) s.base.cfg.defrost
  return x / 1000

/-- `_calc_running_volume_ls_swing` (`SwingSystem.py:650-701`). A shape that does not have 24 entries is treated
as an error. -/
def runVolLsSwing (s : SwingSys K) (sched : List String) (b : Building K) (gen fract : K) :
    Py (K × K) := do
  let inlet ← requireDesignInlet b
  let (block, _) ← firstShedBlock sched
  let (vshift, _) ← prelimVolsSwing s sched b fract
  if b.avgShape.length ≠ 24 then .error .valueError
  else
    match block.getLast? with
    | none => .error .indexError
    | some e => do
      let hourly := ((b.avgShape ++ b.avgShape).drop (e + 1)).take 24
      let hw ← swingPrimary s inlet (hourly.map (fun f => f * b.dailyGal))
      let eff := hw.sum / b.dailyGal
      let genDay := (List.range 24).map (fun h => if sched[h]? = some "shed" then (0 : K) else gen)
      let genMin := perMinute (((genDay ++ genDay).drop (e + 1)).take 24)
      let deficit := worstNegative (cumsum (List.zipWith (fun g x => g - x) genMin hw))
      let q ← fdiv (s.base.cfg.storage - inlet) (s.base.cfg.supply - inlet)
      return ((deficit + vshift) * q, eff)

/-- The load-shift part of `size` (`SwingSystem.py:241-261`): capacity, storage and effective mix fraction. -/
def sizeSwingLs (s : SwingSys K) (sched : List String) (m : ControlMap K) (b : Building K)
    (slope fract inlet cap st : K) : Py (K × K × K) := do
  let gen ← genRateLsSwing s sched m b slope fract
  let capLs ← requiredCapacityLsSwing s sched m b slope fract
  let (rvLs, effLs) ← runVolLsSwing s sched b gen fract
  let stLs ← storageVolumeLs s.base.cfg rvLs m slope inlet
  return (max cap capLs, if st < stLs then (stLs, effLs) else (st, s.effMix))

/-- `size` after the volume step (`SwingSystem.py:221-265`): the three results to store. -/
def sizeSwingRest (s : SwingSys K) (b : Building K) (ls : Option (List String × ControlMap K))
    (cmap : Option (ControlMap K)) (slope fract inlet rv : K) : Py (K × K × K) := do
  let sf ← stratFactor s.base.cfg cmap slope inlet
  let st ← storageVolume rv sf
  let cap ← requiredCapacitySwing s b
  match ls with
  | none => return (cap, st, s.effMix)
  | some (sched, m) => sizeSwingLs s sched m b slope fract inlet cap st

/-- The `try` block of `size` (`SwingSystem.py:208-265`): the object it leaves behind, and the outcome. -/
def sizeSwingBody (s : SwingSys K) (b : Building K) (ls : Option (List String × ControlMap K))
    (cmap : Option (ControlMap K)) (slope fract : K) : SwingSys K × Py Unit :=
  match requireDesignInlet b with
  | .error e => (s, .error e)
  | .ok inlet =>
    match sizeSwingTm s.base.cfg.supply s.ret s.flow s.sf (some b) with
    | .error e => (s, .error e)
    | .ok (vol, ca, cap) =>
      let s1 := { s with tmVol := some (vol : K), tmCa := some ca, tmCap := some cap, effMix := 1 }
      match runVolSwing s1 b with
      | .error e => (s1, .error e)
      | .ok (rv, eff) =>
        let s2 := { s1 with effMix := eff.getD s1.effMix }
        match sizeSwingRest s2 b ls cmap slope fract inlet rv with
        | .error e => (s2, .error e)
        | .ok (capP, st, mix) =>
          ({ s2 with base := { s2.base with minCap := some capP, minStorage := some st, sizingSlope := some slope },
                     effMix := mix }, .ok ())

/-- `size` (`SwingSystem.py:183-271`): the object and building left behind, and the outcome. -/
def SwingSys.size (db : ShapeFiles K) (s : SwingSys K) (b : Building K) (sched : Option (List String))
    (cmap : Option (ControlMap K)) (slope fract : K) : (SwingSys K × Building K) × Py Unit :=
  match (if b.isAnnual then b.setToDaily db else .ok b) with
  | .error e => ((s, b), .error e)
  | .ok b1 =>
    let ls := lsInputs sched cmap
    let s1 := { s with base := { s.base with cfg := cappedCfg s.base.cfg ls } }
    let r := sizeSwingBody s1 b1 ls cmap slope fract
    let s2 := { r.1 with base := { r.1.base with
      cfg := { r.1.base.cfg with maxRunHr := s.base.cfg.maxRunHr } } }
    match r.2 with
    | .error e => ((s2, b1), .error e)
    | .ok () =>
      if b.isAnnual then
        match b1.setToAnnual db with
        | .error e => ((s2, b1), .error e)
        | .ok b2 => ((s2, b2), .ok ())
      else ((s2, b1), .ok ())

/-- One iteration of the sweep of `get_sizing_curve` (`SwingSystem.py:315-330`) once `max_daily_run_hr` has been
set: the object left behind (the volume step stores the effective mix fraction) and the point, `none` for
`break`. -/
def swingCurvePoint (s : SwingSys K) (b : Building K) (factor : K) :
    SwingSys K × Py (Option (K × K × K)) :=
  let catch' : Py (Option (K × K × K)) → Py (Option (K × K × K)) := fun r =>
    match r with
    | .error .valueError => .ok none
    | .error .runtimeError => .ok none
    | r => r
  match runVolSwing s b with
  | .error e => (s, catch' (.error e))
  | .ok (rv, eff) =>
    let s1 := { s with effMix := eff.getD s.effMix }
    if rv = 0 then (s1, .ok none)
    else (s1, catch' (do
      let cap ← requiredCapacitySwing s1 b
      let st ← storageVolume rv factor
      return some (s1.base.cfg.maxRunHr, cap, st)))

/-- The sweep (`SwingSystem.py:315-330`). -/
def swingSweep (b : Building K) (factor : K) :
    SwingSys K → List K → SwingSys K × Py (List (K × K × K))
  | s, [] => (s, .ok [])
  | s, h :: hs =>
    let s' := { s with base := { s.base with cfg := { s.base.cfg with maxRunHr := h } } }
    match swingCurvePoint s' b factor with
    | (s1, .error e) => (s1, .error e)
    | (s1, .ok none) => (s1, .ok [])
    | (s1, .ok (some p)) =>
      let r := swingSweep b factor s1 hs
      (r.1, r.2 >>= fun ps => .ok (p :: ps))

/-- `get_sizing_curve` (`SwingSystem.py:277-344`). -/
def SwingSys.getSizingCurve [FloorRing K] (db : ShapeFiles K) (s : SwingSys K) (b : Building K)
    (slope step : K) : (SwingSys K × Building K) × Py (Curve K) :=
  match (if b.isAnnual then b.setToDaily db else .ok b) with
  | .error e => ((s, b), .error e)
  | .ok b1 =>
    let r : SwingSys K × Py (Curve K) :=
      match curveSetup s.base b1 (s.base.sizingSlope.getD slope) step with
      | .error e => (s, .error e)
      | .ok (factor, arr1, arr2) =>
        let r := swingSweep b1 factor s (arr1 ++ arr2)
        let s' := { r.1 with base := { r.1.base with
          cfg := { r.1.base.cfg with maxRunHr := s.base.cfg.maxRunHr } } }
        match r.2 with
        | .error e => (s', .error e)
        | .ok pts => (s', .ok ⟨pts, min arr1.length (pts.length - 1)⟩)
    if b.isAnnual then
      match b1.setToAnnual db with
      | .error e => ((r.1, b1), .error e)
      | .ok b2 => ((r.1, b2), r.2)
    else ((r.1, b1), r.2)

/-- One percentile of `get_ls_sizing_curve` (`DHWSystem.py:616-635`) with the overrides of a swing system. -/
def swingLsPoint (s : SwingSys K) (b : Building K) (sched : List String) (m : ControlMap K)
    (slope inlet capN stN : K) (fractOf : K → Py K) (pct : K) : Py (K × K × K) := do
  let fract ← fractOf pct
  let capLs ← requiredCapacityLsSwing s sched m b slope fract
  let gen ← genRateLsSwing s sched m b slope fract
  let (rvLs, _) ← runVolLsSwing s sched b gen fract
  let stLs ← storageVolumeLs s.base.cfg rvLs m slope inlet
  return (pct, max capN capLs, max stN stLs)

/-- The `try` block of the inherited `get_ls_sizing_curve` (`DHWSystem.py:597-642`) on a swing system: the capacity
comes first and uses the stored effective mix fraction, the volume step then replaces it. -/
def swingLsBody [FloorRing K] (s : SwingSys K) (b : Building K) (sched : List String) (m : ControlMap K)
    (slope : K) (fractOf : K → Py K) (pct : K) : SwingSys K × Py (Curve K) :=
  match requireDesignInlet b with
  | .error e => (s, .error e)
  | .ok inlet =>
    match requiredCapacitySwing s b with
    | .error e => (s, .error e)
    | .ok capN =>
      match runVolSwing s b with
      | .error e => (s, .error e)
      | .ok (rvN, eff) =>
        let s1 := { s with effMix := eff.getD s.effMix }
        (s1, do
          let sf ← stratFactor s.base.cfg (some m) slope inlet
          let stN ← storageVolume rvN sf
          let pts ← lsPercents.mapM (swingLsPoint s1 b sched m slope inlet capN stN fractOf)
          return ⟨pts, lsRecIndex pct⟩)

/-- `get_ls_sizing_curve` (`DHWSystem.py:524-646`) on a swing system. -/
def SwingSys.getLsSizingCurve [FloorRing K] (db : ShapeFiles K) (s : SwingSys K) (b : Building K)
    (sched : List String) (m : ControlMap K) (slope : K) (fractOf : K → Py K) (pct : K) :
    (SwingSys K × Building K) × Py (Curve K) :=
  if dictHas m "shed" = false then ((s, b), .error .valueError)
  else
    match (if b.isAnnual then b.setToDaily db else .ok b) with
    | .error e => ((s, b), .error e)
    | .ok b1 =>
      let s1 := { s with base := { s.base with
        cfg := { s.base.cfg with maxRunHr := min s.base.cfg.maxRunHr (nonShed sched : K) } } }
      let r := swingLsBody s1 b1 sched m (s.base.sizingSlope.getD slope) fractOf pct
      let s2 := { r.1 with base := { r.1.base with
        cfg := { r.1.base.cfg with maxRunHr := s.base.cfg.maxRunHr } } }
      if b.isAnnual then
        match b1.setToAnnual db with
        | .error e => ((s2, b1), .error e)
        | .ok b2 => ((s2, b2), r.2)
      else ((s2, b1), r.2)

/-- The control settings of the swing tank's element (`SwingSystem.py:160-167`). -/
def swingControls (supply : K) : Controls K := ⟨1 / 2, supply, 1 / 2, supply + 8, supply + 8⟩

end Eco
