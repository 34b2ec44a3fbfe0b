import Verif.Model.LoadShift

/-!
Model of `DHWSystem.size`, its getters and the sizing curves
(`objects/dhwsystems/DHWSystem.py:284-646`, `:1556-1611`), as a state machine over the system
and the building it is given. Methods that subclasses override are a record (`SizingMethods`), so
that the same code runs for every class that inherits `size`.
-/

namespace Eco
variable {K : Type} [Field K] [LinearOrder K]

/-- The overridable methods that `size` and the curves call on `self`. -/
structure SizingMethods (K : Type) where
  reqCapacity : SysCfg K → Building K → Py K
  runVol : SysCfg K → Building K → K → Py K
  genRateLs : SysCfg K → List String → ControlMap K → Building K → K → K → Py K
  reqCapacityLs : SysCfg K → List String → ControlMap K → Building K → K → K → Py K
  runVolLs : SysCfg K → List String → Building K → K → K → Py K

/-- The methods of `DHWSystem` itself. -/
def baseMethods : SizingMethods K where
  reqCapacity := requiredCapacity
  runVol := fun c b _ => runningVolume b.dailyGal c.maxRunHr b.peakShape
  genRateLs := genRateLs
  reqCapacityLs := requiredCapacityLs genRateLs
  runVolLs := fun _ sched b gen fract => runningVolumeLs sched b gen fract

/-- The mutable state of a `DHWSystem` that sizing reads or writes (`DHWSystem.py:120-129`,
`:371-373`). `heaterMap` is the control map of `water_heaters[0]`, or `none` without heaters. -/
structure DhwSys (K : Type) where
  cfg : SysCfg K
  minCap : Option K := none
  minStorage : Option K := none
  sizingSlope : Option K := none
  heaterMap : Option (ControlMap K) := none

/-- `bool(control_schedule)` for the caller's optional list. -/
def truthySched (sched : Option (List String)) : Option (List String) :=
  match sched with
  | some (x :: xs) => some (x :: xs)
  | _ => none

/-- `control_schedule and self._is_load_shifting(control_map)` (`DHWSystem.py:339`, `:353`),
returning the schedule and map that are then used. -/
def lsInputs (sched : Option (List String)) (cmap : Option (ControlMap K)) :
    Option (List String × ControlMap K) :=
  match truthySched sched, cmap with
  | some s, some m => if dictHas m "shed" then some (s, m) else none
  | _, _ => none

/-- The number of schedule entries that are not `"shed"` (`DHWSystem.py:340`, `:596`). -/
def nonShed (sched : List String) : Nat := sched.countP (fun h => decide (h ≠ "shed"))

/-- The configuration in force inside `size`: the run hours are capped
(`DHWSystem.py:338-341`). -/
def cappedCfg (c : SysCfg K) (ls : Option (List String × ControlMap K)) : SysCfg K :=
  match ls with
  | none => c
  | some (s, _) => { c with maxRunHr := min c.maxRunHr (nonShed s : K) }

/-- The warnings of `_warn_if_short_cycling`, in order: the key and which of the two it is
(`true` = sensors backwards). -/
abbrev Warnings := List (String × Bool)

/-- `_warn_if_short_cycling` (`DHWSystem.py:1556-1611`). -/
def warnShortCycling (c : SysCfg K) (m : ControlMap K) (cap vol : K) : Py Warnings :=
  let dT := c.storage - c.supply
  if dT ≤ 0 then .ok []
  else
    let rate := cap * 1000 / (rhoCp K * dT)
    m.foldlM (fun ws p =>
      if p.2.offFract > p.2.onFract then .ok (ws ++ [(p.1, true)])
      else do
        let q ← fdiv ((p.2.onFract - p.2.offFract) * vol) rate
        return (if q * 60 < 10 then ws ++ [(p.1, false)] else ws)) []

/-- The part of `size` that computes the two results (`DHWSystem.py:344-369`). -/
def sizeCore (M : SizingMethods K) (c : SysCfg K) (b : Building K)
    (ls : Option (List String × ControlMap K)) (cmap : Option (ControlMap K))
    (slope fract : K) : Py (K × K) := do
  let inlet ← requireDesignInlet b
  let cap ← M.reqCapacity c b
  let rv ← M.runVol c b cap
  let sf ← stratFactor c cmap slope inlet
  let st ← storageVolume rv sf
  match ls with
  | none => return (cap, st)
  | some (sched, m) => do
    let capLs ← M.reqCapacityLs c sched m b slope fract
    let gen ← M.genRateLs c sched m b slope fract
    let rvLs ← M.runVolLs c sched b gen fract
    let stLs ← storageVolumeLs c rvLs m slope inlet
    return (max cap capLs, max st stLs)

/-- `if control_map: self._warn_if_short_cycling(…)` (`DHWSystem.py:375-376`). -/
def warnStep (c : SysCfg K) (cmap : Option (ControlMap K)) (cap vol : K) : Py Warnings :=
  match cmap with
  | some (p :: ps) => warnShortCycling c (p :: ps) cap vol
  | _ => .ok []

/-- `size` (`DHWSystem.py:284-384`): new state of the system and of the building, and the outcome
(the warnings, or the exception that leaves the call). The `finally` block restores
`max_daily_run_hr`; the annual shape is only restored after a normal exit of the `try`. -/
def size (M : SizingMethods K) (db : ShapeFiles K) (s : DhwSys K) (b : Building K)
    (sched : Option (List String)) (cmap : Option (ControlMap K)) (slope fract : K) :
    (DhwSys K × Building K) × Py Warnings :=
  let wasAnnual := b.isAnnual
  match (if wasAnnual then b.setToDaily db else .ok b) with
  | .error e => ((s, b), .error e)
  | .ok b1 =>
    let ls := lsInputs sched cmap
    let original := s.cfg.maxRunHr
    let s1 : DhwSys K := { s with cfg := cappedCfg s.cfg ls }
    let body : DhwSys K × Py Warnings :=
      match sizeCore M s1.cfg b1 ls cmap slope fract with
      | .error e => (s1, .error e)
      | .ok (cap, st) =>
        let s2 := { s1 with minCap := some cap, minStorage := some st, sizingSlope := some slope }
        (s2, warnStep s2.cfg cmap cap st)
    -- finally
    let s3 : DhwSys K := { body.1 with cfg := { body.1.cfg with maxRunHr := original } }
    match body.2 with
    | .error e => ((s3, b1), .error e)
    | .ok ws =>
      if wasAnnual then
        match b1.setToAnnual db with
        | .error e => ((s3, b1), .error e)
        | .ok b2 => ((s3, b2), .ok ws)
      else ((s3, b1), .ok ws)

/-- `get_minimum_capacity_kbtuh` (`DHWSystem.py:386-397`). -/
def getMinCapacity (s : DhwSys K) : Py K :=
  match s.minCap with
  | none => .error .runtimeError
  | some x => .ok x

/-- `get_minimum_storage_storageT_gal` (`DHWSystem.py:399-411`). -/
def getMinStorage (s : DhwSys K) : Py K :=
  match s.minStorage with
  | none => .error .runtimeError
  | some x => .ok x

/-- `from_size` (`DHWSystem.py:136-221`): size a fresh object, then attach one nominal heater that
carries the schedule and the map. The tank and heater are modelled with the simulation. -/
def fromSize (M : SizingMethods K) (db : ShapeFiles K) (c : SysCfg K) (b : Building K)
    (sched : Option (List String)) (cmap : Option (ControlMap K)) (slope fract : K) :
    Building K × Py (DhwSys K) :=
  match size M db { cfg := c } b sched cmap slope fract with
  | ((_, b'), .error e) => (b', .error e)
  | ((s, b'), .ok _) => (b', .ok { s with heaterMap := cmap })

/-- One iteration of the sweep in `get_sizing_curve` (`DHWSystem.py:490-503`) once
`max_daily_run_hr` has been set: `none` is `break`. `ValueError` and `RuntimeError` are caught;
anything else leaves the call. -/
def curvePoint (M : SizingMethods K) (c : SysCfg K) (b : Building K) (factor : K) :
    Py (Option (K × K × K)) :=
  let r : Py (Option (K × K × K)) := do
    let cap ← M.reqCapacity c b
    let rv ← M.runVol c b cap
    if rv = 0 then return none
    else do
      let st ← storageVolume rv factor
      return some (c.maxRunHr, cap, st)
  match r with
  | .error .valueError => .ok none
  | .error .runtimeError => .ok none
  | r => r

/-- The sweep loop (`DHWSystem.py:487-506`), which overwrites `max_daily_run_hr` in every
iteration: the configuration it leaves behind, and the points or the exception. -/
def sweep (M : SizingMethods K) (b : Building K) (factor : K) :
    SysCfg K → List K → SysCfg K × Py (List (K × K × K))
  | c, [] => (c, .ok [])
  | c, h :: hs =>
    let c' := { c with maxRunHr := h }
    match curvePoint M c' b factor with
    | .error e => (c', .error e)
    | .ok none => (c', .ok [])
    | .ok (some p) =>
      let r := sweep M b factor c' hs
      (r.1, r.2 >>= fun ps => .ok (p :: ps))

/-- `np.arange(start, stop, -step)` in exact arithmetic: `max(0, ⌈(start - stop)/step⌉)` points. -/
def arangeDown [FloorRing K] (start stop step : K) : List K :=
  (List.range ⌈(start - stop) / step⌉₊).map (fun i : Nat => start - (i : K) * step)

/-- The result of a curve: one `(x, capacity, storage)` triple per point (the code returns three
parallel lists), and the recommended index. -/
structure Curve (K : Type) where
  points : List (K × K × K)
  recIndex : Nat
  deriving DecidableEq

/-- `np.max(building.peak_load_shape)`; `ValueError` on an empty array. -/
def npMax (l : List K) : Py K :=
  match l.max? with
  | none => .error .valueError
  | some m => .ok m

/-- What `get_sizing_curve` computes before the sweep (`DHWSystem.py:462-480`): the factor and the two
run-hour arrays. `np.arange` with a zero step raises `ZeroDivisionError`. -/
def curveSetup [FloorRing K] (s : DhwSys K) (b : Building K) (slope step : K) :
    Py (K × List K × List K) := do
  let inlet ← requireDesignInlet b
  let factor ← stratFactor s.cfg s.heaterMap slope inlet
  let mx ← npMax b.peakShape
  let inv ← fdiv 1 mx
  if step = 0 then .error .zeroDivision
  else return (factor, arangeDown 24 s.cfg.maxRunHr step,
    arangeDown s.cfg.maxRunHr (inv * (1001 / 1000)) step)

/-- The outer `try` body of `get_sizing_curve` for a building in daily mode (`DHWSystem.py:461-518`):
the inner `finally` restores `max_daily_run_hr`. -/
def sizingCurveBody [FloorRing K] (M : SizingMethods K) (s : DhwSys K) (b : Building K)
    (slope step : K) : DhwSys K × Py (Curve K) :=
  match curveSetup s b slope step with
  | .error e => (s, .error e)
  | .ok (factor, arr1, arr2) =>
    let r := sweep M b factor s.cfg (arr1 ++ arr2)
    let s' := { s with cfg := { r.1 with maxRunHr := s.cfg.maxRunHr } }
    match r.2 with
    | .error e => (s', .error e)
    | .ok pts => (s', .ok ⟨pts, min arr1.length (pts.length - 1)⟩)

/-- `get_sizing_curve` (`DHWSystem.py:413-522`): new state of the system and of the building, and
the outcome. The outer `finally` restores the annual shape; an exception raised there would replace
the outcome. -/
def getSizingCurve [FloorRing K] (M : SizingMethods K) (db : ShapeFiles K) (s : DhwSys K)
    (b : Building K) (slope step : K) : (DhwSys K × Building K) × Py (Curve K) :=
  match (if b.isAnnual then b.setToDaily db else .ok b) with
  | .error e => ((s, b), .error e)
  | .ok b1 =>
    let r := sizingCurveBody M s b1 (s.sizingSlope.getD slope) step
    if b.isAnnual then
      match b1.setToAnnual db with
      | .error e => ((r.1, b1), .error e)
      | .ok b2 => ((r.1, b2), r.2)
    else ((r.1, b1), r.2)

/-- One point of the load-shift curve (`DHWSystem.py:618-635`). -/
def lsCurvePoint (M : SizingMethods K) (c : SysCfg K) (b : Building K) (sched : List String)
    (m : ControlMap K) (slope inlet capN stN : K) (fractOf : K → Py K) (pct : K) :
    Py (K × K × K) := do
  let fract ← fractOf pct
  let capLs ← M.reqCapacityLs c sched m b slope fract
  let gen ← M.genRateLs c sched m b slope fract
  let rvLs ← M.runVolLs c sched b gen fract
  let stLs ← storageVolumeLs c rvLs m slope inlet
  return (pct, max capN capLs, max stN stLs)

/-- The 76 percentiles (`DHWSystem.py:614`). -/
def lsPercents : List K := (List.range' 25 76).map (fun i : Nat => (i : K) / 100)

/-- Python's `round` to an integer: nearest, ties to even (`DHWSystem.py:640`). -/
def pyRound [FloorRing K] (x : K) : Int :=
  let f := ⌊x⌋
  let r := x - (f : K)
  if r < 1 / 2 then f else if 1 / 2 < r then f + 1 else if f % 2 = 0 then f else f + 1

/-- The recommended index of the load-shift curve (`DHWSystem.py:638-641`). -/
def lsRecIndex [FloorRing K] (pct : K) : Nat :=
  let clamped := max (1 / 4) (min 1 pct)
  (max 0 (min (pyRound ((clamped - 1 / 4) * 100)) 75)).toNat

/-- The body of `get_ls_sizing_curve` for a building in daily mode (`DHWSystem.py:599-646`), with
the run hours already capped. -/
def lsCurveBody [FloorRing K] (M : SizingMethods K) (c : SysCfg K) (b : Building K)
    (sched : List String) (m : ControlMap K) (slope : K) (fractOf : K → Py K) (pct : K) :
    Py (Curve K) := do
  let inlet ← requireDesignInlet b
  let capN ← M.reqCapacity c b
  let rvN ← M.runVol c b capN
  let sf ← stratFactor c (some m) slope inlet
  let stN ← storageVolume rvN sf
  let pts ← lsPercents.mapM (lsCurvePoint M c b sched m slope inlet capN stN fractOf)
  return ⟨pts, lsRecIndex pct⟩

/-- `get_ls_sizing_curve` (`DHWSystem.py:524-646`): new state of the system and of the building, and
the outcome; `finally` restores the run hours first and then the annual shape. `fractOf` is
`_load_shift_fract_total_vol` (`DHWSystem.py:25-47`), whose normal quantile is a parameter. -/
def getLsSizingCurve [FloorRing K] (M : SizingMethods K) (db : ShapeFiles K) (s : DhwSys K)
    (b : Building K) (sched : List String) (m : ControlMap K) (slope : K)
    (fractOf : K → Py K) (pct : K) : (DhwSys K × Building K) × Py (Curve K) :=
  if dictHas m "shed" = false then ((s, b), .error .valueError)
  else
    match (if b.isAnnual then b.setToDaily db else .ok b) with
    | .error e => ((s, b), .error e)
    | .ok b1 =>
      let s1 : DhwSys K :=
        { s with cfg := { s.cfg with maxRunHr := min s.cfg.maxRunHr (nonShed sched : K) } }
      let r := lsCurveBody M s1.cfg b1 sched m (s1.sizingSlope.getD slope) fractOf pct
      let s2 : DhwSys K := { s1 with cfg := { s1.cfg with maxRunHr := s.cfg.maxRunHr } }
      if b.isAnnual then
        match b1.setToAnnual db with
        | .error e => ((s2, b1), .error e)
        | .ok b2 => ((s2, b2), r)
      else ((s2, b1), r)

/-- `_load_shift_fract_total_vol` (`DHWSystem.py:25-47`); `invCdf` is
`statistics.NormalDist.inv_cdf`, which raises `StatisticsError` (a `ValueError`) outside `(0, 1)`. -/
def loadShiftFract (invCdf : K → K) (pct : K) : Py K :=
  if pct ≥ 1 then .ok 1
  else if pct ≤ 0 then .error .valueError
  else .ok (min (invCdf pct) 1)

end Eco
