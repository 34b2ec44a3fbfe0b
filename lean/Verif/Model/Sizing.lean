import Verif.Model.Constants
import Verif.Model.Controls
import Verif.Model.Building

/-!
Model of the sizing calculations of `objects/dhwsystems/DHWSystem.py`: required capacity, running
volume, stratification factor and storage volume.
-/

namespace Eco
variable {K : Type} [Field K] [LinearOrder K]

/-- The scalar settings of a `DHWSystem` that sizing reads (`DHWSystem.py:120-125`). -/
structure SysCfg (K : Type) where
  supply : K
  storage : K
  maxRunHr : K
  defrost : K
  deriving DecidableEq

/-- `_get_peak_indices` (`DHWSystem.py:54-64`). `hourly_diff[i - 1]` for `i = 0` is Python's
`hourly_diff[-1]`, the last entry; both indices are always in range, so the default `0` of `getD`
is never read. -/
def peakIndices (d : List K) : List Nat :=
  (List.range d.length).filter (fun i =>
    decide (0 ≤ d.getD ((i + d.length - 1) % d.length) 0) && decide (d.getD i 0 < 0))

/-- `gen_rate_gph - daily_gal * load_shape` (`DHWSystem.py:895-897`). -/
def hourlyDiff (gen daily : K) (shape : List K) : List K := shape.map (fun f => gen - daily * f)

/-- The loop of `_calc_running_volume_supplyT_gal` (`DHWSystem.py:899-916`) over the hourly
surplus/deficit list. The early return of `0.0` when there is no peak index is the empty fold. -/
def runningVolumeOfDiff (d : List K) : K :=
  (peakIndices d).foldl (fun rv idx =>
    match ((cumsum ((d ++ d).drop idx)).filter (fun x => decide (x < 0))).min? with
    | none => rv
    | some m => max rv (-m)) 0

/-- `_calc_running_volume_supplyT_gal` (`DHWSystem.py:864-916`). -/
def runningVolume (daily runHr : K) (shape : List K) : Py K := do
  let gen ← fdiv daily runHr
  return runningVolumeOfDiff (hourlyDiff gen daily shape)

/-- `_require_design_inlet_temp` (`DHWSystem.py:1539-1551`). -/
def requireDesignInlet (b : Building K) : Py K := do
  match ← b.getDesignInlet with
  | none => .error .valueError
  | some t => return t

/-- The capacity formula of `_calc_required_capacity` (`DHWSystem.py:860-862`) for a given
generation rate; also the last line of `_calc_required_capacity_ls_kbtuh`
(`DHWSystem.py:1427-1428`). -/
def capacityOfGenRate (c : SysCfg K) (gen inlet : K) : Py K :=
  fdiv (gen * rhoCp K * (c.supply - inlet)) c.defrost >>= fun x => .ok (x / 1000)

/-- `_calc_required_capacity` (`DHWSystem.py:836-862`). -/
def requiredCapacity (c : SysCfg K) (b : Building K) : Py K := do
  let inlet ← requireDesignInlet b
  let gen ← fdiv b.dailyGal c.maxRunHr
  capacityOfGenRate c gen inlet

/-- `_calc_storage_volume_storageT_gal` (`DHWSystem.py:918-948`). -/
def storageVolume (runningVol factor : K) : Py K := fdiv runningVol factor

/-- `_calc_supply_temp_gal_from_100gal_tank` (`DHWSystem.py:1000-1083`). The divisions are by the
slope and by `supply - inlet`; both raise when zero. -/
def supplyGalPer100 (c : SysCfg K) (onFract onTemp slope inlet : K) : Py K :=
  if slope = 0 then .error .zeroDivision
  else
    let onPct := onFract * 100
    let supplyDelta := c.supply - inlet
    let storageH := min (onPct + (c.storage - onTemp) / slope) 100
    let supplyH := max (onPct + (c.supply - onTemp) / slope) onPct
    if supplyH ≥ 100 then .ok 0
    else if supplyDelta = 0 then .error .zeroDivision
    else
      let s1 := supplyH - onPct
      let s2 := storageH - onPct
      let a := onTemp - inlet
      let transition := (a * (s2 - s1) + slope * (s2 ^ 2 - s1 ^ 2) / 2) / supplyDelta
      let fullyHot := max 0 (100 - storageH) * (c.storage - inlet) / supplyDelta
      .ok (transition + fullyHot)

/-- The minimum of a generator of fallible values, as in `min(... for ctrl in ...)`
(`DHWSystem.py:993-998`); an empty generator would be a `ValueError`. -/
def minOfPy (l : List (Py K)) : Py K := do
  let vs ← l.mapM id
  match vs.min? with
  | none => .error .valueError
  | some m => return m

/-- `_calc_stratification_factor` (`DHWSystem.py:950-998`). -/
def stratFactor (c : SysCfg K) (cmap : Option (ControlMap K)) (slope inlet : K) : Py K :=
  match cmap with
  | none => do return (← supplyGalPer100 c 0 c.supply slope inlet) / 100
  | some [] => do return (← supplyGalPer100 c 0 c.supply slope inlet) / 100
  | some m =>
    match dictGet? m "normal" with
    | some ctrl => do return (← supplyGalPer100 c ctrl.onFract ctrl.onTrig slope inlet) / 100
    | none => minOfPy (m.map (fun p => do
        return (← supplyGalPer100 c p.2.onFract p.2.onTrig slope inlet) / 100))

end Eco
