import Verif.Model.Sizing

/-!
Model of the load-shift part of sizing in `objects/dhwsystems/DHWSystem.py`.
A schedule is the list of control keys the caller passes; the code reads entries 0 to 23.
-/

namespace Eco
variable {K : Type} [Field K] [LinearOrder K]

/-- `_is_load_shifting` (`DHWSystem.py:1239-1241`). -/
def isLoadShifting (cmap : Option (ControlMap K)) : Bool :=
  match cmap with
  | none => false
  | some m => dictHas m "shed"

/-- The loop that extends the first block (`DHWSystem.py:1270-1274`): `last` is
`first_shed_block[-1]`, the list is what remains of `shed_indices`. Returns what is appended. -/
def extendBlock (last : Nat) : List Nat → List Nat
  | [] => []
  | h :: rest => if h = last + 1 then h :: extendBlock h rest else []

/-- The `while` loop that counts load-up hours (`DHWSystem.py:1277-1281`): the argument is `h + 1`,
so `0` is the loop's exit `h < 0`. The index is below the first shed hour, hence in range. -/
def countLoadUp (sched : List String) : Nat → Nat
  | 0 => 0
  | h + 1 => if sched[h]? = some "loadUp" then countLoadUp sched h + 1 else 0

/-- `_get_first_shed_block_and_load_up_hours` (`DHWSystem.py:1244-1283`). Reading
`control_schedule[h]` for `h < 24` raises `IndexError` on a shorter schedule. -/
def firstShedBlock (sched : List String) : Py (List Nat × Nat) :=
  if sched.length < 24 then .error .indexError
  else
    match (List.range 24).filter (fun h => decide (sched[h]? = some "shed")) with
    | [] => .ok ([], 0)
    | h0 :: rest => .ok (h0 :: extendBlock h0 rest, countLoadUp sched h0)

/-- `_strat_factor_for_on_params` (`DHWSystem.py:1149-1205`). -/
def stratFactorForOnParams (c : SysCfg K) (onFract onTemp slope : K) : Py K :=
  let onPct := onFract * 100
  let dT := c.storage - c.supply
  if slope = 0 then .error .zeroDivision
  else
    let storageH := min (onPct + (c.storage - onTemp) / slope) 100
    let supplyH := max (onPct + (c.supply - onTemp) / slope) onPct
    fdiv ((100 - storageH) * dT + (storageH - supplyH) * dT / 2) ((100 - onPct) * dT)

/-- `_strat_pct_of_tank` (`DHWSystem.py:1207-1236`). -/
def stratPctOfTank (c : SysCfg K) (onFract onTemp slope : K) : Py K := do
  return (← stratFactorForOnParams c onFract onTemp slope) * (1 - onFract)

/-- `float(sum(load_shape_gph[h] for h in hours))` (`DHWSystem.py:1317`, `:1319`). -/
def sumHours (shape : List K) (daily : K) (hours : List Nat) : Py K := do
  let vs ← hours.mapM (fun h => pyGet shape h)
  return (vs.map (fun f => f * daily)).sum

/-- `_calc_prelim_vols_supplyT_gal` (`DHWSystem.py:1285-1321`). The two sums come first or last in
the code in this order: the shed sum, the index `first_shed_block[0]`, the load-up sum. The load-up
count never exceeds the first shed hour, so `lu_start` is not negative. -/
def prelimVols (sched : List String) (b : Building K) (fract : K) : Py (K × K) := do
  let (block, lu) ← firstShedBlock sched
  let vshift ← sumHours b.avgShape b.dailyGal block
  match block with
  | [] => .error .indexError
  | h0 :: _ => do
    let vcons ← sumHours b.avgShape b.dailyGal (List.range' (h0 - lu) lu)
    return (vshift * fract, vcons)

/-- `control_map.get("loadUp", control_map["normal"])` with the lookup of `"normal"` first, and
`control_map["shed"]` last (`DHWSystem.py:1369-1371`, `:1520-1522`). -/
def lsControls (m : ControlMap K) : Py (Controls K × Controls K × Controls K) := do
  let n ← dictGet m "normal"
  let lu := (dictGet? m "loadUp").getD n
  let s ← dictGet m "shed"
  return (n, lu, s)

/-- `_calc_gen_rate_ls_gph` (`DHWSystem.py:1323-1392`). -/
def genRateLs (c : SysCfg K) (sched : List String) (m : ControlMap K) (b : Building K)
    (slope fract : K) : Py K := do
  let normal ← fdiv b.dailyGal c.maxRunHr
  let (_, lu) ← firstShedBlock sched
  if lu = 0 then return normal
  else do
    let (vshift, vcons) ← prelimVols sched b fract
    let (nC, luC, sC) ← lsControls m
    let nP ← stratPctOfTank c nC.onFract nC.onTrig slope
    let luP ← stratPctOfTank c luC.onFract luC.onTrig slope
    let sP ← stratPctOfTank c sC.onFract sC.onTrig slope
    if luP - sP ≤ 0 then return normal
    else
      let vload := vshift * (luP - nP) / (luP - sP)
      return max normal ((vload + vcons) / (lu : K))

/-- `_calc_required_capacity_ls_kbtuh` (`DHWSystem.py:1394-1428`), for the generation rate of the
same object (`gen` is the overridable method). -/
def requiredCapacityLs (gen : SysCfg K → List String → ControlMap K → Building K → K → K → Py K)
    (c : SysCfg K) (sched : List String) (m : ControlMap K) (b : Building K)
    (slope fract : K) : Py K := do
  let inlet ← requireDesignInlet b
  let g ← gen c sched m b slope fract
  capacityOfGenRate c g inlet

/-- `gen_profile_gph - demand_profile_gph` (`DHWSystem.py:1470-1476`). -/
def lsDiff (sched : List String) (gen daily : K) (shape : List K) : List K :=
  shape.mapIdx (fun h f => (if sched[h]? = some "shed" then 0 else gen) - daily * f)

/-- `_calc_running_volume_ls_supplyT_gal` (`DHWSystem.py:1430-1490`). The subtraction of arrays of
different lengths is numpy's `ValueError` (a length-1 shape, which numpy would broadcast, has
already raised `IndexError` in `prelimVols` unless the block is `[0]`, and is treated as an
error here). -/
def runningVolumeLs (sched : List String) (b : Building K) (gen fract : K) : Py K := do
  let (block, _) ← firstShedBlock sched
  let (vshift, _) ← prelimVols sched b fract
  if b.avgShape.length ≠ 24 then .error .valueError
  else
    match block.getLast? with
    | none => .error .indexError
    | some e =>
      let d := lsDiff sched gen b.dailyGal b.avgShape
      return worstNegative (cumsum ((d ++ d).drop (e + 1))) * fract + vshift

/-- `_calc_storage_volume_ls_storageT_gal` (`DHWSystem.py:1492-1537`): the load-up level is taken at
the OFF sensor, the shed level at the ON sensor. -/
def storageVolumeLs (c : SysCfg K) (rv : K) (m : ControlMap K) (slope inlet : K) : Py K := do
  let (_, luC, sC) ← lsControls m
  let luX ← supplyGalPer100 c luC.offFract luC.offTrig slope inlet
  let sX ← supplyGalPer100 c sC.onFract sC.onTrig slope inlet
  storageVolume rv ((luX - sX) / 100)

end Eco
