import Verif.Model.Climate
import Mathlib.Algebra.Order.Group.Unbundled.Abs
import Mathlib.Algebra.BigOperators.Group.List.Basic

/-!
Model of `objects/building/Building.py`. The load-shape JSON files are a parameter (`ShapeFiles`).
-/

namespace Eco
variable {K : Type} [Field K] [LinearOrder K]

/-- The parts of a load-shape JSON file the code reads (`Building.py:33-40`, `:397-407`,
`:438-441`, `:459-461`). `ca98` stands for `np.percentile(daily_totals, 98)` as a function of
`n_br` (`Building.py:372-375`), which is not modelled further. -/
structure ShapeFile (K : Type) where
  stream : List K
  streamAvg : Option (List K)
  annual : List K
  gpdppTable : List (String × K)
  caGpdpp : List Nat → K

/-- The directory of load-shape files: `none` is a missing file. -/
abbrev ShapeFiles (K : Type) := String → Option (ShapeFile K)

/-- `_load_shape_json` (`Building.py:33-40`). -/
def loadShapeJson (db : ShapeFiles K) (bt : String) : Py (ShapeFile K) :=
  match db bt with
  | some f => .ok f
  | none => .error .valueError

/-- `_validate_load_shape` (`Building.py:43-52`). -/
def validateLoadShape (ls : List K) : Py Unit :=
  if ls.length ≠ 24 then .error .valueError
  else if |ls.sum - 1| > 1 / 1000 then .error .valueError
  else if ls.any (fun x => decide (x < 0)) then .error .valueError
  else .ok ()

/-- `_ASHRAE_GPD_PER_UNIT` (`Building.py:14-27`). -/
def ashraeGpd (K : Type) [Field K] : List (String × K) :=
  [("mens_dorm", 236 / 10), ("womens_dorm", 196 / 10), ("motel", 214 / 10),
   ("nursing_home", 234 / 10), ("office_building", 21 / 10), ("food_service_a", 11032 / 1000),
   ("food_service_b", 644 / 100), ("apartment", 546 / 10), ("elementary_school", 134 / 100),
   ("junior_high", 375 / 100), ("senior_high", 326 / 100)]

/-- `_STANDARD_GPD_KEYS` (`Building.py:30`). -/
def standardGpdKeys : List String := ["ca", "ashLow", "ashMed", "ecoMark"]

/-- `Building` (`Building.py:64-113`), without the utility tracker, which the building only stores. -/
structure Building (K : Type) where
  climate : Option (ClimateZone K)
  dailyGal : K
  peakShape : List K
  avgShape : List K
  buildingType : String

namespace Building

/-- `__init__` (`Building.py:64-113`): a missing climate zone is replaced by a constant one when a
design condition is given. -/
def mk' (climate : Option (ClimateZone K)) (daily : K) (peak avg : List K) (bt : String)
    (designOat designInlet : Option K) : Building K :=
  let cz := match climate with
    | some c => some c
    | none => if designOat.isSome || designInlet.isSome
        then some (ClimateZone.fromDesignConditions designOat designInlet) else none
  ⟨cz, daily, peak, avg, bt⟩

/-- The building-size options shared by all parts of a mixed-use building. -/
structure GpdOpts (K : Type) where
  /-- `none` is Python's `None`, which the engine passes by default (`EcosizerEngine.py:693`). -/
  gpdpp : Option K
  standardGpd : Option String
  nBr : Option (List Nat)

/-- `[x / s for x in raw]` with Python's exception for `s = 0` (an empty list raises nothing). -/
def normalise (raw : List K) : Py (List K) :=
  if raw = [] then .ok [] else if raw.sum = 0 then .error .zeroDivision
  else .ok (raw.map (fun x => x / raw.sum))

/-- The average shape of a custom building (`Building.py:341-347`). -/
def customAvg (peak : List K) (customAvg : Option (List K)) : Py (List K) :=
  match customAvg with
  | none => .ok peak
  | some raw => do
    let l ← normalise raw
    validateLoadShape l
    return l

/-- `daily_gal` for a named building type (`Building.py:357-389`). The `isinstance` checks on the
types of the arguments are not modelled (arguments are typed here), except that `gpdpp` may be
`None`, which is a `ValueError` (`Building.py:378-379`). -/
def namedDailyGal (db : ShapeFiles K) (bt : String) (mag : K) (o : GpdOpts K) : Py K :=
  if bt = "multi_family" then
    match o.standardGpd with
    | none =>
      match o.gpdpp with
      | none => .error .valueError
      | some g => .ok (g * mag)
    | some key =>
      if key ∉ standardGpdKeys then .error .valueError
      else do
        let data ← loadShapeJson db "multi_family"
        if key = "ca" then
          match o.nBr with
          | none => .error .valueError
          | some nbr =>
            if nbr.length ≠ 6 ∨ nbr.sum = 0 then .error .valueError
            else .ok (data.caGpdpp nbr * mag)
        else do
          let g ← dictGet data.gpdppTable key
          return g * mag
  else match dictGet? (ashraeGpd K) bt with
    | some g => .ok (g * mag)
    | none => .error .valueError

/-- The peak shape of a named building (`Building.py:391-398`). -/
def namedPeak (db : ShapeFiles K) (bt : String) (custom : Option (List K)) : Py (List K) :=
  match custom with
  | some raw => do validateLoadShape raw; return raw
  | none => do let data ← loadShapeJson db bt; return data.stream

/-- The average shape of a named building (`Building.py:400-407`). -/
def namedAvg (db : ShapeFiles K) (bt : String) (custom : Option (List K)) : Py (List K) :=
  match custom with
  | some raw => do validateLoadShape raw; return raw
  | none => do let data ← loadShapeJson db bt; return data.streamAvg.getD data.stream

/-- `_compute_single_gal_and_shapes` (`Building.py:302-409`). -/
def computeSingle (db : ShapeFiles K) (bt : Option String) (mag : Option K)
    (customPeak customAvgLs : Option (List K)) (o : GpdOpts K) : Py (K × List K × List K) :=
  match bt with
  | none =>
    match customPeak with
    | none => .error .valueError
    | some raw =>
      match mag with
      | none => do
        let peak ← normalise raw
        let avg ← customAvg peak customAvgLs
        return (raw.sum, peak, avg)
      | some m => do
        let peak ← (if |raw.sum - 1| > 1 / 1000 then normalise raw
          else do validateLoadShape raw; return raw)
        let avg ← customAvg peak customAvgLs
        return (m, peak, avg)
  | some bt =>
    match mag with
    | none => .error .valueError
    | some m =>
      if m ≤ 0 then .error .valueError
      else do
        let daily ← namedDailyGal db bt m o
        let peak ← namedPeak db bt customPeak
        let avg ← namedAvg db bt customAvgLs
        return (daily, peak, avg)

/-- Elementwise sum of two numpy arrays of the same length (numpy raises `ValueError` on a shape
mismatch; broadcasting a length-1 array is not modelled and treated as a mismatch). -/
def addArr (a b : List K) : Py (List K) :=
  if a.length = b.length then .ok (List.zipWith (· + ·) a b) else .error .valueError

/-- `sum(g * ls for …)` over the parts (`Building.py:267-268`); Python's `sum` starts from the
integer 0, which numpy broadcasts, so the first array is taken as it is. -/
def weightedSum : List (K × List K) → Py (List K)
  | [] => .ok []
  | [(g, ls)] => .ok (ls.map (g * ·))
  | (g, ls) :: rest => do
    let r ← weightedSum rest
    addArr (ls.map (g * ·)) r

/-- One part of a mixed-use building as given by the caller. -/
structure Part (K : Type) where
  bt : Option String
  mag : Option K
  customPeak : Option (List K)
  customAvg : Option (List K)

/-- `_from_multi_use` (`Building.py:223-277`) after the list-length checks (the parts are one list
here, so the lengths agree). Division of an array by a zero total is numpy's (inf/nan), modelled
as `zeroDivision`. -/
def fromMultiUse (db : ShapeFiles K) (parts : List (Part K)) (climate : Option (ClimateZone K))
    (o : GpdOpts K) (designOat designInlet : Option K) : Py (Building K) := do
  let subs ← parts.mapM (fun p => computeSingle db p.bt p.mag p.customPeak p.customAvg o)
  let total := (subs.map (·.1)).sum
  if total = 0 then .error .zeroDivision
  else do
    let peak ← weightedSum (subs.map (fun s => (s.1, s.2.1)))
    let avg ← weightedSum (subs.map (fun s => (s.1, s.2.2)))
    return mk' climate total (peak.map (· / total)) (avg.map (· / total)) "multi_use"
      designOat designInlet

/-- `is_annual_load_shape` (`Building.py:415-417`). -/
def isAnnual (b : Building K) : Bool := decide (b.peakShape.length = 8760)

/-- `set_to_annual_load_shape` (`Building.py:419-441`). -/
def setToAnnual (db : ShapeFiles K) (b : Building K) : Py (Building K) :=
  if b.buildingType ≠ "multi_family" then .error .valueError
  else do
    let d ← loadShapeJson db "multi_family"
    return { b with peakShape := d.annual, avgShape := d.annual }

/-- `set_to_daily_load_shape` (`Building.py:443-461`). A missing `Stream_Avg` key is a `KeyError`. -/
def setToDaily (db : ShapeFiles K) (b : Building K) : Py (Building K) :=
  if b.buildingType ≠ "multi_family" then .error .valueError
  else do
    let d ← loadShapeJson db "multi_family"
    match d.streamAvg with
    | none => .error .keyError
    | some a => return { b with peakShape := d.stream, avgShape := a }

/-- The single-building path of `from_building_type` (`Building.py:205-221`). -/
def fromBuildingType (db : ShapeFiles K) (p : Part K) (climate : Option (ClimateZone K))
    (o : GpdOpts K) (annual : Bool) (designOat designInlet : Option K) : Py (Building K) := do
  let (daily, peak, avg) ← computeSingle db p.bt p.mag p.customPeak p.customAvg o
  let b := mk' climate daily peak avg (p.bt.getD "custom") designOat designInlet
  if annual then setToAnnual db b else return b

/-- `get_dhw_load_supplyT_gal` (`Building.py:467-500`). -/
def getDhwLoad (b : Building K) (step interval : Nat) (useAvg : Bool := false) : Py K :=
  let shape := if useAvg then b.avgShape else b.peakShape
  if shape.length = 0 then .error .zeroDivision
  else do
    let f ← pyGet shape (((step * interval) / 60) % shape.length)
    return b.dailyGal * f * interval / 60

/-- `get_oat_f` (`Building.py:502-519`); `None.get_oat_f` is an `AttributeError`. -/
def getOat (b : Building K) (step interval : Nat) : Py K :=
  match b.climate with
  | none => .error .attributeError
  | some c => c.getOat step interval

/-- `get_inlet_water_temp_f` (`Building.py:521-538`). -/
def getInlet (b : Building K) (step interval : Nat) : Py K :=
  match b.climate with
  | none => .error .attributeError
  | some c => c.getInlet step interval

/-- `get_design_oat_f` (`Building.py:540-549`). -/
def getDesignOat (b : Building K) : Py (Option K) :=
  match b.climate with
  | none => .ok none
  | some c => do return some (← c.getDesignOat)

/-- `get_design_inlet_water_temp_f` (`Building.py:551-560`). -/
def getDesignInlet (b : Building K) : Py (Option K) :=
  match b.climate with
  | none => .ok none
  | some c => do return some (← c.getDesignInlet)

end Building

end Eco
