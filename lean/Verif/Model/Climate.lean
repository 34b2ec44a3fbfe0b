import Verif.Py
import Mathlib.Algebra.Order.Floor.Defs

/-!
Model of `objects/building/ClimateZone.py`. The CSV tables are parameters; the CSV text format
and file access are not modelled.
-/

namespace Eco
variable {K : Type} [Field K] [LinearOrder K]

/-- `_MONTH_START_DAY` (`ClimateZone.py:12`). -/
def monthStartDay : List Nat := [0, 31, 59, 90, 120, 151, 181, 212, 243, 273, 304, 334]

/-- `_day_of_year_to_month` (`ClimateZone.py:22-30`): the loop runs over months 11, 10, …, 0 and
returns the first whose start day is not after the given day; `0` if none. -/
def dayOfYearToMonth (d : Nat) : Nat :=
  (((List.range 12).reverse).find? (fun m => decide (monthStartDay.getD m 0 ≤ d))).getD 0

/-- `ClimateZone` (`ClimateZone.py:49-81`). -/
structure ClimateZone (K : Type) where
  zoneId : Option Int
  oatByHour : Option (List K)
  inletByMonth : Option (List K)
  constOat : Option K
  constInlet : Option K

namespace ClimateZone

/-- `from_design_conditions` (`ClimateZone.py:156-187`). -/
def fromDesignConditions (oat inlet : Option K) : ClimateZone K :=
  ⟨none, none, none, oat, inlet⟩

/-- `get_oat_f` (`ClimateZone.py:193-218`). `len(None)` is a `TypeError`; the remainder by the
length of an empty list is a `ZeroDivisionError`. -/
def getOat (c : ClimateZone K) (step interval : Nat) : Py K :=
  match c.constOat with
  | some v => .ok v
  | none =>
    match c.oatByHour with
    | none => .error .typeError
    | some l =>
      if l.length = 0 then .error .zeroDivision
      else pyGet l (((step * interval) / 60) % l.length)

/-- `get_inlet_water_temp_f` (`ClimateZone.py:220-245`). Indexing `None` is a `TypeError`. -/
def getInlet (c : ClimateZone K) (step interval : Nat) : Py K :=
  match c.constInlet with
  | some v => .ok v
  | none =>
    match c.inletByMonth with
    | none => .error .typeError
    | some l => pyGet l (dayOfYearToMonth (((step * interval) / (60 * 24)) % 365))

/-- `get_design_oat_f` (`ClimateZone.py:251-261`). `min(None)` is a `TypeError`, `min([])` a
`ValueError`. -/
def getDesignOat (c : ClimateZone K) : Py K :=
  match c.constOat with
  | some v => .ok v
  | none =>
    match c.oatByHour with
    | none => .error .typeError
    | some l => match l.min? with
      | none => .error .valueError
      | some m => .ok m

/-- `get_design_inlet_water_temp_f` (`ClimateZone.py:263-273`). -/
def getDesignInlet (c : ClimateZone K) : Py K :=
  match c.constInlet with
  | some v => .ok v
  | none =>
    match c.inletByMonth with
    | none => .error .typeError
    | some l => match l.min? with
      | none => .error .valueError
      | some m => .ok m

/-- The daily mean used by `get_oat_buckets` (`ClimateZone.py:305-306`): the slice
`oat[24*day : 24*day+24]` (shorter when data run out), summed and divided by 24. -/
def dailyAvg (l : List K) (day : Nat) : K := ((l.drop (day * 24)).take 24).sum / 24

/-- The bucket of a daily mean, `(avg // 5) * 5` (`ClimateZone.py:307`); kept as the integer
multiple of 5. -/
def bucketOf [FloorRing K] (avg : K) : Int := ⌊avg / 5⌋ * 5

/-- `get_oat_buckets` (`ClimateZone.py:275-310`): a dict built by counting over 365 days. -/
def getOatBuckets [FloorRing K] (c : ClimateZone K) : Py (List (Int × Nat)) :=
  match c.oatByHour with
  | none => .error .valueError
  | some l => .ok <| (List.range 365).foldl (fun m day =>
      let b := bucketOf (dailyAvg l day)
      dictSet m b ((dictGet? m b).getD 0 + 1)) []

/-- The tables behind the climate constructors: zip → zone, station → zone, and the columns of the
two temperature files. Parameters of the model. -/
structure Tables (K : Type) where
  zipRows : List (String × Int)
  stationRows : List (String × Int)
  /-- `DryBulbTemperatures_ByClimateZone.csv` as rows (hours) of columns (zones). -/
  oatRows : List (List K)
  /-- `InletWaterTemperatures_ByClimateZone.csv` as rows (months) of columns (zones). -/
  inletRows : List (List K)

/-- `str.strip()` for ASCII text, as a list of characters (used by `ClimateZone.py:317-365`). -/
def strip (s : String) : List Char :=
  ((s.toList.dropWhile Char.isWhitespace).reverse.dropWhile Char.isWhitespace).reverse

/-- A lookup CSV scan (`ClimateZone.py:317-365`): first row whose stripped key equals the stripped
argument, else `ValueError`. -/
def lookupZone (rows : List (String × Int)) (key : String) : Py Int :=
  match rows.find? (fun r => decide (strip r.1 = strip key)) with
  | some r => .ok r.2
  | none => .error .valueError

/-- `row[col]` with Python's negative indexing (`col = zone_id - 1`, so `zone_id = 0` reads the last
column). -/
def pyGetInt {α : Type} (l : List α) (i : Int) : Py α :=
  if 0 ≤ i then pyGet l i.toNat
  else if 0 ≤ (l.length : Int) + i then pyGet l ((l.length : Int) + i).toNat
  else .error .indexError

/-- `_load_oat_data` / `_load_inlet_water_data` (`ClimateZone.py:367-416`). -/
def loadColumn (rows : List (List K)) (zone : Int) : Py (List K) :=
  rows.mapM (fun r => pyGetInt r (zone - 1))

/-- `from_zone_id` (`ClimateZone.py:133-149`). -/
def fromZoneId (t : Tables K) (zone : Int) : Py (ClimateZone K) := do
  let oat ← loadColumn t.oatRows zone
  let inl ← loadColumn t.inletRows zone
  return ⟨some zone, some oat, some inl, none, none⟩

/-- `from_zip_code` (`ClimateZone.py:87-108`). -/
def fromZipCode (t : Tables K) (zip : String) : Py (ClimateZone K) := do
  fromZoneId t (← lookupZone t.zipRows zip)

/-- `from_weather_station` (`ClimateZone.py:110-131`). -/
def fromWeatherStation (t : Tables K) (station : String) : Py (ClimateZone K) := do
  fromZoneId t (← lookupZone t.stationRows station)

end ClimateZone

end Eco
