import Verif.Py

/-!
Model of `objects/building/UtilityCostTracker.py`: electricity rates.
A number argument that may be `None` (or not a number at all, where the code checks) is an `Option`.
-/

namespace Eco
variable {K : Type} [Field K] [LinearOrder K]

/-- `_MONTH_HOUR_START` (`UtilityCostTracker.py:13-27`). -/
def monthHourStart : List Nat :=
  [0, 744, 1416, 2160, 2880, 3624, 4344, 5088, 5832, 6552, 7296, 8016, 8760]

/-- `for m in range(11, -1, -1): if hour >= start[m]: return m`, then `return 0`
(`UtilityCostTracker.py:40-45`); `m` counts down. -/
def hourToMonthFrom (starts : List Nat) (hour : Nat) : Nat → Nat
  | 0 => 0
  | m + 1 => if starts.getD (m + 1) 0 ≤ hour then m + 1 else hourToMonthFrom starts hour m

/-- `_hour_to_month` (`UtilityCostTracker.py:40-45`). -/
def hourToMonth (hour : Nat) : Nat := hourToMonthFrom monthHourStart hour 11

/-- `_is_hour_in_range` (`UtilityCostTracker.py:48-64`). -/
def isHourInRange (hod : Nat) (start stop : Option K) : Bool :=
  match start, stop with
  | some s, some e =>
    if e < s then decide (s ≤ (hod : K)) || decide ((hod : K) < e)
    else decide (s ≤ (hod : K)) && decide ((hod : K) < e)
  | _, _ => false

/-- A rate argument: one value or a list (`UtilityCostTracker.py:361-364`). -/
inductive RateArg (α : Type) where
  | one (a : α)
  | many (l : List α)

/-- `_to_list(v)` and `_to_list(v, n)` (`UtilityCostTracker.py:361-364`); without `n`, one copy. -/
def RateArg.toList {α : Type} (v : RateArg α) (n : Nat := 1) : List α :=
  match v with
  | .one a => List.replicate n a
  | .many l => l

/-- The arguments of `from_params` (`UtilityCostTracker.py:294-311`). -/
structure RateParams (K : Type) where
  base : Option K
  pkStart : RateArg (Option K)
  pkEnd : RateArg (Option K)
  pkDemand : RateArg (Option K)
  pkEnergy : RateArg (Option K)
  offDemand : RateArg (Option K)
  offEnergy : RateArg (Option K)
  startMonth : RateArg (Option Int)
  endMonth : RateArg (Option Int)
  includeDiscount : Bool
  dStart : RateArg (Option K)
  dEnd : RateArg (Option K)
  dDemand : RateArg (Option K)
  dEnergy : RateArg (Option K)

/-- Entry `i` of every validated list (`UtilityCostTracker.py:100-152`). -/
structure RateBlock (K : Type) where
  pkStart : Option K
  pkEnd : Option K
  pkDemand : Option K
  pkEnergy : Option K
  offDemand : Option K
  offEnergy : Option K
  startMonth : Option Int
  endMonth : Option Int

/-- The check of a season's first month against the end of the previous one
(`UtilityCostTracker.py:133-139`). -/
def badStart (prevEnd : Option (Option Int)) (sm : Int) : Bool :=
  match prevEnd with
  | none => decide (sm ≠ 0)
  | some pe => decide (some sm ≠ pe)

/-- The validation of one entry (`UtilityCostTracker.py:100-152`), in the order of the code. `prevEnd` is
`end_month[i-1]`, absent for `i == 0`; `last` is `i == len(end_month) - 1`. -/
def RateBlock.validate (b : RateBlock K) (prevEnd : Option (Option Int)) (last : Bool) : Py Unit :=
  match b.pkStart with
  | none => .error .valueError
  | some s =>
  if s < 0 ∨ 23 < s then .error .valueError else
  match b.pkEnd with
  | none => .error .valueError
  | some e =>
  if e < s ∨ 24 < e then .error .valueError else
  if b.pkDemand.isNone then .error .valueError else
  if b.offDemand.isNone then .error .valueError else
  if b.pkEnergy.isNone then .error .valueError else
  if b.offEnergy.isNone then .error .valueError else
  match b.startMonth with
  | none => .error .valueError
  | some sm =>
  if badStart prevEnd sm then .error .valueError else
  match b.endMonth with
  | none => .error .valueError
  | some em =>
  if em ≤ sm then .error .valueError else
  if last ∧ em ≠ 12 then .error .valueError else .ok ()

namespace RateParams

/-- The number of seasons, `n = len(pk_start_hour)` (`UtilityCostTracker.py:367`). -/
def n (r : RateParams K) : Nat := (r.pkStart.toList).length

/-- The entries at index `i` of the validated lists. -/
def block (r : RateParams K) (i : Nat) : Py (RateBlock K) := do
  let ps ← pyGet r.pkStart.toList i
  let pe ← pyGet r.pkEnd.toList i
  let pd ← pyGet r.pkDemand.toList i
  let pn ← pyGet r.pkEnergy.toList i
  let od ← pyGet r.offDemand.toList i
  let on ← pyGet r.offEnergy.toList i
  let sm ← pyGet r.startMonth.toList i
  let em ← pyGet r.endMonth.toList i
  return ⟨ps, pe, pd, pn, od, on, sm, em⟩

/-- The length check (`UtilityCostTracker.py:88-97`). -/
def sameLengths (r : RateParams K) : Bool :=
  decide (r.pkEnd.toList.length = r.n) && decide (r.pkDemand.toList.length = r.n) &&
  decide (r.pkEnergy.toList.length = r.n) && decide (r.offDemand.toList.length = r.n) &&
  decide (r.offEnergy.toList.length = r.n) && decide (r.startMonth.toList.length = r.n) &&
  decide (r.endMonth.toList.length = r.n)

/-- `_validate_params` (`UtilityCostTracker.py:67-152`). All entries of index `i` are read before
the checks of that index; this makes no difference once the lengths agree. -/
def validate (r : RateParams K) : Py Unit :=
  if r.base.isNone then .error .valueError
  else if r.sameLengths = false then .error .valueError
  else (List.range r.n).forM (fun i => do
    let b ← r.block i
    let prev ← (if i = 0 then .ok none else do return some (← pyGet r.endMonth.toList (i - 1)))
    b.validate prev (decide (i = r.endMonth.toList.length - 1)))

end RateParams

/-- The attributes of a `UtilityCostTracker` (`UtilityCostTracker.py:271-290`). -/
structure Tracker (K : Type) where
  chart : List Int
  demandMap : List (Int × Option K)
  energyMap : List (Int × Option K)
  isPeak : List (Int × Bool)
  isDiscount : List (Int × Bool)
  base : K
  energyByHour : List (Option K)
  includeDiscount : Bool

/-- One season as passed to `_fill_period_maps` (`UtilityCostTracker.py:155-175`). -/
structure Season (K : Type) where
  offDemand : Option K
  pkDemand : Option K
  offEnergy : Option K
  pkEnergy : Option K
  pkStart : Option K
  pkEnd : Option K
  startMonth : Nat
  endMonth : Nat
  dEnergy : Option K
  dDemand : Option K
  dStart : Option K
  dEnd : Option K

/-- `num_periods` (`UtilityCostTracker.py:388`). -/
def numPeriods (discount : Bool) : Nat := if discount then 3 else 2

namespace Tracker

/-- The body of the first loop of `_fill_period_maps` (`UtilityCostTracker.py:188-207`). -/
def fillMaps (discount : Bool) (s : Season K) (t : Tracker K) (m : Nat) : Tracker K :=
  let off : Int := m * numPeriods discount
  let pk : Int := m * numPeriods discount + 1
  let dc : Int := m * numPeriods discount + 2
  let dm := dictSet (dictSet t.demandMap off s.offDemand) pk s.pkDemand
  let em := dictSet (dictSet t.energyMap off s.offEnergy) pk s.pkEnergy
  let ip := dictSet (dictSet t.isPeak off false) pk true
  let id := dictSet (dictSet t.isDiscount off false) pk false
  if discount then
    { t with demandMap := dictSet dm dc s.dDemand, energyMap := dictSet em dc s.dEnergy, isPeak := dictSet ip dc false, isDiscount := dictSet id dc true }
  else { t with demandMap := dm, energyMap := em, isPeak := ip, isDiscount := id }

/-- The period key of hour-of-day `hod` in month `m` (`UtilityCostTracker.py:212-223`). -/
def periodKey (discount : Bool) (s : Season K) (m hod : Nat) : Int :=
  if isHourInRange hod s.pkStart s.pkEnd then m * numPeriods discount + 1
  else if discount && isHourInRange hod s.dStart s.dEnd then m * numPeriods discount + 2
  else m * numPeriods discount

/-- The body of the second loop of `_fill_period_maps` (`UtilityCostTracker.py:209-223`). -/
def fillChart (discount : Bool) (s : Season K) (c : List Int) (m : Nat) : List Int :=
  let h0 := monthHourStart.getD m 0
  let h1 := monthHourStart.getD (m + 1) 0
  (List.range' h0 (h1 - h0)).foldl (fun c h => c.set h (periodKey discount s m (h % 24))) c

/-- `_fill_period_maps` (`UtilityCostTracker.py:155-223`). -/
def fillSeason (discount : Bool) (t : Tracker K) (s : Season K) : Tracker K :=
  let months := List.range' s.startMonth (s.endMonth - s.startMonth)
  let t1 := months.foldl (fillMaps discount s) t
  { t1 with chart := months.foldl (fillChart discount s) t1.chart }

end Tracker

namespace RateParams

/-- The arguments of the `i`-th call of `_fill_period_maps` (`UtilityCostTracker.py:395-408`). The
months have been validated to be integers with `0 ≤ start < end ≤ 12`. -/
def season (r : RateParams K) (i : Nat) : Py (Season K) := do
  let b ← r.block i
  let de ← pyGet (r.dEnergy.toList r.n) i
  let dd ← pyGet (r.dDemand.toList r.n) i
  let ds ← pyGet (r.dStart.toList r.n) i
  let dn ← pyGet (r.dEnd.toList r.n) i
  match b.startMonth, b.endMonth with
  | some sm, some em =>
    return ⟨b.offDemand, b.pkDemand, b.offEnergy, b.pkEnergy, b.pkStart, b.pkEnd, sm.toNat, em.toNat,
      de, dd, ds, dn⟩
  | _, _ => .error .typeError

/-- `from_params` (`UtilityCostTracker.py:293-419`). -/
def build (r : RateParams K) : Py (Tracker K) := do
  r.validate
  let seasons ← (List.range r.n).mapM r.season
  match r.base with
  | none => .error .valueError
  | some base =>
    return seasons.foldl (Tracker.fillSeason r.includeDiscount)
      ⟨List.replicate 8760 0, [], [], [], [], base, [], r.includeDiscount⟩

end RateParams

namespace Tracker

/-- `math.floor(step / (60.0 / timestep_min))` (`UtilityCostTracker.py:566`), in exact arithmetic. -/
def hourOfStep (step ts : Nat) : Py Nat := if ts = 0 then .error .zeroDivision else .ok (step * ts / 60)

/-- `get_demand_period_at_step` (`UtilityCostTracker.py:572-586`). -/
def demandPeriodAtStep (t : Tracker K) (step ts : Nat) : Py Int := do
  pyGet t.chart (← hourOfStep step ts)

/-- `get_energy_charge_at_step` (`UtilityCostTracker.py:550-570`). -/
def energyChargeAtStep (t : Tracker K) (step ts : Nat) : Py (Option K) := do
  let h ← hourOfStep step ts
  if t.energyByHour.length = 8760 then pyGet t.energyByHour h
  else dictGet t.energyMap (← pyGet t.chart h)

/-- `get_demand_charge_for_period` (`UtilityCostTracker.py:588-612`). A `None` rate is a `TypeError`. -/
def demandCharge (t : Tracker K) (period : Int) (maxKw : K) : Py K :=
  match dictGet? t.demandMap period with
  | none => .error .valueError
  | some none => .error .typeError
  | some (some c) => .ok (c * maxKw)

/-- `get_all_demand_period_keys` (`UtilityCostTracker.py:614-616`). -/
def allKeys (t : Tracker K) : List Int := t.demandMap.map (·.1)

/-- `get_yearly_base_charge` (`UtilityCostTracker.py:618-620`). -/
def yearlyBase (t : Tracker K) : K := t.base * 12

end Tracker

/-! ## CSV -/

/-- A CSV cell, by how Python reads it: empty, text of an integer, text of another number, other text. Writing a
number and reading it back with `float` gives the same number (`repr` of floats is exact). -/
inductive Cell (K : Type) where
  | blank
  | int (z : Int)
  | num (x : K)
  | text (s : String)
  deriving DecidableEq

namespace Cell

/-- `float(cell)`. -/
def toFloat : Cell K → Py K
  | .int z => .ok (z : K)
  | .num x => .ok x
  | _ => .error .valueError

/-- `int(cell)`. -/
def toInt : Cell K → Py Int
  | .int z => .ok z
  | _ => .error .valueError

/-- What `csv.writer` writes for a number or `None`. -/
def ofOption : Option K → Cell K
  | some x => .num x
  | none => .blank

end Cell

/-- A CSV file with a header row. -/
structure CsvFile (K : Type) where
  header : List String
  rows : List (List (Cell K))

/-- The loop state of `from_csv` (`UtilityCostTracker.py:489-494`). -/
structure CsvState (K : Type) where
  chart : List Int
  demandMap : List (Int × Option K)
  energyMap : List (Int × Option K)
  isPeak : List (Int × Bool)
  isDiscount : List (Int × Bool)
  energyByHour : List (Option K)

namespace Tracker

/-- One row of `from_csv` (`UtilityCostTracker.py:496-536`); all failures are re-raised as `ValueError`.
The chart is built by appending instead of overwriting a list of zeros. -/
def csvRow (eIdx dIdx pIdx : Nat) (st : CsvState K) (row : List (Cell K)) : Py (CsvState K) := do
  let period ← match row[pIdx]? with
    | some c => c.toInt
    | none => .error .valueError
  let energy := (row[eIdx]?).getD .blank
  let rate ← match energy with
    | .blank => match dictGet? st.energyMap period with
      | some r => .ok r
      | none => .error .valueError
    | c => c.toFloat.map some
  let st := { st with chart := st.chart ++ [period], energyByHour := st.energyByHour ++ [rate] }
  if dictHas st.demandMap period then return st
  else do
    let d ← ((row[dIdx]?).getD .blank).toFloat
    let e ← energy.toFloat
    return { st with
      demandMap := dictSet st.demandMap period (some d)
      energyMap := dictSet st.energyMap period (some e)
      isPeak := dictSet st.isPeak period (decide (period % 2 = 1))
      isDiscount := dictSet st.isDiscount period false }

/-- `from_csv` (`UtilityCostTracker.py:421-546`) on the parsed file. -/
def fromCsv (f : CsvFile K) : Py (Tracker K) :=
  if f.rows.length ≠ 8760 then .error .valueError
  else match f.header.idxOf? "Energy Rate ($/kWh)", f.header.idxOf? "Demand Rate ($/kW)",
      f.header.idxOf? "Demand Period", f.header.idxOf? "Monthly Base Charge" with
  | some eIdx, some dIdx, some pIdx, some bIdx => do
    let base ← match (f.rows.headD [])[bIdx]? with
      | some c => c.toFloat
      | none => .error .valueError
    let st ← f.rows.foldlM (csvRow eIdx dIdx pIdx) ⟨[], [], [], [], [], []⟩
    return ⟨st.chart, st.demandMap, st.energyMap, st.isPeak, st.isDiscount, base, st.energyByHour, false⟩
  | _, _, _, _ => .error .valueError

/-- The header of `to_csv` (`UtilityCostTracker.py:641-645`). -/
def csvHeader : List String :=
  ["Date", "Demand Period", "Energy Rate ($/kWh)", "Demand Rate ($/kW)", "Monthly Base Charge"]

/-- The rows of `to_csv` (`UtilityCostTracker.py:654-684`), from hour `h` on, with the periods seen so
far; the date text is not modelled. -/
def csvRows (t : Tracker K) : Nat → List Int → List Int → List (List (Cell K))
  | _, _, [] => []
  | h, seen, p :: ps =>
    let base : Cell K := if h = 0 then .num t.base else .blank
    if p ∈ seen then
      [.text "", .int p, .blank, .blank, base] :: csvRows t (h + 1) seen ps
    else
      [.text "", .int p, .ofOption ((dictGet? t.energyMap p).getD none),
        .ofOption ((dictGet? t.demandMap p).getD none), base] :: csvRows t (h + 1) (p :: seen) ps

/-- `to_csv` (`UtilityCostTracker.py:626-684`): the chart's 8760 hours. -/
def toCsv (t : Tracker K) : CsvFile K := ⟨csvHeader, csvRows t 0 [] t.chart⟩

end Tracker

end Eco
