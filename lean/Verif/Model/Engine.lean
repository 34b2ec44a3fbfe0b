import Verif.Model.Size
import Verif.Model.Heater

/-!
Model of `interfaces/EcosizerEngine.py`: how the engine turns its parameters into a climate, a control
schedule and a system. What the system classes do with the arguments is a parameter here
(`SystemApi`); the classes are modelled in their own files.
-/

namespace Eco
variable {K : Type} [Field K] [LinearOrder K]

/-- The argument `zip_code_or_climate_zone`: a dict with the two design keys, a string, an
integer (`True` and `False` are the integers 1 and 0), or anything else. -/
inductive ClimateArg (K : Type) where
  | design (oat inlet : Option K)
  | str (s : String)
  | int (z : Int)
  | other

/-- `s.isdigit() and len(s) == 5`, for ASCII strings (`EcosizerEngine.py:703`). -/
def isZip (s : String) : Bool := s.toList.all Char.isDigit && decide (s.toList.length = 5)

/-- `_build_climate_zone` (`EcosizerEngine.py:698-714`). -/
def buildClimateZone (t : ClimateZone.Tables K) (a : ClimateArg K) : Py (ClimateZone K) :=
  match a with
  | .design o i => .ok (ClimateZone.fromDesignConditions o i)
  | .str s => if isZip s then ClimateZone.fromZipCode t s else ClimateZone.fromWeatherStation t s
  | .int z => if 1 ≤ z ∧ z ≤ 96 then ClimateZone.fromZoneId t z else .error .valueError
  | .other => .error .valueError

/-- The constructor parameters that the build reads (`EcosizerEngine.py:464-672`). Counts of heaters
are natural numbers; `tmOn` and `tmOff` are as given, before their defaults. -/
structure EngineParams (K : Type) where
  buildingType : Option String
  magnitude : Option K
  climate : ClimateArg K
  supply : K
  storage : K
  schematic : String
  gpdpp : Option K := none
  customPeak : Option (List K) := none
  customAvg : Option (List K) := none
  numHeaters : Nat := 1
  hpwhModel : Option String := none
  maxRunHr : K
  defrost : K
  aquastat : K
  offSensor : K
  onTrig : Option K := none
  offTrig : Option K := none
  lsSchedule : Option (List Int) := none
  loadUpHours : Int := 0
  shedFract : Option K := none
  loadUpFract : Option K := none
  shedOffFract : Option K := none
  loadUpOffFract : Option K := none
  loadUpOffTrig : Option K := none
  lsPercent : K
  returnTemp : Option K := none
  returnFlow : Option K := none
  tmOn : Option K := none
  tmOff : Option K := none
  tmOffTime : K
  tmSafety : K
  storageVol : Option K := none
  heatingCap : Option K := none
  tmStorageVol : Option K := none
  tmCapacity : Option K := none
  tmModel : Option String := none
  numTmHeaters : Nat := 1

namespace EngineParams

/-- `tm_on_temp_f` after its default (`EcosizerEngine.py:654`). -/
def tmOnT (p : EngineParams K) : K := p.tmOn.getD p.supply

/-- `tm_off_temp_f` after its default (`EcosizerEngine.py:655`). -/
def tmOffT (p : EngineParams K) : K := p.tmOff.getD (p.supply + 8)

/-- `_build_building` (`EcosizerEngine.py:683-696`), for a single building type. -/
def buildBuilding (db : ShapeFiles K) (t : ClimateZone.Tables K) (p : EngineParams K) :
    Py (Building K) := do
  let zone ← buildClimateZone t p.climate
  Building.fromBuildingType db ⟨p.buildingType, p.magnitude, p.customPeak, p.customAvg⟩ (some zone)
    ⟨p.gpdpp, none, none⟩ false none none

/-- The first index of a zero (`EcosizerEngine.py:742-743`). -/
def firstShed (l : List Int) : Option Nat := l.findIdx? (fun v => decide (v = 0))

/-- One turn of the schedule loop (`EcosizerEngine.py:745-755`). -/
def hourLabel (l : List Int) (loadUp : Int) (hour : Nat) : Py String := do
  let v ← pyGet l hour
  if v = 0 then return "shed"
  else match firstShed l with
    | none => return "normal"
    | some f => return if 0 < loadUp ∧ (f : Int) - loadUp ≤ hour ∧ hour < f then "loadUp" else "normal"

/-- `_build_control_map` (`EcosizerEngine.py:716-778`). An empty list counts as no list. -/
def buildControlMap (p : EngineParams K) : Py (List String × ControlMap K) :=
  let onT := p.onTrig.getD p.supply
  let offT := p.offTrig.getD p.storage
  let normal : Controls K := ⟨p.aquastat, onT, p.offSensor, offT, p.storage⟩
  match p.lsSchedule with
  | none => .ok (List.replicate 24 "normal", [("normal", normal)])
  | some [] => .ok (List.replicate 24 "normal", [("normal", normal)])
  | some (v :: vs) => do
    let sched ← (List.range 24).mapM (hourLabel (v :: vs) p.loadUpHours)
    let shed : Controls K :=
      ⟨p.shedFract.getD p.aquastat, onT, p.shedOffFract.getD p.offSensor, offT, p.storage⟩
    let m : ControlMap K := [("normal", normal), ("shed", shed)]
    match p.loadUpFract with
    | none => return (sched, m)
    | some f =>
      if 0 < p.loadUpHours then
        return (sched, m ++ [("loadUp", ⟨f, onT, p.loadUpOffFract.getD p.offSensor,
          p.loadUpOffTrig.getD offT, p.storage⟩)])
      else return (sched, m)

/-- `bool(self.load_shift_schedule)`. -/
def isLoadShift (p : EngineParams K) : Bool :=
  match p.lsSchedule with
  | some (_ :: _) => true
  | _ => false

/-- `_require_recirc_params` (`EcosizerEngine.py:918-929`). -/
def requireRecirc (p : EngineParams K) : Py Unit :=
  if p.returnTemp.isNone || p.returnFlow.isNone then .error .valueError else .ok ()

/-- `_require_tm_params` (`EcosizerEngine.py:931-940`). -/
def requireTm (p : EngineParams K) : Py Unit :=
  if p.tmStorageVol.isNone then .error .valueError
  else if p.tmCapacity.isNone && p.tmModel.isNone then .error .valueError
  else .ok ()

end EngineParams

/-- The system classes the engine can build. -/
inductive SysClass where
  | dhw | parallelLoop | swing | singlePassRtp | multiPassRtp | instant
  deriving DecidableEq, Repr

/-- The arguments of `from_size` (`none`: not passed, so the class default applies). -/
structure SizeArgs (K : Type) where
  supply : K
  storage : K
  defrost : K
  maxRunHr : Option K
  returnTemp : Option K
  returnFlow : Option K
  tm : Option (K × K × K)
  tmSafety : Option K
  control : Option (List String × ControlMap K)
  fract : Option K

/-- The arguments of a constructor call with given equipment. -/
structure PresizedArgs (K : Type) where
  heaters : List (Heater K)
  tankVol : Option K
  /-- The stratification slope passed to the tank, if any. -/
  slope : Option K
  /-- The cold temperature passed to a slug-overlay tank, if any. -/
  cold : Option K
  supply : K
  storage : K
  defrost : K
  maxRunHr : Option K
  returnTemp : Option K
  returnFlow : Option K
  tm : Option (K × K × K)
  tmSafety : Option K
  tmVol : Option K
  tmHeater : Option (Heater K)
  numTm : Option Nat

/-- What the engine calls: `from_size` and the constructors of the classes, the model registry
(name, number of units, design inlet temperature, nominal capacity), and the normal quantile. -/
structure SystemApi (K S : Type) where
  fromSize : SysClass → Building K → SizeArgs K → Py S
  construct : SysClass → PresizedArgs K → Py S
  model : String → Nat → K → Option K → Py (PerfMap K)
  invCdf : K → K

variable {S : Type}

namespace EngineParams

/-- `get_design_inlet_water_temp_f() or 50.0`: 50 also replaces a zero
(`EcosizerEngine.py:980`, `:1105`). -/
def designInletOr50 (b : Building K) : Py K := do
  match ← b.getDesignInlet with
  | none => return 50
  | some t => return if t = 0 then 50 else t

/-- The primary heaters of a pre-sized system (`EcosizerEngine.py:979-1007`). Dividing a missing
capacity is a `TypeError`. -/
def presizedHeaters (api : SystemApi K S) (p : EngineParams K) (b : Building K)
    (c : List String × ControlMap K) : Py (List (Heater K)) :=
  match p.hpwhModel with
  | some name => do
    let inlet ← designInletOr50 b
    let perf ← api.model name p.numHeaters inlet none
    return [⟨some perf, some c.1, some c.2, false⟩]
  | none =>
    match p.heatingCap with
    | none => .error .typeError
    | some cap => do
      let each ← fdiv cap (p.numHeaters : K)
      return List.replicate p.numHeaters (Heater.fromNominal each (some c.1) (some c.2))

/-- `_build_tm_water_heater` (`EcosizerEngine.py:942-964`). -/
def buildTmHeater (api : SystemApi K S) (p : EngineParams K) (tc : Controls K) (forceEr : Bool) :
    Py (Heater K) := do
  let n := if forceEr then 1 else p.numTmHeaters
  let each : Option K ← (match p.tmCapacity with
    | none => .ok none
    | some c => do return some (← fdiv c (n : K)))
  let sched := List.replicate 24 "normal"
  match p.tmModel, forceEr with
  | some name, false => do
    let perf ← api.model name 1 (p.returnTemp.getD 50) each
    return ⟨some perf, some sched, some [("normal", tc)], false⟩
  | _, _ =>
    -- a missing capacity gives a nominal map whose capacity is `None`, i.e. no map
    return ⟨each.map PerfMap.nominal, some sched, some [("normal", tc)], false⟩

/-- `_build_presized_dhw_system` (`EcosizerEngine.py:966-1139`). -/
def buildPresized (api : SystemApi K S) (p : EngineParams K) (b : Building K) : Py S := do
  let c ← p.buildControlMap
  let heaters ← presizedHeaters api p b c
  let base : PresizedArgs K := {
    heaters := heaters, tankVol := p.storageVol, slope := none, cold := none, supply := p.supply,
    storage := p.storage, defrost := p.defrost, maxRunHr := some p.maxRunHr, returnTemp := none,
    returnFlow := none, tm := none, tmSafety := none, tmVol := none, tmHeater := none, numTm := none }
  let recirc : PresizedArgs K := { base with returnTemp := p.returnTemp, returnFlow := p.returnFlow }
  if p.schematic = "primary_no_recirc" ∨ p.schematic = "singlepass_norecirc" then
    api.construct .dhw base
  else if p.schematic = "parallel_loop" ∨ p.schematic = "paralleltank" then do
    p.requireRecirc
    p.requireTm
    let w ← buildTmHeater api p ⟨1 / 2, p.tmOnT, 1 / 2, p.tmOffT, p.tmOffT⟩ false
    api.construct .parallelLoop { recirc with
      tm := some (p.tmOnT, p.tmOffT, p.tmOffTime), tmSafety := some p.tmSafety,
      tmVol := p.tmStorageVol, tmHeater := some w, numTm := some p.numTmHeaters }
  else if p.schematic = "swing_tank" ∨ p.schematic = "swingtank" then do
    p.requireRecirc
    p.requireTm
    let w ← buildTmHeater api p ⟨1 / 2, p.supply, 1 / 2, p.supply + 8, p.supply + 8⟩ true
    api.construct .swing { recirc with
      tmSafety := some p.tmSafety, tmVol := p.tmStorageVol, tmHeater := some w }
  else if p.schematic = "single_pass_rtp" ∨ p.schematic = "sprtp" then do
    p.requireRecirc
    api.construct .singlePassRtp { recirc with slope := some (17 / 10) }
  else if p.schematic = "multi_pass_rtp" ∨ p.schematic = "mprtp" then do
    p.requireRecirc
    let cold ← designInletOr50 b
    api.construct .multiPassRtp { recirc with
      slope := some (8 / 10), cold := some cold, maxRunHr := some 14 }
  else if p.schematic = "instant_wh" then
    api.construct .instant { base with tankVol := none, maxRunHr := none }
  else .error .valueError

/-- `_build_dhw_system` (`EcosizerEngine.py:780-916`). -/
def buildDhwSystem (api : SystemApi K S) (p : EngineParams K) (b : Building K) : Py S :=
  if p.storageVol.isSome then p.buildPresized api b
  else do
    let c ← p.buildControlMap
    let fract ← (if p.isLoadShift then loadShiftFract api.invCdf p.lsPercent else .ok 1)
    let base : SizeArgs K := {
      supply := p.supply, storage := p.storage, defrost := p.defrost, maxRunHr := some p.maxRunHr,
      returnTemp := none, returnFlow := none, tm := none, tmSafety := none, control := some c,
      fract := some fract }
    let recirc : SizeArgs K := { base with returnTemp := p.returnTemp, returnFlow := p.returnFlow }
    if p.schematic = "primary_no_recirc" ∨ p.schematic = "singlepass_norecirc" then
      api.fromSize .dhw b base
    else if p.schematic = "parallel_loop" ∨ p.schematic = "paralleltank" then do
      p.requireRecirc
      api.fromSize .parallelLoop b { recirc with
        tm := some (p.tmOnT, p.tmOffT, p.tmOffTime), tmSafety := some p.tmSafety }
    else if p.schematic = "swing_tank" ∨ p.schematic = "swingtank" then do
      p.requireRecirc
      api.fromSize .swing b { recirc with tmSafety := some p.tmSafety }
    else if p.schematic = "single_pass_rtp" ∨ p.schematic = "sprtp" then do
      p.requireRecirc
      api.fromSize .singlePassRtp b recirc
    else if p.schematic = "multi_pass_rtp" ∨ p.schematic = "mprtp" then do
      p.requireRecirc
      api.fromSize .multiPassRtp b { recirc with maxRunHr := some 14, fract := none }
    else if p.schematic = "instant_wh" then
      api.fromSize .instant b { base with maxRunHr := none, control := none, fract := none }
    else .error .valueError

/-- `build` (`EcosizerEngine.py:678-681`), run by the constructor. -/
def build (api : SystemApi K S) (db : ShapeFiles K) (t : ClimateZone.Tables K) (p : EngineParams K) :
    Py (Building K × S) := do
  let b ← p.buildBuilding db t
  let s ← p.buildDhwSystem api b
  return (b, s)

end EngineParams

/-- One entry of the model catalogue: its code, the `SGIP_avail` flag (`none`: no such key) and its
`name` (`none`: no such key, a `KeyError` on reading). -/
structure CatalogEntry where
  code : String
  sgip : Option Bool
  name : Option String
  deriving DecidableEq

/-- `model_code[-4] == "C"` (`EcosizerEngine.py:102`): `IndexError` for a code shorter than four. -/
def isCommercialCode (code : String) : Py Bool :=
  match code.toList.reverse[3]? with
  | some c => .ok (decide (c = 'C'))
  | none => .error .indexError

/-- `model_code.endswith("_MP")` (`EcosizerEngine.py:105`). -/
def isMpCode (code : String) : Bool := "_MP".toList.isSuffixOf code.toList

/-- One turn of the loop (`EcosizerEngine.py:97-111`): `none` is `continue`. -/
def listModelStep (multiPass residential : Bool) (exclude : List String) (sgipOnly : Bool)
    (e : CatalogEntry) : Py (Option (String × String)) :=
  if e.code ∈ exclude then .ok none
  else if sgipOnly && !(e.sgip.getD false) then .ok none
  else do
    let com ← isCommercialCode e.code
    if !residential && !com then return none
    else if multiPass && !isMpCode e.code then return none
    else if !multiPass && isMpCode e.code then return none
    else match e.name with
      | none => .error .keyError
      | some n => return some (e.code, n)

/-- `get_list_of_models` (`EcosizerEngine.py:64-112`). -/
def getListOfModels (cat : List CatalogEntry) (multiPass residential : Bool) (exclude : List String)
    (sgipOnly : Bool) : Py (List (String × String)) := do
  let l ← cat.mapM (listModelStep multiPass residential exclude sgipOnly)
  return l.filterMap id

/-- `get_weather_stations` (`EcosizerEngine.py:115-151`) on the rows after the header, each the list
of its cells; `parse` is `int(…)`. -/
def getWeatherStations (parse : String → Py Int) (rows : List (List String))
    (exclude : Option (List Int)) : Py (List (String × Int)) := do
  let l ← rows.mapM (fun row => match row with
    | [station, z] => do
      let z ← parse z
      return if z ∈ exclude.getD [96] then none else some (station, z)
    | _ => .ok none)
  return l.filterMap id

/-- `get_hpwh_output_capacity` (`EcosizerEngine.py:154-206`); the count is an integer here. The
result of the division by 3.41214 is in kW. -/
def getHpwhOutputCapacity (model : Py (PerfMap K)) (oat : Option K) (inlet outlet : K) (num : Int)
    (asKw : Bool) (derate : K) : Py K :=
  if ¬ (0 ≤ derate ∧ derate ≤ 1) then .error .valueError
  else if num < 1 then .error .valueError
  else do
    let m ← model
    let cap ← m.getCapacity oat outlet (some inlet)
    let c := cap * (num * (1 - derate))
    return if asKw then c / (341214 / 100000) else c

end Eco
