import Verif.Model.Simulate
import Verif.Model.Engine

/-!
Model of what the library reports: the summary, the CSV rows and the plot data of a `SimulationRun`, the points and the
marker of the sizing-curve plots, the utility comparison chart, and the module functions of `EcosizerEngine.py` around
them. Colours, labels and the HTML text are not modelled.
-/

namespace Eco
variable {K : Type} [Field K] [LinearOrder K]

/-! ### Reports of a run -/

/-- The dict of `get_summary`. -/
structure Summary (K : Type) where
  successful : Bool
  outageMin : Nat
  energyKwh : K
  peakKw : K
  steps : Nat
  stopped : Bool
  deriving DecidableEq

/-- One row of the file that `to_csv` writes: step number, minute, the six series, the node temperatures. -/
structure CsvStep (K : Type) where
  step : Nat
  minute : Nat
  demand : K
  usable : K
  output : K
  power : Option K
  oat : K
  inlet : K
  temps : List K
  deriving DecidableEq

/-- A shaded time range of the plot, in minutes. -/
structure Shade where
  kind : String
  x0 : Nat
  x1 : Nat
  deriving DecidableEq, Repr

namespace SimRun

/-- `get_summary` (`SimulationRun.py:281-298`), which the engine's `get_simulation_summary`
(`EcosizerEngine.py:1205-1221`) passes on. -/
def summary (r : SimRun K) : Summary K :=
  ⟨r.isSuccessful, r.outage, r.totalEnergy, r.peakDemand, r.demand.length, r.stopped⟩

/-- One row of `to_csv` (`SimulationRun.py:325-336`). -/
def csvStep (r : SimRun K) (i : Nat) : Py (CsvStep K) := do
  let demand ← pyGet r.demand i
  let usable ← pyGet r.usable i
  let output ← pyGet r.output i
  let power ← pyGet r.power i
  let oat ← pyGet r.oat i
  let inlet ← pyGet r.inlet i
  let temps ← (List.range 6).mapM (fun n => pyGet r.temps n >>= fun l => pyGet l i)
  return ⟨i, i * r.ts, demand, usable, output, power, oat, inlet, temps⟩

/-- The rows of `to_csv` below the header (`SimulationRun.py:300-336`); the temperature-maintenance series and the mode
are not written. -/
def csvSteps (r : SimRun K) : Py (List (CsvStep K)) := (List.range r.demand.length).mapM r.csvStep

/-- The demand trace of `to_plotly` (`SimulationRun.py:405`, `:413`). -/
def demandTrace (r : SimRun K) : Py (List K) := do
  let perHour ← fdiv 60 (r.ts : K)
  return r.demand.map (fun v => v * perHour)

/-- The generation trace of `to_plotly` (`SimulationRun.py:422-434`); `none`: the trace is left out. -/
def generationTrace (r : SimRun K) : Option (List K) :=
  r.supply.map (fun supply => List.zipWith (fun kbtuh inlet => kbtuh * 1000 / (rhoCp K * max 1 (supply - inlet)))
    r.output r.inlet)

/-- The inner loop that finds the end of a block of equal modes (`SimulationRun.py:491-493`), with at most `n` rounds. -/
def blockEnd (l : List String) (m : String) : Nat → Nat → Nat
  | 0, j => j
  | n + 1, j => if l[j]? = some m then blockEnd l m n (j + 1) else j

/-- The load-shift shading of `to_plotly` (`SimulationRun.py:480-508`) from step `i` on, with at most `n` rounds. The
times are computed instead of read from `time_min`, which has one entry per recorded demand. -/
def shadesFrom (l : List String) (ts : Nat) : Nat → Nat → List Shade
  | 0, _ => []
  | n + 1, i =>
    match l[i]? with
    | none => []
    | some m =>
      if m = "shed" ∨ m = "loadUp" then
        let j := blockEnd l m l.length (i + 1)
        ⟨m, i * ts, (j - 1) * ts + ts⟩ :: shadesFrom l ts n j
      else shadesFrom l ts n (i + 1)

/-- The load-shift shading of a run. -/
def shades (r : SimRun K) : List Shade := shadesFrom r.mode r.ts (r.mode.length + 1) 0

end SimRun

/-! ### Plots of the sizing curves -/

/-- What a curve plot shows: the points in slider order and the index of the highlighted one. -/
structure CurvePlot (K : Type) where
  x : List K
  y : List K
  start : Int
  deriving DecidableEq

/-- The points and marker of a sizing curve without load shifting (`DHWSystem.py:741-762`, and
`EcosizerEngine.py:1377-1379`): storage over capacity, in reverse order. -/
def plotOfCurve (cv : Curve K) : CurvePlot K :=
  ⟨(cv.points.map (·.2.2)).reverse, (cv.points.map (·.2.1)).reverse, (cv.points.length : Int) - 1 - cv.recIndex⟩

/-- The points and marker of a load-shift curve (`DHWSystem.py:717-726`, `:771-772`, and `EcosizerEngine.py:1372-1374`):
coverage in percent over storage. -/
def plotOfLsCurve (cv : Curve K) : CurvePlot K :=
  ⟨cv.points.map (fun p => p.1 * 100), cv.points.map (·.2.2), cv.recIndex⟩

/-- `plot_sizing_curve` of a system (`DHWSystem.py:648-829`): new state of system and building, and the plot. `sched` is
only read when there is a `shed` control. -/
def plotSizingCurve [FloorRing K] (M : SizingMethods K) (db : ShapeFiles K) (s : DhwSys K) (b : Building K)
    (sched : List String) (m : ControlMap K) (slope : K) (fractOf : K → Py K) (pct : K) :
    (DhwSys K × Building K) × Py (CurvePlot K) :=
  if dictHas m "shed" then
    let r := getLsSizingCurve M db s b sched m slope fractOf pct
    (r.1, r.2.map plotOfLsCurve)
  else
    let r := getSizingCurve M db s b slope (1 / 4)
    (r.1, r.2.map plotOfCurve)

/-- The engine's `plot_sizing_curve(return_with_x_y_points=True)` (`EcosizerEngine.py:1290-1381`): the figure's data and
the points returned beside it. The curve is computed twice, the second time on what the first call left behind. -/
def enginePlot [FloorRing K] (M : SizingMethods K) (db : ShapeFiles K) (invCdf : K → K) (p : EngineParams K)
    (s : DhwSys K) (b : Building K) (slope : K) : (DhwSys K × Building K) × Py (CurvePlot K × CurvePlot K) :=
  match p.buildControlMap with
  | .error e => ((s, b), .error e)
  | .ok (sched, m) =>
    match plotSizingCurve M db s b sched m slope (loadShiftFract invCdf) p.lsPercent with
    | (st, .error e) => (st, .error e)
    | ((s1, b1), .ok fig) =>
      let r := plotSizingCurve M db s1 b1 sched m slope (loadShiftFract invCdf) p.lsPercent
      (r.1, r.2.map (fun pts => (fig, pts)))

/-- `l[i]` with Python's negative indices. -/
def pyGetSigned {α : Type} (l : List α) (i : Int) : Py α := ClimateZone.pyGetInt l i

/-- The marker of `get_sizing_curve_plot` (`EcosizerEngine.py:326-432`). -/
def curveMarker (x y : List K) (start : Int) : Py (K × K) := do
  let a ← pyGetSigned x start
  let b ← pyGetSigned y start
  return (a, b)

/-! ### Utility comparison -/

/-- `_interleave` (`EcosizerEngine.py:275-283`). -/
def interleave (l : List K) (odd : Bool) : List K := l.flatMap (fun v => if odd then [0, v] else [v, 0])

/-- The bar series of one run (`EcosizerEngine.py:285-291`), in the order base, peak energy, off-peak energy, peak
demand, off-peak demand. -/
def barSeries (base : K) (d : SimRun.Detailed K) (odd : Bool) : List (List K) :=
  [interleave (List.replicate 12 base) odd, interleave d.energyPeak odd, interleave d.energyOff odd,
    interleave d.demandPeak odd, interleave d.demandOff odd]

/-- `get_annual_utility_comparison_graph(return_as_array=True)` (`EcosizerEngine.py:246-256`). -/
def utilityComparison (hp iwh : SimRun K) (t : Tracker K) : Py (SimRun.Detailed K × SimRun.Detailed K) :=
  if hp.duration ≠ 525600 ∨ iwh.duration ≠ 525600 then .error .valueError
  else do
    let a ← hp.detailedCost t
    let b ← iwh.detailedCost t
    return (a, b)

/-- The stacked bars of `get_annual_utility_comparison_graph` (`EcosizerEngine.py:213-319`): the series of the first run
and those of the second; the code adds them to the figure in turns. -/
def comparisonBars (hp iwh : SimRun K) (t : Tracker K) : Py (List (List K) × List (List K)) := do
  let (a, b) ← utilityComparison hp iwh t
  return (barSeries t.base a false, barSeries t.base b true)

/-! ### Weather -/

/-- The module function `get_oat_buckets` (`EcosizerEngine.py:13-61`). The zip code is text here; the code turns numbers
into text. -/
def engineOatBuckets [FloorRing K] (t : ClimateZone.Tables K) (zip : Option String) (zone : Option Int)
    (station : Option String) : Py (List (Int × Nat)) := do
  let cz ← (match zip, zone, station with
    | some z, none, none => ClimateZone.fromZipCode t z
    | none, some z, none => ClimateZone.fromZoneId t z
    | none, none, some s => ClimateZone.fromWeatherStation t s
    | _, _, _ => .error .valueError)
  cz.getOatBuckets

/-! ### The model registry -/

/-- What the three pickle files of a model hold (`PerformanceMap.py:131-142`). -/
structure PklData (K : Type) where
  outInterp : List K → Option K
  inInterp : List K → Option K
  oats : List K
  grid : List (List (K × List K))
  inletMax : K
  outHigh : K
  inHigh : K
  outLow : K

/-- An entry of `maps.json` with its data; absent keys are `none`, and the two heat-exchanger keys have their defaults
(`PerformanceMap.py:115-117`). That the pickle files exist is assumed. -/
structure RegistryEntry (K : Type) where
  pkl : Option (PklData K)
  perfmap : Option (List (SimEntry K))
  secondaryHx : Bool := false
  hxIncrease : K

/-- `model_name.endswith("MP")` (`PerformanceMap.py:122`, `:125`). -/
def endsWithMp (name : String) : Bool := "MP".toList.isSuffixOf name.toList

/-- `_TWO_INPUT_PKL_NAMES` (`PerformanceMap.py:19-23`). -/
def twoInputNames : List String := ["MODELS_SANCO2_C_SP", "MODELS_COLMAC_R454B_C_SP", "MODELS_Droplet_C_SP"]

/-- `is_two_input_pkl` (`PerformanceMap.py:120-124`). -/
def isTwoInput (name : String) : Bool :=
  decide (name ∈ twoInputNames) || endsWithMp name || decide ("Lochinvar".toList <:+: name.toList)

/-- `PerformanceMap.from_model_name` (`PerformanceMap.py:72-181`). -/
def fromModelName (reg : List (String × RegistryEntry K)) (name : String) (units : Nat) (inlet : K)
    (nominal : Option K) : Py (PerfMap K) :=
  match dictGet? reg name with
  | none => .error .valueError
  | some e =>
    match e.pkl with
    | some d => .ok (.pkl ⟨d.outInterp, d.inInterp, d.oats, d.grid, d.inletMax, d.outHigh, d.inHigh, d.outLow, units,
        isTwoInput name, e.secondaryHx, e.hxIncrease, nominal, inlet⟩)
    | none =>
      match e.perfmap with
      | some es => .ok (.sim ⟨es, units, endsWithMp name, nominal, inlet⟩)
      | none => .error .valueError

/-! ### Results of the engine -/

/-- The dict of `get_sizing_results`; the last two keys are absent for systems that have no temperature-maintenance
results. -/
structure SizingResults (K : Type) where
  minCap : Option K
  minStorage : Option K
  tm : Option (K × Option K)
  deriving DecidableEq

/-- `get_sizing_results` (`EcosizerEngine.py:1145-1164`) of a system without temperature maintenance. -/
def sizingResults (s : DhwSys K) : SizingResults K := ⟨s.minCap, s.minStorage, none⟩

/-- The engine's view of the class `DHWSystem`: `from_size` sizes, then builds the tank and the heater
(`DHWSystem.py:136-221`). A missing option has the default of the class. The building is not changed for a daily
load shape, the only kind the engine builds. -/
def dhwFromSize (db : ShapeFiles K) (b : Building K) (a : SizeArgs K) : Py (DhwSys K × Prim K) := do
  let c : SysCfg K := ⟨a.supply, a.storage, a.maxRunHr.getD 24, a.defrost⟩
  let s ← (fromSize baseMethods db c b (a.control.map (·.1)) (a.control.map (·.2)) (28 / 10) (a.fract.getD 1)).2
  let cap ← getMinCapacity s
  let vol ← getMinStorage s
  return (s, Prim.ofSized c cap vol (28 / 10) (a.control.map (·.1)) (a.control.map (·.2)))

end Eco
