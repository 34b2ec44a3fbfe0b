import Verif.Model.Utility
import Verif.Model.Building
import Verif.Model.Sizing

/-!
Model of `objects/simulation/SimulationRun.py`, of the loop of `interfaces/Simulator.py`, and of
`objects/dhwsystems/InstantWHSystem.py`.

The data of `to_plotly` and the rows of `to_csv` are in `Verif.Model.Report`.
-/

namespace Eco
variable {K : Type} [Field K] [LinearOrder K]

/-- The dict that `simulate_step` returns. `delivery` is the optional key `delivery_temp_f`; the three `tm`
entries are absent or `None` for systems without a temperature-maintenance tank. -/
structure StepOut (K : Type) where
  demand : K
  usable : K
  output : K
  power : Option K
  oat : K
  inlet : K
  temps : List K
  mode : String
  tmTemp : Option K := none
  tmOutput : Option K := none
  tmInput : Option K := none
  delivery : Option K := none

/-- `SimulationRun` (`SimulationRun.py:37-93`). `num_steps` is `duration / ts`. -/
structure SimRun (K : Type) where
  duration : Nat
  ts : Nat
  demand : List K
  usable : List K
  output : List K
  power : List (Option K)
  oat : List K
  inlet : List K
  mode : List String
  /-- one list per node, bottom to top -/
  temps : List (List K)
  tmTemp : List K
  tmOutput : List K
  tmInput : List K
  outage : Nat
  supply : Option K
  showTm : Bool
  threshold : K
  maxMin : Int
  consec : Nat
  stopped : Bool

/-- `_step_to_month` (`SimulationRun.py:13-19`); the loop is that of `_hour_to_month`. -/
def stepToMonth (step ts : Nat) : Nat := hourToMonth (step * ts / 60)

/-- `l[i] += x` for an index in range. -/
def addAt (l : List K) (i : Nat) (x : K) : List K := l.set i (l.getD i 0 + x)

/-- `if period not in d or kw > d[period]: d[period] = kw` (`SimulationRun.py:573-574`). -/
def bumpMax (d : List (Int × K)) (p : Int) (kw : K) : List (Int × K) :=
  match dictGet? d p with
  | none => dictSet d p kw
  | some m => if m < kw then dictSet d p kw else d

/-- `get_energy_charge_at_step` where a number is needed: multiplying by `None` is a `TypeError`. -/
def Tracker.rateAt (t : Tracker K) (step ts : Nat) : Py K := do
  match ← t.energyChargeAtStep step ts with
  | some r => .ok r
  | none => .error .typeError

namespace SimRun

/-- The constructor (`SimulationRun.py:37-93`): `duration // timestep` raises for a zero timestep. -/
def new (duration ts : Nat) (threshold : K) (maxMin : Int) : Py (SimRun K) :=
  if ts = 0 then .error .zeroDivision
  else .ok ⟨duration, ts, [], [], [], [], [], [], [], List.replicate 6 [], [], [], [], 0, none, false,
    threshold, maxMin, 0, false⟩

/-- The node loop of `record_timestep` (`SimulationRun.py:146-147`): more values than nodes is an
`IndexError`; fewer leave the remaining nodes as they are. -/
def pushTemps : List (List K) → List K → Py (List (List K))
  | ls, [] => .ok ls
  | [], _ :: _ => .error .indexError
  | l :: ls, t :: ts => do return (l ++ [t]) :: (← pushTemps ls ts)

/-- `record_timestep` (`SimulationRun.py:95-154`). -/
def record (r : SimRun K) (o : StepOut K) : Py (SimRun K) := do
  let temps ← pushTemps r.temps o.temps
  return { r with
    demand := r.demand ++ [o.demand]
    usable := r.usable ++ [o.usable]
    output := r.output ++ [o.output]
    power := r.power ++ [o.power]
    oat := r.oat ++ [o.oat]
    inlet := r.inlet ++ [o.inlet]
    mode := r.mode ++ [o.mode]
    temps := temps
    tmTemp := r.tmTemp ++ o.tmTemp.toList
    tmOutput := r.tmOutput ++ o.tmOutput.toList
    tmInput := r.tmInput ++ o.tmInput.toList }

/-- `check_outlet_deficit` (`SimulationRun.py:156-184`). -/
def checkDeficit (r : SimRun K) (top supply : K) : SimRun K × Bool :=
  if top < supply - r.threshold then
    if ((r.consec + r.ts : Nat) : Int) > r.maxMin then
      ({ r with consec := r.consec + r.ts, stopped := true }, true)
    else ({ r with consec := r.consec + r.ts }, false)
  else ({ r with consec := 0 }, false)

/-- `record_outage` (`SimulationRun.py:186-195`). -/
def recordOutage (r : SimRun K) (min : Nat) : SimRun K := { r with outage := r.outage + min }

/-- `is_successful` (`SimulationRun.py:197-210`). -/
def isSuccessful (r : SimRun K) (maxOutage : Nat := 0) : Bool := decide (r.outage ≤ maxOutage)

/-- The content of `get_failure_message` (`SimulationRun.py:212-251`). -/
inductive Message (K : Type) where
  | success
  | outageOnly (minutes : Nat)
  | failed (minutes day : Nat) (avgTemp : K)
  deriving DecidableEq

/-- `get_failure_message` (`SimulationRun.py:212-251`), without the formatting. -/
def failureMessage (r : SimRun K) : Py (Message K) :=
  if r.isSuccessful then .ok .success
  else
    match (List.range r.usable.length).filter (fun i => decide (r.usable.getD i 0 ≤ 0)) with
    | [] => .ok (.outageOnly r.outage)
    | first :: rest => do
      let temps := if r.showTm && decide (r.tmTemp ≠ []) then r.tmTemp else r.temps.getD 5 []
      let ts ← (first :: rest).mapM (fun i => pyGet temps i)
      return .failed r.outage (first * r.ts / (24 * 60) + 1) (ts.sum / ((first :: rest).length : K))

/-- `timestep_min / 60.0`. -/
def hoursPerStep (r : SimRun K) : K := (r.ts : K) / 60

/-- `get_total_energy_kwh` (`SimulationRun.py:253-268`). -/
def totalEnergy (r : SimRun K) : K :=
  (r.power.map (fun p => p.getD 0 * r.hoursPerStep)).sum + (r.tmInput.map (fun p => p * r.hoursPerStep)).sum

/-- `get_peak_demand_kw` (`SimulationRun.py:270-279`). -/
def peakDemand (r : SimRun K) : K := (r.power.filterMap id).max?.getD 0

/-- The power of step `i` as used by the annual and the detailed costs (`SimulationRun.py:567-569`). -/
def kwTotal (r : SimRun K) (i : Nat) (raw : Option K) : K :=
  raw.getD 0 + (if r.tmInput ≠ [] ∧ i < r.tmInput.length then r.tmInput.getD i 0 else 0)

/-- `get_annual_utility_cost` (`SimulationRun.py:546-581`). -/
def annualCost (r : SimRun K) (t : Tracker K) : Py K := do
  let (energy, peaks) ← r.power.zipIdx.foldlM (fun (st : K × List (Int × K)) x => do
    let kw := r.kwTotal x.2 x.1
    let rate ← t.rateAt x.2 r.ts
    let p ← t.demandPeriodAtStep x.2 r.ts
    return (st.1 + kw * r.hoursPerStep * rate, bumpMax st.2 p kw)) (0, [])
  let charges ← peaks.mapM (fun x => t.demandCharge x.1 x.2)
  return energy + charges.sum + t.yearlyBase

/-- The returned dict of `get_monthly_cost_breakdown`. -/
structure Monthly (K : Type) where
  energy : List K
  demand : List K
  base : K

/-- The demand loop of the monthly costs (`SimulationRun.py:613-619`): `sel` tells whether a period is
counted here. -/
def demandByMonth (t : Tracker K) (sel : Int → Bool) (peaks : List (Int × K)) : Py (List K) :=
  peaks.foldlM (fun acc x =>
    let m := x.1 / (numPeriods t.includeDiscount : Int)
    if 0 ≤ m ∧ m < 12 then do
      let c ← t.demandCharge x.1 x.2
      return (if sel x.1 then addAt acc m.toNat c else acc)
    else .ok acc) (List.replicate 12 0)

/-- `get_monthly_cost_breakdown` (`SimulationRun.py:583-625`). -/
def monthlyCost (r : SimRun K) (t : Tracker K) : Py (Monthly K) := do
  let (energy, peaks) ← r.power.zipIdx.foldlM (fun (st : List K × List (Int × K)) x => do
    let kw := x.1.getD 0
    let rate ← t.rateAt x.2 r.ts
    let p ← t.demandPeriodAtStep x.2 r.ts
    return (addAt st.1 (stepToMonth x.2 r.ts) (kw * r.hoursPerStep * rate), bumpMax st.2 p kw))
    (List.replicate 12 0, [])
  let demand ← demandByMonth t (fun _ => true) peaks
  return ⟨energy, demand, t.base⟩

/-- The returned dict of `get_monthly_cost_breakdown_detailed`. -/
structure Detailed (K : Type) where
  energyPeak : List K
  energyOff : List K
  demandPeak : List K
  demandOff : List K
  base : K

/-- `uc.is_peak_map.get(period, False)`. -/
def isPeakPeriod (t : Tracker K) (p : Int) : Bool := (dictGet? t.isPeak p).getD false

/-- `get_monthly_cost_breakdown_detailed` (`SimulationRun.py:627-676`). The two demand lists are filled by
one loop in the code; here each is filled by its own pass over the same periods. -/
def detailedCost (r : SimRun K) (t : Tracker K) : Py (Detailed K) := do
  let (pk, off, peaks) ← r.power.zipIdx.foldlM (fun (st : List K × List K × List (Int × K)) x => do
    let kw := r.kwTotal x.2 x.1
    let p ← t.demandPeriodAtStep x.2 r.ts
    let rate ← t.rateAt x.2 r.ts
    let m := stepToMonth x.2 r.ts
    let cost := kw * r.hoursPerStep * rate
    return (if isPeakPeriod t p then (addAt st.1 m cost, st.2.1, bumpMax st.2.2 p kw)
      else (st.1, addAt st.2.1 m cost, bumpMax st.2.2 p kw)))
    (List.replicate 12 0, List.replicate 12 0, [])
  let dp ← demandByMonth t (isPeakPeriod t) peaks
  let dq ← demandByMonth t (fun p => !isPeakPeriod t p) peaks
  return ⟨pk, off, dp, dq, t.base⟩

/-- The month loop of `get_monthly_energy_kwh` (`SimulationRun.py:697-703`) from step `step` on. -/
def monthlyFrom (r : SimRun K) (perDay : Nat) : Nat → List Nat → List K
  | _, [] => []
  | step, d :: ds =>
    ((List.range' step (min (step + d * perDay) r.power.length - step)).map
      (fun i => (r.power.getD i none).getD 0 * r.hoursPerStep)).sum ::
      monthlyFrom r perDay (step + d * perDay) ds

/-- `get_monthly_energy_kwh` (`SimulationRun.py:678-704`). -/
def monthlyEnergy (r : SimRun K) : List K :=
  if r.duration ≠ 525600 then List.replicate 12 0
  else monthlyFrom r (24 * 60 / r.ts) 0 [31, 28, 31, 30, 31, 30, 31, 31, 30, 31, 30, 31]

end SimRun

/-- The duration and timestep of `simulate` (`Simulator.py:46-53`). -/
def simDuration (d : String) : Py (Nat × Nat) :=
  if d = "3day" then .ok (4320, 1)
  else if d = "annual" then .ok (525600, 10)
  else .error .valueError

/-- What `simulate` does with the result of one step (`Simulator.py:87-109`): record, count an outage,
check the delivery temperature. -/
def simRecord (ts : Nat) (supply : K) (r : SimRun K) (o : StepOut K) : Py (SimRun K × Bool) := do
  let r ← r.record o
  let r := if o.usable ≤ 0 then r.recordOutage ts else r
  match o.temps.getLast? with
  | none => .error .indexError
  | some top => return r.checkDeficit (o.delivery.getD top) supply

/-- The loop of `simulate` (`Simulator.py:80-110`) for a system with state `S`: at most `n` further steps
from step `i`. -/
def simLoop {S : Type} (step : S → Nat → Py (S × StepOut K)) (ts : Nat) (supply : K) :
    Nat → Nat → S → SimRun K → Py (S × SimRun K)
  | 0, _, s, r => .ok (s, r)
  | n + 1, i, s, r => do
    let (s, o) ← step s i
    let (r, stop) ← simRecord ts supply r o
    if stop then return (s, r) else simLoop step ts supply n (i + 1) s r

/-- `simulate` (`Simulator.py:11-110`) after the tanks have been initialised: `s` is the initial state of
the system, `step s i ts` its `simulate_step`. -/
def simulateFrom {S : Type} (step : Nat → S → Nat → Py (S × StepOut K)) (supply : K) (showTm : Bool)
    (threshold : K) (maxMin : Int) (duration : String) (s : S) : Py (S × SimRun K) := do
  let (dur, ts) ← simDuration duration
  let r ← SimRun.new dur ts threshold maxMin
  simLoop (step ts) ts supply (dur / ts) 0 s { r with supply := some supply, showTm := showTm }

/-- `InstantWHSystem` (`InstantWHSystem.py:17-30`). -/
structure Instant (K : Type) where
  supply : K
  storage : K
  defrost : K

namespace Instant

/-- `simulate_step` (`InstantWHSystem.py:96-130`). -/
def step (s : Instant K) (b : Building K) (i ts : Nat) : Py (StepOut K) := do
  let demand ← b.getDhwLoad i ts
  let oat ← b.getOat i ts
  let inlet ← b.getInlet i ts
  let dT := max (s.supply - inlet) 1
  let cap ← fdiv (demand * (60 / (ts : K)) * rhoCp K * dT) s.defrost
  let cap := cap / 1000
  return { demand := demand, usable := 0, output := cap, power := some (cap / wToKbtuh K), oat := oat, inlet := inlet, temps := List.replicate 6 s.supply, mode := "normal" }

/-- `simulate` of a tankless system: there is no tank to initialise (`Simulator.py:63`), but the design inlet
temperature is read first (`Simulator.py:61`). -/
def simulate (s : Instant K) (b : Building K) (threshold : K) (maxMin : Int) (duration : String) :
    Py (SimRun K) := do
  let (dur, ts) ← simDuration duration
  let r ← SimRun.new dur ts threshold maxMin
  let _ ← b.getDesignInlet
  let (_, r) ← simLoop (fun (_ : Unit) i => do return ((), ← s.step b i ts)) ts s.supply (dur / ts) 0 ()
    { r with supply := some s.supply }
  return r

/-- `size` (`InstantWHSystem.py:66-91`): the minimum capacity. -/
def size (s : Instant K) (b : Building K) : Py K := do
  let inlet ← requireDesignInlet b
  match b.peakShape.max? with
  | none => .error .valueError
  | some m =>
    let cap ← fdiv (b.dailyGal * m * 60 * rhoCp K * (s.supply - inlet)) s.defrost
    return cap / 1000

end Instant

end Eco
